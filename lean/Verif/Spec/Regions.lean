import Verif.Model.Regions

/-! # Specification of tagging regions -/

namespace Wam.Spec

/-- What `create_mask` may assume about a polygon: its bounding box, and the areas of its intersections with
boxes. -/
structure IsPolygon {K : Type} [Field K] [LinearOrder K] (poly : Polygon K) : Prop where
  x : poly.minx ≤ poly.maxx
  y : poly.miny ≤ poly.maxy
  nonneg : ∀ w s e n, 0 ≤ poly.inter w s e n
  le_box : ∀ w s e n, w ≤ e → s ≤ n → poly.inter w s e n ≤ (e - w) * (n - s)
  outside : ∀ w s e n, e ≤ poly.minx ∨ poly.maxx ≤ w ∨ n ≤ poly.miny ∨ poly.maxy ≤ s →
    poly.inter w s e n = 0

/-- fraction of the cell with centre `lat, lon` and size `dlat, dlon` that the polygon covers -/
def coveredFraction {K : Type} [Field K] (poly : Polygon K) (dlat dlon lat lon : K) : K :=
  poly.inter (lon - dlon / 2) (lat - dlat / 2) (lon + dlon / 2) (lat + dlat / 2) / (dlon * dlat)

end Wam.Spec
