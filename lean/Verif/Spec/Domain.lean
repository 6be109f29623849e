import Verif.Spec.Excerpt
import Verif.Spec.Pipeline

/-! # Specification: a tracking domain as a part of the grid of the data -/

namespace Wam.Spec

variable {m n M N : ℕ} {K : Type}

/-- all data in the files of the preprocessed folder are on one grid: `M + 2` latitudes from north to south and `N + 2`
longitudes from west to east, both equally spaced -/
structure OneGrid [Field K] [LinearOrder K] (files : List Char → Except Err (DataFile K K)) (lat lon : List K) (M N : ℕ) (dy dx : K) :
    Prop where
  rows : lat.length = M + 2
  cols : lon.length = N + 2
  dy_pos : 0 < dy
  dx_pos : 0 < dx
  lat_spaced : ∀ i (h : i + 1 < lat.length), lat[i + 1] = lat[i] - dy
  lon_spaced : ∀ j (h : j + 1 < lon.length), lon[j + 1] = lon[j] + dx
  same : ∀ name file, files name = .ok file → ∀ e ∈ file.entries, e.2.latitude = lat ∧ e.2.longitude = lon

/-- the rows and columns of the data inside the box (which does not cross the date line) are those of the small grid -/
structure IsBox [LinearOrder K] (p : Place m n M N) (box : BoundingBox K) (lat lon : List K) : Prop where
  plain : box.west < box.east
  rows : ∀ i (h : i < lat.length), (box.south ≤ lat[i] ∧ lat[i] ≤ box.north) ↔ (p.row ≤ i ∧ i < p.row + (m + 2))
  cols : ∀ j (h : j < lon.length), (box.west ≤ lon[j] ∧ lon[j] ≤ box.east) ↔ (p.col ≤ j ∧ j < p.col + (n + 2))

/-- the tagging region is a box or a file on the grid of the data -/
def RegionOn (tag : TaggingRegion K K) (lat lon : List K) : Prop :=
  match tag with
  | .box _ => True
  | .file content => ∀ r, content = .ok r → r.latitude = lat ∧ r.longitude = lon

end Wam.Spec
