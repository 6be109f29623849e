import Verif.Model.Validate
import Verif.Model.IO
import Mathlib.Data.List.Dedup

/-!
# Tagging regions

`/repo/src/wam2layers/utils/tagging_region.py` (without plots), `/repo/src/wam2layers/utils/shapefile_mask.py`
and `load_tagging_region` of `/repo/src/wam2layers/tracking/io.py:137-155`.
-/

namespace Wam

/-- a tagging region: its axes, the times if it moves, and the mask (time index, row, column),
tagging_region.py:99-118, io.py:137-155 -/
structure TagFile (κ α : Type) where
  latitude : List κ
  longitude : List κ
  time : Option (List ℤ)
  mask : ℕ → ℕ → ℕ → α

section
variable {κ α : Type}

/-! ### Regions by number -/

/-- `np.where(new_masks == False, 0, 1)`, tagging_region.py:94-96 -/
def boolMask [NpOps α] (b : Bool) : α := if b then ofRat 1 else ofRat 0

/-- `np.nanmean(new_masks, axis=0)` at a cell, tagging_region.py:97; the values are never NaN -/
def meanMask [Add α] [Div α] [NpOps α] (bs : List Bool) : α :=
  (bs.map boolMask).foldl (· + ·) (ofRat 0) / ofRat bs.length

/-- `region_ids`, tagging_region.py:74-82: some sources count from one -/
def regionIds (oneBased : Bool) (regions : List ℤ) : List ℤ :=
  if oneBased then regions.map (· - 1) else regions

/-- `mask_with_regionmask` from the masks of the available regions on, tagging_region.py:69-110; `masks[k] i
j` says whether cell `i, j` is in region `k` (computed by the package `regionmask`) -/
def maskWithRegions [Add α] [Div α] [NpOps α] (latitude longitude : List κ)
    (masks : List (ℕ → ℕ → Bool)) (oneBased : Bool) (regions : List ℤ) :
    Except Err (TagFile κ α) := do
  -- mask.isel(region=region_ids)
  let chosen ← (regionIds oneBased regions).mapM fun k => npIndex masks k
  return { latitude := latitude
           longitude := longitude
           time := none
           mask := fun _ i j => meanMask (chosen.map fun mk => mk i j) }

/-- `mask_with_shapefile` from the masks of the shapes on, tagging_region.py:188-225; `none` is
`regions=False` -/
def maskWithShapes [Add α] [Div α] [NpOps α] (latitude longitude : List κ)
    (masks : List (ℕ → ℕ → Bool)) (regions : Option (List ℤ)) : Except Err (TagFile κ α) :=
  maskWithRegions latitude longitude masks false (regions.getD [0])

/-! ### Squares -/

section
variable [Sub α] [NpOps α]

/-- the mask of a square at one cell, tagging_region.py:379-384 -/
def squareAt (center_lat center_lon radius : α) (lat lon : α) : α :=
  if NpOps.le (absolute (lat - center_lat)) radius && NpOps.le (absolute (lon - center_lon)) radius
  then ofRat 1 else ofRat 0

/-- `mask_around_point(centerpoint, radius, ...)`, tagging_region.py:343-403; the centre is (latitude,
longitude) -/
def maskAroundPoint (latitude longitude : List α) (centerpoint : α × α) (radius : α) : TagFile α α :=
  { latitude := latitude
    longitude := longitude
    time := none
    mask := fun _ i j => squareAt centerpoint.1 centerpoint.2 radius (latitude.getD i (ofRat 0))
      (longitude.getD j (ofRat 0)) }

/-- `mask_around_track(centerpoints, times, radius, ...)`, tagging_region.py:465-530; another number of
times than of centres is an error of xarray -/
def maskAroundTrack (latitude longitude : List α) (centerpoints : List (α × α)) (times : List ℤ)
    (radius : α) : Except Err (TagFile α α) :=
  if times.length ≠ centerpoints.length then .error .valueError
  else .ok
    { latitude := latitude
      longitude := longitude
      time := some times
      mask := fun t i j =>
        match centerpoints[t]? with
        | none => ofRat 0
        | some c => squareAt c.1 c.2 radius (latitude.getD i (ofRat 0)) (longitude.getD j (ofRat 0)) }

end

/-! ### Shapefiles -/

/-- the first polygon of a shapefile, as `create_mask` uses it: its bounding box and the area of its
intersection with a box (`shapely.intersection(box, poly).area`), shapefile_mask.py:61-77 -/
structure Polygon (α : Type) where
  minx : α
  miny : α
  maxx : α
  maxy : α
  /-- arguments: west, south, east, north -/
  inter : α → α → α → α → α

section
variable [Add α] [Sub α] [Mul α] [Div α] [NpOps α] [LinearOrder α]

/-- `ensure_monotonic` for one axis, shapefile_mask.py:15-24 -/
def ensureMonotonic (xs : List α) : List α :=
  let ys := if xs.Pairwise (· ≤ ·) then xs else xs.insertionSort (· ≤ ·)
  if ys.Nodup then ys else ys.dedup

/-- the covered fraction of the box around `x, y`, shapefile_mask.py:42-56,72-77 -/
def boxWeight (poly : Polygon α) (resLat resLon : α) (x y : α) : α :=
  let west := x - ofRat (1 / 2) * resLon
  let south := y - ofRat (1 / 2) * resLat
  let east := x + ofRat (1 / 2) * resLon
  let north := y + ofRat (1 / 2) * resLat
  poly.inter west south east north / ((east - west) * (north - south))

/-- position that `scipy.interpolate.interp1d(kind="nearest")` uses for `x` on the increasing axis `xs`; `none`
outside the range (NaN).  Called by `subset_mask.interp`, shapefile_mask.py:81-87 -/
def interpNearest (xs : List α) (x : α) : Option ℕ :=
  match xs.head?, xs.getLast? with
  | some a, some b =>
    if x < a ∨ b < x then none
    else some ((npMidpoints xs).countP fun m => decide (m < x))
  | _, _ => none

/-- `create_mask(ds, shape)`, shapefile_mask.py:59-87, on the axes of `ds`.  SIMPLIFICATION: an empty
subset (no cell near the polygon) is an error. -/
def createMask (latitude longitude : List α) (poly : Polygon α) : Except Err (TagFile α α) := do
  let resLat := inferResolution latitude
  let resLon := inferResolution longitude
  let lats := ensureMonotonic latitude
  let lons := ensureMonotonic longitude
  let rows ← labelSlice lats (poly.miny - resLat) (poly.maxy + resLat)
  let cols ← labelSlice lons (poly.minx - resLon) (poly.maxx + resLon)
  let sublat := rows.filterMap fun i => lats[i]?
  let sublon := cols.filterMap fun j => lons[j]?
  if sublat = [] ∨ sublon = [] then .error .valueError
  else
    -- subset.stack(loc=("longitude", "latitude")), then reshape((longitude.size, latitude.size))
    let weights := sublon.flatMap fun x => sublat.map fun y => boxWeight poly resLat resLon x y
    return {
      latitude := latitude
      longitude := longitude
      time := none
      mask := fun _ i j =>
        match interpNearest sublat (latitude.getD i (ofRat 0)),
            interpNearest sublon (longitude.getD j (ofRat 0)) with
        | some a, some b => weights.getD (b * sublat.length + a) (ofRat 0)
        | _, _ => ofRat 0 }

end

/-! ### `load_tagging_region` -/

/-- `select_subdomain` for a tagging region, io.py:46-63,151 -/
def selectRegion [LinearOrder κ] (r : TagFile κ α) (bbox : BoundingBox κ) :
    Except Err (TagFile κ α) := do
  -- the positions that are selected do not depend on the values
  let ds ← selectSubdomain (⟨r.latitude, r.longitude, [], fun _ i j => (i, j)⟩ : Dataset κ (ℕ × ℕ)) bbox
  return { r with
    latitude := ds.latitude
    longitude := ds.longitude
    mask := fun t i j => r.mask t (ds.data .precip i j).1 (ds.data .precip i j).2 }

/-- `tagging_region.sel(time=t, method="nearest")`, io.py:153-154 -/
def regionAt (r : TagFile κ α) (t : ℤ) : Except Err (TagFile κ α) :=
  match r.time with
  | none => .error .keyError
  | some times => do
    let k ← nearestMask (times.zip (List.range times.length)) t
    return { r with
      time := none
      mask := fun _ i j => r.mask k i j }

/-- `load_tagging_region(config, t)`, io.py:137-155, given the region of the shapefile or file -/
def loadTaggingRegion [LinearOrder κ] (source : Except Err (TagFile κ α))
    (domain : Option (BoundingBox κ)) (t : Option ℤ) : Except Err (TagFile κ α) := do
  let r ← source
  let r ← match domain with
    | none => .ok r
    | some bbox => selectRegion r bbox
  match t with
  | none => .ok r
  | some t => regionAt r t

end

end Wam
