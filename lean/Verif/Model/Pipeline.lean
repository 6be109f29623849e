import Verif.Model.IO
import Verif.Model.Regions

/-!
# What a tracking run reads: the preprocessed folder and the tagging region

The arguments of the loop of `run_experiment`, `/repo/src/wam2layers/tracking/forwardtrack.py:157-180` and
`/repo/src/wam2layers/tracking/backtrack.py:154-177`, put together from the models of `load_data`, `get_grid_info`,
`initialize_tagging_region` and `load_tagging_region`.
-/

namespace Wam

/-- `config.tagging_region`: a bounding box, or a file or shapefile (what `xr.open_dataarray` or `create_mask` gives for
it), forwardtrack.py:167-174, io.py:137-148 -/
inductive TaggingRegion (κ α : Type) where
  | box (bbox : BoundingBox κ)
  | file (content : Except Err (TagFile κ α))

section
variable {m n : ℕ} {α : Type} [LinearOrder α] [Add α] [Sub α] [Mul α] [Div α] [NpOps α] [NpTrig α]

/-- The mask of a loaded region in a step, forwardtrack.py:66,113, backtrack.py:72,82,116.  `region * evap` goes by position, but the
result carries the labels of the region, and adding it to `output["tagged_evap"]` (xarray, in place) is a `ValueError` unless
they are the labels of the data.  SIMPLIFICATION: not for files without labels, or with swapped dimensions. -/
def regionOnGrid (lat lon : List α) (r : TagFile α α) : Except Err (Arr (m + 2) (n + 2) α) :=
  if r.latitude = lat ∧ r.longitude = lon then .ok fun i j => r.mask 0 i j else .error .valueError

/-- `tagging_region` and `tagging_region_stationary`, and the calls `load_tagging_region(config, t=t0)` in the loop,
forwardtrack.py:167-174,189-199, backtrack.py:164-171.  `lat`, `lon` are the coordinates of the first states.  Axes that do not
fit are noticed when the mask is used, not when it is loaded. -/
def trackingRegion (domain : Option (BoundingBox α)) (tag : TaggingRegion α α) (lat lon : List α) :
    Except Err (Region (m + 2) (n + 2) α) :=
  match tag with
  | .box bbox => .ok (.stationary fun i j =>
      ofRat (taggingBoxAt bbox (lat.getD i (ofRat 0)) (lon.getD j (ofRat 0))))
  | .file content =>
    match loadTaggingRegion content domain none with
    | .error e => .error e
    | .ok r =>
      match r.time with
      | none =>
        match regionOnGrid lat lon r with
        | .ok mask => .ok (.stationary mask)
        | .error e => .ok (.moving fun _ => .error e)
      | some _ => .ok (.moving fun t => (loadTaggingRegion content domain (some t)).bind (regionOnGrid lat lon))

/-- Everything a run reads, forwardtrack.py:157-184, backtrack.py:154-181: states and fluxes from the preprocessed
folder, the grid information of the coordinates of the data (`get_grid_info(F)`; SIMPLIFICATION: of the first states, all
files share one grid), the tagging region, and the weights of profiling.py:52.  `first` is the time of the first
states.  If these cannot be loaded the run ends there (`fwdInitialize`, `bwdInitialize`), so the grid does
not matter then. -/
def experimentSource (files : List Char → Except Err (DataFile α α)) (cfg : IOConfig α)
    (tag : TaggingRegion α α) (first : ℤ) : Source m n α :=
  let coords : List α × List α :=
    match loadData files cfg first .states with
    | .ok ds => (ds.latitude, ds.longitude)
    | .error _ => ([], [])
  let lat : Fin (m + 2) → α := fun i => coords.1.getD i (ofRat 0)
  let lon : Fin (n + 2) → α := fun j => coords.2.getD j (ofRat 0)
  archiveSource files cfg (getGridInfo lat lon) (trackingRegion cfg.tracking_domain tag coords.1 coords.2)
    (fun i => NpTrig.cos (lat i * NpTrig.pi / ofRat 180))

end

end Wam
