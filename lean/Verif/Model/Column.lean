import Verif.Model.Run

/-!
# Vertical integration during preprocessing

Models `/repo/src/wam2layers/preprocessing/pressure_levels.py`, the interpolation routine of
`/repo/src/wam2layers/preprocessing/utils.py`, the model-level thicknesses of
`/repo/src/wam2layers/preprocessing/era5.py:145-194` and the integration over two layers in
`/repo/src/wam2layers/preprocessing/shared.py:145-216`.

SIMPLIFICATION (whole file): every operation of these routines acts on each (latitude, longitude)
column separately; the model is the computation for one column.  An assertion or exception raised
because of another column (`np.any`, `np.all` over the grid) therefore shows up as an error of that
other column.  NaN introduced by `DataArray.where` is `none`.  The final cast to float32
(preprocessing/shared.py:215) is not modelled.
-/

namespace Wam

section
variable {α : Type}

/-! ### numpy helpers -/

/-- `np.diff(x)`, utils.py:125,129 / pressure_levels.py:126 / era5.py:192 -/
def npDiff [Sub α] : List α → List α
  | x :: y :: l => (y - x) :: npDiff (y :: l)
  | _ => []

/-- indexing of a numpy array, `l[i]`: negative indices count from the end, utils.py:146,
era5.py:166-167,174 -/
def npIndex (l : List α) (i : ℤ) : Except Err α :=
  let k := if i < 0 then i + l.length else i
  if k < 0 then .error .indexError
  else match l[k.toNat]? with
    | some x => .ok x
    | none => .error .indexError

/-- `midpoints(x)`, utils.py:221-223: `(x[1:] + x[:-1]) / 2` -/
def npMidpoints [Add α] [Div α] [NpOps α] : List α → List α
  | x :: y :: l => ((y + x) / ofRat 2) :: npMidpoints (y :: l)
  | _ => []

/-! ### Interpolation -/

section
variable [Add α] [Sub α] [Mul α] [Div α] [NpOps α]

/-- `interpolate(x, xp, fp, axis, descending)`, utils.py:96-147, for one column.
`np.diff(xp).min()` raises `ValueError` for fewer than two points. -/
def interpolate (x : α) (xp fp : List α) (descending : Bool) : Except Err α := do
  let xp := if descending then xp.reverse else xp
  let fp := if descending then fp.reverse else fp
  if (npDiff xp).isEmpty then throw .valueError
  if !(npDiff xp).all (fun d => NpOps.le (ofRat 0) d) then throw (.other "AssertionError")
  let first ← npIndex xp 0
  if NpOps.lt x first then throw .valueError
  let last ← npIndex xp (-1)
  if NpOps.lt last x then throw .valueError
  -- upper = np.sum(x > xp, axis=0); lower = upper - 1
  let upper : ℤ := (xp.countP fun y => NpOps.lt y x : ℕ)
  let lower := upper - 1
  let f0 ← npIndex fp lower
  let f1 ← npIndex fp upper
  let x0 ← npIndex xp lower
  let x1 ← npIndex xp upper
  pure (f0 + (f1 - f0) * (x - x0) / (x1 - x0))

/-- `sortby_ndarray(array, other, axis)`, utils.py:150-153, for one column.  `np.argsort` (unstable
quicksort / introsort) is a parameter: nothing is assumed about the order of ties. -/
def sortbyNdarray (argsort : List α → List ℕ) (array other : List α) : List α :=
  (argsort other).map fun i => array.getD i (ofRat 0)

/-- The variables with dimension `level` in one column, preprocessing/shared.py:149-151 -/
structure Column (α : Type) where
  p : List α
  q : List α
  u : List α
  v : List α

/-- The surface variables of one column, pressure_levels.py:30-34 -/
structure Surface (α : Type) where
  ps : α
  qs : α
  us : α
  vs : α

/-- `p.argmin(axis=level_ax)`, pressure_levels.py:52: index of the first minimum; an error for an
empty axis.  (NaN pressures do not occur: `check_nans` has passed.) -/
def npArgmin (l : List α) : Except Err ℕ :=
  match l.findIdx? (fun x => l.all fun y => NpOps.le x y) with
  | some i => .ok i
  | none => .error .valueError

/-- `extend_pressurelevels(level_data, surface_data, config)`, pressure_levels.py:10-101.
`factor`, `offset` are `config.pressure_boundary_factor`, `config.pressure_boundary_offset`. -/
def extendPressurelevels (argsort : List α → List ℕ) (factor offset : α) (c : Column α)
    (s : Surface α) : Except Err (Column α × α) := do
  -- Insert top of atmosphere values
  let p0 ← npArgmin c.p
  let vTop ← npIndex c.v p0
  let uTop ← npIndex c.u p0
  let p := ofRat 0 :: c.p
  let q := ofRat 0 :: c.q
  let v := vTop :: c.v
  let u := uTop :: c.u
  -- Insert surface level values
  let p := s.ps :: p
  let q := s.qs :: q
  let v := s.vs :: v
  let u := s.us :: u
  -- Sort arrays by pressure (ascending)
  let u := sortbyNdarray argsort u p
  let v := sortbyNdarray argsort v p
  let q := sortbyNdarray argsort q p
  let p := sortbyNdarray argsort p p
  -- Insert boundary level values
  let pBoundary := factor * s.ps + offset
  let ub ← interpolate pBoundary p u false
  let vb ← interpolate pBoundary p v false
  let qb ← interpolate pBoundary p q false
  let u := ub :: u
  let v := vb :: v
  let q := qb :: q
  let p := pBoundary :: p
  -- Sort arrays by pressure once more (ascending)
  let u := sortbyNdarray argsort u p
  let v := sortbyNdarray argsort v p
  let q := sortbyNdarray argsort q p
  let p := sortbyNdarray argsort p p
  pure ({ p := p, q := q, u := u, v := v }, pBoundary)

/-- `level_data.interp(level=midpoints)`, pressure_levels.py:130-134: linear interpolation half-way
between consecutive levels (the level coordinate is `0, 1, 2, ...`) -/
def interpMid : List α → List α
  | x :: y :: l => (x + (y - x) * ofRat (1 / 2)) :: interpMid (y :: l)
  | _ => []

/-- `interp_dp_midpoints(level_data)`, pressure_levels.py:104-135 -/
def interpDpMidpoints (c : Column α) : Except Err (Column α × List α) := do
  let dp := npDiff c.p
  if !dp.all (fun d => NpOps.le (ofRat 0) d) then throw (.other "AssertionError")
  pure ({ p := interpMid c.p, q := interpMid c.q, u := interpMid c.u, v := interpMid c.v }, dp)

/-- `da.where(mask)`: NaN (`none`) where the mask is false, pressure_levels.py:159,
preprocessing/shared.py:187-198 -/
def whereMask (mask : List Bool) (x : List (Option α)) : List (Option α) :=
  List.zipWith (fun m x => if m then x else none) mask x

/-- `mask_below_surface_data(level_data, ps)`, pressure_levels.py:138-159: every variable of the
dataset is masked where `p < ps` fails -/
def maskBelowSurface (c : Column α) (ps : α) : Column (Option α) :=
  let above := c.p.map fun p => NpOps.lt p ps
  { p := whereMask above (c.p.map some), q := whereMask above (c.q.map some),
    u := whereMask above (c.u.map some), v := whereMask above (c.v.map some) }

/-- `da.sum(dim="level")`: NaN is skipped, preprocessing/shared.py:166,187-198 -/
def nanSum (x : List (Option α)) : α :=
  x.foldr (fun o acc => match o with
    | none => acc
    | some y => if NpOps.isnan y then acc else y + acc) (ofRat 0)

/-- product of two arrays with NaN, preprocessing/shared.py:191-192 -/
def mulNan (x y : List (Option α)) : List (Option α) :=
  List.zipWith (fun a b => match a, b with
    | some a, some b => some (a * b)
    | _, _ => none) x y

/-- The integrated variables of one column that `preprocess` writes, preprocessing/shared.py:201-213 -/
structure LayerSums (α : Type) where
  s_upper : α
  s_lower : α
  fx_upper : α
  fx_lower : α
  fy_upper : α
  fy_lower : α
  deriving DecidableEq

/-- Column water: the water vapour, scaled to the total column water if that is part of the input,
preprocessing/shared.py:164-175 -/
def columnWater (cwv : List (Option α)) (tcw : Option α) : List (Option α) :=
  match tcw with
  | some t =>
    let correction := t / nanSum cwv
    cwv.map fun x => x.map fun x => correction * x
  | none => cwv

/-- comparison `p < pb` with NaN (false), preprocessing/shared.py:183 -/
def ltNan (p : Option α) (pb : α) : Bool :=
  match p with
  | some p => NpOps.lt p pb
  | none => false

/-- Column water and vertical integration, preprocessing/shared.py:160-198.  `upper` is `upper_layer`, `tcw` is
the total column water if it is part of the input. -/
def integrateLayers (c : Column (Option α)) (dp : List α) (upper : List Bool) (tcw : Option α) :
    LayerSums α :=
  let g : α := ofRat (980665 / 100000)
  let cwv := List.zipWith (fun q d => q.map fun q => q * d / g) c.q dp
  let cw := columnWater cwv tcw
  let lower := upper.map (!·)
  let fx := mulNan c.u cw
  let fy := mulNan c.v cw
  { s_lower := nanSum (whereMask lower cw), s_upper := nanSum (whereMask upper cw),
    fx_lower := nanSum (whereMask lower fx), fy_lower := nanSum (whereMask lower fy),
    fx_upper := nanSum (whereMask upper fx), fy_upper := nanSum (whereMask upper fy) }

/-- The column computation of `preprocess` for `level_type == "pressure_levels"`,
preprocessing/shared.py:153-198 -/
def preprocessPressure (argsort : List α → List ℕ) (factor offset : α) (c : Column α)
    (s : Surface α) (tcw : Option α) : Except Err (LayerSums α) := do
  let (c, pb) ← extendPressurelevels argsort factor offset c s
  let (c, dp) ← interpDpMidpoints c
  let c := maskBelowSurface c s.ps
  -- upper_layer = level_data["p"] < pb  (false where p is NaN)
  let upper := c.p.map fun p => ltNan p pb
  pure (integrateLayers c dp upper tcw)

/-! ### Model levels -/

/-- `get_edges(era5_modellevels)` for a list of levels, era5.py:154-177; `a`, `b` are the columns of
the table `load_era5_ab` (era5.py:145-151).  (`get_edges("all")` is dead code: the configuration
only allows "All" or a list, and `np.insert` fails on a string.) -/
def getEdges (a b : List α) (levels : List ℤ) : Except Err (List α × List α) := do
  let idx := levels.map fun i => i - 1
  let aFull ← idx.mapM (npIndex (npMidpoints a))
  let bFull ← idx.mapM (npIndex (npMidpoints b))
  let aEdge := npMidpoints aFull
  let bEdge := npMidpoints bFull
  let a0 ← npIndex a 0
  let aN ← npIndex a (-1)
  let b0 ← npIndex b 0
  let bN ← npIndex b (-1)
  pure (a0 :: aEdge ++ [aN], b0 :: bEdge ++ [bN])

/-- `get_dp_modellevels(sp, levels)`, era5.py:180-194.  The result has one value per level, labelled
with the level.  (For an empty list of levels the two outer edges do not fit the single
coordinate label and xarray raises `ValueError`.) -/
def getDpModellevels (a b : List α) (sp : α) (levels : List ℤ) : Except Err (List α) := do
  let (aE, bE) ← getEdges a b levels
  if aE.length ≠ levels.length + 1 then throw .valueError
  let pEdge := List.zipWith (fun a b => a + b * sp) aE bE
  pure (npDiff pEdge)

/-- The column computation of `preprocess` for `level_type == "model_levels"`, preprocessing/shared.py:157-198;
`boundary` is `config.level_layer_boundary` -/
def preprocessModel (a b : List α) (levels : List ℤ) (boundary : ℤ) (c : Column α) (sp : α)
    (tcw : Option α) : Except Err (LayerSums α) := do
  let dp ← getDpModellevels a b sp levels
  -- lower_layer = dp["level"] > config.level_layer_boundary; upper_layer = ~lower_layer
  let upper := levels.map fun l => !decide (boundary < l)
  let c : Column (Option α) := ⟨c.p.map some, c.q.map some, c.u.map some, c.v.map some⟩
  pure (integrateLayers c dp upper tcw)

end
end

end Wam
