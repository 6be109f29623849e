import Verif.Model.Run
import Verif.Model.Num
import Verif.Model.Column
import Mathlib.Data.List.Sort

/-!
# Checks of the input data

`/repo/src/wam2layers/preprocessing/input_validation.py:12-73`, `preprocessing/utils.py:204-218`
(`add_bounds`) and `/repo/src/wam2layers/analysis/checks.py:21-164`.
-/

namespace Wam

/-! ### An xarray dataset as the validation sees it -/

/-- a data variable: the names of its dimensions and its values in some order,
input_validation.py:12-73 -/
structure XVar (α : Type) where
  dims : List String
  values : List α

/-- a dataset: the names of its dimensions (`data.dims`) and its data variables (`data.data_vars`) in
their order, input_validation.py:12-73 -/
structure XDataset (α : Type) where
  dims : List String
  dataVars : List (String × XVar α)

/-- `data[var]` for a data variable, input_validation.py:50 -/
def XDataset.get {α : Type} (data : XDataset α) (var : String) : Option (XVar α) :=
  data.dataVars.lookup var

/-- the two values of `config.level_type`, config.py -/
inductive LevelType where
  | pressure_levels
  | model_levels
  deriving DecidableEq

/-- what the message of the `ValidationError` says, input_validation.py:9,20-73 -/
inductive ValidationError where
  | missingDim (dim : String)
  | missingVar (var : String)
  | surfaceDims (var : String)
  | levelDims (var : String)
  | nans (count : ℕ) (var : String)
  deriving DecidableEq

/-- a `for` loop whose body may raise, e.g. input_validation.py:22-28 -/
def forEach {β : Type} (l : List β) (body : β → Except ValidationError Unit) :
    Except ValidationError Unit :=
  match l with
  | [] => .ok ()
  | x :: l =>
    match body x with
    | .error e => .error e
    | .ok _ => forEach l body

/-- `validate_dims(data)`, input_validation.py:20-28 -/
def validateDims {α : Type} (data : XDataset α) : Except ValidationError Unit :=
  forEach ["latitude", "longitude", "level"] fun dim =>
    if dim ∉ data.dims then .error (.missingDim dim) else .ok ()

/-- `expected_level_vars`, input_validation.py:32,36-37 -/
def expectedLevelVars (lt : LevelType) : List String :=
  ["q", "u", "v"] ++ if lt = .model_levels then ["dp"] else []

/-- `expected_surface_vars`, input_validation.py:33-35 -/
def expectedSurfaceVars (lt : LevelType) : List String :=
  ["ps", "precip", "evap"] ++ if lt = .pressure_levels then ["qs", "us", "vs"] else []

/-- `set(a) != set(b)` negated: the same elements, input_validation.py:50,59 -/
def sameSet (a b : List String) : Bool := (a.all fun x => decide (x ∈ b)) && b.all fun x => decide (x ∈ a)

/-- `validate_vars(data, config)`, input_validation.py:31-65 -/
def validateVars {α : Type} (data : XDataset α) (lt : LevelType) : Except ValidationError Unit :=
  match forEach (expectedLevelVars lt ++ expectedSurfaceVars lt) fun var =>
      if var ∉ data.dataVars.map Prod.fst then .error (.missingVar var) else .ok () with
  | .error e => .error e
  | .ok _ =>
    match forEach (expectedSurfaceVars lt) fun var =>
        if !sameSet (((data.get var).map XVar.dims).getD []) ["latitude", "longitude"] then
          .error (.surfaceDims var) else .ok () with
    | .error e => .error e
    | .ok _ =>
      forEach (expectedLevelVars lt) fun var =>
        if !sameSet (((data.get var).map XVar.dims).getD []) ["level", "latitude", "longitude"] then
          .error (.levelDims var) else .ok ()

/-- `check_nans(data)`, input_validation.py:68-73 -/
def checkNans {α : Type} [NpOps α] (data : XDataset α) : Except ValidationError Unit :=
  forEach data.dataVars fun (var, x) =>
    if x.values.any NpOps.isnan then .error (.nans (x.values.countP NpOps.isnan) var) else .ok ()

/-- `validate_input(data, config)`, input_validation.py:12-17 -/
def validateInput {α : Type} [NpOps α] (data : XDataset α) (lt : LevelType) :
    Except ValidationError Unit :=
  match validateDims data with
  | .error e => .error e
  | .ok _ =>
    match validateVars data lt with
    | .error e => .error e
    | .ok _ => checkNans data

/-! ### `add_bounds` -/

section
variable {α : Type} [Add α] [Sub α] [Mul α] [Div α] [NpOps α]

/-- `np.median(xs)` (utils.py:208-209): the middle element of the sorted values, or the mean of the two
middle ones; `0/0` (NaN) for an empty array.  SIMPLIFICATION: the result for an array that contains
NaN (which is NaN) is not modelled. -/
def npMedian (xs : List α) : α :=
  let s := xs.insertionSort fun a b => NpOps.le a b = true
  let n := s.length
  if n = 0 then ofRat 0 / ofRat 0
  else if n % 2 = 1 then s.getD (n / 2) (ofRat 0)
  else (s.getD (n / 2 - 1) (ofRat 0) + s.getD (n / 2) (ofRat 0)) / ofRat 2

/-- the bounds that `add_bounds` gives an axis, utils.py:206-218 -/
def axisBounds (xs : List α) : List (α × α) :=
  let res := npMedian (npDiff xs)
  xs.map fun x => (x - res / ofRat 2, x + res / ofRat 2)

/-- `infer_resolution(ds)` for one axis, shapefile_mask.py:33-37 -/
def inferResolution (xs : List α) : α := absolute (npMedian (npDiff xs))

end

/-! ### `analysis/checks.py` -/

section
variable {α : Type} [Sub α] [NpOps α]

/-- `data.min()` of an array without NaN, checks.py:23 -/
def npMin (x : α) (xs : List α) : α := xs.foldl minimum x

/-- `data.max()` of an array without NaN, checks.py:31 -/
def npMax (x : α) (xs : List α) : α := xs.foldl maximum x

/-- does `check_range(data, range)` warn? `not data.min() >= range[0] and data.max() <= range[1]`,
checks.py:86-88; data is given by its first value and the others -/
def checkRangeWarns (x : α) (xs : List α) (lo hi : α) : Bool :=
  !NpOps.le lo (npMin x xs) && NpOps.le (npMax x xs) hi

/-- does `check_order_of_magnitude(data, order)` warn?  checks.py:65-70; `p = 10 ** order` -/
def checkMagnitudeWarns (x : α) (xs : List α) (p : α) : Bool :=
  !NpOps.le p (npMin x xs) && NpOps.le (npMax x xs) p

/-- does `check_positive` / `check_nonnegative` warn?  checks.py:47-50,59-62 -/
def checkPositiveWarns (x : α) (xs : List α) : Bool := !NpOps.le (ofRat 0) (npMin x xs)

/-- does `check_negative` warn?  checks.py:53-56 -/
def checkNegativeWarns (x : α) (xs : List α) : Bool := !NpOps.le (npMax x xs) (ofRat 0)

/-- does `check_monotonic_increase` of an axis warn?  checks.py:21-26; a single value has no difference and
`min()` of nothing is NaN, which is not `>= 0` -/
def checkIncreaseWarns (xs : List α) : Bool :=
  match npDiff xs with
  | [] => true
  | d :: ds => !NpOps.le (ofRat 0) (npMin d ds)

/-- does `check_monotonic_decrease` of an axis warn?  checks.py:29-34 -/
def checkDecreaseWarns (xs : List α) : Bool :=
  match npDiff xs with
  | [] => true
  | d :: ds => !NpOps.le (npMax d ds) (ofRat 0)

/-- does `check_units(data, valid_units)` warn?  checks.py:37-44 -/
def checkUnitsWarns (units : Option String) (valid : List String) : Bool :=
  match units with
  | none => true
  | some u => decide (u ∉ valid)

/-- a data array as `check_input` sees it: units, number of dimensions, coordinates, values (the first and
the others), checks.py:112-118 -/
structure CheckedArray (α : Type) where
  units : Option String
  ndim : ℕ
  coords : List (String × List α)
  first : α
  rest : List α

/-- the warnings, checks.py -/
inductive CheckWarning where
  | units
  | shape
  | noCoordinate (coord : String)
  | notDecreasing (coord : String)
  | notIncreasing (coord : String)
  | range
  | notPositive
  deriving DecidableEq

/-- `check_uniform(coord)`, checks.py:91-96: the message refers to the undefined name `data`, so
instead of a warning there is a `NameError`; `min()` of an empty array is a `ValueError` -/
def checkUniform (xs : List α) : Except Err Unit :=
  match npDiff xs with
  | [] => .error .valueError
  | d :: ds =>
    if NpOps.le (npMax d ds) (npMin d ds) then .ok ()
    else .error (.other "NameError: name 'data' is not defined")

/-- the loop of `check_coords`, checks.py:101-109; a missing coordinate gives a warning and then a
`KeyError` -/
def checkCoordsLoop (data : CheckedArray α) : List String → Except Err (List CheckWarning)
  | [] => .ok []
  | coord :: coords => do
    match data.coords.lookup coord with
    | none => .error .keyError
    | some xs =>
      checkUniform xs
      let w := if coord = "latitude" then
          (if checkDecreaseWarns xs then [CheckWarning.notDecreasing coord] else [])
        else (if checkIncreaseWarns xs then [CheckWarning.notIncreasing coord] else [])
      let ws ← checkCoordsLoop data coords
      .ok (w ++ ws)

/-- `check_coords(data, coords)`, checks.py:99-109 -/
def checkCoords (data : CheckedArray α) (coords : List String) : Except Err (List CheckWarning) := do
  let w := if data.ndim ≠ coords.length then [CheckWarning.shape] else []
  let ws ← checkCoordsLoop data coords
  .ok (w ++ ws)

/-- one entry of `VARIABLES`, checks.py:121-164 -/
structure VarInfo where
  name : String
  valid_units : List String
  lo : ℚ
  hi : ℚ
  all_positive : Bool

/-- the units of fluxes in `VARIABLES`, checks.py:144 -/
def transportUnits : List String := ["kg m-1 s-1", "kg m^-1 s^-1", "kg m**-1 s**-1"]

/-- `VARIABLES`, checks.py:121-164; all have the coordinates time, latitude, longitude -/
def checkTable : List VarInfo :=
  [⟨"evap", ["kg m-2 s-1", "kg/m2/s"], 0, 1 / 1000, true⟩,
   ⟨"precip", ["kg m-2 s-1", "kg/m2/s"], 0, 1 / 10, true⟩,
   ⟨"s_upper", ["kg m-2", "kg/m2"], 0, 1000, true⟩,
   ⟨"s_lower", ["kg m-2", "kg/m2"], 0, 1000, true⟩,
   ⟨"fx_upper", transportUnits, -1000, 1000, false⟩,
   ⟨"fy_upper", transportUnits, -1000, 1000, false⟩,
   ⟨"fx_lower", transportUnits, -1000, 1000, false⟩,
   ⟨"fy_lower", transportUnits, -1000, 1000, false⟩]

/-- the body of the loop of `check_input`, checks.py:114-118 -/
def checkVariable (data : CheckedArray α) (info : VarInfo) : Except Err (List CheckWarning) := do
  let w1 := if checkUnitsWarns data.units info.valid_units then [CheckWarning.units] else []
  let w2 ← checkCoords data ["time", "latitude", "longitude"]
  let w3 := if checkRangeWarns data.first data.rest (ofRat info.lo) (ofRat info.hi) then
    [CheckWarning.range] else []
  let w4 := if info.all_positive then
    (if checkPositiveWarns data.first data.rest then [CheckWarning.notPositive] else []) else []
  .ok (w1 ++ w2 ++ w3 ++ w4)

/-- the loop of `check_input(data)` over a table, checks.py:112-118; the result lists the warnings per
variable -/
def checkInputLoop (data : String → Option (CheckedArray α)) :
    List VarInfo → Except Err (List (String × CheckWarning))
  | [] => .ok []
  | info :: infos =>
    match data info.name with
    | none => .error .keyError
    | some x => do
      let w ← checkVariable x info
      let ws ← checkInputLoop data infos
      .ok (w.map (fun c => (info.name, c)) ++ ws)

/-- `check_input(data)`, checks.py:112-118 -/
def checkInput (data : String → Option (CheckedArray α)) :
    Except Err (List (String × CheckWarning)) := checkInputLoop data checkTable

end

end Wam
