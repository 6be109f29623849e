import Verif.Model.Template
import Verif.Model.Surface
import Verif.Model.Column
import Verif.Model.Era5Table
import Verif.Model.Validate
import Verif.Model.Prep

/-!
# Loading the raw input data

`/repo/src/wam2layers/preprocessing/era5.py:37-142`, `arco.py:36-108`, `cmip.py:9-114` and
`preprocessing/shared.py:37-85`: which file, time, level and grid cell every number of the preprocessing input comes
from.  xarray aligns the variables of a dataset and the operands of an operation by coordinate labels;
values that alignment cannot find are NaN (here `none`).
-/

namespace Wam

/-- Missing values: `none` is NaN.  Only `isnan` is used by `validate_input`
(input_validation.py:68-73); the other operations are lifted, NaN if an operand is. -/
instance instNpOpsOption {α : Type} [NpOps α] : NpOps (Option α) where
  ofRat q := some (NpOps.ofRat q)
  lt a b := match a, b with | some a, some b => NpOps.lt a b | _, _ => false
  le a b := match a, b with | some a, some b => NpOps.le a b | _, _ => false
  minimum a b := a.bind fun a => b.map fun b => NpOps.minimum a b
  maximum a b := a.bind fun a => b.map fun b => NpOps.maximum a b
  absolute a := a.map NpOps.absolute
  sign a := a.map NpOps.sign
  isnan a := match a with | some a => NpOps.isnan a | none => true

/-- A netCDF file with one data variable, era5.py:78.  `value` by position on the time, level, latitude and
longitude axes (level position 0 if there is no level axis).  SIMPLIFICATION: one time coordinate and at
most one vertical coordinate, whatever they are called. -/
structure RawFile (κ α : Type) where
  timeName : String
  levelName : Option String
  times : List ℤ
  levels : List ℚ
  latitude : List κ
  longitude : List κ
  value : ℕ → ℕ → ℕ → ℕ → α

/-- A data array at one time with dimensions latitude, longitude and possibly level, e.g. the result of
`load_data`, era5.py:90-122; `none` is NaN -/
structure DataField (κ α : Type) where
  levels : Option (List ℚ)
  latitude : List κ
  longitude : List κ
  value : ℕ → ℕ → ℕ → Option α

section axes
variable {ι : Type} [DecidableEq ι]

/-- Align an axis of an array with the index of the dataset (xarray `Dataset.__setitem__`,
era5.py:40-66): nothing to do for equal indexes; otherwise the positions are looked up by label, which
needs unique labels in the array (`ValueError` if not); a label that is not found gives NaN. -/
def alignAxis (target source : List ι) : Except Err (ℕ → Option ℕ) :=
  if source = target then .ok some
  else if source.Nodup then .ok fun i => (target[i]?).bind fun x => source.idxOf? x
  else .error .valueError

/-- The common index of two operands (xarray's `arithmetic_join="inner"`, era5.py:134, utils.py:173-177).  (The
order of the labels does not matter: the result is aligned by label once more.) -/
def joinAxis (a b : List ι) : Except Err (List ι) :=
  if a = b then .ok a
  else if a.Nodup ∧ b.Nodup then .ok (a.filter fun x => decide (x ∈ b))
  else .error .valueError

end axes

variable {κ α : Type} [DecidableEq κ]

/-- the same for the level axis, which a dataset or an array may lack, era5.py:40-66 -/
def alignLevels : Option (List ℚ) → Option (List ℚ) → Except Err (ℕ → Option ℕ)
  | some target, some source => alignAxis target source
  | _, _ => .ok some

/-- bring an array to the given axes, era5.py:40-66 -/
def DataField.reindex (f : DataField κ α) (levels : Option (List ℚ)) (latitude longitude : List κ) :
    Except Err (DataField κ α) := do
  let rows ← alignAxis latitude f.latitude
  let cols ← alignAxis longitude f.longitude
  let levs ← alignLevels levels f.levels
  return { levels := f.levels.map fun source => levels.getD source
           latitude := latitude
           longitude := longitude
           value := fun k i j =>
             (levs k).bind fun k => (rows i).bind fun i => (cols j).bind fun j => f.value k i j }

/-- An element-wise operation of two surface arrays, era5.py:134 and utils.py:156-177.  SIMPLIFICATION: if one of
them has levels so has the result, which `validate_input` rejects; here it is rejected at once. -/
def DataField.zip (op : α → α → α) (f g : DataField κ α) : Except Err (DataField κ α) := do
  if f.levels.isSome || g.levels.isSome then throw (.other "ValidationError")
  let latitude ← joinAxis f.latitude g.latitude
  let longitude ← joinAxis f.longitude g.longitude
  let f ← f.reindex none latitude longitude
  let g ← g.reindex none latitude longitude
  return { levels := f.levels, latitude := latitude, longitude := longitude
           value := fun k i j => (f.value k i j).bind fun x => (g.value k i j).map fun y => op x y }

/-- an element-wise function, era5.py:138-141 -/
def DataField.map (op : α → α) (f : DataField κ α) : DataField κ α :=
  { f with value := fun k i j => (f.value k i j).map op }

/-- The dataset that `get_input_data` builds, era5.py:39: the indexes that the variables so far have fixed, and
the variables in their order. -/
structure InputData (κ α : Type) where
  levels : Option (List ℚ) := none
  grid : Option (List κ × List κ) := none
  vars : List (String × DataField κ α) := []

/-- `data[name] = array` for a new name, era5.py:40-66: the first variable fixes the index of its dimensions,
later ones are aligned with it -/
def InputData.assign (d : InputData κ α) (name : String) (f : DataField κ α) :
    Except Err (InputData κ α) := do
  let grid := d.grid.getD (f.latitude, f.longitude)
  let f ← f.reindex d.levels grid.1 grid.2
  return { levels := d.levels <|> f.levels, grid := some grid, vars := d.vars ++ [(name, f)] }

/-- `data[name]`, era5.py:48 -/
def InputData.get (d : InputData κ α) (name : String) : Except Err (DataField κ α) :=
  match d.vars.lookup name with
  | some f => .ok f
  | none => .error .keyError

/-- `config.levels`: a list of integers or "All", config.py:386 -/
inductive Levels where
  | all
  | list (levels : List ℤ)

/-- the settings that loading the input uses, config.py:74-94,109,373-398 -/
structure InputConfig where
  calendar : Calendar
  template : List Char
  levelType : LevelType
  levels : Levels
  /-- `input_frequency` in seconds -/
  nseconds : ℚ

/-- `open_da(filepath)`, era5.py:70-87: the new names of the coordinates are replaced by the old ones.
`disk` gives `FileNotFoundError` for a file that does not exist. -/
def openDa (disk : List Char → Except Err (RawFile κ α)) (path : List Char) :
    Except Err (RawFile κ α) := do
  let file ← disk path
  return { file with
    timeName := if file.timeName = "valid_time" then "time" else file.timeName
    levelName := file.levelName.map fun n => if n = "model_level" ∨ n = "pressure_level" then "level" else n }

/-- the position of a label on an axis, `sel`, era5.py:112: `KeyError` if it is not there.  SIMPLIFICATION: for a
repeated label xarray keeps all of them, which fails later; here it fails at once. -/
def selLabel {ι : Type} [DecidableEq ι] (axis : List ι) (x : ι) : Except Err ℕ :=
  if axis.count x = 1 then .ok (axis.idxOf x) else .error .keyError

/-- `open_da(filepath).sel(time=datetime)` and the renaming of `lev`, era5.py:112-115 -/
def RawFile.atTime (file : RawFile κ α) (t : ℤ) : Except Err (Option String × DataField κ α) :=
  if file.timeName ≠ "time" then .error .keyError else do
  let n ← selLabel file.times t
  return (file.levelName.map fun n => if n = "lev" then "level" else n,
    { levels := file.levelName.map fun _ => file.levels, latitude := file.latitude
      longitude := file.longitude, value := fun k i j => some (file.value n k i j) })

/-- `da.sel(level=config.levels)`, era5.py:118-119: the listed levels in the listed order -/
def DataField.selLevels (f : DataField κ α) (levelName : Option String) (levels : List ℚ) :
    Except Err (DataField κ α) :=
  match f.levels with
  | none => .error .keyError
  | some axis =>
    if levelName ≠ some "level" then .error .keyError else do
      let ks ← levels.mapM fun l => selLabel axis l
      return { f with levels := some levels, value := fun k i j => (ks[k]?).bind fun k => f.value k i j }

/-- a vertical coordinate that is not called `level` does not count as level dimension,
input_validation.py:20-28 (such an array is then rejected by `validate_input`) -/
def checkLevelName (levelName : Option String) : Except Err Unit :=
  match levelName with
  | none => .ok ()
  | some n => if n = "level" then .ok () else .error (.other "ValidationError")

/-- the integers of `config.levels` as labels of a coordinate of floats, era5.py:119 -/
def levelLabels (levels : List ℤ) : List ℚ := levels.map fun l : ℤ => (l : ℚ)

/-- `load_data(variable, datetime, config)`, era5.py:90-122 -/
def loadEra5 (cfg : InputConfig) (disk : List Char → Except Err (RawFile κ α)) (var : String) (t : ℤ) :
    Except Err (DataField κ α) := do
  let path ← formatTemplate cfg.template
    (era5Args cfg.calendar (cfg.levelType = .pressure_levels) var t)
  let file ← openDa disk path
  let (levelName, f) ← file.atTime t
  match cfg.levels with
  | .list levels =>
    if var ∈ levelVariables then f.selLevels levelName (levelLabels levels)
    else do checkLevelName levelName; return f
  | .all => do checkLevelName levelName; return f

section
variable [Add α] [Sub α] [Mul α] [Div α] [NpOps α]

/-- `preprocess_precip_and_evap(datetime, config)`, era5.py:125-142 (the arithmetic for one cell is
`precipEvapEra5`) -/
def loadPrecipEvapEra5 (cfg : InputConfig) (disk : List Char → Except Err (RawFile κ α)) (t : ℤ) :
    Except Err (DataField κ α × DataField κ α) := do
  let evap ← loadEra5 cfg disk "e" t
  let precip ← loadEra5 cfg disk "tp" t
  let ns : α := ofRat cfg.nseconds
  let precip ← DataField.zip (fun tp e => (precipEvapEra5 tp e ns).1) precip evap
  -- SIMPLIFICATION: evaporation does not depend on precipitation, the 0 stands for any number
  return (precip, evap.map fun e => (precipEvapEra5 (ofRat 0) e ns).2)

/-- `get_dp_modellevels(data["ps"], config.levels)`, era5.py:180-194, at every grid cell.  (NaN where the surface
pressure is; an error in any cell is an error.) -/
def loadDp (ps : DataField κ α) (levels : List ℤ) : Except Err (DataField κ α) :=
  -- the thicknesses of a column exist for every surface pressure or for none (`getDpModellevels`)
  match getDpModellevels (era5A α) (era5B α) (ofRat 0) levels with
  | .error e => .error e
  | .ok _ => .ok
    { levels := some (levelLabels levels), latitude := ps.latitude, longitude := ps.longitude
      value := fun k i j => (ps.value 0 i j).bind fun sp =>
        match getDpModellevels (era5A α) (era5B α) sp levels with
        | .ok dp => dp[k]?
        | .error _ => none }

/-- `get_input_data`, the variables on levels and the surface pressure, era5.py:39-43 -/
def era5Levels (cfg : InputConfig) (disk : List Char → Except Err (RawFile κ α)) (t : ℤ) :
    Except Err (InputData κ α) := do
  let data : InputData κ α := {}
  let data ← data.assign "q" (← loadEra5 cfg disk "q" t)
  let data ← data.assign "u" (← loadEra5 cfg disk "u" t)
  let data ← data.assign "v" (← loadEra5 cfg disk "v" t)
  data.assign "ps" (← loadEra5 cfg disk "sp" t)

/-- `get_input_data`, the variables that depend on the type of levels, era5.py:44-50 -/
def era5LevelType [NpExp α] (cfg : InputConfig) (disk : List Char → Except Err (RawFile κ α)) (t : ℤ)
    (data : InputData κ α) : Except Err (InputData κ α) :=
  match cfg.levelType with
  | .pressure_levels => do
    let d2m ← loadEra5 cfg disk "d2m" t
    let data ← data.assign "qs" (← DataField.zip calculateHumidity d2m (← data.get "ps"))
    let data ← data.assign "us" (← loadEra5 cfg disk "u10" t)
    data.assign "vs" (← loadEra5 cfg disk "v10" t)
  | .model_levels =>
    match cfg.levels with
    | .list levels => do data.assign "dp" (← loadDp (← data.get "ps") levels)
    -- `np.insert("All", 0, -1)` does not fit the table
    | .all => .error .valueError

/-- `get_input_data`, precipitation, evaporation and (if the file exists) total column water,
era5.py:52-60 -/
def era5Fluxes (cfg : InputConfig) (disk : List Char → Except Err (RawFile κ α)) (t : ℤ)
    (data : InputData κ α) : Except Err (InputData κ α) := do
  let (precip, evap) ← loadPrecipEvapEra5 cfg disk t
  let data ← data.assign "precip" precip
  let data ← data.assign "evap" evap
  match loadEra5 cfg disk "tcw" t with
  | .ok tcw => data.assign "tcw" tcw
  | .error .fileNotFound => .ok data
  | .error e => .error e

/-- `data["level"] = data["level"] * 100`, hPa to Pa, era5.py:62-64 -/
def InputData.toPascal (data : InputData κ α) : InputData κ α :=
  { data with
    levels := data.levels.map fun ls => ls.map fun l => l * 100
    vars := data.vars.map fun (n, f) =>
      (n, { f with levels := f.levels.map fun ls => ls.map fun l => l * 100 }) }

/-- `get_input_data(datetime, config)`, era5.py:37-67 -/
def era5Input [NpExp α] (cfg : InputConfig) (disk : List Char → Except Err (RawFile κ α)) (t : ℤ) :
    Except Err (InputData κ α) := do
  let data ← era5Levels cfg disk t
  let data ← era5LevelType cfg disk t data
  let data ← era5Fluxes cfg disk t data
  return if cfg.levelType = .pressure_levels then data.toPascal else data

/-- the names of the dimensions of an array, input_validation.py:50,59 -/
def DataField.dims (f : DataField κ α) : List String :=
  (match f.levels with | some _ => ["level"] | none => []) ++ ["latitude", "longitude"]

/-- all values of an array, input_validation.py:69 -/
def DataField.values (f : DataField κ α) : List (Option α) :=
  (List.range (f.levels.elim 1 List.length)).flatMap fun k =>
    (List.range f.latitude.length).flatMap fun i =>
      (List.range f.longitude.length).map fun j => f.value k i j

/-- the dataset as `validate_input` sees it, preprocessing/shared.py:83 -/
def InputData.toXDataset (d : InputData κ α) : XDataset (Option α) :=
  { dims := (match d.levels with | some _ => ["level"] | none => []) ++
      (match d.grid with | some _ => ["latitude", "longitude"] | none => [])
    dataVars := d.vars.map fun (n, f) => (n, ⟨f.dims, f.values⟩) }

/-- a value of the validated dataset (never NaN there), preprocessing/shared.py:83-85 -/
def InputData.number (d : InputData κ α) (name : String) (k i j : ℕ) : α :=
  (((d.vars.lookup name).bind fun f => f.value k i j)).getD (ofRat 0)

/-- the dataset as the rest of `preprocess` uses it, cell by cell, preprocessing/shared.py:149-151,163 -/
def InputData.toRaw (d : InputData κ α) : RawInput κ α :=
  let levels := d.levels.getD []
  let profile (name : String) (i j : ℕ) : List α :=
    (List.range levels.length).map fun k => d.number name k i j
  { latitude := (d.grid.getD ([], [])).1
    longitude := (d.grid.getD ([], [])).2
    column := fun i j => ⟨levels.map fun l => ofRat l, profile "q" i j, profile "u" i j, profile "v" i j⟩
    surface := fun i j => ⟨d.number "ps" 0 i j, d.number "qs" 0 i j, d.number "us" 0 i j, d.number "vs" 0 i j⟩
    -- `"tcw" in surface_data`, where `surface_data = input_data.drop_dims("level")`
    tcw := (d.vars.lookup "tcw").bind fun f =>
      if f.levels.isSome then none else some fun i j => d.number "tcw" 0 i j
    precip := fun i j => d.number "precip" 0 i j
    evap := fun i j => d.number "evap" 0 i j }

/-- `get_input_data(datetime, config, data_source)` after the loader of the source has run,
preprocessing/shared.py:83-85 -/
def validated (lt : LevelType) (data : InputData κ α) : Except Err (RawInput κ α) :=
  match validateInput data.toXDataset lt with
  | .ok _ => .ok data.toRaw
  | .error _ => .error (.other "ValidationError")

/-- `get_input_data(datetime, config, "ERA5")`, preprocessing/shared.py:37-85 -/
def getInputEra5 [NpExp α] (cfg : InputConfig) (disk : List Char → Except Err (RawFile κ α)) (t : ℤ) :
    Except Err (RawInput κ α) := do
  validated cfg.levelType (← era5Input cfg disk t)

end

end Wam
