import Verif.Model.Input

/-!
# Loading the raw input data from CMIP files and from ARCO-ERA5

`/repo/src/wam2layers/preprocessing/cmip.py:9-144`, `arco.py:36-120`, `utils/calendar.py:81-83` and
`preprocessing/shared.py:72-85`.
-/

namespace Wam

/-! ### CMIP -/

/-- one piece of `filename_template.format(variable=var)`, calendar.py:82: any other field is a `KeyError` -/
def renderPieceCmip (var : List Char) : Piece → Except Err (List Char)
  | .text s => .ok s
  | .field name spec => if name = "variable".toList then formatStr var spec else .error .keyError

/-- `config.filename_template.format(variable=var)`, calendar.py:82 -/
def formatCmip (template var : List Char) : Except Err (List Char) := do
  let parts ← (← parseTemplate .text template).mapM (renderPieceCmip var)
  return parts.flatten

/-- `WAM2CMIP`, cmip.py:9-19; an unknown name is a `KeyError` -/
def wam2cmip : List (String × String) :=
  [("q", "hus"), ("e", "hfls"), ("tp", "pr"), ("ps", "ps"), ("u", "ua"), ("v", "va"), ("qs", "huss"),
    ("us", "uas"), ("vs", "vas")]

/-- `THREE_HR_VARS`, cmip.py:28 -/
def threeHourly : List String := ["pr", "hfls"]

/-- One variable of all its files, concatenated along time, cmip.py:85-86: for each sample its time and its
numbers by position on the level, latitude and longitude axes; `none` is NaN. -/
structure Stack (κ α : Type) where
  levels : Option (List ℚ)
  latitude : List κ
  longitude : List κ
  samples : List (ℤ × (ℕ → ℕ → ℕ → Option α))

/-- What the loaders depend on besides the files: `listing` is the order in which the labels of an outer join
or of `list(set(...))` come (cmip.py:86,144), which is up to the libraries. -/
structure Listing (κ : Type) where
  grid : List κ → List κ
  levels : List ℚ → List ℚ

/-- The common axis of the files of a variable (`xr.concat` with its default `join="outer"`, cmip.py:86): the
axis itself if all are equal, otherwise all labels of all files in some order; that needs unique labels. -/
def outerAxis {ι : Type} [DecidableEq ι] (order : List ι → List ι) (first : List ι)
    (others : List (List ι)) : Except Err (List ι) :=
  if others.all fun a => decide (a = first) then .ok first
  else if (first :: others).all fun a => decide a.Nodup then
    .ok (order ((first :: others).flatten.dedup))
  else .error .valueError

variable {κ α : Type} [DecidableEq κ]

/-- the samples of one file on the common axes, cmip.py:86 -/
def fileSamples (levels : Option (List ℚ)) (latitude longitude : List κ) (file : RawFile κ α) :
    Except Err (List (ℤ × (ℕ → ℕ → ℕ → Option α))) := do
  let rows ← alignAxis latitude file.latitude
  let cols ← alignAxis longitude file.longitude
  let levs ← alignLevels levels (file.levelName.map fun _ => file.levels)
  return file.times.zipIdx.map fun (t, n) => (t, fun k i j =>
    (levs k).bind fun k => (rows i).bind fun i => (cols j).map fun j => file.value n k i j)

/-- the common levels of the files of a variable, cmip.py:86 -/
def outerLevels (ord : Listing κ) (f : RawFile κ α) (fs : List (RawFile κ α)) :
    Except Err (Option (List ℚ)) :=
  match f.levelName with
  | none => .ok none
  | some _ => (outerAxis ord.levels f.levels (fs.map fun g => g.levels)).map some

/-- `open_var(files, var)`, cmip.py:65-87: open the files in the given order and concatenate them in time.  No file is
an `IndexError` (`datasets[0]`).  SIMPLIFICATIONS: every file holds the variable; the files all have or all lack
a vertical coordinate, and the time coordinate is called `time` (anything else is an error here). -/
def openVar (ord : Listing κ) (files : List (RawFile κ α)) : Except Err (Option String × Stack κ α) :=
  match files with
  | [] => .error .indexError
  | f :: fs =>
    if (f :: fs).all (fun g => decide (g.timeName = "time" ∧ g.levelName = f.levelName)) = false then
      .error .valueError
    else do
      let latitude ← outerAxis ord.grid f.latitude (fs.map fun g => g.latitude)
      let longitude ← outerAxis ord.grid f.longitude (fs.map fun g => g.longitude)
      let levels ← outerLevels ord f fs
      let parts ← (f :: fs).mapM fun g => fileSamples levels latitude longitude g
      return (f.levelName, { levels := levels, latitude := latitude, longitude := longitude, samples := parts.flatten })

section
variable [Add α] [Sub α] [Mul α] [Div α] [NpOps α]

/-- the mean of two samples, cmip.py:126; NaN if one of them is -/
def sampleMean (x y : ℕ → ℕ → ℕ → Option α) : ℕ → ℕ → ℕ → Option α := fun k i j =>
  (x k i j).bind fun a => (y k i j).map fun b => (a + b) / ofRat 2

/-- `(data.isel(time=slice(0, None, 2)) + data.isel(time=slice(1, None, 2))) / 2` with the times
`np.repeat(times[::2] + 4h30m, 2)`, cmip.py:122-126.  An odd number of samples does not fit the new times
(`ValueError`). -/
def pairSamples : List (ℤ × (ℕ → ℕ → ℕ → Option α)) →
    Except Err (List (ℤ × (ℕ → ℕ → ℕ → Option α)))
  | [] => .ok []
  | [_] => .error .valueError
  | (t, x) :: (_, y) :: l => do
    let rest ← pairSamples l
    return (t + (4 * 60 + 30) * 60 * 1000000, sampleMean x y) :: rest

/-- `resample_3hr_var(data)` with `assert_correct_starttime`, cmip.py:117-135, for all grid cells at once
(`resample3hr` is the same for one cell) -/
def Stack.resample (c : Calendar) (s : Stack κ α) : Except Err (Stack κ α) :=
  match s.samples with
  | [] => .error .indexError
  | (t0, _) :: _ =>
    if ((dateTimeOf c t0).hour, (dateTimeOf c t0).minute) ≠ (1, 30) then .error .valueError
    else do
      let samples ← pairSamples s.samples
      return { s with samples := samples }

/-- `if var in THREE_HR_VARS: data = resample_3hr_var(data)`, cmip.py:104-105 -/
def Stack.sixHourly (c : Calendar) (var : String) (s : Stack κ α) : Except Err (Stack κ α) :=
  if var ∈ threeHourly then s.resample c else .ok s

/-- `data.sel(time=datetime)`, cmip.py:114.  As for `selLabel` a repeated time is an error. -/
def Stack.atTime (s : Stack κ α) (t : ℤ) : Except Err (DataField κ α) :=
  match s.samples.filter fun x => decide (x.1 = t) with
  | [x] => .ok { levels := s.levels, latitude := s.latitude, longitude := s.longitude, value := x.2 }
  | _ => .error .keyError

/-- `load_cmip_var(variable, datetime, config)`, cmip.py:90-114.  `glob` lists the files that match a path
(calendar.py:83) in whatever order the file system gives.  Only a coordinate called `plev` is renamed to
`level`.  The division of `hfls` by the latent heat is in `precipEvapCmip`. -/
def loadCmip (cfg : InputConfig) (ord : Listing κ) (glob : List Char → List (RawFile κ α)) (name : String)
    (t : ℤ) : Except Err (DataField κ α) :=
  match wam2cmip.lookup name with
  | none => .error .keyError
  | some var => do
    let path ← formatCmip cfg.template var.toList
    let (levelName, data) ← openVar ord (glob path)
    let data ← data.sixHourly cfg.calendar var
    let f ← data.atTime t
    checkLevelName (levelName.map fun n => if n = "plev" then "level" else n)
    return f

/-- `q["level"]`, cmip.py:44: `KeyError` for an array without levels -/
def DataField.levelCoord (f : DataField κ α) : Except Err (List ℚ) :=
  match f.levels with
  | some ls => .ok ls
  | none => .error .keyError

/-- `data[name] = array` for a name and axes that are already there, cmip.py:58-59 -/
def InputData.replace (d : InputData κ α) (name : String) (f : DataField κ α) : InputData κ α :=
  { d with vars := d.vars.map fun (n, g) => if n = name then (n, f) else (n, g) }

/-- `get_input_data`, the variables on levels, cmip.py:38-48 -/
def cmipLevels (cfg : InputConfig) (ord : Listing κ) (glob : List Char → List (RawFile κ α)) (t : ℤ) :
    Except Err (InputData κ α) := do
  let q ← loadCmip cfg ord glob "q" t
  let u ← loadCmip cfg ord glob "u" t
  let v ← loadCmip cfg ord glob "v" t
  let levels := commonLevels ord.levels (← q.levelCoord) [← u.levelCoord, ← v.levelCoord]
  let data : InputData κ α := {}
  let data ← data.assign "q" (← q.selLevels (some "level") levels)
  let data ← data.assign "u" (← u.selLevels (some "level") levels)
  data.assign "v" (← v.selLevels (some "level") levels)

/-- `get_input_data`, the variables at the surface, cmip.py:49-56 -/
def cmipSurface (cfg : InputConfig) (ord : Listing κ) (glob : List Char → List (RawFile κ α)) (t : ℤ)
    (data : InputData κ α) : Except Err (InputData κ α) := do
  let data ← data.assign "ps" (← loadCmip cfg ord glob "ps" t)
  let data ← data.assign "qs" (← loadCmip cfg ord glob "qs" t)
  let data ← data.assign "us" (← loadCmip cfg ord glob "us" t)
  let data ← data.assign "vs" (← loadCmip cfg ord glob "vs" t)
  let data ← data.assign "precip" (← loadCmip cfg ord glob "tp" t)
  data.assign "evap" (← loadCmip cfg ord glob "e" t)

/-- `get_input_data`, precipitation and evaporation, cmip.py:58-59 (for one cell: `precipEvapCmip`) -/
def cmipFluxes (data : InputData κ α) : Except Err (InputData κ α) := do
  let pr ← data.get "precip"
  let hfls ← data.get "evap"
  let precip ← DataField.zip (fun p e => (precipEvapCmip p e).1) pr hfls
  -- SIMPLIFICATION: evaporation does not depend on precipitation, the 0 stands for any number
  let evap := hfls.map fun e => (precipEvapCmip (ofRat 0) e).2
  return (data.replace "precip" precip).replace "evap" evap

/-- `get_input_data(datetime, config)`, cmip.py:36-61; `AssertionError` for model levels -/
def cmipInput (cfg : InputConfig) (ord : Listing κ) (glob : List Char → List (RawFile κ α)) (t : ℤ) :
    Except Err (InputData κ α) :=
  if cfg.levelType ≠ .pressure_levels then .error (.other "AssertionError") else do
  let data ← cmipLevels cfg ord glob t
  let data ← cmipSurface cfg ord glob t data
  cmipFluxes data

/-- `get_input_data(datetime, config, "CMIP")`, preprocessing/shared.py:74-77,83-85 -/
def getInputCmip (cfg : InputConfig) (ord : Listing κ) (glob : List Char → List (RawFile κ α)) (t : ℤ) :
    Except Err (RawInput κ α) := do
  validated cfg.levelType (← cmipInput cfg ord glob t)

/-! ### ARCO-ERA5 -/

/-- The ARCO-ERA5 dataset, arco.py:110-124: one store with all variables on the same axes (`value` by position on
the time, level, latitude and longitude axes), and the first and last valid time from its attributes. -/
structure ArcoStore (κ α : Type) where
  times : List ℤ
  levels : List ℚ
  latitude : List κ
  longitude : List κ
  value : String → ℕ → ℕ → ℕ → ℕ → α
  validStart : ℤ
  validStop : ℤ

/-- `open_arco_pl().sel(time=datetime)`, arco.py:73-74,122-124: the position of a time; `KeyError` if it is not
there or not valid -/
def ArcoStore.position (s : ArcoStore κ α) (t : ℤ) : Except Err ℕ :=
  if t < s.validStart ∨ s.validStop < t then .error .keyError else selLabel s.times t

/-- a variable without levels at one time, arco.py:74 -/
def ArcoStore.surface (s : ArcoStore κ α) (n : ℕ) (var : String) : DataField κ α :=
  { levels := none, latitude := s.latitude, longitude := s.longitude
    value := fun _ i j => some (s.value var n 0 i j) }

/-- a variable with levels at one time, arco.py:74-76 -/
def ArcoStore.profile (s : ArcoStore κ α) (n : ℕ) (var : String) : DataField κ α :=
  { levels := some s.levels, latitude := s.latitude, longitude := s.longitude
    value := fun k i j => some (s.value var n k i j) }

/-- The variables that remain after `rename_vars` and `drop_vars`, arco.py:76-106.  (Their order does not matter.) -/
def arcoVars [NpExp α] (cfg : InputConfig) (s : ArcoStore κ α) (n : ℕ) (levels : List ℚ) :
    Except Err (InputData κ α) := do
  let ns : α := ofRat cfg.nseconds
  let data : InputData κ α := {}
  let data ← data.assign "u" (← (s.profile n "u_component_of_wind").selLevels (some "level") levels)
  let data ← data.assign "v" (← (s.profile n "v_component_of_wind").selLevels (some "level") levels)
  let data ← data.assign "q" (← (s.profile n "specific_humidity").selLevels (some "level") levels)
  let data ← data.assign "us" (s.surface n "10m_u_component_of_wind")
  let data ← data.assign "vs" (s.surface n "10m_v_component_of_wind")
  let data ← data.assign "ps" (s.surface n "surface_pressure")
  let data ← data.assign "tcw" (s.surface n "total_column_water")
  let data ← data.assign "qs" (← DataField.zip calculateHumidity (s.surface n "2m_dewpoint_temperature")
    (s.surface n "surface_pressure"))
  let data ← data.assign "precip" (← DataField.zip (fun tp e => (precipEvapEra5 tp e ns).1)
    (s.surface n "total_precipitation") (s.surface n "evaporation"))
  data.assign "evap" ((s.surface n "evaporation").map fun e => (precipEvapEra5 (ofRat 0) e ns).2)

/-- `get_input_data(datetime, config)`, arco.py:60-107: only pressure levels and the proleptic Gregorian calendar; a
list of levels (the label "All" does not exist, arco.py:76) -/
def arcoInput [NpExp α] (cfg : InputConfig) (s : ArcoStore κ α) (t : ℤ) : Except Err (InputData κ α) :=
  if cfg.levelType ≠ .pressure_levels then .error .valueError
  else if cfg.calendar ≠ .prolepticGregorian then .error .valueError
  else do
    let n ← s.position t
    match cfg.levels with
    | .all => .error .keyError
    | .list levels => do
      let data ← arcoVars cfg s n (levelLabels levels)
      return data.toPascal

/-- `get_input_data(datetime, config, "ARCO")`, preprocessing/shared.py:78-79,83-85 -/
def getInputArco [NpExp α] (cfg : InputConfig) (s : ArcoStore κ α) (t : ℤ) : Except Err (RawInput κ α) := do
  validated cfg.levelType (← arcoInput cfg s t)

end

end Wam
