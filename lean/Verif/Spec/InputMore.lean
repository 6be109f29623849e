import Verif.Model.InputMore
import Verif.Spec.Input

/-! # Specification: where the numbers of the CMIP and ARCO-ERA5 input come from -/

namespace Wam.Spec

variable {κ α : Type}

/-- The numbers `xs` of a profile over the levels `ls` come one by one from where `P` says, none is missing. -/
def ProfileFrom [NpOps α] (P : Option ℚ → κ → κ → α → Prop) (ls : List ℚ) (lat lon : κ) (xs : List α) : Prop :=
  xs.length = ls.length ∧
    ∀ (k : ℕ) l x, ls[k]? = some l → xs[k]? = some x → P (some l) lat lon x ∧ NpOps.isnan x = false

/-- A number without level comes from where `P` says and is not missing. -/
def NumberFrom [NpOps α] (P : Option ℚ → κ → κ → α → Prop) (lat lon : κ) (x : α) : Prop :=
  P none lat lon x ∧ NpOps.isnan x = false

/-- All numbers that the preprocessing uses for one grid cell at `lat`, `lon` with pressure levels `ls` come
from where `P` says (`P` by the name of the variable in the code). -/
structure CellFrom [NpOps α] (P : String → Option ℚ → κ → κ → α → Prop) (ls : List ℚ) (lat lon : κ)
    (raw : RawInput κ α) (i j : ℕ) : Prop where
  p : (raw.column i j).p = ls.map fun l => NpOps.ofRat l
  q : ProfileFrom (P "q") ls lat lon (raw.column i j).q
  u : ProfileFrom (P "u") ls lat lon (raw.column i j).u
  v : ProfileFrom (P "v") ls lat lon (raw.column i j).v
  ps : NumberFrom (P "ps") lat lon (raw.surface i j).ps
  qs : NumberFrom (P "qs") lat lon (raw.surface i j).qs
  us : NumberFrom (P "us") lat lon (raw.surface i j).us
  vs : NumberFrom (P "vs") lat lon (raw.surface i j).vs
  precip : NumberFrom (P "precip") lat lon (raw.precip i j)
  evap : NumberFrom (P "evap") lat lon (raw.evap i j)
  tcw : ∀ g, raw.tcw = some g → NumberFrom (P "tcw") lat lon (g i j)

/-! ### CMIP -/

/-- a file that the template names for a CMIP variable -/
def CmipFile (cfg : InputConfig) (glob : List Char → List (RawFile κ α)) (var : String)
    (file : RawFile κ α) : Prop :=
  ∃ path, formatCmip cfg.template var.toList = .ok path ∧ file ∈ glob path

/-- one of the files of a CMIP variable holds the number `x` for this time, level, latitude and longitude -/
def CmipStored (cfg : InputConfig) (glob : List Char → List (RawFile κ α)) (var : String) (t : ℤ)
    (level : Option ℚ) (lat lon : κ) (x : α) : Prop :=
  ∃ file, CmipFile cfg glob var file ∧ StoredAt file t level lat lon x

/-- microseconds of a number of minutes -/
def minutes (n : ℤ) : ℤ := n * 60 * 1000000

/-- `x` is the mean of the two three-hourly samples of the six hours before `t`: the one centred 4.5 hours before `t` and the one
centred 1.5 hours before `t`. -/
def SixHourMean [Add α] [Div α] [NpOps α] (cfg : InputConfig) (glob : List Char → List (RawFile κ α))
    (var : String) (t : ℤ) (level : Option ℚ) (lat lon : κ) (x : α) : Prop :=
  ∃ a b, CmipStored cfg glob var (t - minutes 270) level lat lon a ∧
    CmipStored cfg glob var (t - minutes 90) level lat lon b ∧ x = (a + b) / NpOps.ofRat 2

/-- a file with three-hourly samples without gaps, an even number of them -/
def ThreeHourlyFile (file : RawFile κ α) : Prop :=
  Even file.times.length ∧
    ∀ (n : ℕ) t t', file.times[n]? = some t → file.times[n + 1]? = some t' → t' = t + minutes 180

/-- the numbers of the CMIP files that a variable of the preprocessing may be made of -/
def CmipOrigin [Add α] [Sub α] [Mul α] [Div α] [NpOps α] (cfg : InputConfig)
    (glob : List Char → List (RawFile κ α)) (t : ℤ) (name : String) (level : Option ℚ) (lat lon : κ)
    (x : α) : Prop :=
  match name with
  | "q" => CmipStored cfg glob "hus" t level lat lon x
  | "u" => CmipStored cfg glob "ua" t level lat lon x
  | "v" => CmipStored cfg glob "va" t level lat lon x
  | "ps" => CmipStored cfg glob "ps" t level lat lon x
  | "qs" => CmipStored cfg glob "huss" t level lat lon x
  | "us" => CmipStored cfg glob "uas" t level lat lon x
  | "vs" => CmipStored cfg glob "vas" t level lat lon x
  | "precip" => ∃ pr hfls, SixHourMean cfg glob "pr" t level lat lon pr ∧
      SixHourMean cfg glob "hfls" t level lat lon hfls ∧ x = (precipEvapCmip pr hfls).1
  | "evap" => ∃ hfls, SixHourMean cfg glob "hfls" t level lat lon hfls ∧
      ∀ pr, x = (precipEvapCmip pr hfls).2
  | _ => False

/-- the labels of an axis of some file of a CMIP variable -/
def SomeFileHas {ι : Type} (cfg : InputConfig) (glob : List Char → List (RawFile κ α)) (var : String)
    (axis : RawFile κ α → List ι) (x : ι) : Prop :=
  ∃ file, CmipFile cfg glob var file ∧ x ∈ axis file

/-- the libraries list the labels of a set in any order, but list them all, once -/
structure Listing.Fair (ord : Listing κ) : Prop where
  grid : ∀ l x, x ∈ ord.grid l ↔ x ∈ l
  levels : ∀ l x, x ∈ ord.levels l ↔ x ∈ l
  levelsNodup : ∀ l, l.Nodup → (ord.levels l).Nodup

/-! ### ARCO-ERA5 -/

/-- the store holds the number `x` of a variable for this time, level, latitude and longitude -/
def ArcoStored (s : ArcoStore κ α) (t : ℤ) (var : String) (level : Option ℚ) (lat lon : κ) (x : α) : Prop :=
  ∃ n k i j, s.times[n]? = some t ∧ s.latitude[i]? = some lat ∧ s.longitude[j]? = some lon ∧
    (match level with | none => k = 0 | some l => s.levels[k]? = some l) ∧ s.value var n k i j = x

/-- The numbers of the store that a variable of the preprocessing may be made of.  Levels are in Pa in the
preprocessing and in hPa in the store. -/
def ArcoOrigin [Add α] [Sub α] [Mul α] [Div α] [NpOps α] [NpExp α] (cfg : InputConfig)
    (s : ArcoStore κ α) (t : ℤ) (name : String) (pascal : Option ℚ) (lat lon : κ) (x : α) : Prop :=
  let hpa := pascal.map fun p => p / 100
  let dt : α := NpOps.ofRat cfg.nseconds
  match name with
  | "q" => ArcoStored s t "specific_humidity" hpa lat lon x
  | "u" => ArcoStored s t "u_component_of_wind" hpa lat lon x
  | "v" => ArcoStored s t "v_component_of_wind" hpa lat lon x
  | "ps" => ArcoStored s t "surface_pressure" hpa lat lon x
  | "us" => ArcoStored s t "10m_u_component_of_wind" hpa lat lon x
  | "vs" => ArcoStored s t "10m_v_component_of_wind" hpa lat lon x
  | "tcw" => ArcoStored s t "total_column_water" hpa lat lon x
  | "qs" => ∃ dewpoint ps, ArcoStored s t "2m_dewpoint_temperature" hpa lat lon dewpoint ∧
      ArcoStored s t "surface_pressure" hpa lat lon ps ∧ x = calculateHumidity dewpoint ps
  | "precip" => ∃ tp e, ArcoStored s t "total_precipitation" hpa lat lon tp ∧
      ArcoStored s t "evaporation" hpa lat lon e ∧ x = (precipEvapEra5 tp e dt).1
  | "evap" => ∃ e, ArcoStored s t "evaporation" hpa lat lon e ∧ ∀ tp, x = (precipEvapEra5 tp e dt).2
  | _ => False

end Wam.Spec

namespace Wam.Spec

/-! ### Complete input data -/

variable {κ α : Type}

/-- a file that covers the grid `g` at time `t`, without repeated labels -/
structure FileCovers (file : RawFile κ α) (t : ℤ) (g : List κ × List κ) : Prop where
  time : file.timeName = "time" ∨ file.timeName = "valid_time"
  once : file.times.count t = 1
  lat : file.latitude.Nodup ∧ ∀ x ∈ g.1, x ∈ file.latitude
  lon : file.longitude.Nodup ∧ ∀ x ∈ g.2, x ∈ file.longitude

/-- the files for ERA5 are all there: the template names a file for every variable that is needed, it has the time
and covers the grid of the humidity file, and files of the variables with levels have all levels of the configuration -/
structure Era5Complete (cfg : InputConfig) (disk : List Char → Except Err (RawFile κ α)) (t : ℤ)
    (levels : List ℤ) (g : List κ × List κ) : Prop where
  grid : ∃ file, Era5File cfg disk "q" t file ∧ g = (file.latitude, file.longitude)
  profile : ∀ var ∈ ["q", "u", "v"], ∃ file, Era5File cfg disk var t file ∧ FileCovers file t g ∧
    file.levelName ∈ [some "level", some "lev", some "pressure_level", some "model_level"] ∧
    ∀ l ∈ levels, file.levels.count (l : ℚ) = 1
  surface : ∀ var ∈ ["sp", "e", "tp"] ++
      (if cfg.levelType = .pressure_levels then ["d2m", "u10", "v10"] else []),
    ∃ file, Era5File cfg disk var t file ∧ FileCovers file t g ∧ file.levelName = none
  tcw : (∃ path, formatTemplate cfg.template (era5Args cfg.calendar (cfg.levelType = .pressure_levels) "tcw" t) =
      .ok path ∧ disk path = .error .fileNotFound) ∨
    ∃ file, Era5File cfg disk "tcw" t file ∧ FileCovers file t g ∧ file.levelName = none

end Wam.Spec

namespace Wam.Spec

variable {κ α : Type}

/-- the ARCO-ERA5 store has the time and the levels, no label is repeated -/
structure ArcoComplete (s : ArcoStore κ α) (t : ℤ) (levels : List ℤ) : Prop where
  valid : s.validStart ≤ t ∧ t ≤ s.validStop
  once : s.times.count t = 1
  levels : ∀ l ∈ levels, s.levels.count (l : ℚ) = 1
  lat : s.latitude.Nodup
  lon : s.longitude.Nodup

/-- the files of a CMIP variable: the template names at least one, all have the same axes (without repeated labels) and
these cover the grid `g` -/
structure CmipAxes (cfg : InputConfig) (glob : List Char → List (RawFile κ α)) (var : String)
    (files : List (RawFile κ α)) (g axes : List κ × List κ) : Prop where
  path : ∃ path, formatCmip cfg.template var.toList = .ok path ∧ glob path = files
  some : files ≠ []
  time : ∀ f ∈ files, f.timeName = "time"
  lat : axes.1.Nodup ∧ (∀ x ∈ g.1, x ∈ axes.1) ∧ ∀ f ∈ files, f.latitude = axes.1
  lon : axes.2.Nodup ∧ (∀ x ∈ g.2, x ∈ axes.2) ∧ ∀ f ∈ files, f.longitude = axes.2

/-- the files of a variable hold time `t` exactly once -/
def OneSample (files : List (RawFile κ α)) (t : ℤ) : Prop :=
  (files.map fun f => f.times).flatten.count t = 1

/-- The CMIP files are all there.  The variables at the surface and on levels have the time, the three-hourly ones are
complete for the days of their files: each starts at 01:30 and holds an even number of samples without gaps. -/
structure CmipComplete (cfg : InputConfig) (glob : List Char → List (RawFile κ α)) (t : ℤ)
    (g : List κ × List κ) : Prop where
  /-- midnight, 6:00, 12:00 or 18:00 -/
  sixHourly : t % minutes 360 = 0
  grid : ∃ files, CmipAxes cfg glob "hus" files g g
  profile : ∀ var ∈ ["hus", "ua", "va"], ∃ files axes, CmipAxes cfg glob var files g axes ∧ OneSample files t ∧
    ∃ ls : List ℚ, ls.Nodup ∧ ∃ name ∈ ["plev", "level"], ∀ f ∈ files, f.levelName = some name ∧ f.levels = ls
  surface : ∀ var ∈ ["ps", "huss", "uas", "vas"], ∃ files axes, CmipAxes cfg glob var files g axes ∧
    OneSample files t ∧ ∀ f ∈ files, f.levelName = none
  fluxes : ∀ var ∈ ["pr", "hfls"], ∃ files axes, CmipAxes cfg glob var files g axes ∧
    OneSample files (t - minutes 270) ∧ (∀ f ∈ files, f.levelName = none) ∧
    ∀ f ∈ files, ThreeHourlyFile f ∧ ∃ t0, f.times.head? = some t0 ∧ t0 % minutes 1440 = minutes 90

end Wam.Spec
