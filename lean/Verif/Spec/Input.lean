import Verif.Model.Input

/-! # Specification: where the numbers of the preprocessing input come from -/

namespace Wam.Spec

variable {κ α : Type}

/-- The file holds the number `x` for time `t`, latitude `lat` and longitude `lon` -- and level `l`, or it has no
levels (`none`).  Positions and the order of the axes do not matter. -/
def StoredAt (file : RawFile κ α) (t : ℤ) (level : Option ℚ) (lat lon : κ) (x : α) : Prop :=
  ∃ n k i j, file.times[n]? = some t ∧ file.latitude[i]? = some lat ∧ file.longitude[j]? = some lon ∧
    (match level with | none => file.levelName = none ∧ k = 0 | some l => file.levels[k]? = some l) ∧
    file.value n k i j = x

/-- the file for a raw variable and a time according to the template of the configuration -/
def Era5File (cfg : InputConfig) (disk : List Char → Except Err (RawFile κ α)) (var : String) (t : ℤ)
    (file : RawFile κ α) : Prop :=
  ∃ path, formatTemplate cfg.template (era5Args cfg.calendar (cfg.levelType = .pressure_levels) var t) =
    .ok path ∧ disk path = .ok file

/-- the number `x` of raw variable `var` at time `t`, level `level`, latitude `lat`, longitude `lon` is on disk -/
def OnDisk (cfg : InputConfig) (disk : List Char → Except Err (RawFile κ α)) (var : String) (t : ℤ)
    (level : Option ℚ) (lat lon : κ) (x : α) : Prop :=
  ∃ file, Era5File cfg disk var t file ∧ StoredAt file t level lat lon x

/-- The numbers `xs` of a profile over the levels `ls` are on disk, one for each level. -/
def ProfileOnDisk (cfg : InputConfig) (disk : List Char → Except Err (RawFile κ α)) (var : String) (t : ℤ)
    (ls : List ℚ) (lat lon : κ) (xs : List α) : Prop :=
  xs.length = ls.length ∧
    ∀ (k : ℕ) l x, ls[k]? = some l → xs[k]? = some x → OnDisk cfg disk var t (some l) lat lon x

/-- The levels that are used: those of the configuration in this order, or with "All" those of the
humidity file. -/
def UsedLevels (cfg : InputConfig) (disk : List Char → Except Err (RawFile κ α)) (t : ℤ) (ls : List ℚ) :
    Prop :=
  match cfg.levels with
  | .list levels => ls = levels.map fun l : ℤ => (l : ℚ)
  | .all => ∃ file, Era5File cfg disk "q" t file ∧ ls = file.levels

/-- All numbers that the preprocessing uses for one grid cell come from the files of the given time at the
latitude `lat` and longitude `lon` of that cell and the levels `ls`; surface humidity, precipitation and
evaporation are computed from such numbers. -/
structure CellFromDisk [Add α] [Sub α] [Mul α] [Div α] [NpOps α] [NpExp α] (cfg : InputConfig)
    (disk : List Char → Except Err (RawFile κ α)) (t : ℤ) (ls : List ℚ) (lat lon : κ)
    (raw : RawInput κ α) (i j : ℕ) : Prop where
  q : ProfileOnDisk cfg disk "q" t ls lat lon (raw.column i j).q
  u : ProfileOnDisk cfg disk "u" t ls lat lon (raw.column i j).u
  v : ProfileOnDisk cfg disk "v" t ls lat lon (raw.column i j).v
  ps : OnDisk cfg disk "sp" t none lat lon (raw.surface i j).ps
  us : cfg.levelType = .pressure_levels → OnDisk cfg disk "u10" t none lat lon (raw.surface i j).us
  vs : cfg.levelType = .pressure_levels → OnDisk cfg disk "v10" t none lat lon (raw.surface i j).vs
  qs : cfg.levelType = .pressure_levels → ∃ dewpoint ps, OnDisk cfg disk "d2m" t none lat lon dewpoint ∧
    OnDisk cfg disk "sp" t none lat lon ps ∧ (raw.surface i j).qs = calculateHumidity dewpoint ps
  precip : ∃ tp e, OnDisk cfg disk "tp" t none lat lon tp ∧ OnDisk cfg disk "e" t none lat lon e ∧
    raw.precip i j = (precipEvapEra5 tp e (NpOps.ofRat cfg.nseconds)).1
  evap : ∃ e, OnDisk cfg disk "e" t none lat lon e ∧
    ∀ tp, raw.evap i j = (precipEvapEra5 tp e (NpOps.ofRat cfg.nseconds)).2
  tcw : ∀ g, raw.tcw = some g → OnDisk cfg disk "tcw" t none lat lon (g i j)

end Wam.Spec
