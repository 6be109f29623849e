import Verif.Model.Pipeline
import Verif.Spec.Run
import Verif.Spec.IO
import Verif.Spec.PrepInput

/-! # Specification: an experiment from the raw files to the output -/

namespace Wam.Spec

variable {κ K : Type}

/-- ERA5 files without unphysical numbers: as `PhysicalEra5`, with a layer boundary strictly between the top of the
atmosphere and the surface, and no dry column -/
structure MoistEra5 [Add K] [Sub K] [Mul K] [Div K] [NpOps K] [NpExp K] [Zero K] [LE K] [LT K]
    (cfg : InputConfig) (disk : List Char → Except Err (RawFile κ K)) (t : ℤ) (lay : LayerConfig K)
    (levels : List ℤ) (g : List κ × List κ) : Prop extends PhysicalEra5 cfg disk t lay levels g where
  boundary : ∀ lat ∈ g.1, ∀ lon ∈ g.2, ∀ x, OnDisk cfg disk "sp" t none lat lon x →
    0 < lay.factor * x + lay.offset ∧ lay.factor * x + lay.offset < x
  tcw : ∀ lat ∈ g.1, ∀ lon ∈ g.2, ∀ x, OnDisk cfg disk "tcw" t none lat lon x → 0 < x

/-- ERA5 files on model levels without unphysical numbers: humidity and total column water are positive, and the surface pressure is
at least 303.31 hPa (below that the pressures of the 137 levels are not ordered) -/
structure MoistModelLevels [Zero K] [LE K] [LT K] [OfNat K 30331]
    (cfg : InputConfig) (disk : List Char → Except Err (RawFile κ K)) (t : ℤ) (levels : List ℤ) (g : List κ × List κ) :
    Prop where
  ps : ∀ lat ∈ g.1, ∀ lon ∈ g.2, ∀ x, OnDisk cfg disk "sp" t none lat lon x → 30331 ≤ x
  q : ∀ lat ∈ g.1, ∀ lon ∈ g.2, ∀ l ∈ levels, ∀ x, OnDisk cfg disk "q" t (some (l : ℚ)) lat lon x → 0 < x
  tcw : ∀ lat ∈ g.1, ∀ lon ∈ g.2, ∀ x, OnDisk cfg disk "tcw" t none lat lon x → 0 < x

/-- levels as the configuration should list them: downwards, and some of them in each of the two layers -/
structure TwoLayers (levels : List ℤ) (boundary : ℤ) : Prop where
  table : ∀ l ∈ levels, 1 ≤ l ∧ l ≤ 137
  down : levels.Pairwise (· < ·)
  upper : ∃ l ∈ levels, l ≤ boundary
  lower : ∃ l ∈ levels, boundary < l

/-- an ARCO-ERA5 store without unphysical numbers at time `t` -/
structure MoistArco [Add K] [Sub K] [Mul K] [Div K] [NpOps K] [NpExp K] [Zero K] [LE K] [LT K]
    (s : ArcoStore κ K) (t : ℤ) (lay : LayerConfig K) (levels : List ℤ) : Prop where
  ps : ∀ lat ∈ s.latitude, ∀ lon ∈ s.longitude, ∀ x, ArcoStored s t "surface_pressure" none lat lon x →
    0 < x ∧ 0 < lay.factor * x + lay.offset ∧ lay.factor * x + lay.offset < x
  q : ∀ lat ∈ s.latitude, ∀ lon ∈ s.longitude, ∀ l ∈ levels, ∀ x,
    ArcoStored s t "specific_humidity" (some (l : ℚ)) lat lon x → 0 < x
  dewpoint : ∀ lat ∈ s.latitude, ∀ lon ∈ s.longitude, ∀ T p, ArcoStored s t "2m_dewpoint_temperature" none lat lon T →
    ArcoStored s t "surface_pressure" none lat lon p → saturationPressure T < p
  tcw : ∀ lat ∈ s.latitude, ∀ lon ∈ s.longitude, ∀ x, ArcoStored s t "total_column_water" none lat lon x → 0 < x

/-- CMIP files without unphysical numbers at time `t`, with some pressure level that humidity and wind share.  Latent heat is not
negative: with dew the program may compute a negative precipitation (C50). -/
structure MoistCmip [Add K] [Sub K] [Mul K] [Div K] [NpOps K] [Zero K] [LE K] [LT K]
    (cfg : InputConfig) (glob : List Char → List (RawFile κ K)) (t : ℤ) (lay : LayerConfig K) (g : List κ × List κ) : Prop where
  level : ∃ l, SomeFileHas cfg glob "hus" RawFile.levels l ∧ SomeFileHas cfg glob "ua" RawFile.levels l ∧
    SomeFileHas cfg glob "va" RawFile.levels l
  levels : ∀ l, SomeFileHas cfg glob "hus" RawFile.levels l → 0 < l
  ps : ∀ lat ∈ g.1, ∀ lon ∈ g.2, ∀ x, CmipStored cfg glob "ps" t none lat lon x →
    0 < x ∧ 0 < lay.factor * x + lay.offset ∧ lay.factor * x + lay.offset < x
  q : ∀ lat ∈ g.1, ∀ lon ∈ g.2, ∀ l x, CmipStored cfg glob "hus" t (some l) lat lon x → 0 < x
  qs : ∀ lat ∈ g.1, ∀ lon ∈ g.2, ∀ x, CmipStored cfg glob "huss" t none lat lon x → 0 < x
  hfls : ∀ lat ∈ g.1, ∀ lon ∈ g.2, ∀ x, SixHourMean cfg glob "hfls" t none lat lon x → 0 ≤ x

/-- preprocessed data of one time on a grid that make sense: both layers hold water, precipitation and evaporation are not
negative -/
structure MoistData [Zero K] [LT K] [LE K] (ds : Dataset κ K) : Prop where
  s_upper : ∀ i < ds.latitude.length, ∀ j < ds.longitude.length, 0 < ds.data .s_upper i j
  s_lower : ∀ i < ds.latitude.length, ∀ j < ds.longitude.length, 0 < ds.data .s_lower i j
  precip : ∀ i < ds.latitude.length, ∀ j < ds.longitude.length, 0 ≤ ds.data .precip i j
  evap : ∀ i < ds.latitude.length, ∀ j < ds.longitude.length, 0 ≤ ds.data .evap i j

/-- Between two consecutive input times (multiples of `freq` in `[A, B]`) the quantity `x` is interpolated linearly. -/
def LinearBetween [Field K] (freq A B : ℤ) (x : ℤ → K) : Prop :=
  ∀ s t, freq ∣ s → A ≤ s → s + freq ≤ B → s ≤ t → t ≤ s + freq →
    x t * (freq : ℤ) = x s * (s + freq - t : ℤ) + x (s + freq) * (t - s : ℤ)

/-- The axes `lat`, `lon` are what is left of `lat₀`, `lon₀` in the tracking domain: everything without a domain; else the rows
from north to south, and the columns from west to east.  A domain whose west side is east of its east side goes across the date
line: its columns come from west to east too, without its west and east side; it is the whole circle if no column is outside. -/
def CutTo [LinearOrder K] (dom : Option (BoundingBox K)) (lat₀ lon₀ lat lon : List K) : Prop :=
  match dom with
  | none => lat = lat₀ ∧ lon = lon₀
  | some box => lat₀.Pairwise (· > ·) ∧ lon₀.Pairwise (· < ·) ∧ 2 ≤ lat₀.length ∧ box.south ≤ box.north ∧
      lat = lat₀.filter (fun y => decide (box.south ≤ y ∧ y ≤ box.north)) ∧
      (box.west < box.east → lon = lon₀.filter fun x => decide (box.west ≤ x ∧ x ≤ box.east)) ∧
      (box.east ≤ box.west → (∃ x ∈ lon₀, box.east ≤ x ∧ x ≤ box.west) →
        lon = (lon₀.filter fun x => decide (box.west < x)) ++ lon₀.filter fun x => decide (x < box.east)) ∧
      (box.east ≤ box.west → (¬ ∃ x ∈ lon₀, box.east ≤ x ∧ x ≤ box.west) → lon = lon₀)

/-- cell `i₀, j₀` of the grid `lat₀`, `lon₀` is the place of cell `i, j` of the grid `lat`, `lon`; without a domain it is the same
cell -/
def SamePlace (dom : Option (BoundingBox K)) (lat₀ lon₀ lat lon : List K) (i j i₀ j₀ : ℕ) : Prop :=
  (∃ y, lat₀[i₀]? = some y ∧ lat[i]? = some y) ∧ (∃ x, lon₀[j₀]? = some x ∧ lon[j]? = some x) ∧
    (dom = none → i₀ = i ∧ j₀ = j)

/-- The numbers of one cell of the input of a run are those of one cell of preprocessed data. -/
structure CellsAgree {m n : ℕ} (s : States (m + 2) (n + 2) K) (f : Fluxes (m + 2) (n + 2) K) (i : Fin (m + 2)) (j : Fin (n + 2))
    (ds : Dataset κ K) (i₀ j₀ : ℕ) : Prop where
  s_upper : s.s_upper i j = ds.data .s_upper i₀ j₀
  s_lower : s.s_lower i j = ds.data .s_lower i₀ j₀
  fx_upper : f.fx_upper i j = ds.data .fx_upper i₀ j₀
  fx_lower : f.fx_lower i j = ds.data .fx_lower i₀ j₀
  fy_upper : f.fy_upper i j = ds.data .fy_upper i₀ j₀
  fy_lower : f.fy_lower i j = ds.data .fy_lower i₀ j₀
  precip : f.precip i j = ds.data .precip i₀ j₀
  evap : f.evap i j = ds.data .evap i₀ j₀

/-- The input `inp` of a run is what preprocessing (`compute`) makes of the raw data, in the tracking domain: at input times
exactly, in between by linear interpolation. -/
structure InputFrom {m n : ℕ} [Field K] (compute : ℤ → Except Err (Dataset K K)) (freq A B : ℤ)
    (dom : Option (BoundingBox K)) (lat lon : List K) (inp : Input m n K) : Prop where
  at_input_times : ∀ t, A ≤ t → t ≤ B → freq ∣ t → ∃ ds, compute t = .ok ds ∧
    ∀ (i : Fin (m + 2)) (j : Fin (n + 2)), ∃ i₀ j₀, SamePlace dom ds.latitude ds.longitude lat lon i j i₀ j₀ ∧
      CellsAgree (inp.states t) (inp.fluxes t) i j ds i₀ j₀
  s_upper : ∀ i j, LinearBetween freq A B fun t => (inp.states t).s_upper i j
  s_lower : ∀ i j, LinearBetween freq A B fun t => (inp.states t).s_lower i j
  fx_upper : ∀ i j, LinearBetween freq A B fun t => (inp.fluxes t).fx_upper i j
  fx_lower : ∀ i j, LinearBetween freq A B fun t => (inp.fluxes t).fx_lower i j
  fy_upper : ∀ i j, LinearBetween freq A B fun t => (inp.fluxes t).fy_upper i j
  fy_lower : ∀ i j, LinearBetween freq A B fun t => (inp.fluxes t).fy_lower i j
  precip : ∀ i j, LinearBetween freq A B fun t => (inp.fluxes t).precip i j
  evap : ∀ i j, LinearBetween freq A B fun t => (inp.fluxes t).evap i j

/-- `x` is 1 if the place is inside the bounding box and 0 if it is outside; a box whose west side is east of its east side
goes across the date line -/
def BoxMask [Zero K] [One K] [LE K] [LT K] (box : BoundingBox K) (lat lon x : K) : Prop :=
  let inside := box.south ≤ lat ∧ lat ≤ box.north ∧
    ((box.west ≤ box.east ∧ box.west ≤ lon ∧ lon ≤ box.east) ∨
      (box.east < box.west ∧ (box.west ≤ lon ∨ lon ≤ box.east)))
  (inside → x = 1) ∧ (¬ inside → x = 0)

/-- `x` is the value of the tagging region at time `t` in row `i` and column `j` of a grid: inside or outside the box, or the
number that the file has for that place; a file with a time axis counts with its time nearest to `t` -/
def RegionValue [Zero K] [One K] [LE K] [LT K] (dom : Option (BoundingBox K)) (tag : TaggingRegion K K) (lat lon : List K) (t : ℤ)
    (i j : ℕ) (x : K) : Prop :=
  match tag with
  | .box box => ∃ y z, lat[i]? = some y ∧ lon[j]? = some z ∧ BoxMask box y z x
  | .file (.error _) => False
  | .file (.ok r) => ∃ i₀ j₀, SamePlace dom r.latitude r.longitude lat lon i j i₀ j₀ ∧
    match r.time with
    | none => x = r.mask 0 i₀ j₀
    | some times => ∃ (k : ℕ) (tk : ℤ), times[k]? = some tk ∧ (∀ s ∈ times, |tk - t| ≤ |s - t|) ∧ x = r.mask k i₀ j₀

/-- a tagging region that can be used with data on a grid: a box, or a file on that grid that can be read, with non-negative
values, and a time axis (if there is one) that is not empty and increasing -/
def UsableRegion [Zero K] [LE K] (tag : TaggingRegion K K) (lat lon : List K) : Prop :=
  match tag with
  | .box _ => True
  | .file content => ∃ r, content = .ok r ∧ (r.latitude = lat ∧ r.longitude = lon) ∧ (∀ k i j, 0 ≤ r.mask k i j) ∧
      ∀ times, r.time = some times → times ≠ [] ∧ times.Pairwise (· < ·)

/-- The preprocessed data `ds` fit the rest of the configuration: `lat`, `lon` are their axes in the tracking domain, and the tagging
region is a box or on the same grid. -/
structure FitsData [LinearOrder K] [Zero K] (dom : Option (BoundingBox K)) (tag : TaggingRegion K K) (ds : Dataset K K)
    (lat lon : List K) : Prop where
  domain : CutTo dom ds.latitude ds.longitude lat lon
  region : UsableRegion tag ds.latitude ds.longitude

/-- The period of preprocessing: input times from `start` to `stop` every `freq` microseconds, in whole minutes, starting at a
multiple of `freq`, in years with four digits; `last` is an input time. -/
structure PrepPeriod (c : Calendar) (start stop freq last : ℤ) : Prop where
  pos : 0 < freq
  minutes : 60000000 ∣ freq
  first_dvd : freq ∣ start
  last_dvd : freq ∣ last
  le : last ≤ stop
  years : ∀ t, start ≤ t → t ≤ stop → FourDigitYear c t

/-- The tracking period is not empty and lies in `[A, B]`. -/
structure TracksWithin (run : RunConfig K) (A B : ℤ) : Prop where
  timestep_pos : 0 < run.timestep
  start : A ≤ run.tracking_start_date
  ordered : run.tracking_start_date ≤ run.tracking_end_date
  stop : run.tracking_end_date ≤ B

/-- Preprocessing with `compute` from `start` to `stop` followed by a forward run works.  Preprocessing ends without an error.  The
folder it leaves gives the run, at all times of the tracking period, the raw data as preprocessed (in between input
times interpolated linearly) in the tracking domain, and the tagging region on the same grid.  The run ends, and all its
files are sound: tracked water is non-negative and no more than the water there is, as are all fluxes, gains and losses. -/
def ForwardWorks {m n : ℕ} {P : Type} [Field K] [LinearOrder K] [NpOps K] [NpTrig K]
    (compute : ℤ → Except Err (Dataset K K)) (c : Calendar) (dir : List Char) (start stop freq last : ℤ)
    (old : PrepDisk K K) (run : RunConfig K) (dom : Option (BoundingBox K)) (tag : TaggingRegion K K) (path : ℤ → P)
    (out : P → Option (FwdOutput (m + 2) (n + 2) K)) : Prop :=
  ∃ (folder : PrepDisk K K) (inp : Input m n K) (lat lon : List K),
    prepExperiment compute c dir start stop freq old = (none, folder) ∧
    (∀ t, start ≤ t → t ≤ last → freq ∣ t → ∃ ds, compute t = .ok ds ∧ CutTo dom ds.latitude ds.longitude lat lon) ∧
    InputFrom compute freq start last dom lat lon inp ∧
    (∀ t, ∀ (i : Fin (m + 2)) (j : Fin (n + 2)), RegionValue dom tag lat lon t i j (inp.region t i j)) ∧
    let src := experimentSource (m := m) (n := n) folder.files ⟨c, dir, dom, freq⟩ tag run.tracking_start_date
    Runnable run src inp ∧ Physical inp run.tracking_start_date run.tracking_end_date ∧
    ∃ s, EndsIn (fwdRun run src path out) s ∧ ∀ x ∈ s.files, SoundFwd run.periodic_boundary (inp.states x.1) x.2

/-- as `ForwardWorks`, for backward tracking -/
def BackwardWorks {m n : ℕ} {P : Type} [Field K] [LinearOrder K] [NpOps K] [NpTrig K]
    (compute : ℤ → Except Err (Dataset K K)) (c : Calendar) (dir : List Char) (start stop freq last : ℤ)
    (old : PrepDisk K K) (run : RunConfig K) (dom : Option (BoundingBox K)) (tag : TaggingRegion K K) (path : ℤ → P)
    (out : P → Option (BwdOutput (m + 2) (n + 2) K)) : Prop :=
  ∃ (folder : PrepDisk K K) (inp : Input m n K) (lat lon : List K),
    prepExperiment compute c dir start stop freq old = (none, folder) ∧
    (∀ t, start ≤ t → t ≤ last → freq ∣ t → ∃ ds, compute t = .ok ds ∧ CutTo dom ds.latitude ds.longitude lat lon) ∧
    InputFrom compute freq start last dom lat lon inp ∧
    (∀ t, ∀ (i : Fin (m + 2)) (j : Fin (n + 2)), RegionValue dom tag lat lon t i j (inp.region t i j)) ∧
    let src := experimentSource (m := m) (n := n) folder.files ⟨c, dir, dom, freq⟩ tag run.tracking_end_date
    Runnable run src inp ∧ Physical inp run.tracking_start_date run.tracking_end_date ∧
    ∃ s, EndsIn (bwdRun run src path out) s ∧ ∀ x ∈ s.files, SoundBwd run.periodic_boundary (inp.states x.1) x.2

/-- a run that restarts finds a file with non-negative tracked water -/
def RestartFwd {m n : ℕ} {P : Type} [Zero K] [LE K] (run : RunConfig K) (path : ℤ → P)
    (out : P → Option (FwdOutput (m + 2) (n + 2) K)) : Prop :=
  run.restart = true → ∃ f, out (path run.tracking_start_date) = some f ∧
    ∀ i j, 0 ≤ f.s_track_lower i j ∧ 0 ≤ f.s_track_upper i j

def RestartBwd {m n : ℕ} {P : Type} [Zero K] [LE K] (run : RunConfig K) (path : ℤ → P)
    (out : P → Option (BwdOutput (m + 2) (n + 2) K)) : Prop :=
  run.restart = true → ∃ f, out (path run.tracking_end_date) = some f ∧
    ∀ i j, 0 ≤ f.s_track_lower i j ∧ 0 ≤ f.s_track_upper i j

end Wam.Spec
