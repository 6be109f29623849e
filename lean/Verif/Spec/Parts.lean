import Verif.Spec.Compare

/-! # Specification: a run that is divided into parts

Each part has the weather of the whole run, its own tagging region, tagging dates and output folder, and may continue from its own
file. -/

namespace Wam.Spec

variable {m n : ℕ} {K : Type*} {P ω ι : Type*}

/-- what a part may choose for itself -/
structure Part (m n : ℕ) (K P ω : Type*) where
  tagging_start_date : ℤ
  tagging_end_date : ℤ
  restart : Bool
  src : Source m n K
  inp : Input m n K
  path : ℤ → P
  disk : P → Option ω

/-- the configuration of a part: that of the whole run except tagging dates and restart -/
def Part.cfg (part : Part m n K P ω) (cfg : RunConfig K) : RunConfig K :=
  { cfg with
    tagging_start_date := part.tagging_start_date
    tagging_end_date := part.tagging_end_date
    restart := part.restart }

/-- the fraction of the water that is tagged at time `t`: that of the region inside the (closed) tagging period, else none -/
def tagged [Zero K] (cfg : RunConfig K) (inp : Input m n K) (t : ℤ) : Arr (m + 2) (n + 2) K := fun i j =>
  if cfg.tagging_start_date ≤ t ∧ t ≤ cfg.tagging_end_date then inp.region t i j else 0

/-- the sum of datasets, variable by variable and cell by cell -/
def fwdSum [AddCommMonoid K] [Fintype ι] (y : ι → FwdOutput m n K) : FwdOutput m n K :=
  { s_track_lower := fun i j => ∑ l, (y l).s_track_lower i j
    s_track_upper := fun i j => ∑ l, (y l).s_track_upper i j
    p_track_lower := fun i j => ∑ l, (y l).p_track_lower i j
    p_track_upper := fun i j => ∑ l, (y l).p_track_upper i j
    tagged_evap := fun i j => ∑ l, (y l).tagged_evap i j
    losses := fun i j => ∑ l, (y l).losses i j
    gains := fun i j => ∑ l, (y l).gains i j }

/-- the sum of datasets, variable by variable and cell by cell -/
def bwdSum [AddCommMonoid K] [Fintype ι] (y : ι → BwdOutput m n K) : BwdOutput m n K :=
  { s_track_lower := fun i j => ∑ l, (y l).s_track_lower i j
    s_track_upper := fun i j => ∑ l, (y l).s_track_upper i j
    e_track := fun i j => ∑ l, (y l).e_track i j
    tagged_precip := fun i j => ∑ l, (y l).tagged_precip i j
    losses := fun i j => ∑ l, (y l).losses i j
    gains := fun i j => ∑ l, (y l).gains i j }

/-- The forward run is divided into parts: the same weather, grid and period, and at the beginning of every time step the parts
together tag what the whole run tags, none of them less than nothing; and they start with the tracked water of the whole run,
divided. -/
structure DividedFwd [AddCommMonoid K] [LE K] [Fintype ι] (cfg : RunConfig K) (src : Source m n K) (inp : Input m n K) (path : ℤ → P)
    (disk : P → Option (FwdOutput (m + 2) (n + 2) K)) (part : ι → Part m n K P (FwdOutput (m + 2) (n + 2) K)) : Prop where
  runnable : ∀ l, Runnable ((part l).cfg cfg) (part l).src (part l).inp
  grid : ∀ l, (part l).src.grid = src.grid
  weather : ∀ l, SameWeather inp (part l).inp
  region : ∀ l t, cfg.tracking_start_date ≤ t → t ≤ cfg.tracking_end_date → ∀ i j, 0 ≤ (part l).inp.region t i j
  tags : ∀ k : ℕ, cfg.tracking_start_date + (k + 1) * (cfg.timestep * 1000000) ≤ cfg.tracking_end_date →
    let t := cfg.tracking_start_date + k * (cfg.timestep * 1000000)
    ∀ i j, tagged cfg inp t i j = ∑ l, tagged ((part l).cfg cfg) (part l).inp t i j
  start_nonneg : ∀ l i j, 0 ≤ (startFwd ((part l).cfg cfg) (part l).path (part l).disk).1 i j ∧
    0 ≤ (startFwd ((part l).cfg cfg) (part l).path (part l).disk).2 i j
  start : ∀ i j,
    (startFwd cfg path disk).1 i j = ∑ l, (startFwd ((part l).cfg cfg) (part l).path (part l).disk).1 i j ∧
    (startFwd cfg path disk).2 i j = ∑ l, (startFwd ((part l).cfg cfg) (part l).path (part l).disk).2 i j

/-- The same for a backward run, in which a time step begins at its later end. -/
structure DividedBwd [AddCommMonoid K] [LE K] [Fintype ι] (cfg : RunConfig K) (src : Source m n K) (inp : Input m n K) (path : ℤ → P)
    (disk : P → Option (BwdOutput (m + 2) (n + 2) K)) (part : ι → Part m n K P (BwdOutput (m + 2) (n + 2) K)) : Prop where
  runnable : ∀ l, Runnable ((part l).cfg cfg) (part l).src (part l).inp
  grid : ∀ l, (part l).src.grid = src.grid
  weather : ∀ l, SameWeather inp (part l).inp
  region : ∀ l t, cfg.tracking_start_date ≤ t → t ≤ cfg.tracking_end_date → ∀ i j, 0 ≤ (part l).inp.region t i j
  tags : ∀ k : ℕ, cfg.tracking_start_date ≤ cfg.tracking_end_date - (k + 1) * (cfg.timestep * 1000000) →
    let t := cfg.tracking_end_date - k * (cfg.timestep * 1000000)
    ∀ i j, tagged cfg inp t i j = ∑ l, tagged ((part l).cfg cfg) (part l).inp t i j
  start_nonneg : ∀ l i j, 0 ≤ (startBwd ((part l).cfg cfg) (part l).path (part l).disk).1 i j ∧
    0 ≤ (startBwd ((part l).cfg cfg) (part l).path (part l).disk).2 i j
  start : ∀ i j,
    (startBwd cfg path disk).1 i j = ∑ l, (startBwd ((part l).cfg cfg) (part l).path (part l).disk).1 i j ∧
    (startBwd cfg path disk).2 i j = ∑ l, (startBwd ((part l).cfg cfg) (part l).path (part l).disk).2 i j

end Wam.Spec
