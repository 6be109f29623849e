import Verif.Model.Track
import Verif.Model.Time

/-!
# A whole experiment: `run_experiment`, `initialize`, `ProgressTracker`

`/repo/src/wam2layers/tracking/forwardtrack.py:119-226`,
`/repo/src/wam2layers/tracking/backtrack.py:117-215`,
`/repo/src/wam2layers/tracking/shared.py:10-27`,
`/repo/src/wam2layers/utils/profiling.py:32-111`.

A run is a function from configuration, input data and the output folder to an outcome with the
complete log of its observable effects: the data it loaded, the files it wrote (in order) and
the progress it reported.  SIMPLIFICATIONS: the input data are functions of time (`Model/IO`
models how `load_data` computes them from files); `get_grid_info(F)` is the same for all times
because all files share one grid; writing a file is one atomic event (`Props/Run` discusses a
crash in the middle of it); the stability warnings of the tracker are modelled separately
(`Model/Warnings`); text output is left out.
-/

namespace Wam

variable {m n : ℕ} {α : Type*}

/-- Errors (Python exceptions) that can end a run, io.py:66-134 -/
inductive Err where
  | fileNotFound
  | indexError
  | keyError
  | valueError
  | other (msg : String)
  deriving DecidableEq, Repr

/-- The part of `Config` that `run_experiment` uses, `/repo/src/wam2layers/config.py`.  Dates in
microseconds, `timestep` in (whole) seconds, `output_frequency` in microseconds. -/
structure RunConfig (α : Type*) where
  tracking_start_date : ℤ
  tracking_end_date : ℤ
  tagging_start_date : ℤ
  tagging_end_date : ℤ
  timestep : ℤ
  output_frequency : ℤ
  kvf : α
  periodic_boundary : Bool
  restart : Bool

/-- The tagging region: a bounding box or a file with a 2-d mask (stationary) or a file with a
time axis, forwardtrack.py:168-175, backtrack.py:165-172 -/
inductive Region (m n : ℕ) (α : Type*) where
  | stationary (mask : Arr m n α)
  | moving (maskAt : ℤ → Except Err (Arr m n α))

/-- The input of a run: `load_data(t, config, "states")`, `load_data(t, config, "fluxes")`,
`get_grid_info`, `load_tagging_region` and `cos(deg2rad(latitude))` (profiling.py:52). -/
structure Source (m n : ℕ) (α : Type*) where
  states : ℤ → Except Err (States (m + 2) (n + 2) α)
  fluxes : ℤ → Except Err (Fluxes (m + 2) (n + 2) α)
  grid : GridInfo (m + 2) α
  region : Except Err (Region (m + 2) (n + 2) α)
  weight : Fin (m + 2) → α

/-- One call of `load_data` or `load_tagging_region`, io.py:124,137 -/
inductive Load where
  | states (t : ℤ)
  | fluxes (t : ℤ)
  | region (t : ℤ)
  deriving DecidableEq, Repr

section Totals
variable [Add α] [Mul α] [NpOps α]

/-- `DataArray.sum()`: sum of all values, skipping NaN (xarray's default for floats),
profiling.py:53,63,65,75,88,90 -/
def npSum (f : Arr m n α) : α :=
  (List.finRange m).foldl (fun acc i =>
    (List.finRange n).foldl (fun acc j =>
      if NpOps.isnan (f i j) then acc else acc + f i j) acc) (ofRat 0)

/-- `(output[var] * np.cos(np.deg2rad(output["latitude"]))).sum()`, profiling.py:52-53 -/
def weightedTotal (w : Fin m → α) (f : Arr m n α) : α := npSum fun i j => f i j * w i

/-- `area_weighted_output.losses[1:-1, :].sum()` (periodic) or `[1:-1, 1:-1]`, profiling.py:62-65 -/
def interiorTotal (periodic : Bool) (w : Fin (m + 2) → α) (f : Arr (m + 2) (n + 2) α) : α :=
  if periodic then npSum (Arr.rowsInner fun i j => f i j * w i)
  else npSum (Arr.colsInner (Arr.rowsInner fun i j => f i j * w i))

end Totals

/-- The running totals of `ProgressTracker`, profiling.py:36-41 -/
structure Tracker (α : Type*) where
  total_tagged_moisture : α
  tracked : α
  lost_water : α
  gained_water : α
  boundary_transport : α

/-- The numbers `print_progress` reports, profiling.py:100-111 -/
structure Report (α : Type*) where
  tracked_percentage : α
  in_atmos_percentage : α
  boundary_percentage : α
  lost_percentage : α
  gained_percentage : α
  closure_check_percentage : α

section Tracker
variable [Add α] [Sub α] [Mul α] [Div α] [NpOps α]

/-- all totals zero, profiling.py:36-40 -/
def Tracker.zero : Tracker α :=
  { total_tagged_moisture := ofRat 0, tracked := ofRat 0, lost_water := ofRat 0,
    gained_water := ofRat 0, boundary_transport := ofRat 0 }

/-- `store_intermediate_states(output)` in mode "forwardtrack", profiling.py:46-70 -/
def Tracker.storeFwd (periodic : Bool) (w : Fin (m + 2) → α) (tr : Tracker α)
    (o : FwdOutput (m + 2) (n + 2) α) : Tracker α :=
  let interior_losses := interiorTotal periodic w o.losses
  let boundary_transport := weightedTotal w o.losses - interior_losses
  { tracked := tr.tracked + (weightedTotal w o.p_track_lower + weightedTotal w o.p_track_upper)
    total_tagged_moisture := tr.total_tagged_moisture + weightedTotal w o.tagged_evap
    lost_water := tr.lost_water + interior_losses
    boundary_transport := tr.boundary_transport + boundary_transport
    gained_water := tr.gained_water + weightedTotal w o.gains }

/-- `store_intermediate_states(output)` in mode "backtrack", profiling.py:46-70 -/
def Tracker.storeBwd (periodic : Bool) (w : Fin (m + 2) → α) (tr : Tracker α)
    (o : BwdOutput (m + 2) (n + 2) α) : Tracker α :=
  let interior_losses := interiorTotal periodic w o.losses
  let boundary_transport := weightedTotal w o.losses - interior_losses
  { tracked := tr.tracked + weightedTotal w o.e_track
    total_tagged_moisture := tr.total_tagged_moisture + weightedTotal w o.tagged_precip
    lost_water := tr.lost_water + interior_losses
    boundary_transport := tr.boundary_transport + boundary_transport
    gained_water := tr.gained_water + weightedTotal w o.gains }

/-- The percentages of `print_progress`, profiling.py:100-111 -/
def mkReport (tracked total in_atmos lost gained boundary : α) : Report α :=
  let tracked_percentage := tracked / total * ofRat 100
  let in_atmos_percentage := in_atmos / total * ofRat 100
  let lost_percentage := lost / total * ofRat 100
  let gained_percentage := gained / total * ofRat 100
  let boundary_percentage := boundary / total * ofRat 100
  { tracked_percentage, in_atmos_percentage, boundary_percentage, lost_percentage,
    gained_percentage
    closure_check_percentage := tracked_percentage + in_atmos_percentage + lost_percentage +
      gained_percentage + boundary_percentage }

/-- `print_progress(t, output)` in mode "forwardtrack", profiling.py:72-111 -/
def Tracker.reportFwd (periodic : Bool) (w : Fin (m + 2) → α) (tr : Tracker α)
    (o : FwdOutput (m + 2) (n + 2) α) : Report α :=
  let interior_losses := interiorTotal periodic w o.losses
  let boundary_transport := weightedTotal w o.losses - interior_losses
  mkReport
    (tr.tracked + weightedTotal w o.p_track_upper + weightedTotal w o.p_track_lower)
    (tr.total_tagged_moisture + weightedTotal w o.tagged_evap)
    (weightedTotal w o.s_track_upper + weightedTotal w o.s_track_lower)
    (tr.lost_water + interior_losses)
    (tr.gained_water + weightedTotal w o.gains)
    (tr.boundary_transport + boundary_transport)

/-- `print_progress(t, output)` in mode "backtrack", profiling.py:72-111 -/
def Tracker.reportBwd (periodic : Bool) (w : Fin (m + 2) → α) (tr : Tracker α)
    (o : BwdOutput (m + 2) (n + 2) α) : Report α :=
  let interior_losses := interiorTotal periodic w o.losses
  let boundary_transport := weightedTotal w o.losses - interior_losses
  mkReport
    (tr.tracked + weightedTotal w o.e_track)
    (tr.total_tagged_moisture + weightedTotal w o.tagged_precip)
    (weightedTotal w o.s_track_upper + weightedTotal w o.s_track_lower)
    (tr.lost_water + interior_losses)
    (tr.gained_water + weightedTotal w o.gains)
    (tr.boundary_transport + boundary_transport)

end Tracker

/-! ### The loop -/

/-- State of the `while` loop of `run_experiment` (`ω` is the dataset `output`), together with the
log of effects so far: data loaded, files written and progress reports, in chronological order.
(forwardtrack.py:158-226, backtrack.py:155-215) -/
structure LoopState (ω α : Type*) where
  t0 : ℤ
  th : ℤ
  t1 : ℤ
  output : ω
  tracker : Tracker α
  loads : List Load
  files : List (ℤ × ω)
  reports : List (ℤ × Report α)

/-- How a run ends: normally, with an exception (with the state before the failing iteration), or
not within the given number of iterations.  (forwardtrack.py:158-226, backtrack.py:155-215) -/
inductive Outcome (σ : Type*) where
  | finished (s : σ)
  | raised (e : Err) (s : σ)
  | stillRunning (s : σ)

/-- `while guard: body`, cut off after `fuel` iterations, forwardtrack.py:177, backtrack.py:174 -/
def whileLoop {σ : Type*} (guard : σ → Bool) (body : σ → Except Err σ) : ℕ → σ → Outcome σ
  | 0, s => if guard s then .stillRunning s else .finished s
  | fuel + 1, s =>
    if guard s then
      match body s with
      | .ok s' => whileLoop guard body fuel s'
      | .error e => .raised e s
    else .finished s

/-- `tagging_mask`: the region if the time lies in the tagging window, else 0.
forwardtrack.py:190-199 (with `t = t0`), backtrack.py:186-191 (with `t = t1`).
Also returns what was loaded. -/
def taggingMask [NpOps α] (cfg : RunConfig α) (region : Region (m + 2) (n + 2) α) (t : ℤ) :
    Except Err (Arr (m + 2) (n + 2) α × List Load) :=
  if cfg.tagging_start_date ≤ t ∧ t ≤ cfg.tagging_end_date then
    match region with
    | .stationary mask => .ok (mask, [])
    | .moving maskAt =>
      match maskAt t with
      | .ok mask => .ok (mask, [.region t])
      | .error e => .error e
  else .ok (fun _ _ => ofRat 0, [])

section Scale
variable [Mul α]

/-- `F["fx_" + level] *= dy; F["fy_" + level] *= dx`, forwardtrack.py:184-187, backtrack.py:181-183 -/
def scaleFluxes {m n : ℕ} (g : GridInfo m α) (F : Fluxes m n α) : Fluxes m n α :=
  { F with
    fx_upper := fun i j => F.fx_upper i j * g.dy
    fy_upper := fun i j => F.fy_upper i j * g.dx i
    fx_lower := fun i j => F.fx_lower i j * g.dy
    fy_lower := fun i j => F.fy_lower i j * g.dx i }

end Scale

section Run
variable [Add α] [Sub α] [Mul α] [Div α] [Neg α] [NpOps α]

/-- `dt = pd.Timedelta(seconds=config.timestep)` in microseconds, tracking/shared.py:14 -/
def RunConfig.dt (cfg : RunConfig α) : ℤ := cfg.timestep * usPerSecond

/-- `dt / 2`, tracking/shared.py:18,22 (exact: `dt` is a whole number of seconds) -/
def RunConfig.halfDt (cfg : RunConfig α) : ℤ := cfg.timestep * 500000

/-- empty output, forwardtrack.py:128-139 -/
def FwdOutput.zeros : FwdOutput (m + 2) (n + 2) α :=
  { s_track_upper := fun _ _ => ofRat 0, s_track_lower := fun _ _ => ofRat 0
    p_track_upper := fun _ _ => ofRat 0, p_track_lower := fun _ _ => ofRat 0
    tagged_evap := fun _ _ => ofRat 0, losses := fun _ _ => ofRat 0, gains := fun _ _ => ofRat 0 }

/-- empty output, backtrack.py:126-136 -/
def BwdOutput.zeros : BwdOutput (m + 2) (n + 2) α :=
  { s_track_upper := fun _ _ => ofRat 0, s_track_lower := fun _ _ => ofRat 0
    e_track := fun _ _ => ofRat 0, tagged_precip := fun _ _ => ofRat 0
    losses := fun _ _ => ofRat 0, gains := fun _ _ => ofRat 0 }

/-- `output[["p_track_upper", ...]] *= 0`, forwardtrack.py:222-224 -/
def FwdOutput.flush (o : FwdOutput (m + 2) (n + 2) α) : FwdOutput (m + 2) (n + 2) α :=
  { o with
    p_track_upper := fun i j => o.p_track_upper i j * ofRat 0
    p_track_lower := fun i j => o.p_track_lower i j * ofRat 0
    tagged_evap := fun i j => o.tagged_evap i j * ofRat 0
    losses := fun i j => o.losses i j * ofRat 0
    gains := fun i j => o.gains i j * ofRat 0 }

/-- `output[["e_track", "tagged_precip", "losses", "gains"]] *= 0`, backtrack.py:213 -/
def BwdOutput.flush (o : BwdOutput (m + 2) (n + 2) α) : BwdOutput (m + 2) (n + 2) α :=
  { o with
    e_track := fun i j => o.e_track i j * ofRat 0
    tagged_precip := fun i j => o.tagged_precip i j * ofRat 0
    losses := fun i j => o.losses i j * ofRat 0
    gains := fun i j => o.gains i j * ofRat 0 }

/-- `initialize`, forwardtrack.py:119-149.  `disk` is the output folder, `path` is `output_path`
for the configuration (io.py:28-31). -/
def fwdInitialize {P : Type*} (cfg : RunConfig α) (src : Source m n α) (path : ℤ → P)
    (disk : P → Option (FwdOutput (m + 2) (n + 2) α)) :
    Except Err (FwdOutput (m + 2) (n + 2) α) :=
  match src.states cfg.tracking_start_date with
  | .error e => .error e
  | .ok _ =>
    if cfg.restart then
      match disk (path cfg.tracking_start_date) with
      | none => .error .fileNotFound
      | some ds => .ok { FwdOutput.zeros with
          s_track_upper := ds.s_track_upper, s_track_lower := ds.s_track_lower }
    else .ok FwdOutput.zeros

/-- `initialize`, backtrack.py:117-146 -/
def bwdInitialize {P : Type*} (cfg : RunConfig α) (src : Source m n α) (path : ℤ → P)
    (disk : P → Option (BwdOutput (m + 2) (n + 2) α)) :
    Except Err (BwdOutput (m + 2) (n + 2) α) :=
  match src.states cfg.tracking_end_date with
  | .error e => .error e
  | .ok _ =>
    if cfg.restart then
      match disk (path cfg.tracking_end_date) with
      | none => .error .fileNotFound
      | some ds => .ok { BwdOutput.zeros with
          s_track_upper := ds.s_track_upper, s_track_lower := ds.s_track_lower }
    else .ok BwdOutput.zeros

/-- State before the loop: `initialize`, `ProgressTracker(output, ...)` and `initialize_time`,
forwardtrack.py:160-166, tracking/shared.py:10-27 -/
def fwdStart (cfg : RunConfig α) (src : Source m n α) (o : FwdOutput (m + 2) (n + 2) α) :
    LoopState (FwdOutput (m + 2) (n + 2) α) α :=
  let t0 := cfg.tracking_start_date
  { t0 := t0, th := t0 + cfg.halfDt, t1 := t0 + cfg.dt, output := o
    tracker := Tracker.zero.storeFwd cfg.periodic_boundary src.weight o
    loads := [.states cfg.tracking_start_date], files := [], reports := [] }

/-- State before the loop, backtrack.py:157-163, tracking/shared.py:10-27 -/
def bwdStart (cfg : RunConfig α) (src : Source m n α) (o : BwdOutput (m + 2) (n + 2) α) :
    LoopState (BwdOutput (m + 2) (n + 2) α) α :=
  let t1 := cfg.tracking_end_date
  { t0 := t1 - cfg.dt, th := t1 - cfg.halfDt, t1 := t1, output := o
    tracker := Tracker.zero.storeBwd cfg.periodic_boundary src.weight o
    loads := [.states cfg.tracking_end_date], files := [], reports := [] }

/-- `t1 <= tracking_end_date`, forwardtrack.py:177 -/
def fwdGuard {ω : Type*} (cfg : RunConfig α) (s : LoopState ω α) : Bool :=
  decide (s.t1 ≤ cfg.tracking_end_date)

/-- `t0 >= tracking_start_date`, backtrack.py:174 -/
def bwdGuard {ω : Type*} (cfg : RunConfig α) (s : LoopState ω α) : Bool :=
  decide (cfg.tracking_start_date ≤ s.t0)

/-- The computation of one iteration, forwardtrack.py:178-209: loads the data and returns the new
`output`. -/
def fwdAdvance (cfg : RunConfig α) (src : Source m n α) (region : Region (m + 2) (n + 2) α)
    (t0 th t1 : ℤ) (o : FwdOutput (m + 2) (n + 2) α) :
    Except Err (FwdOutput (m + 2) (n + 2) α × List Load) :=
  match src.states t0, src.fluxes th, src.states t1, taggingMask cfg region t0 with
  | .ok S0, .ok F, .ok S1, .ok (mask, loaded) =>
    let dt : α := ofRat cfg.timestep
    let a := src.grid.a
    let F := scaleFluxes src.grid F
    let F := stabilizeFluxes dt a F S0
    let f_vert := calculateFz a F S0 S1 dt cfg.kvf
    .ok (forwardtrack cfg.periodic_boundary dt cfg.kvf a F f_vert S1 S0 mask o,
      [.states t0, .fluxes th, .states t1] ++ loaded)
  | .error e, _, _, _ => .error e
  | _, .error e, _, _ => .error e
  | _, _, .error e, _ => .error e
  | _, _, _, .error e => .error e

/-- The computation of one iteration, backtrack.py:175-200 -/
def bwdAdvance (cfg : RunConfig α) (src : Source m n α) (region : Region (m + 2) (n + 2) α)
    (t0 th t1 : ℤ) (o : BwdOutput (m + 2) (n + 2) α) :
    Except Err (BwdOutput (m + 2) (n + 2) α × List Load) :=
  match src.states t0, src.fluxes th, src.states t1, taggingMask cfg region t1 with
  | .ok S0, .ok F, .ok S1, .ok (mask, loaded) =>
    let dt : α := ofRat cfg.timestep
    let a := src.grid.a
    let F := scaleFluxes src.grid F
    let F := stabilizeFluxes dt a F S1
    let f_vert := calculateFz a F S0 S1 dt cfg.kvf
    .ok (backtrack cfg.periodic_boundary dt cfg.kvf a F f_vert S1 S0 mask o,
      [.states t0, .fluxes th, .states t1] ++ loaded)
  | .error e, _, _, _ => .error e
  | _, .error e, _, _ => .error e
  | _, _, .error e, _ => .error e
  | _, _, _, .error e => .error e

/-- Body of the loop, forwardtrack.py:178-224 -/
def fwdBody (cfg : RunConfig α) (src : Source m n α) (region : Region (m + 2) (n + 2) α)
    (s : LoopState (FwdOutput (m + 2) (n + 2) α) α) :
    Except Err (LoopState (FwdOutput (m + 2) (n + 2) α) α) :=
  match fwdAdvance cfg src region s.t0 s.th s.t1 s.output with
  | .error e => .error e
  | .ok (o, loaded) =>
    let t1 := s.t1 + cfg.dt
    let th := s.th + cfg.dt
    let t0 := s.t0 + cfg.dt
    let loads := s.loads ++ loaded
    let is_output_time : Bool := decide (t0 = floorTime t0 cfg.output_frequency)
    let is_final_step : Bool := decide (cfg.tracking_end_date < t1)
    if is_output_time || is_final_step then
      .ok { t0, th, t1, loads
            reports := s.reports ++
              [(t0, s.tracker.reportFwd cfg.periodic_boundary src.weight o)]
            tracker := s.tracker.storeFwd cfg.periodic_boundary src.weight o
            files := s.files ++ [(t0, o)]
            output := o.flush }
    else
      .ok { t0, th, t1, loads, reports := s.reports, tracker := s.tracker, files := s.files
            output := o }

/-- Body of the loop, backtrack.py:175-213 -/
def bwdBody (cfg : RunConfig α) (src : Source m n α) (region : Region (m + 2) (n + 2) α)
    (s : LoopState (BwdOutput (m + 2) (n + 2) α) α) :
    Except Err (LoopState (BwdOutput (m + 2) (n + 2) α) α) :=
  match bwdAdvance cfg src region s.t0 s.th s.t1 s.output with
  | .error e => .error e
  | .ok (o, loaded) =>
    let t1 := s.t1 - cfg.dt
    let th := s.th - cfg.dt
    let t0 := s.t0 - cfg.dt
    let loads := s.loads ++ loaded
    let is_output_time : Bool := decide (t1 = floorTime t1 cfg.output_frequency)
    let is_final_step : Bool := decide (t0 < cfg.tracking_start_date)
    if is_output_time || is_final_step then
      .ok { t0, th, t1, loads
            reports := s.reports ++
              [(t1, s.tracker.reportBwd cfg.periodic_boundary src.weight o)]
            tracker := s.tracker.storeBwd cfg.periodic_boundary src.weight o
            files := s.files ++ [(t1, o)]
            output := o.flush }
    else
      .ok { t0, th, t1, loads, reports := s.reports, tracker := s.tracker, files := s.files
            output := o }

/-- `run_experiment(config_file)` of forwardtrack.py:158-226, cut off after `fuel` iterations -/
def fwdRun {P : Type*} (cfg : RunConfig α) (src : Source m n α) (path : ℤ → P)
    (disk : P → Option (FwdOutput (m + 2) (n + 2) α)) (fuel : ℕ) :
    Outcome (LoopState (FwdOutput (m + 2) (n + 2) α) α) :=
  match fwdInitialize cfg src path disk with
  | .error e => .raised e { fwdStart cfg src FwdOutput.zeros with loads := [] }
  | .ok o =>
    match src.region with
    | .error e => .raised e (fwdStart cfg src o)
    | .ok region => whileLoop (fwdGuard cfg) (fwdBody cfg src region) fuel (fwdStart cfg src o)

/-- `run_experiment(config_file)` of backtrack.py:155-215, cut off after `fuel` iterations -/
def bwdRun {P : Type*} (cfg : RunConfig α) (src : Source m n α) (path : ℤ → P)
    (disk : P → Option (BwdOutput (m + 2) (n + 2) α)) (fuel : ℕ) :
    Outcome (LoopState (BwdOutput (m + 2) (n + 2) α) α) :=
  match bwdInitialize cfg src path disk with
  | .error e => .raised e { bwdStart cfg src BwdOutput.zeros with loads := [] }
  | .ok o =>
    match src.region with
    | .error e => .raised e (bwdStart cfg src o)
    | .ok region => whileLoop (bwdGuard cfg) (bwdBody cfg src region) fuel (bwdStart cfg src o)

end Run

/-- Content of the output folder after the files have been written (a later file with the same path
replaces an earlier one), io.py:190-218 -/
def writeFiles {P ω : Type*} [DecidableEq P] (path : ℤ → P) (disk : P → Option ω) :
    List (ℤ × ω) → P → Option ω
  | [] => disk
  | (t, o) :: rest => writeFiles path (Function.update disk (path t) (some o)) rest

/-- `add_time_bounds(ds, t, config)`, io.py:158-164: `freq` is `output_frequency` -/
def timeBounds (forward : Bool) (t freq : ℤ) : ℤ × ℤ :=
  if forward then (t - freq, t) else (t + freq, t)

end Wam
