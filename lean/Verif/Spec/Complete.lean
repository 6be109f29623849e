import Verif.Spec.Run

/-! # Specification: which data a run needs

The exact set of reads a run makes, from the configuration alone: a run of `N` whole time steps needs the
states at both ends of each step, the fluxes half-way, the tagging region at the reference time of every
step in the tagging window (if it has a time axis), the states at its first date and, when it is a
restart, the output file of that date. -/

namespace Wam.Spec

variable {m n : ℕ} {K : Type} {P : Type*}

/-- reading succeeds -/
def Readable {β : Type*} (x : Except Err β) : Prop := ∃ v, x = .ok v

/-- the region can be read for a step with reference time `t` (only needed in the tagging window) -/
def RegionData (cfg : RunConfig K) (r : Region (m + 2) (n + 2) K) (t : ℤ) : Prop :=
  inWindow cfg t → Readable (regionAt r t)

/-- all data for the step from `t` to `t + timestep` can be read; times in microseconds, `timestep` in
seconds; tagging is decided at the start of the step -/
structure StepDataFwd (cfg : RunConfig K) (src : Source m n K) (r : Region (m + 2) (n + 2) K) (t : ℤ) :
    Prop where
  states_start : Readable (src.states t)
  states_end : Readable (src.states (t + cfg.timestep * 1000000))
  fluxes : Readable (src.fluxes (t + cfg.timestep * 500000))
  region : RegionData cfg r t

/-- all data for the step from `t` back to `t - timestep` can be read -/
structure StepDataBwd (cfg : RunConfig K) (src : Source m n K) (r : Region (m + 2) (n + 2) K) (t : ℤ) :
    Prop where
  states_end : Readable (src.states t)
  states_start : Readable (src.states (t - cfg.timestep * 1000000))
  fluxes : Readable (src.fluxes (t - cfg.timestep * 500000))
  region : RegionData cfg r t

/-- number of steps of a run -/
def runSteps (cfg : RunConfig K) : ℕ :=
  stepCount cfg.tracking_start_date cfg.tracking_end_date (cfg.timestep * 1000000)

/-- time after `k` steps of a forward run -/
def timeFwd (cfg : RunConfig K) (k : ℕ) : ℤ := cfg.tracking_start_date + k * (cfg.timestep * 1000000)

/-- time after `k` steps of a backward run -/
def timeBwd (cfg : RunConfig K) (k : ℕ) : ℤ := cfg.tracking_end_date - k * (cfg.timestep * 1000000)

/-- what a run needs before its first step: the states of its first date, and the restart file -/
def InitData {ω : Type*} (cfg : RunConfig K) (src : Source m n K) (path : ℤ → P) (disk : P → Option ω)
    (first : ℤ) : Prop :=
  Readable (src.states first) ∧ (cfg.restart = true → (disk (path first)).isSome)

/-- the input of a forward run is complete -/
def CompleteFwd {ω : Type*} (cfg : RunConfig K) (src : Source m n K) (path : ℤ → P)
    (disk : P → Option ω) : Prop :=
  InitData cfg src path disk cfg.tracking_start_date ∧
    ∃ r, src.region = .ok r ∧ ∀ k < runSteps cfg, StepDataFwd cfg src r (timeFwd cfg k)

/-- the input of a backward run is complete -/
def CompleteBwd {ω : Type*} (cfg : RunConfig K) (src : Source m n K) (path : ℤ → P)
    (disk : P → Option ω) : Prop :=
  InitData cfg src path disk cfg.tracking_end_date ∧
    ∃ r, src.region = .ok r ∧ ∀ k < runSteps cfg, StepDataBwd cfg src r (timeBwd cfg k)

/-- the output times among the first `j` steps of a run: multiples of the output frequency, and the last -/
def outputTimes (cfg : RunConfig K) (time : ℕ → ℤ) (j : ℕ) : List ℤ :=
  ((List.range j).filter fun k => decide (writes time cfg.output_frequency (runSteps cfg) (k + 1))).map
    fun k => time (k + 1)

/-- the run raises `e`, leaving state (and log) `s` -/
def FailsWith {σ : Type*} (run : ℕ → Outcome σ) (e : Err) (s : σ) : Prop :=
  ∃ N, ∀ fuel, N ≤ fuel → run fuel = .raised e s

end Wam.Spec
