import Verif.Spec.Step
import Verif.Spec.Run

/-! # Specification: comparing runs with different tagging regions -/

namespace Wam.Spec

variable {K : Type*} [Field K] [LinearOrder K] {m n : ℕ}

/-- In one forward step no cell and layer loses more water (sideways, vertically and as precipitation)
than it holds at the start. -/
structure NoOverdrawFwd (periodic : Bool) (dt kvf : K) (a : Fin (m + 2) → K)
    (F : Fluxes (m + 2) (n + 2) K) (fz : Arr (m + 2) (n + 2) K)
    (S0 : States (m + 2) (n + 2) K) : Prop where
  lower : ∀ (i : Fin (m + 2)) (j : Fin (n + 2)),
    dt * (outflow periodic F.fx_lower F.fy_lower i j / a i + max (-fz i j) 0
      + kvf * |fz i j| + share (F.precip i j) (S0.s_lower i j) (S0.s_upper i j)) ≤ S0.s_lower i j
  upper : ∀ (i : Fin (m + 2)) (j : Fin (n + 2)),
    dt * (outflow periodic F.fx_upper F.fy_upper i j / a i + max (fz i j) 0
      + kvf * |fz i j| + share (F.precip i j) (S0.s_upper i j) (S0.s_lower i j)) ≤ S0.s_upper i j

/-- In one backward step no cell and layer loses more water (sideways and vertically against the flow,
and as evaporation) than it holds at the start, which is at the later time. -/
structure NoOverdrawBwd (periodic : Bool) (dt kvf : K) (a : Fin (m + 2) → K)
    (F : Fluxes (m + 2) (n + 2) K) (fz : Arr (m + 2) (n + 2) K)
    (S1 : States (m + 2) (n + 2) K) : Prop where
  lower : ∀ (i : Fin (m + 2)) (j : Fin (n + 2)),
    dt * (outflow periodic (fun i j => -F.fx_lower i j) (fun i j => -F.fy_lower i j) i j / a i
      + max (fz i j) 0 + kvf * |fz i j| + F.evap i j) ≤ S1.s_lower i j
  upper : ∀ (i : Fin (m + 2)) (j : Fin (n + 2)),
    dt * (outflow periodic (fun i j => -F.fx_upper i j) (fun i j => -F.fy_upper i j) i j / a i
      + max (-fz i j) 0 + kvf * |fz i j|) ≤ S1.s_upper i j

/-- every number in `o` is at most the corresponding number in `o'` (all variables but `gains`) -/
structure FwdLE (o o' : FwdOutput m n K) : Prop where
  s_track_lower : ∀ i j, o.s_track_lower i j ≤ o'.s_track_lower i j
  s_track_upper : ∀ i j, o.s_track_upper i j ≤ o'.s_track_upper i j
  p_track_lower : ∀ i j, o.p_track_lower i j ≤ o'.p_track_lower i j
  p_track_upper : ∀ i j, o.p_track_upper i j ≤ o'.p_track_upper i j
  tagged_evap : ∀ i j, o.tagged_evap i j ≤ o'.tagged_evap i j
  losses : ∀ i j, o.losses i j ≤ o'.losses i j

/-- every number in `o` is at most the corresponding number in `o'` (all variables but `gains`) -/
structure BwdLE (o o' : BwdOutput m n K) : Prop where
  s_track_lower : ∀ i j, o.s_track_lower i j ≤ o'.s_track_lower i j
  s_track_upper : ∀ i j, o.s_track_upper i j ≤ o'.s_track_upper i j
  e_track : ∀ i j, o.e_track i j ≤ o'.e_track i j
  tagged_precip : ∀ i j, o.tagged_precip i j ≤ o'.tagged_precip i j
  losses : ∀ i j, o.losses i j ≤ o'.losses i j

/-- `c1 * o1 + c2 * o2`, variable by variable and cell by cell -/
def fwdComb (c1 c2 : K) (o1 o2 : FwdOutput m n K) : FwdOutput m n K :=
  { s_track_lower := fun i j => c1 * o1.s_track_lower i j + c2 * o2.s_track_lower i j
    s_track_upper := fun i j => c1 * o1.s_track_upper i j + c2 * o2.s_track_upper i j
    p_track_lower := fun i j => c1 * o1.p_track_lower i j + c2 * o2.p_track_lower i j
    p_track_upper := fun i j => c1 * o1.p_track_upper i j + c2 * o2.p_track_upper i j
    tagged_evap := fun i j => c1 * o1.tagged_evap i j + c2 * o2.tagged_evap i j
    losses := fun i j => c1 * o1.losses i j + c2 * o2.losses i j
    gains := fun i j => c1 * o1.gains i j + c2 * o2.gains i j }

/-- `c1 * o1 + c2 * o2`, variable by variable and cell by cell -/
def bwdComb (c1 c2 : K) (o1 o2 : BwdOutput m n K) : BwdOutput m n K :=
  { s_track_lower := fun i j => c1 * o1.s_track_lower i j + c2 * o2.s_track_lower i j
    s_track_upper := fun i j => c1 * o1.s_track_upper i j + c2 * o2.s_track_upper i j
    e_track := fun i j => c1 * o1.e_track i j + c2 * o2.e_track i j
    tagged_precip := fun i j => c1 * o1.tagged_precip i j + c2 * o2.tagged_precip i j
    losses := fun i j => c1 * o1.losses i j + c2 * o2.losses i j
    gains := fun i j => c1 * o1.gains i j + c2 * o2.gains i j }

/-- `c * o`, variable by variable and cell by cell -/
def fwdScale (c : K) (o : FwdOutput m n K) : FwdOutput m n K :=
  { s_track_lower := fun i j => c * o.s_track_lower i j
    s_track_upper := fun i j => c * o.s_track_upper i j
    p_track_lower := fun i j => c * o.p_track_lower i j
    p_track_upper := fun i j => c * o.p_track_upper i j
    tagged_evap := fun i j => c * o.tagged_evap i j
    losses := fun i j => c * o.losses i j
    gains := fun i j => c * o.gains i j }

/-- `c * o`, variable by variable and cell by cell -/
def bwdScale (c : K) (o : BwdOutput m n K) : BwdOutput m n K :=
  { s_track_lower := fun i j => c * o.s_track_lower i j
    s_track_upper := fun i j => c * o.s_track_upper i j
    e_track := fun i j => c * o.e_track i j
    tagged_precip := fun i j => c * o.tagged_precip i j
    losses := fun i j => c * o.losses i j
    gains := fun i j => c * o.gains i j }

/-- the run passes through the loop state `s` -/
def Reaches {σ : Type*} (run : ℕ → Outcome σ) (s : σ) : Prop :=
  ∃ fuel, run fuel = .stillRunning s ∨ run fuel = .finished s

/-- At no time during the forward run a layer of a cell consists of tracked water only. -/
def NeverFullFwd (inp : Input m n K)
    (run : ℕ → Outcome (LoopState (FwdOutput (m + 2) (n + 2) K) K)) : Prop :=
  ∀ s, Reaches run s → ∀ i j, s.output.s_track_lower i j < (inp.states s.t0).s_lower i j ∧
    s.output.s_track_upper i j < (inp.states s.t0).s_upper i j

/-- At no time during the backward run a layer of a cell consists of tracked water only. -/
def NeverFullBwd (inp : Input m n K)
    (run : ℕ → Outcome (LoopState (BwdOutput (m + 2) (n + 2) K) K)) : Prop :=
  ∀ s, Reaches run s → ∀ i j, s.output.s_track_lower i j < (inp.states s.t1).s_lower i j ∧
    s.output.s_track_upper i j < (inp.states s.t1).s_upper i j

/-- two inputs with the same weather (the regions may differ) -/
def SameWeather (inp inp' : Input m n K) : Prop :=
  inp'.states = inp.states ∧ inp'.fluxes = inp.fluxes

/-- In no step of a forward run a cell and layer loses more water than it holds. -/
def CalmFwd (cfg : RunConfig K) (g : GridInfo (m + 2) K) (inp : Input m n K) : Prop :=
  ∀ k : ℕ, cfg.tracking_start_date + (k + 1) * (cfg.timestep * 1000000) ≤ cfg.tracking_end_date →
    let t := cfg.tracking_start_date + k * (cfg.timestep * 1000000)
    let S0 := inp.states t
    let S1 := inp.states (t + cfg.timestep * 1000000)
    let F := stabilizeFluxes (cfg.timestep : K) g.a
      (scaleFluxes g (inp.fluxes (t + cfg.timestep * 500000))) S0
    NoOverdrawFwd cfg.periodic_boundary (cfg.timestep : K) cfg.kvf g.a F
      (calculateFz g.a F S0 S1 (cfg.timestep : K) cfg.kvf) S0

/-- In no step of a backward run a cell and layer loses more water than it holds. -/
def CalmBwd (cfg : RunConfig K) (g : GridInfo (m + 2) K) (inp : Input m n K) : Prop :=
  ∀ k : ℕ, cfg.tracking_start_date + (k + 1) * (cfg.timestep * 1000000) ≤ cfg.tracking_end_date →
    let t := cfg.tracking_end_date - k * (cfg.timestep * 1000000)
    let S0 := inp.states (t - cfg.timestep * 1000000)
    let S1 := inp.states t
    let F := stabilizeFluxes (cfg.timestep : K) g.a
      (scaleFluxes g (inp.fluxes (t - cfg.timestep * 500000))) S1
    NoOverdrawBwd cfg.periodic_boundary (cfg.timestep : K) cfg.kvf g.a F
      (calculateFz g.a F S0 S1 (cfg.timestep : K) cfg.kvf) S1

end Wam.Spec
