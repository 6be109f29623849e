import Verif.Spec.Run
import Verif.Spec.Stability

/-! # Specification: forward and backward tracking as two answers to one question

Forward: which part of the precipitation over region `B` evaporated from region `A`?  Backward: which part of the
evaporation of region `A` fell as precipitation over `B`?  The two answers are the same amount of water, as far as the
water balance of the data is closed. -/

namespace Wam.Spec

variable {K : Type*} [Field K] [LinearOrder K] {m n : ℕ}

instance (periodic : Bool) (i : Fin m) (j : Fin n) : Decidable (isBoundary periodic i j) :=
  inferInstanceAs (Decidable (_ ∨ _ ∨ _))

/-- amount of a field `x` (kg m-2) over region `w`: sum over the cells of area times weight times value -/
def amountOver (a : Fin m → K) (w x : Fin m → Fin n → K) : K := ∑ i, ∑ j, a i * w i j * x i j

/-- By how much the lower layer of cell `(i, j)` misses the storage `S1` in the data, if the storage `S0`, the net inflow
through the sides (kg s-1), the vertical flux `fz` (downward), evaporation and the layer's share of the precipitation are
added up. -/
def imbalanceLower (periodic : Bool) (dt : K) (a : Fin m → K) (F : Fluxes m n K) (fz : Arr m n K) (S0 S1 : States m n K)
    (i : Fin m) (j : Fin n) : K :=
  S0.s_lower i j + dt * (convergence periodic F.fx_lower F.fy_lower i j / a i + fz i j + F.evap i j -
    share (F.precip i j) (S0.s_lower i j) (S0.s_upper i j)) - S1.s_lower i j

/-- the same for the upper layer -/
def imbalanceUpper (periodic : Bool) (dt : K) (a : Fin m → K) (F : Fluxes m n K) (fz : Arr m n K) (S0 S1 : States m n K)
    (i : Fin m) (j : Fin n) : K :=
  S0.s_upper i j + dt * (convergence periodic F.fx_upper F.fy_upper i j / a i - fz i j -
    share (F.precip i j) (S0.s_upper i j) (S0.s_lower i j)) - S1.s_upper i j

/-- By how much the layers' shares of the precipitation change between `S0` (used by the forward run) and `S1` (used by
the backward run). -/
def shareDrift (dt : K) (F : Fluxes m n K) (S0 S1 : States m n K) (i : Fin m) (j : Fin n) : K :=
  dt * |share (F.precip i j) (S1.s_lower i j) (S1.s_upper i j) - share (F.precip i j) (S0.s_lower i j) (S0.s_upper i j)|

/-- Everything that is not closed in one time step, in kg, over the cells inside the boundary. -/
def misfit (periodic : Bool) (dt : K) (a : Fin m → K) (F : Fluxes m n K) (fz : Arr m n K) (S0 S1 : States m n K) : K :=
  ∑ i, ∑ j, if isBoundary periodic i j then 0 else
    a i * (|imbalanceLower periodic dt a F fz S0 S1 i j| + |imbalanceUpper periodic dt a F fz S0 S1 i j| +
      shareDrift dt F S0 S1 i j)

/-- In one time step no layer of any cell gives away more water than it holds, neither along the flow nor against it. -/
structure Moderate (periodic : Bool) (dt kvf : K) (a : Fin m → K) (F : Fluxes m n K) (fz : Arr m n K)
    (S0 S1 : States m n K) : Prop where
  fwd_lower : ∀ (i : Fin m) (j : Fin n), dt * (outflow periodic F.fx_lower F.fy_lower i j / a i + max (-fz i j) 0 + kvf * |fz i j| +
    share (F.precip i j) (S0.s_lower i j) (S0.s_upper i j)) ≤ S0.s_lower i j
  fwd_upper : ∀ (i : Fin m) (j : Fin n), dt * (outflow periodic F.fx_upper F.fy_upper i j / a i + max (fz i j) 0 + kvf * |fz i j| +
    share (F.precip i j) (S0.s_upper i j) (S0.s_lower i j)) ≤ S0.s_upper i j
  bwd_lower : ∀ (i : Fin m) (j : Fin n), dt * (outflow periodic (fun i j => -F.fx_lower i j) (fun i j => -F.fy_lower i j) i j / a i +
    max (fz i j) 0 + kvf * |fz i j| + F.evap i j) ≤ S1.s_lower i j
  bwd_upper : ∀ (i : Fin m) (j : Fin n), dt * (outflow periodic (fun i j => -F.fx_upper i j) (fun i j => -F.fy_upper i j) i j / a i +
    max (-fz i j) 0 + kvf * |fz i j|) ≤ S1.s_upper i j

/-- Every cell and layer has some horizontal transport, and in one time step it moves at most half of the water of the
cell: the stability correction has nothing to do. -/
def Unlimited (dt : K) (a : Fin m → K) (F : Fluxes m n K) (S : States m n K) : Prop :=
  ∀ i j, ((F.fx_lower i j ≠ 0 ∨ F.fy_lower i j ≠ 0) ∧ halfCell dt (a i) (S.s_lower i j) (F.fx_lower i j) (F.fy_lower i j)) ∧
    ((F.fx_upper i j ≠ 0 ∨ F.fy_upper i j ≠ 0) ∧ halfCell dt (a i) (S.s_upper i j) (F.fx_upper i j) (F.fy_upper i j))

/-- Two experiments (one to be run forward, the other backward) on the same data, grid, period and numerical settings;
tagging regions, tagging windows and output frequency may differ. -/
structure SameExperiment (cfg cfg' : RunConfig K) (src src' : Source m n K) (inp inp' : Input m n K) : Prop where
  start : cfg'.tracking_start_date = cfg.tracking_start_date
  stop : cfg'.tracking_end_date = cfg.tracking_end_date
  timestep : cfg'.timestep = cfg.timestep
  kvf : cfg'.kvf = cfg.kvf
  periodic : cfg'.periodic_boundary = cfg.periodic_boundary
  grid : src'.grid = src.grid
  states : ∀ t, cfg.tracking_start_date ≤ t → t ≤ cfg.tracking_end_date → inp'.states t = inp.states t
  fluxes : ∀ t, cfg.tracking_start_date ≤ t → t ≤ cfg.tracking_end_date → inp'.fluxes t = inp.fluxes t

/-- The experiment starts empty and tags everything over the region `w` during the whole tracking period. -/
structure TagsThroughout (cfg : RunConfig K) (inp : Input m n K) (w : Arr (m + 2) (n + 2) K) : Prop where
  fresh : cfg.restart = false
  opens : cfg.tagging_start_date ≤ cfg.tracking_start_date
  closes : cfg.tracking_end_date ≤ cfg.tagging_end_date
  region : ∀ t, cfg.tracking_start_date ≤ t → t ≤ cfg.tracking_end_date → inp.region t = w
  weight : ∀ i j, 0 ≤ w i j ∧ w i j ≤ 1

/-- storages at the beginning (`k`) of step `k` of a run -/
def stepStates (cfg : RunConfig K) (inp : Input m n K) (k : ℕ) : States (m + 2) (n + 2) K :=
  inp.states (cfg.tracking_start_date + k * cfg.dt)

/-- transports (kg s-1) of step `k`: the fluxes in the middle of the step times the sides of the cells -/
def stepFluxes (cfg : RunConfig K) (g : GridInfo (m + 2) K) (inp : Input m n K) (k : ℕ) : Fluxes (m + 2) (n + 2) K :=
  scaleFluxes g (inp.fluxes (cfg.tracking_start_date + k * cfg.dt + cfg.halfDt))

/-- vertical flux of step `k` as computed by `calculate_fz` -/
def stepFz (cfg : RunConfig K) (g : GridInfo (m + 2) K) (inp : Input m n K) (k : ℕ) :
    Arr (m + 2) (n + 2) K :=
  calculateFz g.a (stepFluxes cfg g inp k) (stepStates cfg inp k) (stepStates cfg inp (k + 1)) (cfg.timestep : K) cfg.kvf

/-- what is not closed in step `k` -/
def stepMisfit (cfg : RunConfig K) (g : GridInfo (m + 2) K) (inp : Input m n K) (k : ℕ) : K :=
  misfit cfg.periodic_boundary (cfg.timestep : K) g.a (stepFluxes cfg g inp k) (stepFz cfg g inp k)
    (stepStates cfg inp k) (stepStates cfg inp (k + 1))

/-- In every time step: nothing for the stability correction to do, with the storages at either end, and no layer gives
away more than it holds. -/
def Gentle (cfg : RunConfig K) (g : GridInfo (m + 2) K) (inp : Input m n K) : Prop :=
  ∀ k < stepCount cfg.tracking_start_date cfg.tracking_end_date cfg.dt,
    Unlimited (cfg.timestep : K) g.a (stepFluxes cfg g inp k) (stepStates cfg inp k) ∧
    Unlimited (cfg.timestep : K) g.a (stepFluxes cfg g inp k) (stepStates cfg inp (k + 1)) ∧
    Moderate cfg.periodic_boundary (cfg.timestep : K) cfg.kvf g.a (stepFluxes cfg g inp k) (stepFz cfg g inp k)
      (stepStates cfg inp k) (stepStates cfg inp (k + 1))

end Wam.Spec
