import Verif.Spec.Contract
import Verif.Spec.Cone
import Verif.Spec.Stability

/-! # Specification: cells in which all water is tagged

`W l` is a set of cells for the number `l` of time steps made. -/

namespace Wam.Spec

variable {K : Type*} [Field K] [LinearOrder K] {m n : ℕ}

/-- net inflow of water (kg s-1) into a column through its sides, with fluxes per metre of cell side -/
def columnInflow (periodic : Bool) (gr : GridInfo (m + 2) K) (F : Fluxes (m + 2) (n + 2) K) (i : Fin (m + 2))
    (j : Fin (n + 2)) : K :=
  convergence periodic (fun i j => F.fx_lower i j * gr.dy) (fun i j => F.fy_lower i j * gr.dx i) i j +
    convergence periodic (fun i j => F.fx_upper i j * gr.dy) (fun i j => F.fy_upper i j * gr.dx i) i j

/-- What there is in a column of a forward run after a time step `dt`, by its water balance: what there was, what flows in, and
evaporation less precipitation. -/
def suppliedFwd (periodic : Bool) (dt : K) (gr : GridInfo (m + 2) K) (F : Fluxes (m + 2) (n + 2) K)
    (S0 : States (m + 2) (n + 2) K) (i : Fin (m + 2)) (j : Fin (n + 2)) : K :=
  S0.s_lower i j + S0.s_upper i j + dt * (columnInflow periodic gr F i j / gr.a i + F.evap i j - F.precip i j)

/-- The same in a backward run, from the later to the earlier time. -/
def suppliedBwd (periodic : Bool) (dt : K) (gr : GridInfo (m + 2) K) (F : Fluxes (m + 2) (n + 2) K)
    (S1 : States (m + 2) (n + 2) K) (i : Fin (m + 2)) (j : Fin (n + 2)) : K :=
  S1.s_lower i j + S1.s_upper i j - dt * (columnInflow periodic gr F i j / gr.a i + F.evap i j - F.precip i j)

/-- in a time step at most half of the water of the cell is moved, in either layer -/
def AtMostHalf (dt : K) (gr : GridInfo (m + 2) K) (F : Fluxes (m + 2) (n + 2) K) (S : States (m + 2) (n + 2) K)
    (i : Fin (m + 2)) (j : Fin (n + 2)) : Prop :=
  halfCell dt (gr.a i) (S.s_lower i j) (F.fx_lower i j * gr.dy) (F.fy_lower i j * gr.dx i) ∧
  halfCell dt (gr.a i) (S.s_upper i j) (F.fx_upper i j * gr.dy) (F.fy_upper i j * gr.dx i)

/-- In the `N` time steps of a forward run, all evaporation is tagged in the cells of `W`, the neighbours of a cell that is in
`W` after a step have been in it before, no more than half of a cell is moved, and the balance of the columns supplies at
least the water that is there. -/
structure AllTaggedFwd (cfg : RunConfig K) (gr : GridInfo (m + 2) K) (inp : Input m n K) (N : ℕ)
    (W : ℕ → Fin (m + 2) → Fin (n + 2) → Prop) : Prop where
  near : ∀ l < N, ∀ i j, W (l + 1) i j → ∀ i' j', cellSteps cfg.periodic_boundary i i' j j' ≤ 1 → W l i' j'
  inside : ∀ l < N, ∀ i j, W (l + 1) i j → ¬ isBoundary cfg.periodic_boundary i j
  tagged : ∀ l < N, ∀ i j, W (l + 1) i j →
    activeMask cfg inp (cfg.tracking_start_date + l * (cfg.timestep * 1000000)) i j = 1
  moderate : ∀ l < N, ∀ i j, W l i j → AtMostHalf (cfg.timestep : K) gr
    (inp.fluxes (cfg.tracking_start_date + l * (cfg.timestep * 1000000) + cfg.timestep * 500000))
    (inp.states (cfg.tracking_start_date + l * (cfg.timestep * 1000000))) i j
  supplied : ∀ l < N, ∀ i j, W (l + 1) i j →
    (inp.states (cfg.tracking_start_date + (l + 1) * (cfg.timestep * 1000000))).s_lower i j +
      (inp.states (cfg.tracking_start_date + (l + 1) * (cfg.timestep * 1000000))).s_upper i j ≤
    suppliedFwd cfg.periodic_boundary (cfg.timestep : K) gr
      (inp.fluxes (cfg.tracking_start_date + l * (cfg.timestep * 1000000) + cfg.timestep * 500000))
      (inp.states (cfg.tracking_start_date + l * (cfg.timestep * 1000000))) i j

/-- The same for a backward run, in which all precipitation is tagged. -/
structure AllTaggedBwd (cfg : RunConfig K) (gr : GridInfo (m + 2) K) (inp : Input m n K) (N : ℕ)
    (W : ℕ → Fin (m + 2) → Fin (n + 2) → Prop) : Prop where
  near : ∀ l < N, ∀ i j, W (l + 1) i j → ∀ i' j', cellSteps cfg.periodic_boundary i i' j j' ≤ 1 → W l i' j'
  inside : ∀ l < N, ∀ i j, W (l + 1) i j → ¬ isBoundary cfg.periodic_boundary i j
  tagged : ∀ l < N, ∀ i j, W (l + 1) i j →
    activeMask cfg inp (cfg.tracking_end_date - l * (cfg.timestep * 1000000)) i j = 1
  moderate : ∀ l < N, ∀ i j, W l i j → AtMostHalf (cfg.timestep : K) gr
    (inp.fluxes (cfg.tracking_end_date - l * (cfg.timestep * 1000000) - cfg.timestep * 500000))
    (inp.states (cfg.tracking_end_date - l * (cfg.timestep * 1000000))) i j
  supplied : ∀ l < N, ∀ i j, W (l + 1) i j →
    (inp.states (cfg.tracking_end_date - (l + 1) * (cfg.timestep * 1000000))).s_lower i j +
      (inp.states (cfg.tracking_end_date - (l + 1) * (cfg.timestep * 1000000))).s_upper i j ≤
    suppliedBwd cfg.periodic_boundary (cfg.timestep : K) gr
      (inp.fluxes (cfg.tracking_end_date - l * (cfg.timestep * 1000000) - cfg.timestep * 500000))
      (inp.states (cfg.tracking_end_date - l * (cfg.timestep * 1000000))) i j

end Wam.Spec
