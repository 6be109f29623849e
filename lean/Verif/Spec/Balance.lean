import Verif.Spec.Contract
import Verif.Spec.Stability

/-! # Specification: water balance of one cell between two output times

In terms of the input data: fluxes per metre of cell side, sides and areas of the cells, storages,
precipitation and evaporation. -/

namespace Wam.Spec

variable {K : Type*} [Field K] [LinearOrder K] {m n : ℕ}

/-- The transports `qx`, `qy` (kg s-1) of a cell that holds `s` on area `a`: the fluxes `fx`, `fy` (kg m-1 s-1)
times the lengths `dy`, `dx` of the sides they cross, both reduced by one factor if more than half of the
cell would be moved in a time step. -/
def Transport (dt a dy dx s fx fy qx qy : K) : Prop :=
  ∃ θ : K, 0 ≤ θ ∧ θ ≤ 1 ∧ qx = θ * (fx * dy) ∧ qy = θ * (fy * dx) ∧
    (θ = 1 ↔ halfCell dt a s (fx * dy) (fy * dx)) ∧
    (θ < 1 → (|qx| + |qy|) * dt = 1 / 2 * (s * a))

/-- The downward flux `fz` between two layers that held `u0`, `l0` and will hold `u1`, `l1`, with net inflow
`cu`, `cl` through the sides (kg s-1), precipitation `p` and evaporation `e`: both layers are left with the
same relative residual, unless that takes more than the smaller layer can give. -/
def VerticalFlux (dt a kvf u0 l0 u1 l1 cu cl p e fz : K) : Prop :=
  let mu := (u0 + u1) / 2
  let ml := (l0 + l1) / 2
  ∃ f₀, (∀ f, residualLower dt a l0 l1 (-cl) (p * (ml / (mu + ml))) e f * u1 =
        residualUpper dt a u0 u1 (-cu) (p * (mu / (mu + ml))) f * l1 ↔ f = f₀) ∧
    fz * dt = clamp (min mu ml / (1 + kvf)) f₀

/-- is `(i, j)` away from all edges? -/
def inner (i : Fin (m + 2)) (j : Fin (n + 2)) : Prop :=
  0 < i.val ∧ i.val < m + 1 ∧ 0 < j.val ∧ j.val < n + 1

/-- Forward: `f` and `g` are what was written before and after a time step `dt` in which the weather had
storages `S0`, `S1` and fluxes `F`, with region `mask`. -/
def BalanceFwd (periodic : Bool) (dt kvf : K) (gr : GridInfo (m + 2) K) (F : Fluxes (m + 2) (n + 2) K)
    (S0 S1 : States (m + 2) (n + 2) K) (mask : Arr (m + 2) (n + 2) K)
    (f g : FwdOutput (m + 2) (n + 2) K) : Prop :=
  ∃ qxl qyl qxu qyu fz : Arr (m + 2) (n + 2) K,
    let rl := fun i j => fraction (f.s_track_lower i j) (S0.s_lower i j)
    let ru := fun i j => fraction (f.s_track_upper i j) (S0.s_upper i j)
    let rain_l := fun i j => share (F.precip i j) (S0.s_lower i j) (S0.s_upper i j) * rl i j
    let rain_u := fun i j => share (F.precip i j) (S0.s_upper i j) (S0.s_lower i j) * ru i j
    -- what crosses the sides of the cells
    (∀ i j, Transport dt (gr.a i) gr.dy (gr.dx i) (S0.s_lower i j) (F.fx_lower i j) (F.fy_lower i j)
        (qxl i j) (qyl i j) ∧
      Transport dt (gr.a i) gr.dy (gr.dx i) (S0.s_upper i j) (F.fx_upper i j) (F.fy_upper i j)
        (qxu i j) (qyu i j)) ∧
    -- the column: inflow, tagged evaporation, tracked rain, losses and gains
    (∀ i j, g.s_track_lower i j + g.s_track_upper i j =
      f.s_track_lower i j + f.s_track_upper i j +
      dt * ((inflow periodic rl qxl qyl i j + inflow periodic ru qxu qyu i j) / gr.a i +
        mask i j * F.evap i j - rain_l i j - rain_u i j) - g.losses i j + g.gains i j) ∧
    -- what crosses the interface of the layers
    (∀ i j, inner i j → VerticalFlux dt (gr.a i) kvf (S0.s_upper i j) (S0.s_lower i j) (S1.s_upper i j)
      (S1.s_lower i j) (convergence periodic qxu qyu i j) (convergence periodic qxl qyl i j)
      (F.precip i j) (F.evap i j) (fz i j)) ∧
    -- each layer, as long as no layer runs empty or full
    (∀ i j, inner i j → 0 < g.s_track_lower i j → g.s_track_lower i j < S1.s_lower i j →
      0 < g.s_track_upper i j → g.s_track_upper i j < S1.s_upper i j →
      g.s_track_lower i j = f.s_track_lower i j + dt * (inflow periodic rl qxl qyl i j / gr.a i +
        downward (fz i j) kvf (ru i j) (rl i j) + mask i j * F.evap i j - rain_l i j) ∧
      g.s_track_upper i j = f.s_track_upper i j + dt * (inflow periodic ru qxu qyu i j / gr.a i -
        downward (fz i j) kvf (ru i j) (rl i j) - rain_u i j)) ∧
    -- what is written for this interval
    (∀ i j, g.tagged_evap i j = dt * (mask i j * F.evap i j) ∧ g.p_track_lower i j = dt * rain_l i j ∧
      g.p_track_upper i j = dt * rain_u i j)

/-- Backward: `f` was written at the later, `g` at the earlier time; everything runs in reverse. -/
def BalanceBwd (periodic : Bool) (dt kvf : K) (gr : GridInfo (m + 2) K) (F : Fluxes (m + 2) (n + 2) K)
    (S0 S1 : States (m + 2) (n + 2) K) (mask : Arr (m + 2) (n + 2) K)
    (f g : BwdOutput (m + 2) (n + 2) K) : Prop :=
  ∃ qxl qyl qxu qyu fz : Arr (m + 2) (n + 2) K,
    let rl := fun i j => fraction (f.s_track_lower i j) (S1.s_lower i j)
    let ru := fun i j => fraction (f.s_track_upper i j) (S1.s_upper i j)
    let rev := fun (q : Arr (m + 2) (n + 2) K) i j => -q i j
    let tag_l := fun i j => share (mask i j * F.precip i j) (S1.s_lower i j) (S1.s_upper i j)
    let tag_u := fun i j => share (mask i j * F.precip i j) (S1.s_upper i j) (S1.s_lower i j)
    -- what crosses the sides of the cells
    (∀ i j, Transport dt (gr.a i) gr.dy (gr.dx i) (S1.s_lower i j) (F.fx_lower i j) (F.fy_lower i j)
        (qxl i j) (qyl i j) ∧
      Transport dt (gr.a i) gr.dy (gr.dx i) (S1.s_upper i j) (F.fx_upper i j) (F.fy_upper i j)
        (qxu i j) (qyu i j)) ∧
    -- the column: inflow, tagged precipitation, tracked evaporation, losses and gains
    (∀ i j, g.s_track_lower i j + g.s_track_upper i j =
      f.s_track_lower i j + f.s_track_upper i j +
      dt * ((inflow periodic rl (rev qxl) (rev qyl) i j +
          inflow periodic ru (rev qxu) (rev qyu) i j) / gr.a i +
        mask i j * F.precip i j - F.evap i j * rl i j) - g.losses i j + g.gains i j) ∧
    -- what crosses the interface of the layers
    (∀ i j, inner i j → VerticalFlux dt (gr.a i) kvf (S0.s_upper i j) (S0.s_lower i j) (S1.s_upper i j)
      (S1.s_lower i j) (convergence periodic qxu qyu i j) (convergence periodic qxl qyl i j)
      (F.precip i j) (F.evap i j) (fz i j)) ∧
    -- each layer, as long as no layer runs empty or full
    (∀ i j, inner i j → 0 < g.s_track_lower i j → g.s_track_lower i j < S0.s_lower i j →
      0 < g.s_track_upper i j → g.s_track_upper i j < S0.s_upper i j →
      g.s_track_lower i j = f.s_track_lower i j + dt * (inflow periodic rl (rev qxl) (rev qyl) i j / gr.a i +
        downward (-fz i j) kvf (ru i j) (rl i j) + tag_l i j - F.evap i j * rl i j) ∧
      g.s_track_upper i j = f.s_track_upper i j + dt * (inflow periodic ru (rev qxu) (rev qyu) i j / gr.a i -
        downward (-fz i j) kvf (ru i j) (rl i j) + tag_u i j)) ∧
    -- what is written for this interval
    (∀ i j, g.tagged_precip i j = dt * (mask i j * F.precip i j) ∧
      g.e_track i j = dt * (F.evap i j * rl i j))

end Wam.Spec
