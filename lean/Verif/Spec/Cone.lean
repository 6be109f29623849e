import Verif.Spec.Excerpt

/-! # Specification: how far apart cells are, and where data differ -/

namespace Wam.Spec

variable {m n : ℕ} {α : Type*}

/-- Number of steps between neighbouring columns it takes to get from one column to the other; with periodic boundaries the last
column is a neighbour of the first. -/
def columnSteps (periodic : Bool) (j j' : Fin n) : ℕ :=
  let d := (j.val - j'.val) + (j'.val - j.val)
  if periodic then min d (n - d) else d

/-- Number of steps between cells that share a side it takes to get from one cell to the other. -/
def cellSteps (periodic : Bool) (i i' : Fin m) (j j' : Fin n) : ℕ :=
  (i.val - i'.val) + (i'.val - i.val) + columnSteps periodic j j'

/-- Two sets of data are the same at all times from `lo` to `hi` except where `D` says (time, row, column). -/
structure SameExcept (D : ℤ → Fin (m + 2) → Fin (n + 2) → Prop) (lo hi : ℤ) (inp inp' : Input m n α) : Prop where
  s_upper : ∀ t i j, lo ≤ t → t ≤ hi → ¬ D t i j → (inp.states t).s_upper i j = (inp'.states t).s_upper i j
  s_lower : ∀ t i j, lo ≤ t → t ≤ hi → ¬ D t i j → (inp.states t).s_lower i j = (inp'.states t).s_lower i j
  fx_upper : ∀ t i j, lo ≤ t → t ≤ hi → ¬ D t i j → (inp.fluxes t).fx_upper i j = (inp'.fluxes t).fx_upper i j
  fy_upper : ∀ t i j, lo ≤ t → t ≤ hi → ¬ D t i j → (inp.fluxes t).fy_upper i j = (inp'.fluxes t).fy_upper i j
  fx_lower : ∀ t i j, lo ≤ t → t ≤ hi → ¬ D t i j → (inp.fluxes t).fx_lower i j = (inp'.fluxes t).fx_lower i j
  fy_lower : ∀ t i j, lo ≤ t → t ≤ hi → ¬ D t i j → (inp.fluxes t).fy_lower i j = (inp'.fluxes t).fy_lower i j
  evap : ∀ t i j, lo ≤ t → t ≤ hi → ¬ D t i j → (inp.fluxes t).evap i j = (inp'.fluxes t).evap i j
  precip : ∀ t i j, lo ≤ t → t ≤ hi → ¬ D t i j → (inp.fluxes t).precip i j = (inp'.fluxes t).precip i j
  region : ∀ t i j, lo ≤ t → t ≤ hi → ¬ D t i j → inp.region t i j = inp'.region t i j

end Wam.Spec
