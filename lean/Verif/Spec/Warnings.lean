import Verif.Spec.Stability
import Verif.Model.Warnings
import Mathlib.Order.Bounds.Basic
import Mathlib.Data.Fintype.Card
import Mathlib.Data.Fintype.Prod

/-! # Specification of the stability warnings -/

namespace Wam.Spec

variable {K : Type*} [Field K] [LinearOrder K] {m n : ℕ}

/-- The factor (at most 1) by which the fluxes of a cell have to be reduced so that no more than
half of its water moves. -/
def cut (dt a s fx fy : K) : K := min 1 ((1 / 2 * (s * a)) / ((|fx| + |fy|) * dt))

/-- The reduction factors of the cells with a meridional flux (the only ones the tracker sees) -/
def cuts (dt : K) (a : Fin m → K) (l : Layer m n K) : Set K :=
  {c | ∃ i j, l.fy i j ≠ 0 ∧ c = cut dt (a i) (l.s i j) (l.fx i j) (l.fy i j)}

/-- The two layers of a time step: the storage and the fluxes of the upper layer, and those of the lower layer -/
def bothLayers (F : Fluxes m n K) (S : States m n K) : List (Layer m n K) :=
  [⟨S.s_upper, F.fx_upper, F.fy_upper⟩, ⟨S.s_lower, F.fx_lower, F.fy_lower⟩]

/-- percentage of the cells that have a meridional flux and violate the half-cell criterion -/
def percent (dt : K) (a : Fin m → K) (l : Layer m n K) : K :=
  100 * ((Finset.univ.filter fun p : Fin m × Fin n =>
    l.fy p.1 p.2 ≠ 0 ∧
      ¬ (|l.fx p.1 p.2| + |l.fy p.1 p.2|) * dt ≤ 1 / 2 * (l.s p.1 p.2 * a p.1)).card : K)
    / ((m * n : ℕ) : K)

/-- finite data as floats -/
def Layer.lift (l : Layer m n K) : Layer m n (XF K) :=
  ⟨fun i j => .fin (l.s i j), fun i j => .fin (l.fx i j), fun i j => .fin (l.fy i j)⟩

/-- finite thresholds as floats -/
def WarnState.lift (st : WarnState K) : WarnState (XF K) :=
  ⟨.fin st.previous_grid, .fin st.previous_factor⟩

end Wam.Spec
