import Verif.Model.Command

/-! # Specification: the correction fields of a run -/

namespace Wam.Spec

variable {m n : ℕ} {α : Type}

/-- the times and contents of the correction fields among what is written -/
def corrections : List Saving → List (ℤ × List Char)
  | [] => []
  | .correction t x :: ss => (t, x) :: corrections ss
  | _ :: ss => corrections ss

/-- What one time step checks, in this order: the upper layer and the lower layer, with the storage and the fluxes
through the sides of the cells (`dy` and `dx` wide) -/
def checkedAt [Mul α] (g : GridInfo m α) (t : ℤ) (S : States m n α) (F : Fluxes m n α) : List (ℤ × Layer m n α) :=
  [(t, ⟨S.s_upper, fun i j => F.fx_upper i j * g.dy, fun i j => F.fy_upper i j * g.dx i⟩),
   (t, ⟨S.s_lower, fun i j => F.fx_lower i j * g.dy, fun i j => F.fy_lower i j * g.dx i⟩)]

/-- What `N` time steps check: step `k` the storages at `t = first + k * step` and the fluxes half a step further -/
inductive Checks [Mul α] (src : Source m n α) (first step half : ℤ) : ℕ → List (ℤ × Layer (m + 2) (n + 2) α) → Prop
  | none : Checks src first step half 0 []
  | next (k : ℕ) (cs : List (ℤ × Layer (m + 2) (n + 2) α)) (S : States (m + 2) (n + 2) α) (F : Fluxes (m + 2) (n + 2) α) :
      Checks src first step half k cs → src.states (first + k * step) = .ok S →
      src.fluxes (first + k * step + half) = .ok F →
      Checks src first step half (k + 1) (cs ++ checkedAt src.grid (first + k * step) S F)

/-- The fields for a list of checks: one for every check that gives a warning (C36), with its time; `w` are the
thresholds before the first -/
def fields [Add α] [Mul α] [Div α] [NpOps α] (shw : Layer m n α → List Char) (dt : α) (a : Fin m → α) :
    WarnState α → List (ℤ × Layer m n α) → List (ℤ × List Char)
  | _, [] => []
  | w, (t, l) :: cs =>
    match warnLayer dt a w l with
    | (w', none) => fields shw dt a w' cs
    | (w', some _) => (t, shw l) :: fields shw dt a w' cs

/-- no cell of the layer loses more than half of its water through its sides in a time step -/
def Calm {K : Type*} [Field K] [LinearOrder K] (dt : K) (a : Fin m → K) (l : Layer m n K) : Prop :=
  ∀ i j, (|l.fx i j| + |l.fy i j|) * dt ≤ 1 / 2 * (l.s i j * a i)

end Wam.Spec
