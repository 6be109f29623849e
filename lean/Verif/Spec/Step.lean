import Verif.Spec.Advection
import Mathlib.Algebra.Order.Group.Abs

/-! # Specification of one tracking step

Written from the description of the method (docs/theory): tracked water of a layer moves with the
fraction of the layer that is tracked. -/

namespace Wam.Spec

variable {K : Type*} [Field K] [LinearOrder K] {m n : ℕ}

/-- tracked fraction of a layer holding `t` tracked water out of `s` (at most 1) -/
def fraction (t s : K) : K := min (t / s) 1

/-- Net inflow of tracked water into cell `(i, j)` through its four faces when every face carries the
fraction `r` of the cell the water comes from. -/
def inflow (periodic : Bool) (r fx fy : Fin m → Fin n → K) (i : Fin m) (j : Fin n) : K :=
  tendency (r i j) (at2 r i ((j - 1 : ℤ) % n)) (at2 r i ((j + 1 : ℤ) % n))
    (at2 r (i - 1) j) (at2 r (i + 1) j)
    (faceX periodic fx i j) (faceX periodic fx i (j + 1))
    (faceY periodic fy i j) (faceY periodic fy (i + 1) j)

/-- Tracked water going from the upper to the lower layer per unit time: the vertical flux `fz`
(positive downward) carries the fraction of the layer it comes from; in addition `kvf` times the
gross flux is exchanged between the layers. -/
def downward (fz kvf r_upper r_lower : K) : K :=
  carried fz r_upper r_lower + kvf * |fz| * (r_upper - r_lower)

/-- Part of the column precipitation `p` that belongs to a layer holding `s` out of `s + s'`. -/
def share (p s s' : K) : K := p * s / (s + s')

/-- is `(i, j)` a boundary cell? -/
def isBoundary (periodic : Bool) (i : Fin m) (j : Fin n) : Prop :=
  i.val = 0 ∨ i.val + 1 = m ∨ (periodic = false ∧ (j.val = 0 ∨ j.val + 1 = n))

end Wam.Spec
