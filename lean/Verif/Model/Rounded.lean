import Verif.Model.Num
import Mathlib.Order.Monotone.Defs

/-!
# Arithmetic with rounding

The third carrier of the model (see `Model/Num`): numpy floats of one precision.  A value is a representable
number, and `+ - * /` round the exact result to a representable number
(IEEE-754; `/repo/src/wam2layers/tracking/core.py:9-250`, `tracking/forwardtrack.py:30-116`,
`tracking/backtrack.py:30-114`).  Nothing is assumed about the set of representable numbers, except that it contains 0 and
1 and is symmetric, and about the direction of rounding, except that rounding is monotone: float32, float64,
round-to-nearest, truncation and flush-to-zero are all covered.

SIMPLIFICATIONS: one precision for all numbers of a computation (the code mixes float32 and float64); no
overflow, no NaN, one zero; a quotient by zero is 0 (the theorems assume that denominators are not zero).
-/

namespace Wam

/-- rounding to the representable numbers, IEEE-754 for numpy floats, core.py:9-250 -/
structure Rounding (K : Type*) [Field K] [LinearOrder K] where
  rnd : K → K
  mono : Monotone rnd
  idem : ∀ x, rnd (rnd x) = rnd x
  neg : ∀ x, rnd (-x) = -rnd x
  zero : rnd 0 = 0
  one : rnd 1 = 1

/-- a representable number (a numpy float), core.py:9-250 -/
@[ext]
structure Fl {K : Type*} [Field K] [LinearOrder K] (R : Rounding K) where
  val : K
  rep : R.rnd val = val

namespace Fl

variable {K : Type*} [Field K] [LinearOrder K] {R : Rounding K}

/-- the representable number for an exact result, core.py:9-250 -/
def round (R : Rounding K) (x : K) : Fl R := ⟨R.rnd x, R.idem x⟩

/-- comparison of floats, core.py:95-96,113 -/
instance : LinearOrder (Fl R) := LinearOrder.lift' Fl.val fun _ _ h => Fl.ext h

/-- zero, core.py:157-158 -/
instance : Zero (Fl R) := ⟨⟨0, R.zero⟩⟩
/-- one, forwardtrack.py:57-58 -/
instance : One (Fl R) := ⟨⟨1, R.one⟩⟩
/-- rounded sum, core.py:9-250 -/
instance : Add (Fl R) := ⟨fun x y => round R (x.val + y.val)⟩
/-- rounded difference, core.py:9-250 -/
instance : Sub (Fl R) := ⟨fun x y => round R (x.val - y.val)⟩
/-- rounded product, core.py:9-250 -/
instance : Mul (Fl R) := ⟨fun x y => round R (x.val * y.val)⟩
/-- rounded quotient, core.py:9-250 -/
instance : Div (Fl R) := ⟨fun x y => round R (x.val / y.val)⟩
/-- the change of sign is exact, backtrack.py:62,73 -/
instance : Neg (Fl R) := ⟨fun x => ⟨-x.val, by rw [R.neg, x.rep]⟩⟩

/-- numpy element-wise functions; only literals are rounded, core.py:9-250 -/
instance : NpOps (Fl R) where
  ofRat q := round R (q : K)
  lt a b := decide (a < b)
  le a b := decide (a ≤ b)
  minimum := min
  maximum := max
  absolute a := max a (-a)
  sign a := if 0 < a then 1 else if a < 0 then -1 else 0
  isnan _ := false

end Fl

end Wam
