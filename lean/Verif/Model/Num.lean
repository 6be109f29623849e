import Mathlib.Algebra.Order.Field.Basic
import Mathlib.Algebra.Order.Ring.Abs
import Mathlib.Data.Rat.Cast.Order

/-!
# Numbers as numpy sees them

Every numeric routine of the model is written once, polymorphic in a carrier `α` that offers the
arithmetic operators (`+ - * /` and unary `-`) together with the numpy element-wise
operations collected in `NpOps`.  Two carriers are used:

* any linearly ordered field `K` (exact arithmetic, no special values) -- the carrier of the
  quantitative theorems;
* `XF K` -- the same exact arithmetic extended with the IEEE-754 special values `nan`, `+inf`,
  `-inf`; the carrier of the theorems about NaN.

SIMPLIFICATION (both carriers): there is no rounding; float32/float64 rounding is outside the
model.  `XF` has a single unsigned zero, so `x / 0` is `±inf` with the sign of `x`.
-/

namespace Wam

/-- Element-wise numpy operations besides the arithmetic operators.
Models numpy's `np.minimum`, `np.maximum`, `np.abs`, `np.sign`, `np.isnan`, the comparisons `<`
and `<=` as used all over `/repo/src/wam2layers/tracking/core.py:9-250`, and float literals
(`ofRat`). -/
class NpOps (α : Type*) where
  /-- a float literal of the source code -/
  ofRat : ℚ → α
  /-- `a < b` -/
  lt : α → α → Bool
  /-- `a <= b` -/
  le : α → α → Bool
  /-- `np.minimum` (propagates NaN) -/
  minimum : α → α → α
  /-- `np.maximum` (propagates NaN) -/
  maximum : α → α → α
  /-- `np.abs` -/
  absolute : α → α
  /-- `np.sign` (NaN for NaN) -/
  sign : α → α
  /-- `np.isnan` -/
  isnan : α → Bool

export NpOps (ofRat minimum maximum absolute)

/-- Exact arithmetic in an ordered field.  Used for numpy floats at
`/repo/src/wam2layers/tracking/core.py:9-250`; rounding and special values are left out. -/
instance instNpOpsField {K : Type*} [Field K] [LinearOrder K] : NpOps K where
  ofRat q := (q : K)
  lt a b := decide (a < b)
  le a b := decide (a ≤ b)
  minimum := min
  maximum := max
  absolute a := max a (-a)
  sign a := if 0 < a then 1 else if a < 0 then -1 else 0
  isnan _ := false

/-- Exact numbers with the IEEE-754 special values (numpy float arrays of
`/repo/src/wam2layers/tracking/core.py`, unrounded). -/
inductive XF (K : Type*) where
  | nan : XF K
  | ninf : XF K
  | fin (x : K) : XF K
  | pinf : XF K
  deriving DecidableEq, Repr

namespace XF

variable {K : Type*} [Field K] [LinearOrder K]

/-- sign of a number as an `Int`, `none` for NaN (helper of the IEEE operations below),
core.py:9-250 -/
def sgn : XF K → Option Int
  | nan => none
  | ninf => some (-1)
  | pinf => some 1
  | fin x => some (if 0 < x then 1 else if x < 0 then -1 else 0)

/-- infinity with the given sign; `nan` for sign 0 (IEEE `inf * 0`), core.py:9-250 -/
def infOf : Int → XF K
  | 0 => nan
  | (Int.ofNat _) => pinf
  | (Int.negSucc _) => ninf

/-- IEEE addition -/
protected def add : XF K → XF K → XF K
  | nan, _ => nan
  | _, nan => nan
  | fin x, fin y => fin (x + y)
  | fin _, b => b
  | a, fin _ => a
  | pinf, pinf => pinf
  | ninf, ninf => ninf
  | pinf, ninf => nan
  | ninf, pinf => nan

/-- IEEE negation -/
protected def neg : XF K → XF K
  | nan => nan
  | ninf => pinf
  | pinf => ninf
  | fin x => fin (-x)

/-- IEEE multiplication -/
protected def mul (a b : XF K) : XF K :=
  match a, b with
  | fin x, fin y => fin (x * y)
  | a, b =>
    match sgn a, sgn b with
    | some s, some t => infOf (s * t)
    | _, _ => nan

/-- IEEE division (unsigned zero) -/
protected def div (a b : XF K) : XF K :=
  match a, b with
  | nan, _ => nan
  | _, nan => nan
  | fin x, fin y =>
    if y = 0 then (if x = 0 then nan else if 0 < x then pinf else ninf) else fin (x / y)
  | fin _, _ => fin 0
  | a, fin y => if y < 0 then XF.neg a else a
  | _, _ => nan

/-- IEEE sum of numpy floats, core.py:9-250 -/
instance : Add (XF K) := ⟨XF.add⟩
/-- IEEE negation of numpy floats, core.py:9-250 -/
instance : Neg (XF K) := ⟨XF.neg⟩
/-- IEEE difference of numpy floats, core.py:9-250 -/
instance : Sub (XF K) := ⟨fun a b => XF.add a (XF.neg b)⟩
/-- IEEE product of numpy floats, core.py:9-250 -/
instance : Mul (XF K) := ⟨XF.mul⟩
/-- IEEE quotient of numpy floats, core.py:9-250 -/
instance : Div (XF K) := ⟨XF.div⟩

/-- IEEE `<` : false as soon as NaN is involved, core.py:95-96,113 -/
def ltb : XF K → XF K → Bool
  | nan, _ => false
  | _, nan => false
  | fin x, fin y => decide (x < y)
  | ninf, ninf => false
  | ninf, _ => true
  | _, ninf => false
  | pinf, _ => false
  | fin _, pinf => true

/-- IEEE `<=`, core.py:95-96,113 -/
def leb : XF K → XF K → Bool
  | nan, _ => false
  | _, nan => false
  | fin x, fin y => decide (x ≤ y)
  | ninf, _ => true
  | _, ninf => false
  | _, pinf => true
  | pinf, _ => false

/-- is it NaN, core.py:157-158 -/
def isNaN : XF K → Bool
  | nan => true
  | _ => false

/-- numpy element-wise functions with special values, core.py:9-250 -/
instance : NpOps (XF K) where
  ofRat q := fin (q : K)
  lt := ltb
  le := leb
  minimum a b := if isNaN a || isNaN b then nan else if leb a b then a else b
  maximum a b := if isNaN a || isNaN b then nan else if leb a b then b else a
  absolute
    | nan => nan
    | ninf => pinf
    | pinf => pinf
    | fin x => fin (max x (-x))
  sign a := match sgn a with
    | none => nan
    | some s => fin (s : K)
  isnan := isNaN

end XF

end Wam
