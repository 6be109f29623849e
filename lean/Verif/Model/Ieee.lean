import Verif.Model.Rounded
import Mathlib.Data.Int.Log
import Mathlib.Algebra.Ring.Int.Parity
import Mathlib.Algebra.Order.Round

/-!
# IEEE-754 rounding

The roundings of `Model/Rounded` that numpy uses: binary64 (`float64`) and binary32 (`float32`), round to
nearest, ties to even, gradual underflow (`/repo/src/wam2layers/tracking/core.py:9-250` computes with numpy
arrays of these types).  A positive number in `[2^e, 2^(e+1))` is rounded to a multiple of `2^k`, where
`k = max (e - p + 1) emin`; `p` is the precision and `2^emin` the smallest subnormal number.

SIMPLIFICATION: there is no largest number (no overflow to infinity).
-/

namespace Wam

variable {K : Type*} [Field K] [LinearOrder K] [IsStrictOrderedRing K] [FloorRing K]

/-- rounding of the significand to an integer: nearest, ties to even, IEEE-754 4.3.1, numpy's default,
core.py:9-250 -/
def halfEven (x : K) : ℤ :=
  if x - ⌊x⌋ < 1 / 2 then ⌊x⌋ else if 1 / 2 < x - ⌊x⌋ then ⌊x⌋ + 1 else if Even ⌊x⌋ then ⌊x⌋ else ⌊x⌋ + 1

/-- exponent of the last bit of the floats around `x > 0`, IEEE-754 3.4 (gradual underflow below `emin`),
core.py:9-250 -/
def ulpExp (p : ℕ) (emin : ℤ) (x : K) : ℤ := max (Int.log 2 x - p + 1) emin

/-- rounding of a positive number to a float, given the rounding `ri` of significands, core.py:9-250 -/
def floatPos (ri : K → ℤ) (p : ℕ) (emin : ℤ) (x : K) : K :=
  ri (x / 2 ^ ulpExp p emin x) * 2 ^ ulpExp p emin x

/-- rounding to a float, core.py:9-250 -/
def floatRnd (ri : K → ℤ) (p : ℕ) (emin : ℤ) (x : K) : K :=
  if 0 < x then floatPos ri p emin x else if x < 0 then -floatPos ri p emin (-x) else 0

end Wam
