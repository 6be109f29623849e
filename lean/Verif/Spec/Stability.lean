import Mathlib.Algebra.Order.Field.Basic
import Mathlib.Algebra.Order.Group.Abs

/-! # Specification of the stability correction and of the vertical closure -/

namespace Wam.Spec

variable {K : Type*} [Field K] [LinearOrder K]

/-- The CFL criterion used by WAM2layers: in one time step no more than half of the water of a cell
may be moved (`fx`, `fy` in kg s-1, `s` in kg m-2, `a` in m2). -/
def halfCell (dt a s fx fy : K) : Prop := (|fx| + |fy|) * dt ≤ 1 / 2 * (s * a)

/-- Residual of the water balance of the upper layer over one time step if the amount `f` moves
downward to the lower layer: change of storage + divergence + precipitation + what leaves
downward.  (As in the code, precipitation and evaporation are divided by the area `a`.) -/
def residualUpper (dt a s0 s1 div p_share f : K) : K := (s1 - s0) + dt * (div + p_share) / a + f

/-- Residual of the water balance of the lower layer; evaporation `e` enters from below. -/
def residualLower (dt a s0 s1 div p_share e f : K) : K :=
  (s1 - s0) + dt * (div + p_share - e) / a - f

/-- restrict a number to `[-b, b]` -/
def clamp (b x : K) : K := max (-b) (min b x)

end Wam.Spec
