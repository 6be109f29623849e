import Mathlib.Algebra.Order.Field.Basic
import Mathlib.Algebra.Order.Ring.Abs

/-!
# Specification of the surface fluxes and of surface humidity

Nothing here refers to the model.
-/

namespace Wam.Spec

variable {K : Type} [Field K] [LinearOrder K]

/-- metres of liquid water per time step to kg m⁻² s⁻¹ -/
def rate (depth seconds : K) : K := depth * 1000 / seconds

/-- rain: the non-negative part of a number -/
def positivePart (x : K) : K := if 0 ≤ x then x else 0

/-- Mass of vapour per mass of moist air, by the gas laws for vapour (constant `Rv`, partial
pressure `e`) and dry air (constant `Rd`, partial pressure `p - e`) at a common temperature -/
def specificHumidity (Rd Rv e p : K) : K :=
  let vapour := e / Rv
  let dry := (p - e) / Rd
  vapour / (vapour + dry)

end Wam.Spec
