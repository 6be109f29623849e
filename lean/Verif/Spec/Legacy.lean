import Verif.Model.Legacy

/-! # Specification: equally spaced levels -/

namespace Wam.Spec

variable {K : Type} [Field K]

/-- `n` equally spaced pressures from the surface to 200 hPa -/
def equalLevels (ps : K) (n : ℕ) : List K :=
  (List.range n).map fun k : ℕ => ps - (ps - 20000) * k / (n - 1)

end Wam.Spec
