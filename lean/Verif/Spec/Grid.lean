import Verif.Model.Grid
import Mathlib.Analysis.SpecialFunctions.Integrals.Basic

/-! # Specification of the grid geometry -/

namespace Wam.Spec
open MeasureTheory

/-- the Earth's radius (m) used by the code -/
noncomputable def earthRadius : ℝ := 6371000

/-- degrees to radians -/
noncomputable def rad (x : ℝ) : ℝ := x * Real.pi / 180

/-- Area of the part of the sphere between the parallels `south` and `north` (degrees) over `width` degrees of
longitude: the integral of `R² cos φ` over that rectangle. -/
noncomputable def sphereArea (south north width : ℝ) : ℝ :=
  rad width * ∫ φ in rad south..rad north, earthRadius ^ 2 * Real.cos φ

/-- the real sine, cosine and pi -/
noncomputable instance : NpTrig ℝ := ⟨Real.pi, Real.sin, Real.cos⟩

end Wam.Spec
