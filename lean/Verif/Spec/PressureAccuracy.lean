import Verif.Spec.PrepAccuracy

/-! # Specification: rounding errors of preprocessing on pressure levels -/

namespace Wam.Spec

variable {K : Type} [Field K] [LinearOrder K] {R : Rounding K}

/-- pressures that differ, differ by at least `g` -/
def SpacedBy (g : K) (pressures : List K) : Prop :=
  ∀ x ∈ pressures, ∀ y ∈ pressures, x < y → g ≤ y - x

/-- one and the same permutation sorts floats and the numbers that they stand for -/
def SortsAlike (argF : List (Fl R) → List ℕ) (argK : List K → List ℕ) : Prop :=
  ∀ l, argK (l.map Fl.val) = argF l

/-- the numbers that the floats at the surface stand for -/
def exactSurface (s : Surface (Fl R)) : Surface K := ⟨s.ps.val, s.qs.val, s.us.val, s.vs.val⟩

/-- A column with its surface: as many humidities and winds as pressures, and bounds `P`, `Q`, `U` for pressures,
humidities and winds. -/
structure GivenColumn (P Q U : K) (c : Column (Fl R)) (s : Surface (Fl R)) : Prop where
  humidities : c.q.length = c.p.length
  eastward : c.u.length = c.p.length
  northward : c.v.length = c.p.length
  pressure : ∀ x ∈ s.ps :: c.p, 0 ≤ x.val ∧ x.val ≤ P
  humidity : ∀ x ∈ s.qs :: c.q, |x.val| ≤ Q
  wind : ∀ x ∈ s.us :: c.u ++ s.vs :: c.v, |x.val| ≤ U

/-- The float results `F` differ from the numbers `X` by at most `e` (storages) and `e'` (fluxes). -/
structure LayersNear (e e' : K) (F : LayerSums (Fl R)) (X : LayerSums K) : Prop where
  s_upper : |F.s_upper.val - X.s_upper| ≤ e
  s_lower : |F.s_lower.val - X.s_lower| ≤ e
  fx_upper : |F.fx_upper.val - X.fx_upper| ≤ e'
  fx_lower : |F.fx_lower.val - X.fx_lower| ≤ e'
  fy_upper : |F.fy_upper.val - X.fy_upper| ≤ e'
  fy_lower : |F.fy_lower.val - X.fy_lower| ≤ e'

/-- underflow is negligible on each of the given scales -/
def Negligible (u η : K) (scales : List K) : Prop := ∀ s ∈ scales, η ≤ u * s

end Wam.Spec
