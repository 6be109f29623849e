import Verif.Model.Column
import Verif.Spec.Accuracy
import Verif.Spec.Column

/-! # Specification: rounding errors of the vertical integration -/

namespace Wam.Spec

variable {K : Type} [Field K] [LinearOrder K] {R : Rounding K}

/-- the numbers that the floats of a column stand for (`none` is NaN: a level below the surface) -/
def exactCol (c : Column (Option (Fl R))) : Column (Option K) :=
  ⟨c.p.map (·.map Fl.val), c.q.map (·.map Fl.val), c.u.map (·.map Fl.val), c.v.map (·.map Fl.val)⟩

/-- the same without NaN -/
def exactLevels (c : Column (Fl R)) : Column K :=
  ⟨c.p.map Fl.val, c.q.map Fl.val, c.u.map Fl.val, c.v.map Fl.val⟩

/-- absolute values of humidity and wind -/
def absCol (c : Column (Option K)) : Column (Option K) :=
  ⟨c.p, c.q.map (·.map (|·|)), c.u.map (·.map (|·|)), c.v.map (·.map (|·|))⟩

/-- absolute values of humidity and wind, without NaN -/
def absLevels (c : Column K) : Column K := ⟨c.p, c.q.map (|·|), c.u.map (|·|), c.v.map (|·|)⟩

/-- humidity and wind of a column of floats are at most `Q` and `U` (in absolute value) -/
structure ColumnSized (Q U : K) (c : Column (Option (Fl R))) : Prop where
  humidity : ∀ x, some x ∈ c.q → |x.val| ≤ Q
  eastward : ∀ x, some x ∈ c.u → |x.val| ≤ U
  northward : ∀ x, some x ∈ c.v → |x.val| ≤ U

/-- The float results `F` differ from the numbers `X` by at most `ε` times the size `S` plus `e` (storages) and
by at most `ε'` times the size plus `e'` (fluxes). -/
structure LayersWithin (ε e ε' e' : K) (S : LayerSums K) (F : LayerSums (Fl R)) (X : LayerSums K) : Prop where
  s_upper : |F.s_upper.val - X.s_upper| ≤ ε * S.s_upper + e
  s_lower : |F.s_lower.val - X.s_lower| ≤ ε * S.s_lower + e
  fx_upper : |F.fx_upper.val - X.fx_upper| ≤ ε' * S.fx_upper + e'
  fx_lower : |F.fx_lower.val - X.fx_lower| ≤ ε' * S.fx_lower + e'
  fy_upper : |F.fy_upper.val - X.fy_upper| ≤ ε' * S.fy_upper + e'
  fy_lower : |F.fy_lower.val - X.fy_lower| ≤ ε' * S.fy_lower + e'

/-- thicknesses in floats that differ from the exact ones by at most `δ` -/
def ThicknessWithin (δ : K) (dp : List (Fl R)) (dp' : List K) : Prop :=
  List.Forall₂ (fun x y => |x.val - y| ≤ δ) dp dp'

/-- all the water of a column (kg per square metre): humidity times mass of air, summed over the levels that are
not NaN -/
def waterOf (q : List (Option K)) (dp : List K) : K :=
  ((q.zip dp).map fun x => x.1.getD 0 * x.2 / grav).sum

end Wam.Spec
