import Verif.Spec.Column

/-! # Specification of the vertical integration on model levels -/

namespace Wam.Spec

variable {K : Type} [Field K] [LinearOrder K]

/-- pressure at edge number `k` of the model levels, with the columns `a`, `b` of the table: edge 0 is the top
of the atmosphere, the last one the surface -/
def halfPressure (a b : List K) (sp : K) (k : ℕ) : K := a.getD k 0 + b.getD k 0 * sp

/-- pressure of model level `l`: the mean over its two edges -/
def fullPressure (a b : List K) (sp : K) (l : ℤ) : K :=
  (halfPressure a b sp (l - 1).toNat + halfPressure a b sp l.toNat) / 2

/-- `edges` bound the layers of air that stand for the `levels`: the first one at the top of the table, the last one at its end,
and in between half way (in pressure) from one listed level to the next -/
structure LevelEdges (a b : List K) (sp : K) (levels : List ℤ) (edges : List K) : Prop where
  length : edges.length = levels.length + 1
  top : edges[0]? = some (halfPressure a b sp 0)
  bottom : edges[levels.length]? = some (halfPressure a b sp (a.length - 1))
  between : ∀ (k : ℕ) l m, levels[k]? = some l → levels[k + 1]? = some m →
    edges[k + 1]? = some ((fullPressure a b sp l + fullPressure a b sp m) / 2)

/-- `dp` are the differences between successive `edges` -/
def ThicknessOf (edges dp : List K) : Prop :=
  edges.length = dp.length + 1 ∧ ∀ (k : ℕ) d top bottom, dp[k]? = some d → edges[k]? = some top →
    edges[k + 1]? = some bottom → d = bottom - top

/-- a model level of a column: its number, the thickness of the air it stands for, humidity and wind -/
structure ModelLevel (K : Type) where
  number : ℤ
  dp : K
  q : K
  u : K
  v : K

/-- water of a model level (kg m-2) -/
def ModelLevel.water (l : ModelLevel K) : K := l.q * l.dp / grav

/-- sum of `f` over the levels from the top up to and including number `boundary` -/
def upperSum (boundary : ℤ) (f : ModelLevel K → K) (ls : List (ModelLevel K)) : K :=
  ((ls.filter fun l => decide (l.number ≤ boundary)).map f).sum

/-- sum of `f` over the levels with a number above `boundary`, which lie below the others -/
def lowerSum (boundary : ℤ) (f : ModelLevel K → K) (ls : List (ModelLevel K)) : K :=
  ((ls.filter fun l => decide (boundary < l.number)).map f).sum

/-- the integrals over the two layers -/
def modelIntegrals (boundary : ℤ) (ls : List (ModelLevel K)) : LayerSums K where
  s_upper := upperSum boundary ModelLevel.water ls
  s_lower := lowerSum boundary ModelLevel.water ls
  fx_upper := upperSum boundary (fun l => l.u * l.water) ls
  fx_lower := lowerSum boundary (fun l => l.u * l.water) ls
  fy_upper := upperSum boundary (fun l => l.v * l.water) ls
  fy_lower := lowerSum boundary (fun l => l.v * l.water) ls

end Wam.Spec
