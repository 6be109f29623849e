import Verif.Model.Column

/-! # Specification of the vertical integration -/

namespace Wam.Spec

variable {K : Type} [Field K] [LinearOrder K]

/-- One level of a column: pressure, specific humidity, wind. -/
structure Level (K : Type) where
  p : K
  q : K
  u : K
  v : K
  deriving DecidableEq

/-- The column with these levels, in this order. -/
def column (L : List (Level K)) : Column K :=
  ⟨L.map Level.p, L.map Level.q, L.map Level.u, L.map Level.v⟩

/-- The surface values of a column as a level. -/
def surface (s : Level K) : Surface K := ⟨s.p, s.q, s.u, s.v⟩

/-- `argsort l` lists the positions of `l` in an order in which the values increase; nothing is said
about the order of equal values. -/
def IsArgsort (argsort : List K → List ℕ) : Prop :=
  ∀ l : List K, (argsort l).Perm (List.range l.length) ∧
    ((argsort l).map fun i => l.getD i 0).Pairwise (· ≤ ·)

/-- The point on the straight line between the samples `(x0, y0)` and `(x1, y1)`. -/
def line (x0 y0 x1 y1 x : K) : K := y0 + (y1 - y0) * (x - x0) / (x1 - x0)

/-- `b` carries the values of the levels `S` linearly interpolated to its pressure: the values of a
level at that pressure, or the straight line between two levels around it that have no other level
in between. -/
def Interpolated (S : List (Level K)) (b : Level K) : Prop :=
  (∃ l ∈ S, b = l) ∨
  ∃ l ∈ S, ∃ h ∈ S, l.p < b.p ∧ b.p ≤ h.p ∧ (∀ c ∈ S, c.p ≤ l.p ∨ h.p ≤ c.p) ∧
    b.q = line l.p l.q h.p h.q b.p ∧ b.u = line l.p l.u h.p h.u b.p ∧
    b.v = line l.p l.v h.p h.v b.p

/-- `E` is the column `levels` completed with the surface level, a level without water at pressure
zero that carries the wind of the uppermost level, and an interpolated level at pressure `pb`;
ordered from the top of the atmosphere downwards. -/
def IsExtended (levels : List (Level K)) (sfc : Level K) (pb : K) (E : List (Level K)) : Prop :=
  E.Pairwise (fun a b => a.p ≤ b.p) ∧
  ∃ top ∈ levels, ∃ bdy : Level K,
    (∀ l ∈ levels, top.p ≤ l.p) ∧ bdy.p = pb ∧
    Interpolated (sfc :: ⟨0, 0, top.u, top.v⟩ :: levels) bdy ∧
    E.Perm (bdy :: sfc :: ⟨0, 0, top.u, top.v⟩ :: levels)

/-- Sum of `f` over all pairs of consecutive levels. -/
def pairSum (f : Level K → Level K → K) : List (Level K) → K
  | a :: b :: l => f a b + pairSum f (b :: l)
  | _ => 0

/-- gravitational acceleration -/
def grav : K := ((980665 / 100000 : ℚ) : K)

/-- Water between two levels (kg m-2): mean humidity times mass of air. -/
def water (a b : Level K) : K := (a.q + b.q) / 2 * (b.p - a.p) / grav

/-- Eastward transport between two levels: mean wind times water. -/
def transportX (a b : Level K) : K := (a.u + b.u) / 2 * water a b

/-- Northward transport between two levels. -/
def transportY (a b : Level K) : K := (a.v + b.v) / 2 * water a b

/-- Mass of air between two levels, as a pressure difference. -/
def thickness (a b : Level K) : K := b.p - a.p

/-- The levels from pressure `lo` to pressure `hi`. -/
def between (lo hi : K) (E : List (Level K)) : List (Level K) :=
  E.filter fun l => decide (lo ≤ l.p) && decide (l.p ≤ hi)

/-- The integrals over the two layers: upper layer from pressure zero to `pb`, lower layer from `pb`
to the surface pressure `ps`. -/
def layerIntegrals (ps pb : K) (E : List (Level K)) : LayerSums K where
  s_upper := pairSum water (between 0 pb E)
  s_lower := pairSum water (between pb ps E)
  fx_upper := pairSum transportX (between 0 pb E)
  fx_lower := pairSum transportX (between pb ps E)
  fy_upper := pairSum transportY (between 0 pb E)
  fy_lower := pairSum transportY (between pb ps E)

/-- All integrals multiplied by the same factor. -/
def scale (c : K) (l : LayerSums K) : LayerSums K :=
  ⟨c * l.s_upper, c * l.s_lower, c * l.fx_upper, c * l.fx_lower, c * l.fy_upper, c * l.fy_lower⟩

end Wam.Spec
