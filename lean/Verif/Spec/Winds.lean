import Verif.Spec.Pipeline
import Verif.Spec.Stability

/-!
# The winds that move the water of a layer
-/

namespace Wam.Spec

variable {K : Type}

/-- ranges of the eastward and of the northward wind (m s-1) -/
structure WindRange (K : Type) where
  west : K
  east : K
  south : K
  north : K

/-- the eastward wind `u` and the northward wind `v` are in the range -/
def WindRange.Holds [LE K] (w : WindRange K) (u v : K) : Prop := (w.west ≤ u ∧ u ≤ w.east) ∧ (w.south ≤ v ∧ v ≤ w.north)

/-- the fluxes `fx`, `fy` carry `water` with a wind in the range -/
def WindRange.Carries [LE K] [Mul K] (w : WindRange K) (water fx fy : K) : Prop :=
  (w.west * water ≤ fx ∧ fx ≤ w.east * water) ∧ (w.south * water ≤ fy ∧ fy ≤ w.north * water)

/-- this holds for both layers of a column -/
def WindRange.CarriesBoth [LE K] [Mul K] (w : WindRange K) (r : LayerSums K) : Prop :=
  w.Carries r.s_upper r.fx_upper r.fy_upper ∧ w.Carries r.s_lower r.fx_lower r.fy_lower

/-- this holds for both layers in a cell of preprocessed data -/
def WindRange.CarriesIn {κ : Type} [LE K] [Mul K] (w : WindRange K) (ds : Dataset κ K) (i j : ℕ) : Prop :=
  w.Carries (ds.data .s_upper i j) (ds.data .fx_upper i j) (ds.data .fy_upper i j) ∧
    w.Carries (ds.data .s_lower i j) (ds.data .fx_lower i j) (ds.data .fy_lower i j)

/-- all winds that ERA5 files on pressure levels hold for a time are in the range: on the levels and at 10 m -/
structure Era5Winds {κ : Type} [LE K] (w : WindRange K) (cfg : InputConfig) (disk : List Char → Except Err (RawFile κ K)) (t : ℤ)
    (levels : List ℤ) (g : List κ × List κ) : Prop where
  u : ∀ lat ∈ g.1, ∀ lon ∈ g.2, ∀ l ∈ levels, ∀ x, OnDisk cfg disk "u" t (some (l : ℚ)) lat lon x → w.west ≤ x ∧ x ≤ w.east
  v : ∀ lat ∈ g.1, ∀ lon ∈ g.2, ∀ l ∈ levels, ∀ x, OnDisk cfg disk "v" t (some (l : ℚ)) lat lon x → w.south ≤ x ∧ x ≤ w.north
  u10 : ∀ lat ∈ g.1, ∀ lon ∈ g.2, ∀ x, OnDisk cfg disk "u10" t none lat lon x → w.west ≤ x ∧ x ≤ w.east
  v10 : ∀ lat ∈ g.1, ∀ lon ∈ g.2, ∀ x, OnDisk cfg disk "v10" t none lat lon x → w.south ≤ x ∧ x ≤ w.north

/-- both layers in a cell of the input of a run -/
def WindRange.CarriesAt {m n : ℕ} [LE K] [Mul K] (w : WindRange K) (S : States m n K) (F : Fluxes m n K) (i : Fin m) (j : Fin n) : Prop :=
  w.Carries (S.s_upper i j) (F.fx_upper i j) (F.fy_upper i j) ∧ w.Carries (S.s_lower i j) (F.fx_lower i j) (F.fy_lower i j)

end Wam.Spec
