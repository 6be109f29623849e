import Verif.Spec.Domain
import Verif.Spec.Advection

/-! # Specification: a tracking domain across the date line -/

namespace Wam.Spec

variable {m n M N : ℕ} {K : Type}

/-- states with the columns counted from column `w` on -/
def turnStates (w : Fin (N + 2)) (S : States (M + 2) (N + 2) K) : States (M + 2) (N + 2) K :=
  ⟨rot w S.s_upper, rot w S.s_lower⟩

/-- fluxes with the columns counted from column `w` on -/
def turnFluxes (w : Fin (N + 2)) (F : Fluxes (M + 2) (N + 2) K) : Fluxes (M + 2) (N + 2) K :=
  ⟨rot w F.fx_upper, rot w F.fy_upper, rot w F.fx_lower, rot w F.fy_lower, rot w F.evap, rot w F.precip⟩

/-- a tagging region with the columns counted from column `w` on -/
def turnRegion (w : Fin (N + 2)) : Region (M + 2) (N + 2) K → Region (M + 2) (N + 2) K
  | .stationary mask => .stationary (rot w mask)
  | .moving maskAt => .moving fun t => (maskAt t).map (rot w)

/-- all data of a run, with the columns counted from column `w` on (as if the files began at that meridian) -/
def turnSource (w : Fin (N + 2)) (src : Source M N K) : Source M N K where
  states := fun t => (src.states t).map (turnStates w)
  fluxes := fun t => (src.fluxes t).map (turnFluxes w)
  grid := src.grid
  region := src.region.map (turnRegion w)
  weight := src.weight

/-- The box crosses the date line (`east` is not east of `west`): it contains the last `l` columns and the first `k` columns of the
data, `l + k = n + 2` in all, and at least one column is outside.  The rows inside are those of the small grid, whose columns are
counted from the western end of the box. -/
structure AcrossDateLine [LinearOrder K] (p : Place m n M N) (box : BoundingBox K) (lat lon : List K) (l k : ℕ) : Prop where
  crosses : box.east ≤ box.west
  first : p.col = 0
  size : l + k = n + 2
  outside : n < N
  rows : ∀ i (h : i < lat.length), (box.south ≤ lat[i] ∧ lat[i] ≤ box.north) ↔ (p.row ≤ i ∧ i < p.row + (m + 2))
  west : ∀ j (h : j < lon.length), box.west < lon[j] ↔ N + 2 ≤ j + l
  east : ∀ j (h : j < lon.length), lon[j] < box.east ↔ j < k

/-- the column in which the domain begins -/
def firstColumn (N l : ℕ) : Fin (N + 2) := ⟨(N + 2 - l) % (N + 2), Nat.mod_lt _ (by omega)⟩

end Wam.Spec
