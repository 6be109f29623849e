import Mathlib.Algebra.Order.Field.Basic

/-!
# Specification of donor-cell advection

Stated without reference to the model: only faces, cells and "the water comes from the upwind side".
Rows are numbered southward, columns eastward, starting at 0.
-/

namespace Wam.Spec

variable {K : Type*} [Field K] [LinearOrder K]

/-- Amount carried per unit time through a face by the flux `q`, positive from cell `A` to cell `B`:
a positive flux carries the value of `A`, a negative one the value of `B`. -/
def carried (q sA sB : K) : K := max q 0 * sA - max (-q) 0 * sB

/-- Tendency of a cell with value `c` and neighbours `w e no so`, given the eastward fluxes `qw`,
`qe` through its west and east face and the northward fluxes `qn`, `qs` through its north and south
face. -/
def tendency (c w e no so qw qe qn qs : K) : K :=
  carried qw w c - carried qe c e + carried qs so c - carried qn c no

/-- A two-dimensional field seen as a function of row and column number, 0 outside. -/
def at2 {m n : ℕ} (f : Fin m → Fin n → K) (i j : ℤ) : K :=
  if h : 0 ≤ i ∧ i < m ∧ 0 ≤ j ∧ j < n then
    f ⟨i.toNat, by omega⟩ ⟨j.toNat, by omega⟩
  else 0

/-- Eastward flux through the face between columns `j-1` and `j` of row `i`, from fluxes given at the
cell centres: the mean of the two cells.  There are no fluxes in the first and last row, and, unless
the grid is periodic, none through the western and eastern edge. -/
def faceX {m n : ℕ} (periodic : Bool) (fx : Fin m → Fin n → K) (i j : ℤ) : K :=
  if 0 < i ∧ i < m - 1 ∧ (periodic = true ∨ (0 < j ∧ j < n)) then
    (at2 fx i ((j - 1) % n) + at2 fx i (j % n)) / 2
  else 0

/-- Northward flux through the face between rows `i` (south) and `i-1` (north) in column `j`.  There
are no fluxes through the northern and southern edge, and, unless the grid is periodic, none in
the first and last column. -/
def faceY {m n : ℕ} (periodic : Bool) (fy : Fin m → Fin n → K) (i j : ℤ) : K :=
  if 0 < i ∧ i < m ∧ (periodic = true ∨ (0 < j ∧ j < n - 1)) then
    (at2 fy (i - 1) j + at2 fy i j) / 2
  else 0

/-- Net inflow of water into cell `(i, j)` through its four faces. -/
def convergence {m n : ℕ} (periodic : Bool) (fx fy : Fin m → Fin n → K) (i j : ℤ) : K :=
  faceX periodic fx i j - faceX periodic fx i (j + 1) +
    faceY periodic fy (i + 1) j - faceY periodic fy i j

/-- Water leaving cell `(i, j)` through its four faces. -/
def outflow {m n : ℕ} (periodic : Bool) (fx fy : Fin m → Fin n → K) (i j : ℤ) : K :=
  max (-faceX periodic fx i j) 0 + max (faceX periodic fx i (j + 1)) 0 +
    max (-faceY periodic fy (i + 1) j) 0 + max (faceY periodic fy i j) 0

/-- rotation of a field by `k` columns -/
def rot {m n : ℕ} (k : Fin (n + 1)) {β : Type*} (f : Fin m → Fin (n + 1) → β) :
    Fin m → Fin (n + 1) → β := fun i j => f i (j + k)

end Wam.Spec
