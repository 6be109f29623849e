import Verif.Model.Arr

/-!
# `/repo/src/wam2layers/utils/grid.py`
-/

namespace Wam

variable {m n : ℕ} {α : Type*}

section
variable [Add α] [Mul α] [NpOps α]

/-- `stagger_x(fx, periodic_x=False)`, grid.py:7-20.  Shape `[M, N] -> [M-2, N-1]`. -/
def staggerX (fx : Arr (m + 2) (n + 2) α) : Arr m (n + 1) α :=
  Arr.rowsInner fun i j =>
    ofRat (1 / 2) * (Arr.colsButLast (n := n + 1) fx i j + Arr.colsButFirst (n := n + 1) fx i j)

/-- `stagger_x(fx, periodic_x=True)`, grid.py:22-27.  Shape `[M, N] -> [M-2, N+1]`: the interior
interfaces hold the mean of the two neighbouring cells, both outer interfaces hold the mean of
the first and the last column. -/
def staggerXPeriodic (fx : Arr (m + 2) (n + 2) α) : Arr m (n + 3) α :=
  Arr.rowsInner fun i =>
    Arr.padWith (n := n + 1)
      (ofRat (1 / 2) * (fx i 0 + fx i (Fin.last (n + 1))))
      (ofRat (1 / 2) * (fx i 0 + fx i (Fin.last (n + 1))))
      (fun j => ofRat (1 / 2) *
        (Arr.colsButLast (n := n + 1) fx i j + Arr.colsButFirst (n := n + 1) fx i j))

/-- `stagger_y(fy, periodic_x=False)`, grid.py:30-40.  Shape `[M, N] -> [M-1, N-2]`. -/
def staggerY (fy : Arr (m + 2) (n + 2) α) : Arr (m + 1) n α :=
  Arr.colsInner fun i j =>
    ofRat (1 / 2) * (Arr.rowsButLast (m := m + 1) fy i j + Arr.rowsButFirst (m := m + 1) fy i j)

/-- `stagger_y(fy, periodic_x=True)`, grid.py:38-39.  Shape `[M, N] -> [M-1, N]`. -/
def staggerYPeriodic (fy : Arr (m + 2) (n + 2) α) : Arr (m + 1) (n + 2) α :=
  fun i j =>
    ofRat (1 / 2) * (Arr.rowsButLast (m := m + 1) fy i j + Arr.rowsButFirst (m := m + 1) fy i j)

end

/-- `get_boundary(field, periodic)`, grid.py:73-82: all ones, with `[1:-1, :]` (periodic) or
`[1:-1, 1:-1]` set to zero.  The shape is that of `field`; its values are not used. -/
def getBoundary (periodic : Bool) : Arr m n Bool := fun i j =>
  if periodic then
    -- boundary[1:-1, :] = 0
    if 1 ≤ i.val ∧ i.val + 1 < m then false else true
  else
    -- boundary[1:-1, 1:-1] = 0
    if (1 ≤ i.val ∧ i.val + 1 < m) ∧ (1 ≤ j.val ∧ j.val + 1 < n) then false else true

/-- Trigonometric operations used by `get_grid_info` (`np.pi`, `np.sin`, `np.cos`), grid.py:57-69 -/
class NpTrig (α : Type*) where
  pi : α
  sin : α → α
  cos : α → α

/-- What `get_grid_info` returns: cell area per row, meridional side, zonal side per row.
(grid.py:70) -/
structure GridInfo (m : ℕ) (α : Type*) where
  /-- `a` : cell area [m2], one value per latitude -/
  a : Fin m → α
  /-- `dy` [m] -/
  dy : α
  /-- `dx` [m], one value per latitude (shape `[M, 1]` in the code) -/
  dx : Fin m → α

section
variable [Add α] [Sub α] [Mul α] [Div α] [NpOps α] [NpTrig α]

/-- `get_grid_info(ds)`, grid.py:43-70 (`dg = 111089.56`, `erad = 6.371e6`). -/
def getGridInfo (latitude : Fin (m + 2) → α) (longitude : Fin (n + 2) → α) : GridInfo (m + 2) α :=
  let dg : α := ofRat (11108956 / 100)
  let erad : α := ofRat 6371000
  let dx_deg := absolute (longitude 1 - longitude 0)
  let dy_deg := absolute (latitude 1 - latitude 0)
  let lat_n := fun i => minimum (ofRat 90) (latitude i + ofRat (1 / 2) * dx_deg)
  let lat_s := fun i => maximum (ofRat (-90)) (latitude i - ofRat (1 / 2) * dx_deg)
  let a := fun i =>
    NpTrig.pi / ofRat 180 * (erad * erad) * dx_deg *
      absolute (NpTrig.sin (lat_s i * NpTrig.pi / ofRat 180) -
        NpTrig.sin (lat_n i * NpTrig.pi / ofRat 180))
  let dy := dy_deg * dg
  let dx_n := fun i =>
    dx_deg * dg * NpTrig.cos ((latitude i + dx_deg / ofRat 2) * NpTrig.pi / ofRat 180)
  let dx_s := fun i =>
    dx_deg * dg * NpTrig.cos ((latitude i - dx_deg / ofRat 2) * NpTrig.pi / ofRat 180)
  { a := a, dy := dy, dx := fun i => ofRat (1 / 2) * (dx_n i + dx_s i) }

end

end Wam
