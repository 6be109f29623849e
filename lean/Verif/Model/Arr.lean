import Verif.Model.Num
import Mathlib.Data.Fin.Tuple.Basic

/-!
# Two-dimensional arrays with static shapes

`Arr m n α` is a numpy array of shape `[m, n]` (rows = latitude, decreasing; columns =
longitude).  Shapes are part of the type, so every element-wise operation of the model is
shape-correct by construction.  `get_grid_info` (`/repo/src/wam2layers/utils/grid.py:48-51`)
indexes `latitude[1]` and `longitude[1]`, hence the code only works on grids with at least two
rows and two columns: all grids of the model have shape `[m+2, n+2]`.
-/

namespace Wam

/-- numpy array of shape `[m, n]`, e.g. core.py:87-102 -/
abbrev Arr (m n : ℕ) (α : Type*) := Fin m → Fin n → α

namespace Arr

variable {m n : ℕ} {α : Type*}

/-- `a[:-1, :]`, core.py:96,100, grid.py:39-40 -/
def rowsButLast (a : Arr (m + 1) n α) : Arr m n α := fun i j => a i.castSucc j
/-- `a[1:, :]`, core.py:96,100, grid.py:39-40 -/
def rowsButFirst (a : Arr (m + 1) n α) : Arr m n α := fun i j => a i.succ j
/-- `a[1:-1, :]`, grid.py:20,27 -/
def rowsInner (a : Arr (m + 2) n α) : Arr m n α := fun i j => a i.castSucc.succ j
/-- `a[:, :-1]`, core.py:95,99, grid.py:20,25 -/
def colsButLast (a : Arr m (n + 1) α) : Arr m n α := fun i j => a i j.castSucc
/-- `a[:, 1:]`, core.py:95,99, grid.py:20,25 -/
def colsButFirst (a : Arr m (n + 1) α) : Arr m n α := fun i j => a i j.succ
/-- `a[:, 1:-1]`, core.py:96, grid.py:40 -/
def colsInner (a : Arr m (n + 2) α) : Arr m n α := fun i j => a i j.castSucc.succ

/-- `np.pad` of one axis by one element on either side with the given ghost values, core.py:10-14 -/
def padWith (l r : α) (f : Fin n → α) : Fin (n + 2) → α :=
  Fin.cons (α := fun _ => α) l (Fin.snoc (α := fun _ => α) f r)

variable [NpOps α]

/-- `pad_x_wrap`, `/repo/src/wam2layers/tracking/core.py:10`: `np.pad(..., ((0,0),(1,1)), "wrap")` -/
def padXWrap (a : Arr m (n + 1) α) : Arr m (n + 3) α :=
  fun i => padWith (a i (Fin.last n)) (a i 0) (a i)

/-- `pad_y_zero`, `/repo/src/wam2layers/tracking/core.py:11-13` -/
def padYZero (a : Arr m n α) : Arr (m + 2) n α :=
  fun i j => padWith (ofRat 0) (ofRat 0) (fun i' => a i' j) i

/-- zero padding of both axes, `pad_xy_zero`, `/repo/src/wam2layers/tracking/core.py:14` -/
def padXYZero (a : Arr m n α) : Arr (m + 2) (n + 2) α :=
  padYZero (fun i => padWith (ofRat 0) (ofRat 0) (a i))

end Arr

end Wam
