import Verif.Model.Column

/-!
# Functions for pressure levels that the package offers but no longer calls

`/repo/src/wam2layers/preprocessing/utils.py:11-93`, for one column (each of them treats every time, latitude and
longitude alike).
-/

namespace Wam

section
variable {α : Type}

/-- `sortby("lev", ascending=False)`: the stable ascending order, turned around, utils.py:21-23 -/
def sortLevDescending [NpOps α] (l : List (α × α)) : List (α × α) :=
  (l.mergeSort fun a b => NpOps.le a.1 b.1).reverse

/-- `join_levels(pressure_level_data, surface_level_data)`: pairs of level and value, utils.py:11-23 -/
def joinLevels [NpOps α] (data : List (α × α)) (surface : α) : Except Err (List (α × α)) :=
  match data with
  | [] => .error .indexError
  | _ :: _ => .ok (sortLevDescending (data ++ [(ofRat 110000, surface)]))

/-- `repeat_upper_level(pressure_level_data, fill_value)`, utils.py:26-37 -/
def repeatUpperLevel [NpOps α] [Mul α] (data : List (α × α)) (fill : Option α) : Except Err (List (α × α)) :=
  match data.getLast? with
  | none => .error .indexError
  | some top =>
    let value := match fill with
      | some f => ofRat 1 * f
      | none => top.2
    .ok (data ++ [(ofRat 10000, value)])

section
variable [Add α] [Sub α] [Mul α] [Div α] [NpOps α]

/-- the regular levels with zeros at both ends, utils.py:45-54 -/
def regularLevels (ps : α) (n : ℕ) : List α :=
  let dp := (ps - ofRat 20000) / ofRat ((n : ℚ) - 1)
  ofRat 0 :: (List.range n).map (fun k : ℕ => ps - dp * ofRat k) ++ [ofRat 0]

/-- `new_p[:-1] = mask[1:] * new_p[1:] + (1 - mask[1:]) * new_p[:-1]`, utils.py:56-65 -/
def shiftLevels (pb : α) : List α → List α
  | x :: y :: l =>
    let mask : α := if NpOps.lt pb y then ofRat 1 else ofRat 0
    (mask * y + (ofRat 1 - mask) * x) :: shiftLevels pb (y :: l)
  | l => l

/-- `new_p[1:] = where(new_p[:-1] == new_p[1:], p_boundary, new_p[1:])`, utils.py:67-71 (all comparisons before any
assignment) -/
def markBoundary (pb : α) : List α → List α
  | [] => []
  | x :: l => x :: List.zipWith (fun a b => if NpOps.le a b && NpOps.le b a then pb else b) (x :: l) l

/-- `get_new_target_levels(surface_pressure, p_boundary, n_levels)`, utils.py:40-72 -/
def getNewTargetLevels (ps pb : α) (n : ℕ) : List α :=
  markBoundary pb (shiftLevels pb (regularLevels ps n))

/-- `scipy.interpolate.interp1d(..., "linear")` inside its bounds, by `np.interp`, utils.py:90-91: the straight line from
the last sample that is not above `x` -/
def npInterp (x : α) : List (α × α) → α
  | [] => ofRat 0
  | [a] => a.2
  | a :: b :: l =>
    if NpOps.le b.1 x then npInterp x (b :: l)
    else if NpOps.le x a.1 && NpOps.le a.1 x then a.2
    else (b.2 - a.2) / (b.1 - a.1) * (x - a.1) + a.2

/-- `interpolate_old(old_var, old_pressure_levels, new_pressure_levels)` for one new level; masked values are `none`,
utils.py:75-93.  `interp1d` sorts its samples and refuses values outside of them. -/
def interpolateOld (x : α) (xp fp : List (Option α)) : Except Err α :=
  let xp := xp.filterMap id
  let fp := fp.filterMap id
  if xp.length ≠ fp.length then .error .valueError
  else
    let s := (xp.zip fp).mergeSort fun a b => NpOps.le a.1 b.1
    match s.head?, s.getLast? with
    | some first, some last =>
      if NpOps.lt x first.1 || NpOps.lt last.1 x then .error .valueError else .ok (npInterp x s)
    | _, _ => .error .valueError

end
end

end Wam
