import Verif.Lemmas.NumK

/-! Computation rules for `XF K` (exact numbers with IEEE special values). -/
set_option linter.unusedSectionVars false

namespace Wam.XF
variable {K : Type*} [Field K] [LinearOrder K] [IsStrictOrderedRing K]

@[simp] theorem fin_add (x y : K) : (fin x + fin y : XF K) = fin (x + y) := rfl
@[simp] theorem fin_mul (x y : K) : (fin x * fin y : XF K) = fin (x * y) := rfl
@[simp] theorem fin_neg (x : K) : (-fin x : XF K) = fin (-x) := rfl
@[simp] theorem fin_sub (x y : K) : (fin x - fin y : XF K) = fin (x - y) := by
  show XF.add (fin x) (XF.neg (fin y)) = _
  simp [XF.neg, XF.add, sub_eq_add_neg]
theorem fin_div (x y : K) (h : y ≠ 0) : (fin x / fin y : XF K) = fin (x / y) := by
  show XF.div (fin x) (fin y) = _
  simp [XF.div, h]
theorem fin_div_zero : (fin 0 / fin 0 : XF K) = nan := by
  show XF.div (fin 0) (fin 0) = _
  simp [XF.div]

@[simp] theorem nan_add (x : XF K) : (nan + x : XF K) = nan := by cases x <;> rfl
@[simp] theorem add_nan (x : XF K) : (x + nan : XF K) = nan := by cases x <;> rfl
@[simp] theorem neg_nan : (-nan : XF K) = nan := rfl
@[simp] theorem nan_sub (x : XF K) : (nan - x : XF K) = nan := by cases x <;> rfl
@[simp] theorem sub_nan (x : XF K) : (x - nan : XF K) = nan := by cases x <;> rfl
@[simp] theorem nan_mul (x : XF K) : (nan * x : XF K) = nan := by cases x <;> rfl
@[simp] theorem mul_nan (x : XF K) : (x * nan : XF K) = nan := by
  cases x <;> rfl
@[simp] theorem nan_div (x : XF K) : (nan / x : XF K) = nan := by cases x <;> rfl
@[simp] theorem div_nan (x : XF K) : (x / nan : XF K) = nan := by cases x <;> rfl

@[simp] theorem ofRat_eq (q : ℚ) : (ofRat q : XF K) = fin (ofRat q : K) := rfl
@[simp] theorem min_nan (x : XF K) : minimum x nan = nan := by cases x <;> rfl
@[simp] theorem nan_min (x : XF K) : minimum (nan : XF K) x = nan := by cases x <;> rfl
@[simp] theorem max_nan (x : XF K) : maximum x (nan : XF K) = nan := by cases x <;> rfl
@[simp] theorem nan_max (x : XF K) : maximum (nan : XF K) x = nan := by cases x <;> rfl
@[simp] theorem abs_nan : absolute (nan : XF K) = nan := rfl
@[simp] theorem lt_nan (x : XF K) : NpOps.lt x (nan : XF K) = false := by cases x <;> rfl
@[simp] theorem nan_lt (x : XF K) : NpOps.lt (nan : XF K) x = false := by cases x <;> rfl
@[simp] theorem nan_le (x : XF K) : NpOps.le (nan : XF K) x = false := by cases x <;> rfl
@[simp] theorem le_nan (x : XF K) : NpOps.le x (nan : XF K) = false := by cases x <;> rfl

@[simp] theorem fin_min (x y : K) : minimum (fin x : XF K) (fin y) = fin (minimum x y) := by
  show (if isNaN (fin x) || isNaN (fin y) then nan else if leb (fin x) (fin y) then fin x else fin y)
    = fin (min x y)
  simp only [isNaN, Bool.or_self, Bool.false_eq_true, if_false, leb, decide_eq_true_eq, min_def]
  split_ifs <;> rfl
@[simp] theorem fin_max (x y : K) : maximum (fin x : XF K) (fin y) = fin (maximum x y) := by
  show (if isNaN (fin x) || isNaN (fin y) then nan else if leb (fin x) (fin y) then fin y else fin x)
    = fin (max x y)
  simp only [isNaN, Bool.or_self, Bool.false_eq_true, if_false, leb, decide_eq_true_eq, max_def]
  split_ifs <;> rfl
@[simp] theorem fin_abs (x : K) : absolute (fin x : XF K) = fin (absolute x) := rfl
@[simp] theorem fin_lt (x y : K) : NpOps.lt (fin x : XF K) (fin y) = NpOps.lt x y := rfl
@[simp] theorem fin_le (x y : K) : NpOps.le (fin x : XF K) (fin y) = NpOps.le x y := rfl
@[simp] theorem fin_sign (x : K) : NpOps.sign (fin x : XF K) = fin (NpOps.sign x) := by
  show (match sgn (fin x : XF K) with | none => nan | some s => fin (s : K)) = _
  simp only [sgn, np_sign]
  split_ifs <;> simp
@[simp] theorem sign_nan : NpOps.sign (nan : XF K) = nan := rfl

end Wam.XF
