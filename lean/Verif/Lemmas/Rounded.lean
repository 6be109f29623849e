import Verif.Model.Rounded
import Verif.Model.Track
import Verif.Lemmas.RunEnds
import Verif.Lemmas.Step
import Mathlib.Algebra.Order.Field.Basic
import Mathlib.Tactic.Positivity
import Mathlib.Tactic.Linarith

/-! Laws of rounded arithmetic. -/

set_option linter.unusedSectionVars false

namespace Wam

namespace Fl

variable {K : Type*} [Field K] [LinearOrder K] [IsStrictOrderedRing K] {R : Rounding K}

theorem le_def (x y : Fl R) : x ≤ y ↔ x.val ≤ y.val := Iff.rfl
theorem lt_def (x y : Fl R) : x < y ↔ x.val < y.val := Iff.rfl

@[simp] theorem val_zero : (0 : Fl R).val = 0 := rfl
@[simp] theorem val_one : (1 : Fl R).val = 1 := rfl
@[simp] theorem val_add (x y : Fl R) : (x + y).val = R.rnd (x.val + y.val) := rfl
@[simp] theorem val_sub (x y : Fl R) : (x - y).val = R.rnd (x.val - y.val) := rfl
@[simp] theorem val_mul (x y : Fl R) : (x * y).val = R.rnd (x.val * y.val) := rfl
@[simp] theorem val_div (x y : Fl R) : (x / y).val = R.rnd (x.val / y.val) := rfl
@[simp] theorem val_neg (x : Fl R) : (-x).val = -x.val := rfl
@[simp] theorem val_ofRat (q : ℚ) : (ofRat q : Fl R).val = R.rnd (q : K) := rfl

theorem val_min (x y : Fl R) : (min x y).val = min x.val y.val := by
  rcases le_total x y with h | h
  · rw [min_eq_left h, min_eq_left ((le_def _ _).1 h)]
  · rw [min_eq_right h, min_eq_right ((le_def _ _).1 h)]
theorem val_max (x y : Fl R) : (max x y).val = max x.val y.val := by
  rcases le_total x y with h | h
  · rw [max_eq_right h, max_eq_right ((le_def _ _).1 h)]
  · rw [max_eq_left h, max_eq_left ((le_def _ _).1 h)]

@[simp] theorem ofRat_zero : (ofRat 0 : Fl R) = 0 := Fl.ext (by simp [R.zero])
@[simp] theorem ofRat_one : (ofRat 1 : Fl R) = 1 := Fl.ext (by simp [R.one])
@[simp] theorem np_lt (a b : Fl R) : NpOps.lt a b = decide (a < b) := rfl
@[simp] theorem np_le (a b : Fl R) : NpOps.le a b = decide (a ≤ b) := rfl
@[simp] theorem np_min (a b : Fl R) : minimum a b = min a b := rfl
@[simp] theorem np_max (a b : Fl R) : maximum a b = max a b := rfl

theorem rnd_nonneg {x : K} (h : 0 ≤ x) : 0 ≤ R.rnd x := by
  have := R.mono h
  rwa [R.zero] at this

theorem rnd_nonpos {x : K} (h : x ≤ 0) : R.rnd x ≤ 0 := by
  have := R.mono h
  rwa [R.zero] at this

theorem add_nonneg {x y : Fl R} (hx : 0 ≤ x) (hy : 0 ≤ y) : 0 ≤ x + y :=
  rnd_nonneg (_root_.add_nonneg ((le_def _ _).1 hx) ((le_def _ _).1 hy))
theorem mul_nonneg {x y : Fl R} (hx : 0 ≤ x) (hy : 0 ≤ y) : 0 ≤ x * y :=
  rnd_nonneg (_root_.mul_nonneg ((le_def _ _).1 hx) ((le_def _ _).1 hy))
theorem div_nonneg {x y : Fl R} (hx : 0 ≤ x) (hy : 0 ≤ y) : 0 ≤ x / y :=
  rnd_nonneg (_root_.div_nonneg ((le_def _ _).1 hx) ((le_def _ _).1 hy))
theorem sub_nonpos {x y : Fl R} (h : x ≤ y) : x - y ≤ 0 :=
  rnd_nonpos (_root_.sub_nonpos.2 ((le_def _ _).1 h))
theorem sub_nonneg {x y : Fl R} (h : y ≤ x) : 0 ≤ x - y :=
  rnd_nonneg (_root_.sub_nonneg.2 ((le_def _ _).1 h))
theorem neg_nonneg {x : Fl R} (h : x ≤ 0) : 0 ≤ -x :=
  (le_def _ _).2 (_root_.neg_nonneg.2 ((le_def _ _).1 h))

@[simp] theorem add_zero (x : Fl R) : x + 0 = x := Fl.ext (by simp [x.rep])
@[simp] theorem zero_add (x : Fl R) : 0 + x = x := Fl.ext (by simp [x.rep])
@[simp] theorem sub_zero (x : Fl R) : x - 0 = x := Fl.ext (by simp [x.rep])
@[simp] theorem mul_zero (x : Fl R) : x * 0 = 0 := Fl.ext (by simp [R.zero])
@[simp] theorem zero_mul (x : Fl R) : 0 * x = 0 := Fl.ext (by simp [R.zero])
@[simp] theorem zero_div (x : Fl R) : 0 / x = 0 := Fl.ext (by simp [R.zero])
@[simp] theorem mul_one (x : Fl R) : x * 1 = x := Fl.ext (by simp [x.rep])
@[simp] theorem sub_self (x : Fl R) : x - x = 0 := Fl.ext (by simp [R.zero])
@[simp] theorem neg_zero : -(0 : Fl R) = 0 := Fl.ext (by simp)

theorem add_comm (x y : Fl R) : x + y = y + x := Fl.ext (by simp [_root_.add_comm])

theorem add_le_add {x y z w : Fl R} (h : x ≤ y) (h' : z ≤ w) : x + z ≤ y + w :=
  R.mono (_root_.add_le_add ((le_def _ _).1 h) ((le_def _ _).1 h'))
theorem mul_le_mul_left {x y z : Fl R} (h : x ≤ y) (hz : 0 ≤ z) : z * x ≤ z * y :=
  R.mono (mul_le_mul_of_nonneg_left ((le_def _ _).1 h) ((le_def _ _).1 hz))
theorem mul_le_mul_right {x y z : Fl R} (h : x ≤ y) (hz : 0 ≤ z) : x * z ≤ y * z :=
  R.mono (mul_le_mul_of_nonneg_right ((le_def _ _).1 h) ((le_def _ _).1 hz))
theorem le_add_right {x y : Fl R} (hy : 0 ≤ y) : x ≤ x + y := by
  have := add_le_add (le_refl x) hy
  rwa [add_zero] at this
theorem mul_le_of_le_one {x y : Fl R} (hx : 0 ≤ x) (hy : y ≤ 1) : x * y ≤ x := by
  have := mul_le_mul_left hy hx
  rwa [mul_one] at this

theorem ofRat_nonneg {q : ℚ} (h : 0 ≤ q) : 0 ≤ (ofRat q : Fl R) :=
  rnd_nonneg (by exact_mod_cast h)

end Fl

section
variable {K : Type*} [Field K] [LinearOrder K] [IsStrictOrderedRing K] {R : Rounding K} {m n : ℕ}

/-! ### The bookkeeping after the transport -/

theorem settleFl_bounds (bnd : Bool) (tl tu Sl Su : Fl R) (hl : 0 ≤ Sl) (hu : 0 ≤ Su) :
    let s := settle bnd tl tu Sl Su
    (0 ≤ s.lower ∧ s.lower ≤ Sl) ∧ (0 ≤ s.upper ∧ s.upper ≤ Su) := by
  simp only [settle, Fl.np_min, Fl.np_max, Fl.ofRat_zero]
  exact ⟨⟨le_min (le_max_right _ _) hl, min_le_right _ _⟩,
    ⟨le_min (le_max_right _ _) hu, min_le_right _ _⟩⟩

theorem settleFl_boundary (tl tu Sl Su : Fl R) (hl : 0 ≤ Sl) (hu : 0 ≤ Su) :
    settle true tl tu Sl Su = ⟨0, 0, tu + tl, 0⟩ := by
  have h1 : max 0 (0 - Sl) = (0 : Fl R) := max_eq_left (Fl.sub_nonpos hl)
  have h2 : max 0 (0 - Su) = (0 : Fl R) := max_eq_left (Fl.sub_nonpos hu)
  simp [settle, h1, h2, hl, hu]

theorem settleFl_gains (bnd : Bool) (tl tu Sl Su : Fl R) : 0 ≤ (settle bnd tl tu Sl Su).gains := by
  have key : ∀ x : Fl R, 0 ≤ (if NpOps.lt x (ofRat 0) = true then -x else ofRat 0) := by
    intro x
    simp only [Fl.np_lt, Fl.ofRat_zero]
    split_ifs with h
    · exact Fl.neg_nonneg (of_decide_eq_true h).le
    · exact le_refl _
  exact Fl.add_nonneg (key _) (key _)

theorem settleFl_losses (tl tu Sl Su : Fl R) : 0 ≤ (settle false tl tu Sl Su).losses := by
  simp only [settle, Fl.np_max, Fl.ofRat_zero, Bool.false_eq_true, if_false, Fl.zero_add]
  exact Fl.add_nonneg (le_max_left _ _) (le_max_left _ _)

theorem relStorageFl_nonneg {t s : Fl R} (ht : 0 ≤ t) (hs : 0 ≤ s) : 0 ≤ relStorage t s := by
  simp only [relStorage, Fl.np_min, Fl.ofRat_one]
  refine le_min (Fl.div_nonneg ht hs) ?_
  rw [Fl.le_def]; simp

theorem relStorageFl_le_one (t s : Fl R) : relStorage t s ≤ 1 := by
  simp only [relStorage, Fl.np_min, Fl.ofRat_one]
  exact min_le_right _ _

theorem relStorageFl_zero (s : Fl R) : relStorage 0 s = 0 := by
  simp only [relStorage, Fl.np_min, Fl.ofRat_one, Fl.zero_div]
  exact min_eq_left (by rw [Fl.le_def]; simp)

instance : MulZeroNum (Fl R) := ⟨fun x => by simp⟩

/-! ### Transport of nothing -/

theorem donorCellFl_zero (sp : Arr (m + 2) (n + 2) (Fl R)) (up : Arr m (n + 1) (Fl R))
    (vp : Arr (m + 1) n (Fl R)) (h : ∀ i j, sp i j = 0) (i j) : donorCell sp up vp i j = 0 := by
  simp [donorCell, Arr.colsButLast, Arr.colsButFirst, Arr.rowsButFirst, Arr.rowsButLast,
    Arr.rowsInner, Arr.colsInner, h]

theorem padWith_const {α : Type*} (c : α) {f : Fin n → α} (h : ∀ i, f i = c) (i) :
    Arr.padWith c c f i = c := by
  unfold Arr.padWith
  refine Fin.cases (by simp) (fun i => ?_) i
  rw [Fin.cons_succ]
  refine Fin.lastCases (by simp) (fun i => ?_) i
  rw [Fin.snoc_castSucc, h]

theorem advectFl_zero (periodic sgn : Bool) (s fx fy : Arr (m + 2) (n + 2) (Fl R))
    (h : ∀ i j, s i j = 0) (i j) : advect periodic sgn s fx fy i j = 0 := by
  unfold advect
  cases periodic
  · simp only [Bool.false_eq_true, if_false]
    refine donorCellFl_zero _ _ _ (fun i j => ?_) i j
    unfold Arr.padXYZero Arr.padYZero
    rw [Fl.ofRat_zero]
    exact padWith_const 0 (fun i' => padWith_const 0 (h i') j) i
  · simp only [if_true]
    refine donorCellFl_zero _ _ _ (fun i j => ?_) i j
    unfold Arr.padYZero Arr.padXWrap
    rw [Fl.ofRat_zero]
    refine padWith_const 0 (fun i' => ?_) i
    rw [h, h]
    exact padWith_const 0 (h i') j

end

end Wam
