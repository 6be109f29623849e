import Verif.Spec.Accuracy
import Verif.Lemmas.Rounded
import Mathlib.Tactic.Ring
import Mathlib.Algebra.Order.Group.MinMax
import Mathlib.Tactic.NormNum

/-! Error calculus for rounded arithmetic. -/

set_option linter.unusedSectionVars false

namespace Wam
open Spec

variable {K : Type*} [Field K] [LinearOrder K] [IsStrictOrderedRing K] {R : Rounding K} {u η : K}

theorem Spec.Accurate.u_nonneg (A : Accurate R u η) : 0 ≤ u := A.u_pos.le

theorem Spec.Accurate.small (A : Accurate R u η) {e : K} (h : e ≤ 100000) : e * u ≤ 1 / 100 := by
  have h1 := mul_le_mul_of_nonneg_right h A.u_nonneg
  have h2 := A.u_small
  linarith

/-- a scale on which underflow does not matter -/
structure Fine (u η b : K) : Prop where
  nonneg : 0 ≤ b
  le : η ≤ u * b

/-- the float `x` is the number `y` up to `e` units, and `y` is at most `m` times the scale `b` -/
structure Ap (u b e m : K) (x : Fl R) (y : K) : Prop where
  err : |x.val - y| ≤ e * (u * b)
  size : |y| ≤ m * b

theorem Fine.mono {b b' : K} (hu : 0 ≤ u) (h : Fine u η b) (hb : b ≤ b') : Fine u η b' :=
  ⟨h.nonneg.trans hb, h.le.trans (mul_le_mul_of_nonneg_left hb hu)⟩

namespace Ap

variable {b b1 b2 e e1 e2 m m1 m2 : K} {x x1 x2 : Fl R} {y y1 y2 : K}

theorem exact (x : Fl R) (h : |x.val| ≤ m * b) : Ap u b 0 m x x.val := ⟨by simp, h⟩

theorem zero (hb : 0 ≤ b) (hm : 0 ≤ m) : Ap u b 0 m (0 : Fl R) 0 :=
  ⟨by simp, by simpa using mul_nonneg hm hb⟩

theorem weaken (A : Accurate R u η) (hb : 0 ≤ b) (h : Ap u b e1 m1 x y) (he : e1 ≤ e) (hm : m1 ≤ m) :
    Ap u b e m x y :=
  ⟨h.err.trans (mul_le_mul_of_nonneg_right he (mul_nonneg A.u_nonneg hb)),
    h.size.trans (mul_le_mul_of_nonneg_right hm hb)⟩

theorem scale (A : Accurate R u η) (h : Ap u b1 e m x y) (he : 0 ≤ e) (hm : 0 ≤ m) (hb : b1 ≤ b) :
    Ap u b e m x y :=
  ⟨h.err.trans (mul_le_mul_of_nonneg_left (mul_le_mul_of_nonneg_left hb A.u_nonneg) he),
    h.size.trans (mul_le_mul_of_nonneg_left hb hm)⟩

theorem rnd (A : Accurate R u η) (hb : Fine u η b) (he : e ≤ 100000) {z : K}
    (h1 : |z - y| ≤ e * (u * b)) (h2 : |y| ≤ m * b) : Ap u b (e + m + 2) m (Fl.round R z) y := by
  refine ⟨?_, h2⟩
  change |R.rnd z - y| ≤ _
  have hz : |z| ≤ m * b + e * (u * b) := by
    calc |z| = |y + (z - y)| := by rw [add_sub_cancel]
      _ ≤ |y| + |z - y| := abs_add_le _ _
      _ ≤ _ := add_le_add h2 h1
  have hub := mul_nonneg A.u_nonneg hb.nonneg
  have he := A.small he
  have h3 : u * |z| ≤ m * (u * b) + u * b := by
    calc u * |z| ≤ u * (m * b + e * (u * b)) := mul_le_mul_of_nonneg_left hz A.u_nonneg
      _ = m * (u * b) + (e * u) * (u * b) := by ring
      _ ≤ m * (u * b) + 1 * (u * b) := by
        have := mul_le_mul_of_nonneg_right he hub
        linarith
      _ = _ := by ring
  have h4 := A.err z
  have h5 := hb.le
  calc |R.rnd z - y| = |(R.rnd z - z) + (z - y)| := by congr 1; ring
    _ ≤ |R.rnd z - z| + |z - y| := abs_add_le _ _
    _ ≤ (u * |z| + η) + e * (u * b) := add_le_add h4 h1
    _ ≤ (m * (u * b) + u * b + u * b) + e * (u * b) := by linarith
    _ = _ := by ring

theorem add (A : Accurate R u η) (hb : Fine u η b) (h1 : Ap u b e1 m1 x1 y1) (h2 : Ap u b e2 m2 x2 y2)
    (he : e1 + e2 ≤ 100000) : Ap u b (e1 + e2 + (m1 + m2) + 2) (m1 + m2) (x1 + x2) (y1 + y2) := by
  refine rnd A hb he ?_ ?_
  · calc |x1.val + x2.val - (y1 + y2)| = |(x1.val - y1) + (x2.val - y2)| := by congr 1; ring
      _ ≤ |x1.val - y1| + |x2.val - y2| := abs_add_le _ _
      _ ≤ e1 * (u * b) + e2 * (u * b) := add_le_add h1.err h2.err
      _ = _ := by ring
  · calc |y1 + y2| ≤ |y1| + |y2| := abs_add_le _ _
      _ ≤ m1 * b + m2 * b := add_le_add h1.size h2.size
      _ = _ := by ring

theorem sub (A : Accurate R u η) (hb : Fine u η b) (h1 : Ap u b e1 m1 x1 y1) (h2 : Ap u b e2 m2 x2 y2)
    (he : e1 + e2 ≤ 100000) : Ap u b (e1 + e2 + (m1 + m2) + 2) (m1 + m2) (x1 - x2) (y1 - y2) := by
  refine rnd A hb he ?_ ?_
  · calc |x1.val - x2.val - (y1 - y2)| = |(x1.val - y1) - (x2.val - y2)| := by congr 1; ring
      _ ≤ |x1.val - y1| + |x2.val - y2| := abs_sub _ _
      _ ≤ e1 * (u * b) + e2 * (u * b) := add_le_add h1.err h2.err
      _ = _ := by ring
  · calc |y1 - y2| ≤ |y1| + |y2| := abs_sub _ _
      _ ≤ m1 * b + m2 * b := add_le_add h1.size h2.size
      _ = _ := by ring

theorem neg (h : Ap u b e m x y) : Ap u b e m (-x) (-y) := by
  refine ⟨?_, by rw [abs_neg]; exact h.size⟩
  rw [Fl.val_neg, show -x.val - -y = -(x.val - y) by ring, abs_neg]
  exact h.err

/-- product before rounding -/
theorem mul_aux (A : Accurate R u η) {x1 x2 : K} (h1 : |x1 - y1| ≤ e1 * (u * b1))
    (s1 : |y1| ≤ m1 * b1) (h2 : |x2 - y2| ≤ e2 * (u * b2)) (s2 : |y2| ≤ m2 * b2)
    (hb1 : 0 ≤ b1) (hb2 : 0 ≤ b2) (he1 : 0 ≤ e1) (he2 : 0 ≤ e2) (he : e2 ≤ 100000) :
    |x1 * x2 - y1 * y2| ≤ (e1 * m2 + e1 / 100 + m1 * e2) * (u * (b1 * b2)) := by
  have n2 : |x2| ≤ (m2 + 1 / 100) * b2 := by
    have : e2 * (u * b2) ≤ 1 / 100 * b2 := by
      rw [← mul_assoc]; exact mul_le_mul_of_nonneg_right (A.small he) hb2
    calc |x2| = |y2 + (x2 - y2)| := by rw [add_sub_cancel]
      _ ≤ |y2| + |x2 - y2| := abs_add_le _ _
      _ ≤ m2 * b2 + 1 / 100 * b2 := add_le_add s2 (h2.trans this)
      _ = _ := by ring
  calc |x1 * x2 - y1 * y2| = |(x1 - y1) * x2 + y1 * (x2 - y2)| := by congr 1; ring
    _ ≤ |(x1 - y1) * x2| + |y1 * (x2 - y2)| := abs_add_le _ _
    _ = |x1 - y1| * |x2| + |y1| * |x2 - y2| := by rw [abs_mul, abs_mul]
    _ ≤ (e1 * (u * b1)) * ((m2 + 1 / 100) * b2) + (m1 * b1) * (e2 * (u * b2)) :=
      add_le_add (mul_le_mul h1 n2 (abs_nonneg _) ((abs_nonneg _).trans h1))
        (mul_le_mul s1 h2 (abs_nonneg _) ((abs_nonneg _).trans s1))
    _ = _ := by ring

theorem mul (A : Accurate R u η) (hb : Fine u η b) (h1 : Ap u b1 e1 m1 x1 y1) (h2 : Ap u b2 e2 m2 x2 y2)
    (hb1 : 0 ≤ b1) (hb2 : 0 ≤ b2) (hbb : b1 * b2 = b) (he1 : 0 ≤ e1) (he2 : 0 ≤ e2)
    (he' : e2 ≤ 100000) (he : e1 * m2 + e1 / 100 + m1 * e2 ≤ 100000) :
    Ap u b (e1 * m2 + e1 / 100 + m1 * e2 + m1 * m2 + 2) (m1 * m2) (x1 * x2) (y1 * y2) := by
  subst hbb
  refine rnd A hb he (mul_aux A h1.err h1.size h2.err h2.size hb1 hb2 he1 he2 he') ?_
  rw [abs_mul]
  calc |y1| * |y2| ≤ (m1 * b1) * (m2 * b2) :=
        mul_le_mul h1.size h2.size (abs_nonneg _) ((abs_nonneg _).trans h1.size)
    _ = _ := by ring

/-- product of two given floats -/
theorem mulExact (A : Accurate R u η) (hb : Fine u η b) (h : |x1.val * x2.val| ≤ m * b) :
    Ap u b (m + 2) m (x1 * x2) (x1.val * x2.val) := by
  have := rnd A hb (e := 0) (z := x1.val * x2.val) (y := x1.val * x2.val) (m := m) (by norm_num) (by simp) h
  rw [zero_add] at this
  exact this

/-- quotient by a given float -/
theorem divExact (A : Accurate R u η) (hb : Fine u η b) (h : Ap u b1 e m x y) (c : Fl R)
    (hc : 0 < c.val) (hbb : b1 = c.val * b) (he : e ≤ 100000) :
    Ap u b (e + m + 2) m (x / c) (y / c.val) := by
  subst hbb
  refine rnd A hb he ?_ ?_
  · rw [← sub_div, abs_div, abs_of_pos hc, div_le_iff₀ hc]
    calc _ ≤ _ := h.err
      _ = _ := by ring
  · rw [abs_div, abs_of_pos hc, div_le_iff₀ hc]
    calc _ ≤ _ := h.size
      _ = _ := by ring

/-- quotient by an approximate denominator with small relative error -/
theorem div (A : Accurate R u η) (hb : Fine u η b) (h1 : Ap u b1 e1 m1 x1 y1)
    (hY : 0 < y2) (h2 : Ap u y2 e2 1 x2 y2) (hbb : b1 = y2 * b) (he1 : 0 ≤ e1) (hm1 : 0 ≤ m1)
    (he2 : 0 ≤ e2) (he2' : e2 ≤ 100000) (he : 51 / 50 * (e1 + m1 * e2) ≤ 100000) :
    Ap u b (51 / 50 * (e1 + m1 * e2) + m1 + 2) m1 (x1 / x2) (y1 / y2) := by
  subst hbb
  have hX : 50 / 51 * y2 ≤ x2.val := by
    have h := (abs_le.1 h2.err).1
    have : e2 * (u * y2) ≤ 1 / 100 * y2 := by
      calc e2 * (u * y2) = (e2 * u) * y2 := by ring
        _ ≤ 1 / 100 * y2 := mul_le_mul_of_nonneg_right (A.small he2') hY.le
    linarith
  have hX0 : 0 < x2.val := lt_of_lt_of_le (by positivity) hX
  refine rnd A hb he ?_ ?_
  · have hub : 0 ≤ u * b := mul_nonneg A.u_nonneg hb.nonneg
    have e : x1.val / x2.val - y1 / y2 = ((x1.val - y1) * y2 + y1 * (y2 - x2.val)) / (x2.val * y2) := by
      field_simp
      ring
    rw [e, abs_div, abs_of_pos (mul_pos hX0 hY), div_le_iff₀ (mul_pos hX0 hY)]
    have hs := h2.err
    rw [abs_sub_comm] at hs
    calc |(x1.val - y1) * y2 + y1 * (y2 - x2.val)| ≤ |(x1.val - y1) * y2| + |y1 * (y2 - x2.val)| :=
          abs_add_le _ _
      _ = |x1.val - y1| * y2 + |y1| * |y2 - x2.val| := by rw [abs_mul, abs_mul, abs_of_pos hY]
      _ ≤ (e1 * (u * (y2 * b))) * y2 + (m1 * (y2 * b)) * (e2 * (u * y2)) :=
          add_le_add (mul_le_mul_of_nonneg_right h1.err hY.le)
            (mul_le_mul h1.size hs (abs_nonneg _) ((abs_nonneg _).trans h1.size))
      _ = (51 / 50 * (e1 + m1 * e2) * (u * b)) * (50 / 51 * y2 * y2) := by ring
      _ ≤ (51 / 50 * (e1 + m1 * e2) * (u * b)) * (x2.val * y2) := by
          refine mul_le_mul_of_nonneg_left (mul_le_mul_of_nonneg_right hX hY.le) ?_
          have : 0 ≤ m1 * e2 := mul_nonneg hm1 he2
          positivity
  · rw [abs_div, abs_of_pos hY, div_le_iff₀ hY]
    calc _ ≤ _ := h1.size
      _ = _ := by ring

theorem min (h1 : Ap u b e m x1 y1) (h2 : Ap u b e m x2 y2) :
    Ap u b e m (min x1 x2) (min y1 y2) := by
  refine ⟨?_, ?_⟩
  · rw [Fl.val_min]
    exact (abs_min_sub_min_le_max _ _ _ _).trans (max_le h1.err h2.err)
  · rcases min_choice y1 y2 with h | h <;> rw [h]
    exacts [h1.size, h2.size]

theorem max (h1 : Ap u b e m x1 y1) (h2 : Ap u b e m x2 y2) :
    Ap u b e m (max x1 x2) (max y1 y2) := by
  refine ⟨?_, ?_⟩
  · rw [Fl.val_max]
    exact (abs_max_sub_max_le_max _ _ _ _).trans (max_le h1.err h2.err)
  · rcases max_choice y1 y2 with h | h <;> rw [h]
    exacts [h1.size, h2.size]

theorem absolute (h : Ap u b e m x y) : Ap u b e m (absolute x) (absolute y) := h.max h.neg

/-- a literal of the program -/
theorem lit (A : Accurate R u η) (q : ℚ) (hb : Fine u η b) (h : |(q : K)| ≤ m * b) :
    Ap u b (m + 2) m (ofRat q : Fl R) (q : K) := by
  have := rnd (R := R) A hb (e := 0) (z := (q : K)) (y := (q : K)) (m := m) (by norm_num) (by simp) h
  rw [zero_add] at this
  exact this

/-- donor cell: the flux `x` takes with it the concentration of the cell it comes from.  Which cell that is
may differ between exact and rounded arithmetic when the flux is tiny; then the transport is tiny. -/
theorem donor (A : Accurate R u η) (hb : Fine u η b) {w w' : Fl R} {v v' : K}
    (h : Ap u b e1 m1 x y) (hw : Ap u 1 e2 1 w v) (hw' : Ap u 1 e2 1 w' v')
    (he1 : 0 ≤ e1) (hm1 : 0 ≤ m1) (he2 : 0 ≤ e2) (he2' : e2 ≤ 100000)
    (he : 101 / 100 * e1 + m1 * e2 ≤ 100000) :
    Ap u b (101 / 100 * e1 + m1 * e2 + m1 + 2) m1 (if 0 < x then x * w else x * w')
      (if 0 < y then y * v else y * v') := by
  have hw1 : |w.val| ≤ 101 / 100 := by
    have : e2 * (u * 1) ≤ 1 / 100 := by rw [mul_one]; exact A.small he2'
    calc |w.val| = |v + (w.val - v)| := by rw [add_sub_cancel]
      _ ≤ |v| + |w.val - v| := abs_add_le _ _
      _ ≤ 1 * 1 + 1 / 100 := add_le_add hw.size (hw.err.trans this)
      _ = 101 / 100 := by norm_num
  have hw2 : |w'.val| ≤ 101 / 100 := by
    have : e2 * (u * 1) ≤ 1 / 100 := by rw [mul_one]; exact A.small he2'
    calc |w'.val| = |v' + (w'.val - v')| := by rw [add_sub_cancel]
      _ ≤ |v'| + |w'.val - v'| := abs_add_le _ _
      _ ≤ 1 * 1 + 1 / 100 := add_le_add hw'.size (hw'.err.trans this)
      _ = 101 / 100 := by norm_num
  have e3 : (if 0 < x then x * w else x * w') =
      Fl.round R (if 0 < x then x.val * w.val else x.val * w'.val) := by split_ifs <;> rfl
  have hv := hw.size
  have hv' := hw'.size
  rw [mul_one] at hv hv'
  have same : ∀ (w : Fl R) (v : K), Ap u 1 e2 1 w v →
      |x.val * w.val - y * v| ≤ (101 / 100 * e1 + m1 * e2) * (u * b) := by
    intro w v hw
    have := mul_aux A h.err h.size hw.err hw.size hb.nonneg zero_le_one he1 he2 he2'
    calc _ ≤ _ := this
      _ = _ := by ring
  have opp : ∀ (w v' : K), |w| ≤ 101 / 100 → |v'| ≤ 1 → (0 ≤ x.val ∧ y ≤ 0 ∨ x.val ≤ 0 ∧ 0 ≤ y) →
      |x.val * w - y * v'| ≤ (101 / 100 * e1 + m1 * e2) * (u * b) := by
    intro w v' hw hv' hs
    have hxy : |x.val| + |y| = |x.val - y| := by
      rcases hs with ⟨h1, h2⟩ | ⟨h1, h2⟩
      · rw [abs_of_nonneg h1, abs_of_nonpos h2, abs_of_nonneg (by linarith)]; ring
      · rw [abs_of_nonpos h1, abs_of_nonneg h2, abs_of_nonpos (by linarith)]; ring
    have hub := mul_nonneg A.u_nonneg hb.nonneg
    calc |x.val * w - y * v'| ≤ |x.val * w| + |y * v'| := abs_sub _ _
      _ = |x.val| * |w| + |y| * |v'| := by rw [abs_mul, abs_mul]
      _ ≤ |x.val| * (101 / 100) + |y| * (101 / 100) := add_le_add (mul_le_mul_of_nonneg_left hw (abs_nonneg _))
          (mul_le_mul_of_nonneg_left (hv'.trans (by norm_num)) (abs_nonneg _))
      _ = 101 / 100 * |x.val - y| := by rw [← hxy]; ring
      _ ≤ 101 / 100 * (e1 * (u * b)) := by linarith [h.err]
      _ ≤ (101 / 100 * e1 + m1 * e2) * (u * b) := by
        have : 0 ≤ m1 * e2 * (u * b) := mul_nonneg (mul_nonneg hm1 he2) hub
        linarith
  rw [e3]
  refine rnd A hb he ?_ ?_
  · by_cases hx : 0 < x <;> by_cases hy : 0 < y
    · simp only [hx, hy, if_true]; exact same _ _ hw
    · simp only [hx, hy, if_true, if_false]
      exact opp _ _ hw1 hv' (Or.inl ⟨le_of_lt hx, not_lt.1 hy⟩)
    · simp only [hx, hy, if_true, if_false]
      exact opp _ _ hw2 hv (Or.inr ⟨not_lt.1 hx, hy.le⟩)
    · simp only [hx, hy, if_false]; exact same _ _ hw'
  · have : ∀ v : K, |v| ≤ 1 → |y * v| ≤ m1 * b := by
      intro v hv
      rw [abs_mul]
      calc |y| * |v| ≤ |y| * 1 := mul_le_mul_of_nonneg_left hv (abs_nonneg _)
        _ ≤ _ := by rw [mul_one]; exact h.size
    split_ifs
    exacts [this _ hv, this _ hv']

end Ap

end Wam
