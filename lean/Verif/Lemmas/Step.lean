import Verif.Lemmas.Stability
import Verif.Props.Advection
import Verif.Spec.Step

set_option linter.unusedSectionVars false

namespace Wam
open Spec
variable {K : Type*} [Field K] [LinearOrder K] [IsStrictOrderedRing K] {m n : ℕ}

theorem relStorage_eq (t s : K) : relStorage t s = fraction t s := by
  simp [relStorage, fraction]

theorem fraction_nonneg {t s : K} (ht : 0 ≤ t) (hs : 0 ≤ s) : 0 ≤ fraction t s :=
  le_min (by positivity) zero_le_one
theorem fraction_le_one (t s : K) : fraction t s ≤ 1 := min_le_right _ _
theorem fraction_mul_le {t s : K} (hs : 0 < s) : fraction t s * s ≤ t := by
  have : fraction t s ≤ t / s := min_le_left _ _
  calc _ ≤ t / s * s := mul_le_mul_of_nonneg_right this hs.le
    _ = t := by field_simp

theorem getBoundary_iff (periodic : Bool) (i : Fin m) (j : Fin n) :
    getBoundary periodic i j = true ↔ isBoundary periodic i j := by
  unfold getBoundary isBoundary
  cases periodic <;> simp <;> omega

theorem maximum_zero_add (x : K) : max x 0 - (if x < 0 then -x else 0) = x := by
  split_ifs with h
  · rw [max_eq_right h.le]; ring
  · rw [max_eq_left (not_lt.1 h)]; ring

/-- bookkeeping neither creates nor destroys water -/
theorem settle_budget (bnd : Bool) (tl tu Sl Su : K) :
    (settle bnd tl tu Sl Su).lower + (settle bnd tl tu Sl Su).upper +
      (settle bnd tl tu Sl Su).losses - (settle bnd tl tu Sl Su).gains = tl + tu := by
  unfold settle
  simp only [np_max, np_min, np_lt, ofRat_zero, decide_eq_true_eq]
  have hmin : ∀ x S : K, min x S = x - max 0 (x - S) := by
    intro x S
    rcases le_total x S with h | h
    · rw [min_eq_left h, max_eq_left (by linarith)]; ring
    · rw [min_eq_right h, max_eq_right (by linarith)]; ring
  cases bnd
  · simp only [Bool.false_eq_true, if_false]
    set x := tl - max 0 (tl - Sl) + max 0 (tu - Su)
    set y := tu - max 0 (tu - Su) + max 0 (tl - Sl)
    have hx := maximum_zero_add x
    have hy := maximum_zero_add y
    rw [hmin (max x 0) Sl, hmin (max y 0) Su]
    have : x + y = tl + tu := by simp only [x, y]; ring
    linarith
  · simp only [if_true]
    set x := (0 : K) - max 0 (0 - Sl) + max 0 (0 - Su)
    set y := (0 : K) - max 0 (0 - Su) + max 0 (0 - Sl)
    have hx := maximum_zero_add x
    have hy := maximum_zero_add y
    rw [hmin (max x 0) Sl, hmin (max y 0) Su]
    have : x + y = 0 := by simp only [x, y]; ring
    linarith

theorem settle_bounds (bnd : Bool) (tl tu Sl Su : K) (hl : 0 ≤ Sl) (hu : 0 ≤ Su) :
    0 ≤ (settle bnd tl tu Sl Su).lower ∧ (settle bnd tl tu Sl Su).lower ≤ Sl ∧
    0 ≤ (settle bnd tl tu Sl Su).upper ∧ (settle bnd tl tu Sl Su).upper ≤ Su := by
  unfold settle
  simp only [np_max, np_min, ofRat_zero]
  exact ⟨le_min (le_max_right _ _) hl, min_le_right _ _, le_min (le_max_right _ _) hu,
    min_le_right _ _⟩

theorem settle_boundary (tl tu Sl Su : K) (hl : 0 ≤ Sl) (hu : 0 ≤ Su) :
    settle true tl tu Sl Su = ⟨0, 0, tu + tl, 0⟩ := by
  unfold settle
  simp only [np_max, np_min, np_lt, ofRat_zero, if_true, zero_sub]
  have h1 : max 0 (-Sl) = 0 := max_eq_left (by linarith)
  have h2 : max 0 (-Su) = 0 := max_eq_left (by linarith)
  simp [h1, h2, hl, hu]

theorem settle_gains_nonneg (bnd : Bool) (tl tu Sl Su : K) :
    0 ≤ (settle bnd tl tu Sl Su).gains := by
  unfold settle
  simp only [np_max, np_min, np_lt, ofRat_zero, decide_eq_true_eq]
  refine add_nonneg ?_ ?_ <;> split_ifs with h <;> linarith

theorem settle_losses_nonneg (tl tu Sl Su : K) : 0 ≤ (settle false tl tu Sl Su).losses := by
  unfold settle
  simp only [np_max, np_min, ofRat_zero, Bool.false_eq_true, if_false, zero_add]
  exact add_nonneg (le_max_left _ _) (le_max_left _ _)

/-- nothing is gained when neither layer was overdrawn -/
theorem settle_no_gain (bnd : Bool) (tl tu Sl Su : K) (hl : 0 ≤ Sl) (hu : 0 ≤ Su)
    (htl : 0 ≤ tl) (htu : 0 ≤ tu) : (settle bnd tl tu Sl Su).gains = 0 := by
  cases bnd
  · unfold settle
    simp only [np_max, np_min, np_lt, ofRat_zero, decide_eq_true_eq, Bool.false_eq_true, if_false]
    have key : ∀ t S o : K, 0 ≤ t → 0 ≤ S → 0 ≤ o → ¬ (t - max 0 (t - S) + o < 0) := by
      intro t S o ht hS ho
      have : max 0 (t - S) ≤ t := max_le ht (by linarith)
      linarith
    rw [if_neg (key _ _ _ htl hl (le_max_left _ _)), if_neg (key _ _ _ htu hu (le_max_left _ _)),
      add_zero]
  · rw [settle_boundary _ _ _ _ hl hu]

/-- within the storages nothing is changed -/
theorem settle_inside (tl tu Sl Su : K) (hl : 0 ≤ tl) (hl' : tl ≤ Sl) (hu : 0 ≤ tu)
    (hu' : tu ≤ Su) : settle false tl tu Sl Su = ⟨tl, tu, 0, 0⟩ := by
  unfold settle
  have h1 : max 0 (tl - Sl) = 0 := max_eq_left (by linarith)
  have h2 : max 0 (tu - Su) = 0 := max_eq_left (by linarith)
  simp only [np_max, np_min, np_lt, ofRat_zero, Bool.false_eq_true, if_false, h1, h2, sub_zero,
    add_zero, max_eq_left hl, max_eq_left hu, min_eq_left hl', min_eq_left hu', decide_eq_true_eq,
    if_neg (not_lt.2 hl), if_neg (not_lt.2 hu)]

theorem settle_zero (bnd : Bool) (Sl Su : K) (hl : 0 ≤ Sl) (hu : 0 ≤ Su) :
    settle bnd 0 0 Sl Su = ⟨0, 0, 0, 0⟩ := by
  cases bnd
  · exact settle_inside 0 0 Sl Su le_rfl hl le_rfl hu
  · rw [settle_boundary _ _ _ _ hl hu, add_zero]

/-! ### transport in terms of the specification -/

theorem faceX_neg (periodic : Bool) (fx : Arr m n K) (x y : ℤ) :
    faceX periodic (fun i j => -fx i j) x y = -faceX periodic fx x y := by
  unfold faceX
  rw [at2_map (fun z => -z) (by simp), at2_map (fun z => -z) (by simp)]
  split_ifs <;> ring

theorem faceY_neg (periodic : Bool) (fy : Arr m n K) (x y : ℤ) :
    faceY periodic (fun i j => -fy i j) x y = -faceY periodic fy x y := by
  unfold faceY
  rw [at2_map (fun z => -z) (by simp), at2_map (fun z => -z) (by simp)]
  split_ifs <;> ring

theorem advect_eq_inflow (periodic : Bool) (s fx fy : Arr (m + 2) (n + 2) K) (i j) :
    advect periodic false s fx fy i j = inflow periodic s fx fy i j := by
  rw [C02_donor_cell]
  simp only [Bool.false_eq_true, if_false, one_mul]
  rfl

theorem advect_eq_inflow_neg (periodic : Bool) (s fx fy : Arr (m + 2) (n + 2) K) (i j) :
    advect periodic true s fx fy i j =
      inflow periodic s (fun i j => -fx i j) (fun i j => -fy i j) i j := by
  rw [C02_donor_cell]
  unfold inflow
  simp only [faceX_neg, faceY_neg, if_true, neg_one_mul]

theorem vertical_eq (fv kvf rl ru : K) :
    verticalAdvection fv rl ru + verticalDispersion fv rl ru kvf = downward fv kvf ru rl := by
  unfold downward
  have : verticalAdvection fv rl ru = carried fv ru rl := by
    unfold verticalAdvection carried
    simp only [np_le, ofRat_zero]
    by_cases h : 0 ≤ fv
    · simp [h]
    · have h' := (not_le.1 h).le
      simp [h, h']
  rw [this]; rfl

theorem inflow_lower (periodic : Bool) (r fx fy : Arr (m + 2) (n + 2) K)
    (hr : ∀ i j, 0 ≤ r i j) (i : Fin (m + 2)) (j : Fin (n + 2)) :
    - (r i j * outflow periodic fx fy i j) ≤ inflow periodic r fx fy i j := by
  have h2 : ∀ x y : ℤ, 0 ≤ at2 r x y := by
    intro x y; unfold at2; split_ifs
    · exact hr _ _
    · exact le_rfl
  unfold inflow tendency carried outflow
  have p : ∀ a b : K, 0 ≤ b → 0 ≤ max a 0 * b := fun a b h => mul_nonneg (le_max_right _ _) h
  have := p (faceX periodic fx i j) _ (h2 i ((j - 1 : ℤ) % (n + 2 : ℕ)))
  have := p (-faceX periodic fx i (j + 1)) _ (h2 i ((j + 1 : ℤ) % (n + 2 : ℕ)))
  have := p (faceY periodic fy (i + 1) j) _ (h2 (i + 1) j)
  have := p (-faceY periodic fy i j) _ (h2 (i - 1) j)
  push_cast at *
  nlinarith

theorem inflow_zero (periodic : Bool) (fx fy : Arr (m + 2) (n + 2) K) (i j) :
    inflow periodic (fun _ _ => 0) fx fy i j = 0 := by
  unfold inflow tendency carried
  have : ∀ x y : ℤ, at2 (fun (_ : Fin (m + 2)) (_ : Fin (n + 2)) => (0 : K)) x y = 0 := by
    intro x y; unfold at2; split_ifs <;> rfl
  simp [this]

end Wam
