import Verif.Props.PrepAccuracy
import Verif.Props.AccuracyDemo

/-! C122: concrete columns in float64 meet the hypotheses. -/
set_option linter.unusedSectionVars false
set_option linter.unusedVariables false

namespace Wam.FloatDemo
open Spec

/-- three levels: humidity 1/64, 1/128, 1/64, wind 8, -4, 2 -/
def col : Column (Fl (binary64 : Rounding ℚ)) :=
  ⟨[], [r (1 / 64), r (1 / 128), r (1 / 64)], [r 8, r (-4), r 2], [r 0, r 1, r 3]⟩

theorem rv (x : ℚ) (h : (x * 4096).den = 1 := by decide +kernel) (h' : |(x * 4096).num| ≤ 2 ^ 53 := by decide +kernel) :
    (r x).val = x := rep h h'

theorem tiny64 : (1 / 2 ^ 1075 : ℚ) ≤ 1 / 2 ^ 53 :=
  one_div_le_one_div_of_le (by positivity) (pow_le_pow_right₀ (by norm_num) (by norm_num))

theorem col_q : ∀ x ∈ col.q, 0 ≤ x.val ∧ x.val ≤ 1 / 64 := by
  intro x hx
  simp only [col, List.mem_cons, List.not_mem_nil, or_false] at hx
  rcases hx with rfl | rfl | rfl
  · rw [rv (1 / 64)]; norm_num
  · rw [rv (1 / 128)]; norm_num
  · rw [rv (1 / 64)]; norm_num

theorem col_u : ∀ x ∈ col.u, |x.val| ≤ 8 := by
  intro x hx
  simp only [col, List.mem_cons, List.not_mem_nil, or_false] at hx
  rcases hx with rfl | rfl | rfl
  · rw [rv (8)]; norm_num
  · rw [rv (-4)]; norm_num
  · rw [rv (2)]; norm_num

theorem col_v : ∀ x ∈ col.v, |x.val| ≤ 8 := by
  intro x hx
  simp only [col, List.mem_cons, List.not_mem_nil, or_false] at hx
  rcases hx with rfl | rfl | rfl
  · rw [rv (0)]; norm_num
  · rw [rv (1)]; norm_num
  · rw [rv (3)]; norm_num

/-- the hypotheses of `C122_era5` (and through it of `C122_layers` and `C122_thickness`) -/
example : ∃ F X S,
      preprocessModel (era5A (Fl (binary64 : Rounding ℚ))) (era5B _) [105, 114, 137] 110 col (r 100000) none = .ok F ∧
      preprocessModel (era5A ℚ) (era5B ℚ) [105, 114, 137] 110 (exactLevels col) 100000 none = .ok X ∧
      preprocessModel (era5A ℚ) (era5B ℚ) [105, 114, 137] 110 (absLevels (exactLevels col)) 100000 none = .ok S ∧
      |F.s_upper.val - X.s_upper| ≤ 51 / 50 * ((3 + 4) * (1 / 2 ^ 53)) * S.s_upper +
        51 / 50 * (3 * (3 * (1 / 2 ^ 1075) + 212 * (1 / 2 ^ 53) * (1 / 64 * 100000 / grav))) := by
  have e : (r 100000).val = 100000 := rv 100000
  obtain ⟨F, X, S, h1, h2, h3, h4⟩ := C122_era5 (Q := 1 / 64) (U := 8) (accurate64 (K := ℚ)) tiny64 (r 100000)
    (by rw [e]; norm_num) 110 [105, 114, 137] (by simp) (by simp) (by decide) (by decide) col (by norm_num) (by norm_num)
    (fun x hx => by rw [abs_of_nonneg (col_q x hx).1]; exact (col_q x hx).2) col_u col_v
  rw [e] at h2 h3 h4
  exact ⟨F, X, S, h1, h2, h3, h4.s_upper⟩

/-- the exact thicknesses of the three levels -/
def dpQ : List ℚ := ((getDpModellevels (era5A ℚ) (era5B ℚ) 100000 [105, 114, 137]).toOption).getD []

/-- their water -/
def wQ : ℚ := waterOf (([1 / 64, 1 / 128, 1 / 64] : List ℚ).map some) dpQ

theorem dpQ_eq : getDpModellevels (era5A ℚ) (era5B ℚ) 100000 [105, 114, 137] = .ok dpQ := by decide +kernel

theorem wQ_pos : 100 < wQ := by decide +kernel

/-- the hypotheses of `C122_era5_total`, `C122_layers_add_up` and `C122_total_column_water` -/
example : ∃ F μ, μ ≤ 1 / 1000000 ∧
    preprocessModel (era5A (Fl (binary64 : Rounding ℚ))) (era5B _) [105, 114, 137] 110 col (r 100000) (some (r 120)) = .ok F ∧
      |F.s_upper.val + F.s_lower.val - 120| ≤
        ((11 / 5 * 3 + 12) * (1 / 2 ^ 53) + 18 / 5 * μ) * 120 + 6 * 3 * (1 / 2 ^ 1075) * (wQ + 1) := by
  have e : (r 100000).val = 100000 := rv 100000
  have e2 : (r 120).val = 120 := rv 120
  have hw := wQ_pos
  have hq : waterOf (col.q.map fun x => some x.val) dpQ = wQ := by
    have : col.q.map (fun x => some x.val) = ([1 / 64, 1 / 128, 1 / 64] : List ℚ).map some := by
      simp only [col, List.map_cons, List.map_nil]
      rw [rv (1 / 64), rv (1 / 128)]
    rw [this, wQ]
  set N : ℚ := 3 * (3 * (1 / 2 ^ 1075) + 212 * (1 / 2 ^ 53) * (1 / 64 * 100000 / grav)) with hN
  have hN1 : N ≤ 1 / 1000000 := by
    have := tiny64
    rw [hN]; unfold grav
    push_cast
    generalize (1 / 2 ^ 1075 : ℚ) = z at this ⊢
    norm_num at this ⊢
    linarith
  have hN0 : 0 ≤ N := by
    rw [hN]; unfold grav; positivity
  have hμ : N / wQ ≤ 1 / 1000000 := by
    rw [div_le_iff₀ (by linarith)]
    linarith
  obtain ⟨F, h1, h2⟩ := C122_era5_total (Q := 1 / 64) (U := 8) (accurate64 (K := ℚ)) tiny64 (r 100000)
    (by rw [e]; norm_num) 110 [105, 114, 137] (by simp) (by simp) (by decide) (by decide) col (by norm_num) (by norm_num)
    (fun x hx => (col_q x hx).1) (fun x hx => (col_q x hx).2) col_u col_v (r 120) (by rw [e2]; norm_num) dpQ
    (by rw [e]; exact dpQ_eq) wQ (N / wQ) hq (by linarith)
    (by rw [e, div_mul_cancel₀ _ (by linarith : wQ ≠ 0), hN]; norm_num)
    (by
      have : ((3 : ℚ) + 4) * (1 / 2 ^ 53) ≤ 1 / 1000 := by norm_num
      push_cast [List.length_cons, List.length_nil]
      norm_num at this ⊢
      linarith)
  rw [e2] at h2
  refine ⟨F, N / wQ, hμ, h1, ?_⟩
  refine h2.trans (le_of_eq ?_)
  norm_num

/-- the hypotheses of `C122_storages_nonneg` -/
example : 0 ≤ (integrateLayers (⟨[], [some (r (1 / 64)), none, some (r (1 / 128))], [], []⟩ : Column (Option (Fl (binary64 : Rounding ℚ))))
    [r 20000, r 30000, r 50000] [true, false, false] (some (r 120))).s_upper.val :=
  (C122_storages_nonneg _ _ _ _
    (by
      intro x hx
      simp only [List.mem_cons, List.not_mem_nil, or_false, Option.some.injEq, reduceCtorEq, false_or] at hx
      rcases hx with rfl | rfl
      · rw [rv (1 / 64)]; norm_num
      · rw [rv (1 / 128)]; norm_num)
    (by
      intro x hx
      simp only [List.mem_cons, List.not_mem_nil, or_false] at hx
      rcases hx with rfl | rfl | rfl
      · rw [rv 20000]; norm_num
      · rw [rv 30000]; norm_num
      · rw [rv 50000]; norm_num)
    (by
      intro t ht
      rw [← Option.some.inj ht, rv 120]
      norm_num)).1

end Wam.FloatDemo
