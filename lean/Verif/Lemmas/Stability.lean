import Verif.Lemmas.Advection
import Verif.Spec.Stability

set_option linter.unusedSectionVars false

namespace Wam
open Spec
variable {K : Type*} [Field K] [LinearOrder K] [IsStrictOrderedRing K] {m n : ℕ}

theorem sign_mul_pos (a c : K) (hc : 0 < c) : NpOps.sign (a * c) = (NpOps.sign a : K) := by
  have h : a * c < 0 ↔ a < 0 := by
    rw [mul_neg_iff]
    constructor
    · rintro (⟨_, h⟩ | ⟨h, _⟩)
      · exact absurd hc (not_lt.2 h.le)
      · exact h
    · exact fun h => Or.inr ⟨h, hc⟩
  simp only [np_sign, mul_pos_iff_of_pos_right hc, h]

theorem stabilizeComponent_eq (dt a s fx fy f : K) (hdt : 0 < dt) (hf : fx ≠ 0 ∨ fy ≠ 0) :
    stabilizeComponent dt a s fx fy f = f * min 1 (s * a / (2 * (dt * (|fx| + |fy|)))) := by
  have hT : 0 < |fx| + |fy| := by
    rcases hf with h | h
    · exact add_pos_of_pos_of_nonneg (abs_pos.2 h) (abs_nonneg _)
    · exact add_pos_of_nonneg_of_pos (abs_nonneg _) (abs_pos.2 h)
  unfold stabilizeComponent
  simp only [np_abs, np_min, ofRat_one, ofRat_two, abs_mul, abs_of_pos hdt,
    sign_mul_pos f dt hdt]
  have e : 1 / 2 * (|f| * dt) / (|fx| * dt + |fy| * dt) * (s * a) =
      |f| * dt * (s * a / (2 * (dt * (|fx| + |fy|)))) := by
    have : |fx| * dt + |fy| * dt = dt * (|fx| + |fy|) := by ring
    rw [this]
    field_simp
  rw [e]
  have e2 : ∀ c : K, min (|f| * dt) (|f| * dt * c) = |f| * dt * min 1 c := by
    intro c
    rw [mul_min_of_nonneg _ _ (by positivity), mul_one]
  rw [e2]
  have := sign_mul_abs f
  rw [mul_div_assoc, show |f| * dt * min 1 (s * a / (2 * (dt * (|fx| + |fy|)))) / dt =
    |f| * min 1 (s * a / (2 * (dt * (|fx| + |fy|)))) by field_simp, ← mul_assoc, this]

/-- The common factor of the correction and all its defining properties. -/
theorem stabilize_factor (dt a s fx fy : K) (hdt : 0 < dt) (ha : 0 < a) (hs : 0 ≤ s)
    (hf : fx ≠ 0 ∨ fy ≠ 0) :
    ∃ θ : K, 0 ≤ θ ∧ θ ≤ 1 ∧
      stabilizeComponent dt a s fx fy fx = θ * fx ∧ stabilizeComponent dt a s fx fy fy = θ * fy ∧
      halfCell dt a s (θ * fx) (θ * fy) ∧ (θ = 1 ↔ halfCell dt a s fx fy) ∧
      (θ < 1 → (|θ * fx| + |θ * fy|) * dt = 1 / 2 * (s * a)) := by
  have hT : 0 < |fx| + |fy| := by
    rcases hf with h | h
    · exact add_pos_of_pos_of_nonneg (abs_pos.2 h) (abs_nonneg _)
    · exact add_pos_of_nonneg_of_pos (abs_nonneg _) (abs_pos.2 h)
  set c := s * a / (2 * (dt * (|fx| + |fy|))) with hc
  have hD : 0 < 2 * (dt * (|fx| + |fy|)) := by positivity
  have hc0 : 0 ≤ c := by positivity
  have hcD : c * ((|fx| + |fy|) * dt) = 1 / 2 * (s * a) := by rw [hc]; field_simp
  have hθ0 : 0 ≤ min 1 c := le_min zero_le_one hc0
  have hsum : ∀ θ : K, 0 ≤ θ → (|θ * fx| + |θ * fy|) * dt = θ * ((|fx| + |fy|) * dt) := by
    intro θ h; rw [abs_mul, abs_mul, abs_of_nonneg h]; ring
  have hTdt : 0 < (|fx| + |fy|) * dt := by positivity
  refine ⟨min 1 c, hθ0, min_le_left _ _, ?_, ?_, ?_, ?_, ?_⟩
  · rw [stabilizeComponent_eq dt a s fx fy fx hdt hf]; ring
  · rw [stabilizeComponent_eq dt a s fx fy fy hdt hf]; ring
  · unfold halfCell
    rw [hsum _ hθ0, ← hcD]
    exact mul_le_mul_of_nonneg_right (min_le_right _ _) hTdt.le
  · unfold halfCell
    rw [← hcD]
    constructor
    · intro h
      have : 1 ≤ c := by rw [← h]; exact min_le_right _ _
      calc (|fx| + |fy|) * dt = 1 * ((|fx| + |fy|) * dt) := by ring
        _ ≤ _ := mul_le_mul_of_nonneg_right this hTdt.le
    · intro h
      have : 1 ≤ c := by
        by_contra hlt
        push Not at hlt
        have := mul_lt_mul_of_pos_right hlt hTdt
        linarith
      exact min_eq_left this
  · intro h
    have : min 1 c = c := by
      rcases min_choice 1 c with h' | h'
      · rw [h'] at h; exact absurd h (lt_irrefl _)
      · exact h'
    rw [hsum _ hθ0, this, hcD]

theorem sign_mul_min (x b : K) (hb : 0 ≤ b) : NpOps.sign x * min |x| b = clamp b x := by
  unfold clamp
  rw [np_sign]
  split_ifs with h1 h2
  · rw [abs_of_pos h1, one_mul, min_comm, max_eq_right]
    exact le_trans (neg_nonpos.2 hb) (le_min hb h1.le)
  · rw [abs_of_neg h2, min_eq_right (le_trans h2.le hb)]
    rcases le_total (-x) b with h | h
    · rw [min_eq_left h, max_eq_right (by linarith)]; ring
    · rw [min_eq_right h, max_eq_left (by linarith)]; ring
  · have : x = 0 := le_antisymm (not_lt.1 h1) (not_lt.1 h2)
    subst this
    simp [hb]

end Wam
