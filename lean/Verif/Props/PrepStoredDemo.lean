import Verif.Props.PrepStored
import Verif.Props.PrepAccuracyDemo

/-! # Concrete cases for C126 -/

namespace Wam.FloatDemo
open Wam Wam.Spec

/-- an ERA5 column of three levels: float64 computation, float32 file -/
example : ∃ F X S,
      preprocessModel (era5A (Fl (binary64 : Rounding ℚ))) (era5B _) [105, 114, 137] 110 col (r 100000) none = .ok F ∧
      preprocessModel (era5A ℚ) (era5B ℚ) [105, 114, 137] 110 (exactLevels col) 100000 none = .ok X ∧
      preprocessModel (era5A ℚ) (era5B ℚ) [105, 114, 137] 110 (absLevels (exactLevels col)) 100000 none = .ok S ∧
      |(storedLayers (binary32 : Rounding ℚ) F).s_upper.val - X.s_upper| ≤
        6 / 10 ^ 8 * S.s_upper + (4 / 10 ^ 12 * (1 / 64 * 100000 / grav) + 1 / 10 ^ 45) := by
  have e : (r 100000).val = 100000 := rv 100000
  obtain ⟨F, X, S, h1, h2, h3, h4⟩ := C126_era5 (K := ℚ) (Q := 1 / 64) (U := 8) (r 100000)
    (by rw [e]; norm_num) 110 [105, 114, 137] (by simp) (by simp) (by decide) (by decide) col (by norm_num) (by norm_num)
    (fun x hx => by rw [abs_of_nonneg (col_q x hx).1]; exact (col_q x hx).2) col_u col_v
  rw [e] at h2 h3 h4
  exact ⟨F, X, S, h1, h2, h3, h4.s_upper⟩

/-- three levels of which one is below the surface -/
def colN : Column (Option (Fl (binary64 : Rounding ℚ))) :=
  ⟨[some (r 20000), some (r 50000), none], [some (r (1 / 64)), some (r (1 / 128)), none],
    [some (r 8), some (r (-4)), none], [some (r 2), some (r 1), none]⟩

theorem colN_sized : ColumnSized (1 / 64) 8 colN := by
  refine ⟨?_, ?_, ?_⟩ <;>
  · intro x hx
    simp only [colN, List.mem_cons, List.not_mem_nil, or_false, Option.some.injEq, reduceCtorEq] at hx
    rcases hx with rfl | rfl <;>
    · change |(r _).val| ≤ _
      first
        | (rw [rv (1 / 64)]; norm_num; done)
        | (rw [rv (1 / 128)]; norm_num; done)
        | (rw [rv 8]; norm_num; done)
        | (rw [rv (-4)]; norm_num; done)
        | (rw [rv 2]; norm_num; done)
        | (rw [rv 1]; norm_num; done)

theorem thick : ThicknessWithin 0 [r 30000, r 40000, r 20000] [30000, 40000, (20000 : ℚ)] := by
  refine .cons ?_ (.cons ?_ (.cons ?_ .nil))
  · rw [rv 30000]; norm_num
  · rw [rv 40000]; norm_num
  · rw [rv 20000]; norm_num

/-- the hypotheses of `C126_layers` -/
example := C126_layers (accurate64 (K := ℚ)) (accurate32 (K := ℚ)) tiny64 colN [r 30000, r 40000, r 20000]
  [30000, 40000, 20000] (by simp) [true, false, false] (by norm_num) (by norm_num) le_rfl colN_sized thick

theorem colN_q : ∀ x, some x ∈ colN.q → 0 ≤ x.val := by
  intro x hx
  simp only [colN, List.mem_cons, List.not_mem_nil, or_false, Option.some.injEq, reduceCtorEq] at hx
  rcases hx with rfl | rfl
  · rw [rv (1 / 64)]; norm_num
  · rw [rv (1 / 128)]; norm_num

/-- the water of `colN` -/
def wN : ℚ := waterOf [some (1 / 64), some (1 / 128), none] [30000, 40000, 20000]

theorem wN_pos : 0 < wN := by decide +kernel

/-- the hypotheses of `C126_layers_add_up` and `C126_total_column_water` -/
example : ∃ b, (let F := storedLayers (binary32 : Rounding ℚ) (integrateLayers colN [r 30000, r 40000, r 20000]
      [true, false, false] (some (r 64)))
    |F.s_upper.val + F.s_lower.val - 64| ≤ b) := by
  have e2 : (r 64).val = 64 := rv 64
  have hw : waterOf (exactCol colN).q [30000, 40000, 20000] = wN := by
    have : (exactCol colN).q = [some (1 / 64), some (1 / 128), none] := by
      simp only [exactCol, colN, List.map_cons, List.map_nil, Option.map_some, Option.map_none]
      rw [rv (1 / 64), rv (1 / 128)]
    rw [this, wN]
  have h := C126_layers_add_up (accurate64 (K := ℚ)) (accurate32 (K := ℚ)) tiny64 colN [r 30000, r 40000, r 20000]
    [30000, 40000, 20000] (by simp) [true, false, false] (by simp) (by norm_num) (by norm_num) le_rfl colN_sized thick
    (r 64) (by rw [e2]; norm_num) colN_q (by simp) wN (9 * (1 / 2 ^ 1075) / wN) hw wN_pos
    (by
      rw [div_mul_cancel₀ _ wN_pos.ne']
      simp only [List.length_cons, List.length_nil]
      push_cast
      ring)
    (by
      have h100 : 1 ≤ wN := by decide +kernel
      have : 9 * (1 / 2 ^ 1075 : ℚ) / wN ≤ 9 * (1 / 2 ^ 1075) := div_le_self (by positivity) h100
      have t := tiny64
      simp only [List.length_cons, List.length_nil]
      push_cast
      generalize (9 * (1 / 2 ^ 1075 : ℚ) / wN) = y at this ⊢
      generalize (1 / 2 ^ 1075 : ℚ) = z at t this
      norm_num at t ⊢
      linarith)
  rw [e2] at h
  exact ⟨_, h⟩

/-- the hypotheses of `C126_storages_nonneg` -/
example : 0 ≤ (storedLayers (binary32 : Rounding ℚ) (integrateLayers colN [r 30000, r 40000, r 20000]
    [true, false, false] (some (r 64)))).s_upper.val :=
  (C126_storages_nonneg colN _ _ _ colN_q
    (by
      intro x hx
      simp only [List.mem_cons, List.not_mem_nil, or_false] at hx
      rcases hx with rfl | rfl | rfl
      · rw [rv 30000]; norm_num
      · rw [rv 40000]; norm_num
      · rw [rv 20000]; norm_num)
    (by
      intro t ht
      rw [← Option.some.inj ht, rv 64]
      norm_num)).1

/-- `1/3` in float64 changes when it is stored -/
example : (binary32 : Rounding ℚ).rnd ((binary64 : Rounding ℚ).rnd (1 / 3)) ≠ (binary64 : Rounding ℚ).rnd (1 / 3) := by
  decide +kernel

end Wam.FloatDemo
