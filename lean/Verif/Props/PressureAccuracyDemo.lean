import Verif.Props.PressureAccuracy
import Verif.Props.PrepStoredDemo
import Verif.Props.ColumnMore

/-! # Concrete cases for C127 -/
set_option linter.unusedSectionVars false
set_option linter.unusedVariables false

namespace Wam.FloatDemo
open Wam Wam.Spec

/-- levels at 850, 500 and 200 hPa -/
def colP : Column (Fl (binary64 : Rounding ℚ)) :=
  ⟨[r 85000, r 50000, r 20000], [r (1 / 64), r (1 / 128), r (1 / 512)], [r 8, r (-4), r 2], [r 0, r 1, r 3]⟩

/-- their surface at 1000 hPa -/
def surP : Surface (Fl (binary64 : Rounding ℚ)) := ⟨r 100000, r (1 / 64), r 3, r (-1)⟩

/-- floats are sorted by their values -/
def argF (l : List (Fl (binary64 : Rounding ℚ))) : List ℕ := demoArgsort (l.map Fl.val)

theorem alike : SortsAlike argF demoArgsort := fun _ => rfl

theorem boundaryP : (r (3 / 4) * surP.ps + r 2500).val = 77500 := by
  have h1 : (r (3 / 4)).val = 3 / 4 := rv (3 / 4)
  have h2 : (r 100000).val = 100000 := rv 100000
  have h3 : (r 2500).val = 2500 := rv 2500
  have h4 : (binary64 : Rounding ℚ).rnd 75000 = 75000 := rv 75000
  have h5 : (binary64 : Rounding ℚ).rnd 77500 = 77500 := rv 77500
  rw [Fl.val_add, Fl.val_mul, surP, h1, h2, h3]
  norm_num
  rw [h4]
  norm_num
  exact h5

theorem colP_p : colP.p.map Fl.val = [85000, 50000, 20000] := by
  simp only [colP, List.map_cons, List.map_nil]
  rw [rv 85000, rv 50000, rv 20000]

theorem surP_ps : surP.ps.val = 100000 := rv 100000

theorem givenP : GivenColumn 120000 1 200 colP surP := by
  refine ⟨rfl, rfl, rfl, ?_, ?_, ?_⟩
  · intro x hx
    simp only [colP, surP, List.mem_cons, List.not_mem_nil, or_false] at hx
    rcases hx with rfl | rfl | rfl | rfl
    · rw [rv 100000]; norm_num
    · rw [rv 85000]; norm_num
    · rw [rv 50000]; norm_num
    · rw [rv 20000]; norm_num
  · intro x hx
    simp only [colP, surP, List.mem_cons, List.not_mem_nil, or_false] at hx
    rcases hx with rfl | rfl | rfl | rfl
    · rw [rv (1 / 64)]; norm_num
    · rw [rv (1 / 64)]; norm_num
    · rw [rv (1 / 128)]; norm_num
    · rw [rv (1 / 512)]; norm_num
  · intro x hx
    simp only [colP, surP, List.mem_cons, List.not_mem_nil, or_false, List.cons_append, List.nil_append] at hx
    rcases hx with rfl | rfl | rfl | rfl | rfl | rfl | rfl | rfl
    · rw [rv 3]; norm_num
    · rw [rv 8]; norm_num
    · rw [rv (-4)]; norm_num
    · rw [rv 2]; norm_num
    · rw [rv (-1)]; norm_num
    · rw [rv 0]; norm_num
    · rw [rv 1]; norm_num
    · rw [rv 3]; norm_num

theorem spacedP : SpacedBy (1 / 10 ^ 9 : ℚ) [77500, 100000, 0, 85000, 50000, 20000] := by
  intro x hx y hy h
  simp only [List.mem_cons, List.not_mem_nil, or_false] at hx hy
  rcases hx with rfl | rfl | rfl | rfl | rfl | rfl <;> rcases hy with rfl | rfl | rfl | rfl | rfl | rfl <;>
    first | (exfalso; norm_num at h; done) | norm_num

/-- the hypotheses of `C127_binary64` and through it of `C127_layers`; the computation succeeds -/
theorem nearP : ∃ F X, preprocessPressure argF (r (3 / 4)) (r 2500) colP surP none = .ok F ∧
    preprocessPressure demoArgsort 0 77500 (exactLevels colP) (exactSurface surP) none = .ok X ∧
    LayersNear (2 / 10 ^ 11 * 11) (4 / 10 ^ 9 * 13) F X := by
  have hp : colP.p.length = 3 := rfl
  have h := C127_binary64 alike demoArgsort_isArgsort (r (3 / 4)) (r 2500) colP surP givenP (by rw [hp]; norm_num)
    (by rw [boundaryP]; norm_num) (by rw [boundaryP]; norm_num)
    (by rw [boundaryP, colP_p, surP_ps]; exact spacedP)
  rw [boundaryP, hp] at h
  rcases h with ⟨F, X, h1, h2, h3⟩ | ⟨e, h1, h2⟩
  · exact ⟨F, X, h1, h2, by norm_num at h3 ⊢; exact h3⟩
  · exfalso
    have hq : exactLevels colP = ⟨[85000, 50000, 20000], [1 / 64, 1 / 128, 1 / 512], [8, -4, 2], [0, 1, 3]⟩ := by
      simp only [exactLevels, colP, List.map_cons, List.map_nil]
      rw [rv 85000, rv 50000, rv 20000, rv (1 / 64), rv (1 / 128), rv (1 / 512), rv 8, rv (-4), rv 2, rv 0, rv 1, rv 3]
    have hsu : exactSurface surP = ⟨100000, 1 / 64, 3, -1⟩ := by
      simp only [exactSurface, surP]
      rw [rv 100000, rv (1 / 64), rv 3, rv (-1)]
    rw [hq, hsu] at h2
    have : (preprocessPressure demoArgsort (0 : ℚ) 77500 ⟨[85000, 50000, 20000], [1 / 64, 1 / 128, 1 / 512], [8, -4, 2],
      [0, 1, 3]⟩ ⟨100000, 1 / 64, 3, -1⟩ none).isOk = true := by decide +kernel
    rw [h2] at this
    exact absurd this (by simp [Except.isOk, Except.toBool])

/-- the hypotheses of `C127_boundary` -/
example := C127_boundary (accurate64 (K := ℚ)) (r (3 / 4)) (r 2500) surP.ps

/-- the hypotheses of `C127_stored` -/
example : ∃ F X, preprocessPressure argF (r (3 / 4)) (r 2500) colP surP none = .ok F ∧
    preprocessPressure demoArgsort 0 77500 (exactLevels colP) (exactSurface surP) none = .ok X ∧
    |(storedLayers (binary32 : Rounding ℚ) F).s_upper.val - X.s_upper| ≤ 1 / 2 ^ 24 * |X.s_upper| +
      ((1 + 1 / 2 ^ 24) * (2 / 10 ^ 11 * 11) + 1 / 2 ^ 150) := by
  obtain ⟨F, X, h1, h2, h3⟩ := nearP
  exact ⟨F, X, h1, h2, (C127_stored (accurate32 (K := ℚ)) h3).1⟩

end Wam.FloatDemo
