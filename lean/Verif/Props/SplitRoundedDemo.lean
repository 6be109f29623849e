import Verif.Props.SplitRounded
import Verif.Props.SplitSingleDemo

/-! # C128 on an example: the demonstration of C115, as a list of two commands, with the files read in single precision -/

set_option linter.unusedSectionVars false
set_option linter.unusedVariables false

namespace Wam.SplitSingleDemo
open Spec SplitDemo

local instance : NpTrig ℚ := DomainDemo.trig

/-- C128_forward: the rounding of the file that the second command reads -/
example : AllEnd [firstF.act lib32 parseF, secondF.act lib32 parseF] fs ∧ ∃ one many : ℤ → FwdOutput 5 5 ℚ,
    after (wholeF.act lib32 parseF) fs ["out".toList, "forwardtrack_1970-01-01T01-00.nc".toList] =
      some (.file (lib32.showFwd (one 3600000000))) ∧
    afterAll [firstF.act lib32 parseF, secondF.act lib32 parseF] fs ["out".toList, "forwardtrack_1970-01-01T01-00.nc".toList] =
      some (.file (lib32.showFwd (many 3600000000))) ∧
    fwdStorageGap grid.a (one 3600000000) (many 3600000000) + fwdFateGap grid.a (one 3600000000) (many 3600000000) ≤
      1 / 2 ^ 24 * (total grid.a (many half).s_track_lower + total grid.a (many half).s_track_upper) +
        2 * (1 / 2 ^ 150) * total grid.a (fun _ (_ : Fin 5) => (1 : ℚ)) := by
  have hg : (fwdSource lib32 (cfg false 0 3600000000 false) fs).grid = grid := grid_eq false 0 (by decide) (by decide)
  have tE : ForwardOutputTime (cfg false 0 3600000000 false) 3600000000 := ⟨2, by decide, by decide, by decide, .inl (by decide)⟩
  have tB : ForwardOutputTime (cfg false 0 3600000000 false) half := ⟨1, by decide, by decide, by decide, .inl (by decide)⟩
  have h := C128_forward lib32 first_ok parseF fs (cfg false 0 3600000000 false) rfl DomainDemo.inp
    (served false 0 (by decide) (by decide)) (by show (60 : ℤ) ∣ 1800; decide) DomainDemo.physical
    (by rw [hg]; exact DomainDemo.area_pos) (by show (0 : ℚ) ≤ 3; norm_num) (by rw [hg]; exact calmF)
    (fun h => by cases h) (years false)
    (fun p h => apart h) wholeF (ready _ _ _ "a".toList _ _ _ _ rfl (by decide +kernel) rfl)
    [(firstF, half), (secondF, 3600000000)] (by simp [half])
    (by
      intro x hx
      rcases List.mem_cons.1 hx with rfl | hx
      · exact ⟨tB, axes false 0 half (by decide) (by decide) (by decide) (by decide)⟩
      · rw [List.mem_singleton] at hx
        subst hx
        exact ⟨tE, axes false 0 3600000000 (by decide) (by decide) (by decide) (by decide)⟩)
    ⟨by simp only [forwardPiece]; rw [ending]; exact ready _ _ _ "b".toList _ _ _ _ rfl (by decide +kernel) rfl,
      by simp only [forwardPiece]; rw [ending, starting, restarting]; exact ready _ _ _ "c".toList _ _ _ _ rfl (by decide +kernel) rfl,
      trivial⟩
    binary32 accurate32 ⟨fun o _ => read32 o, fun o _ => read32 o, trivial⟩
  obtain ⟨-, h2, one, many, h3, h4, -, h5⟩ := h
  have e : forwardFile (cfg false 0 3600000000 false) 3600000000 = ["out".toList, "forwardtrack_1970-01-01T01-00.nc".toList] := by
    decide +kernel
  have last : ∃ x ∈ [(firstF, half), (secondF, (3600000000 : ℤ))], 3600000000 ≤ x.2 :=
    ⟨_, List.mem_cons_of_mem _ List.mem_cons_self, le_rfl⟩
  have h3' := h3 3600000000 tE
  have h4' := h4 3600000000 tE last
  rw [e] at h3' h4'
  refine ⟨h2, one, many, h3', h4', ?_⟩
  have := h5 3600000000 tE last {3600000000} (by
    intro t ht
    rw [Finset.mem_singleton] at ht
    subst ht
    exact ⟨tE, le_rfl⟩)
  rw [hg, Finset.sum_singleton] at this
  simp only [List.filter_cons, List.filter_nil] at this
  rw [if_pos (by decide), if_neg (by decide)] at this
  simpa [fwdRoundingOf] using this

/-- C128_backward: the rounding of the file that the second command reads -/
example : AllEnd [firstB.act lib32 parseB, secondB.act lib32 parseB] fs ∧ ∃ one many : ℤ → BwdOutput 5 5 ℚ,
    after (wholeB.act lib32 parseB) fs ["out".toList, "backtrack_1970-01-01T00-00.nc".toList] =
      some (.file (lib32.showBwd (one 0))) ∧
    afterAll [firstB.act lib32 parseB, secondB.act lib32 parseB] fs ["out".toList, "backtrack_1970-01-01T00-00.nc".toList] =
      some (.file (lib32.showBwd (many 0))) ∧
    bwdStorageGap grid.a (one 0) (many 0) + bwdFateGap grid.a (one 0) (many 0) ≤
      1 / 2 ^ 24 * (total grid.a (many half).s_track_lower + total grid.a (many half).s_track_upper) +
        2 * (1 / 2 ^ 150) * total grid.a (fun _ (_ : Fin 5) => (1 : ℚ)) := by
  have hg : (bwdSource lib32 (cfg true 0 3600000000 false) fs).grid = grid := grid_eq true 3600000000 (by decide) (by decide)
  have tE : BackwardOutputTime (cfg true 0 3600000000 false) 0 := ⟨2, by decide, by decide, by decide, .inl (by decide)⟩
  have tB : BackwardOutputTime (cfg true 0 3600000000 false) half := ⟨1, by decide, by decide, by decide, .inl (by decide)⟩
  have h := C128_backward lib32 first_ok parseB fs (cfg true 0 3600000000 false) rfl DomainDemo.inp
    (served true 3600000000 (by decide) (by decide)) (by show (60 : ℤ) ∣ 1800; decide) DomainDemo.physical
    (by rw [hg]; exact DomainDemo.area_pos) (by show (0 : ℚ) ≤ 3; norm_num) (by rw [hg]; exact calmB)
    (fun h => by cases h) (years true)
    (fun p h => apart h) wholeB (ready _ _ _ "a".toList _ _ _ _ rfl (by decide +kernel) rfl)
    [(firstB, half), (secondB, 0)] (by simp [half])
    (by
      intro x hx
      rcases List.mem_cons.1 hx with rfl | hx
      · exact ⟨tB, axes true 3600000000 half (by decide) (by decide) (by decide) (by decide)⟩
      · rw [List.mem_singleton] at hx
        subst hx
        exact ⟨tE, axes true 3600000000 0 (by decide) (by decide) (by decide) (by decide)⟩)
    ⟨by simp only [backwardPiece]; rw [starting]; exact ready _ _ _ "b".toList _ _ _ _ rfl (by decide +kernel) rfl,
      by simp only [backwardPiece]; rw [starting, ending, restarting]; exact ready _ _ _ "c".toList _ _ _ _ rfl (by decide +kernel) rfl,
      trivial⟩
    binary32 accurate32 ⟨fun o _ => readBack32 o, fun o _ => readBack32 o, trivial⟩
  obtain ⟨-, h2, one, many, h3, h4, -, h5⟩ := h
  have e : backwardFile (cfg true 0 3600000000 false) 0 = ["out".toList, "backtrack_1970-01-01T00-00.nc".toList] := by
    decide +kernel
  have last : ∃ x ∈ [(firstB, half), (secondB, (0 : ℤ))], x.2 ≤ 0 :=
    ⟨_, List.mem_cons_of_mem _ List.mem_cons_self, le_rfl⟩
  have h3' := h3 0 tE
  have h4' := h4 0 tE last
  rw [e] at h3' h4'
  refine ⟨h2, one, many, h3', h4', ?_⟩
  have := h5 0 tE last {0} (by
    intro t ht
    rw [Finset.mem_singleton] at ht
    subst ht
    exact ⟨tE, le_rfl⟩)
  rw [hg, Finset.sum_singleton] at this
  simp only [List.filter_cons, List.filter_nil] at this
  rw [if_pos (by decide), if_neg (by decide)] at this
  simpa [bwdRoundingOf] using this

end Wam.SplitSingleDemo
