import Verif.Props.SplitMany
import Verif.Props.SplitDemo

/-! # C118 on an example: the demonstration of C115, as a list of two commands -/

set_option linter.unusedSectionVars false
set_option linter.unusedVariables false

namespace Wam.SplitDemo
open Spec

local instance : NpTrig ℚ := DomainDemo.trig

/-- C118_forward -/
example : AllEnd [firstF.act lib parseF, secondF.act lib parseF] fs ∧ ∃ o,
    after (wholeF.act lib parseF) fs ["out".toList, "forwardtrack_1970-01-01T01-00.nc".toList] = some (.file (lib.showFwd o)) ∧
    afterAll [firstF.act lib parseF, secondF.act lib parseF] fs ["out".toList, "forwardtrack_1970-01-01T01-00.nc".toList] =
      some (.file (lib.showFwd o)) := by
  have tE : ForwardOutputTime (cfg false 0 3600000000 false) 3600000000 := ⟨2, by decide, by decide, by decide, .inl (by decide)⟩
  have tB : ForwardOutputTime (cfg false 0 3600000000 false) half := ⟨1, by decide, by decide, by decide, .inl (by decide)⟩
  have h := C118_forward lib first_ok parseF fs (cfg false 0 3600000000 false) rfl DomainDemo.inp
    (served false 0 (by decide) (by decide)) (by show (60 : ℤ) ∣ 1800; decide) (fun h => by cases h) (years false)
    (fun p h => apart h) wholeF (ready _ _ _ "a".toList _ _ _ _ rfl (by decide +kernel) rfl)
    [(firstF, half), (secondF, 3600000000)] (by simp [half])
    (by
      intro x hx
      rcases List.mem_cons.1 hx with rfl | hx
      · exact ⟨tB, axes false 0 half (by decide) (by decide) (by decide) (by decide)⟩
      · rw [List.mem_singleton] at hx
        subst hx
        exact ⟨tE, axes false 0 3600000000 (by decide) (by decide) (by decide) (by decide)⟩)
    ⟨by simp only [forwardPiece]; rw [ending]; exact ready _ _ _ "b".toList _ _ _ _ rfl (by decide +kernel) rfl,
      by simp only [forwardPiece]; rw [ending, starting, restarting]; exact ready _ _ _ "c".toList _ _ _ _ rfl (by decide +kernel) rfl,
      trivial⟩
    (fun _ _ o _ => readFwd o)
  refine ⟨h.2.1, ?_⟩
  have := h.2.2 3600000000 tE ⟨_, List.mem_cons_of_mem _ List.mem_cons_self, le_rfl⟩
  have e : forwardFile (cfg false 0 3600000000 false) 3600000000 = ["out".toList, "forwardtrack_1970-01-01T01-00.nc".toList] := by
    decide +kernel
  rwa [e] at this

/-- C118_backward -/
example : AllEnd [firstB.act lib parseB, secondB.act lib parseB] fs ∧ ∃ o,
    after (wholeB.act lib parseB) fs ["out".toList, "backtrack_1970-01-01T00-00.nc".toList] = some (.file (lib.showBwd o)) ∧
    afterAll [firstB.act lib parseB, secondB.act lib parseB] fs ["out".toList, "backtrack_1970-01-01T00-00.nc".toList] =
      some (.file (lib.showBwd o)) := by
  have tE : BackwardOutputTime (cfg true 0 3600000000 false) 0 := ⟨2, by decide, by decide, by decide, .inl (by decide)⟩
  have tB : BackwardOutputTime (cfg true 0 3600000000 false) half := ⟨1, by decide, by decide, by decide, .inl (by decide)⟩
  have h := C118_backward lib first_ok parseB fs (cfg true 0 3600000000 false) rfl DomainDemo.inp
    (served true 3600000000 (by decide) (by decide)) (by show (60 : ℤ) ∣ 1800; decide) (fun h => by cases h) (years true)
    (fun p h => apart h) wholeB (ready _ _ _ "a".toList _ _ _ _ rfl (by decide +kernel) rfl)
    [(firstB, half), (secondB, 0)] (by simp [half])
    (by
      intro x hx
      rcases List.mem_cons.1 hx with rfl | hx
      · exact ⟨tB, axes true 3600000000 half (by decide) (by decide) (by decide) (by decide)⟩
      · rw [List.mem_singleton] at hx
        subst hx
        exact ⟨tE, axes true 3600000000 0 (by decide) (by decide) (by decide) (by decide)⟩)
    ⟨by simp only [backwardPiece]; rw [starting]; exact ready _ _ _ "b".toList _ _ _ _ rfl (by decide +kernel) rfl,
      by simp only [backwardPiece]; rw [starting, ending, restarting]; exact ready _ _ _ "c".toList _ _ _ _ rfl (by decide +kernel) rfl,
      trivial⟩
    (fun _ _ o _ => readBwd o)
  refine ⟨h.2.1, ?_⟩
  have := h.2.2 0 tE ⟨_, List.mem_cons_of_mem _ List.mem_cons_self, le_rfl⟩
  have e : backwardFile (cfg true 0 3600000000 false) 0 = ["out".toList, "backtrack_1970-01-01T00-00.nc".toList] := by
    decide +kernel
  rwa [e] at this

end Wam.SplitDemo
