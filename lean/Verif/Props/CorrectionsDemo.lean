import Verif.Props.Corrections
import Verif.Props.CommandDemo

/-! # Examples for C124 -/

namespace Wam.CorrectionsDemo
open Spec

/-- a layer with little water and strong winds -/
def dry : Layer 2 2 ℚ := ⟨fun _ _ => 2, fun _ _ => 0, fun _ _ => 100⟩
/-- a layer with less water -/
def dryer : Layer 2 2 ℚ := ⟨fun _ _ => 1, fun _ _ => 0, fun _ _ => 100⟩
/-- a layer with much water -/
def wet : Layer 2 2 ℚ := ⟨fun _ _ => 1000, fun _ _ => 0, fun _ _ => 100⟩

/-- both layers of a time step can give a field (for the same file), a later one if the cut is
stronger or, for the first time, because of the area, and then no more -/
example : fields (fun l => if NpOps.lt (l.s 0 0) (XF.fin 2) then "l".toList else "u".toList) (XF.fin (1 : ℚ)) (fun _ => XF.fin 1)
    ⟨ofRat 0, ofRat 1⟩ ([((0 : ℤ), dry), (0, dryer), (3600000000, wet), (3600000000, dry), (7200000000, dry)].map fun c => (c.1, Spec.Layer.lift c.2)) =
    [(0, "u".toList), (0, "l".toList), (3600000000, "u".toList)] := by decide +kernel

example : (Saving.correction 0 "u".toList).place .standard false = (Saving.correction 0 "l".toList).place .standard false ∧
    (Saving.correction 0 "u".toList).place .standard false ≠ (Saving.correction 3600000000 "u".toList).place .standard false := by
  have h0 : FourDigitYear .standard 0 := by unfold FourDigitYear; decide +kernel
  have h1 : FourDigitYear .standard 3600000000 := by unfold FourDigitYear; decide +kernel
  refine ⟨(C124_file .standard false false 0 0 _ _ h0 h0).2.2 rfl, fun e => ?_⟩
  have := (C124_file .standard false false 0 3600000000 _ _ h0 h1).2.1 e
  omega

example : ∃ k, (fields (fun _ => []) (XF.fin (1 : ℚ)) (fun _ => XF.fin 1) ⟨ofRat 0, ofRat 1⟩
    ([(0, dry), (0, dryer)].map fun c => (c.1, Spec.Layer.lift c.2))).length ≤ 32 + k ∧
    (0 < k → ∃ c ∈ [((0 : ℤ), dry), (0, dryer)], ∃ f ∈ cuts (1 : ℚ) (fun _ => 1) c.2, f < (10 / 11) ^ k) :=
  C124_bounded _ 1 (fun _ => 1) (by norm_num) (fun _ => by norm_num) (by norm_num) (by norm_num) _
    (by
      intro c hc i j
      simp only [List.mem_cons, List.not_mem_nil, or_false] at hc
      rcases hc with rfl | rfl <;> norm_num [dry, dryer])

example : fields (fun _ => []) (XF.fin (1 : ℚ)) (fun _ => XF.fin 1) ⟨ofRat 0, ofRat 1⟩
    ([((0 : ℤ), wet), (0, wet)].map fun c => (c.1, Spec.Layer.lift c.2)) = [] :=
  C124_calm _ 1 (fun _ => 1) (by norm_num) (by norm_num) (by norm_num) _
    (by
      intro c hc i j
      simp only [List.mem_cons, List.not_mem_nil, or_false, or_self] at hc
      subst hc
      norm_num [wet])

example (cs : List (ℤ × Layer 2 2 (XF ℚ))) : ∃ rest, fields (fun _ => "f".toList) (XF.fin (1 : ℚ)) (fun _ => XF.fin 1)
    ⟨ofRat 0, ofRat 1⟩ ((0, Spec.Layer.lift dry) :: cs) = (0, "f".toList) :: rest :=
  C124_first _ 1 (fun _ => 1) (by norm_num) 0 dry cs 0 0 (by norm_num [dry]) (by norm_num [dry])

section
open DomainDemo TrackDemo

local instance : NpTrig ℚ := trig

/-- a run of one step in each direction: two checks, and both fields have the same time -/
example : ∃ N cs, Checks (fwdSource lib (cfg false) fs) 0 3600000000 1800000000 N cs ∧ N = 1 ∧
    corrections (trackExperiment lib (cfg false) fs).1 =
      fields lib.showCorrection (3600 : ℚ) (fwdSource lib (cfg false) fs).grid.a ⟨0, 1⟩ cs := by
  obtain ⟨N, cs, h1, h2, h3, h4⟩ := C124_forward lib (cfg false) fs rfl
  have hN := h4 (by decide +kernel)
  refine ⟨N, cs, h1, ?_, ?_⟩
  · change (3600000000 : ℤ) < 0 + (N + 1) * 3600000000 at hN
    change 0 < N → (0 : ℤ) + N * 3600000000 ≤ 3600000000 at h2
    have h5 : 0 < N := by omega
    have := h2 h5
    omega
  · exact h3

example : ∃ N cs, Checks (bwdSource lib (cfg true) fs) 3600000000 (-3600000000) (-1800000000) N cs ∧ 0 < N ∧
    corrections (trackExperiment lib (cfg true) fs).1 =
      fields lib.showCorrection (3600 : ℚ) (bwdSource lib (cfg true) fs).grid.a ⟨0, 1⟩ cs := by
  obtain ⟨N, cs, h1, h2, h3, h4⟩ := C124_backward lib (cfg true) fs rfl
  have hN := h4 (by decide +kernel)
  refine ⟨N, cs, h1, ?_, h3⟩
  change (3600000000 : ℤ) - (N + 1) * 3600000000 < 0 at hN
  omega

end

end Wam.CorrectionsDemo
