import Verif.Props.Export
import Verif.Props.SplitDemo

/-! # C120 on an example

The run of an hour of the demonstration of C115; its configuration is exported to `e.yaml`, after the run, and the run is repeated
from there. -/

set_option linter.unusedSectionVars false
set_option linter.unusedVariables false

namespace Wam.ExportDemo
open Spec SplitDemo

local instance : NpTrig ℚ := DomainDemo.trig

def cfg₀ : Loaded (TrackSettings ℚ) := cfg false 0 3600000000 false

def parse (text : List Char) : Except Err (FileSettings (TrackSettings ℚ)) :=
  if text = "e".toList then .ok (exportSettings cfg₀) else .ok (file false 0 3600000000 false)

def dump (_ : FileSettings (TrackSettings ℚ)) : List Char := "e".toList

theorem years₀ : FourDigitYears cfg₀ := by
  intro f
  cases f <;> decide +kernel

theorem minutes : WholeMinutes cfg₀ := by
  intro f
  cases f <;> decide

theorem ready₀ : wholeF.Ready parse fs cfg₀ := ready _ _ _ "a".toList _ _ _ _ rfl (by decide +kernel) rfl

theorem works : wholeF.Works lib parse fs cfg₀ := by
  refine ⟨ready₀.given, ready₀.input, ?_⟩
  obtain ⟨o, ho⟩ := fwd_init_ok cfg₀.runConfig (fwdSource lib cfg₀ fs) DomainDemo.inp
    (fun t => cfg₀.output ++ [outputName cfg₀.calendar false t]) (restartFile lib.readFwd fs)
    (served false 0 (by decide) (by decide)) (fun h => by cases h)
  obtain ⟨r, -, -, hall⟩ := fwd_run_eq cfg₀.runConfig (fwdSource lib cfg₀ fs) DomainDemo.inp _ _
    (served false 0 (by decide) (by decide)) o ho
  refine (C112_forward lib first_ok parse _ _ _ _ fs _ cfg₀ ready₀.given ready₀.input ready₀.room rfl).1 _
    ((hall cfg₀.fuel).trans (if_neg ?_))
  show ¬ cfg₀.fuel < cfg₀.fuel
  omega

/-- the room for the second run, with another name and time stamp -/
theorem room : RoomForTracking [] (exportSettings cfg₀) cfg₀ [] "e".toList "U".toList fs := by
  have r := (ready (fun _ => .ok (file false 0 3600000000 false)) "c".toList "U".toList "c".toList false 0 3600000000 false rfl
    (by decide +kernel) rfl).room
  refine ⟨r.wf, r.folders, r.debug, ?_, r.apart, ?_⟩
  · rintro p (h | h)
    · have hp : p = ["out".toList, "wam2layers_U.log".toList] ∨ p = ["out".toList, "e.yaml".toList] := by
        cases h with
        | log => exact .inl (by decide +kernel)
        | config => exact .inr (by decide +kernel)
      rcases hp with rfl | rfl <;> decide +kernel
    · exact r.files p (.inr h)
  · intro h
    obtain ⟨a, q, h⟩ := TrackDemo.below_out h
    exact absurd (congrArg List.length h) (by simp)

theorem e_untouched : Untouched [] (exportSettings cfg₀) cfg₀.output "U".toList ("e".toList ++ ".yaml".toList) (TrackInput cfg₀) := by
  intro p h
  obtain ⟨name, rfl⟩ := plain (b := false) (x := 0) (y := 3600000000) (r := false) h
  constructor
  · intro h'
    rcases folders_short (b := false) (x := 0) (y := 3600000000) (r := false) h' with h | h | h <;>
      exact absurd (congrArg List.length h) (by simp)
  · intro h'
    generalize hq : ["in".toList, name] = q at h'
    rcases h' with _ | _ <;>
    · injection hq with hq _
      exact absurd hq (by decide +kernel)

/-- C120_run_repeated, with C120_same_output and C120_loads_again: the files of half past twelve and of one o'clock of both runs -/
example :
    let fs' := after (toFile dump cfg₀ ["e.yaml".toList]) fs
    let second := TrackCall.mk [] [] "e".toList "U".toList (exportSettings cfg₀)
    (second.act lib parse fs').2 = .ok () ∧
    ∀ t, (∃ x, (t, x) ∈ outputs (trackExperiment lib cfg₀ fs).1) → ∃ text,
      after (wholeF.act lib parse) fs ["out".toList, outputName cfg₀.calendar false t] = some (.file text) ∧
      after (second.act lib parse) fs' ["out".toList, outputName cfg₀.calendar false t] = some (.file text) := by
  refine C120_run_repeated lib first_ok parse dump wholeF fs fs cfg₀ works (by decide) years₀ minutes rfl [] [] "e".toList "U".toList
    (by decide +kernel) ⟨?_, ?_⟩ (fun _ _ => rfl) e_untouched room
  · intro h
    obtain ⟨name, h⟩ := plain (b := false) (x := 0) (y := 3600000000) (r := false) h
    exact absurd (congrArg List.length h) (by simp)
  · intro h
    rcases folders_short (b := false) (x := 0) (y := 3600000000) (r := false) h with h | h | h <;> revert h <;> decide +kernel

/-- there are such output files: half an hour and an hour after the start -/
example : ForwardOutputTime cfg₀ half ∧ ForwardOutputTime cfg₀ 3600000000 :=
  ⟨⟨1, le_rfl, by decide, by decide, .inl (by decide)⟩, ⟨2, by decide, by decide, by decide, .inl (by decide)⟩⟩

/-- C120_attributes -/
example : ∃ text, (outputAttrs dump cfg₀ false "2026-11-18T12:00:00Z".toList "3.2.0".toList).get? "WAM2Layers_config" = some text ∧
    ∃ s', parse text = .ok s' ∧ ∀ cwd', LoadedFrom cwd' s' (toTheMinute cfg₀) := by
  obtain ⟨⟨text, h1, -, h2⟩, -⟩ := C120_attributes parse dump [] _ cfg₀ ready₀.given.loaded (by decide) years₀ rfl false
    "2026-11-18T12:00:00Z".toList "3.2.0".toList
  exact ⟨text, h1, h2⟩

/-- C120_history -/
example := C120_history [("source", "ERA5".toList), ("history", "a; ".toList)] true "n".toList "v".toList "c".toList "a; ".toList
  "ERA5".toList rfl rfl

/-- a configuration with an end date that is not a whole minute comes back with another end date: `toTheMinute` is not the identity -/
example : (toTheMinute (cfg false 0 3630000000 false)).config.dates .tracking_end_date = 3600000000 ∧
    ¬ WholeMinutes (cfg false 0 3630000000 false) :=
  ⟨by decide, fun h => absurd (h .tracking_end_date) (by decide)⟩

end Wam.ExportDemo
