import Verif.Props.Concurrent
import Verif.Props.DiskDemo
import Mathlib.Tactic.FinCases

/-!
# C113 on an example
-/

set_option linter.unusedSectionVars false
set_option linter.unusedVariables false

namespace Wam
open Spec

namespace ConcurrentDemo

/-- two configuration files in `/c` -/
def fs : FileSystem := fun p =>
  if p = [] ∨ p = ["c".toList] then some .dir
  else if p = ["c".toList, "a.yaml".toList] ∨ p = ["c".toList, "b.yaml".toList] then some (.file "x".toList)
  else none

/-- the output folder of each command: `/o1`, `/o2` -/
def out (i : Fin 2) : List Char := if i = 0 then "o1".toList else "o2".toList

def settings (o : List Char) : FileSettings Unit := DiskDemo.settings none ⟨true, [o]⟩ 0 1

/-- the two commands, given in different places -/
def job (o : Fin 2 → List Char) (i : Fin 2) : Job where
  ρ := Unit
  parse := fun _ => .ok (settings (o i))
  cwd := if i = 0 then ["c".toList] else []
  dir := ["c".toList]
  name := if i = 0 then "a.yaml".toList else "b.yaml".toList
  stamp := "T".toList
  backward := fun _ => false
  folder := fun cfg => some cfg.output
  experiment := if i = 0 then DiskDemo.tracking else DiskDemo.drawing

def cfg (o : List Char) : Loaded Unit :=
  { config := { dates := fun
                  | .tracking_start_date => 0
                  | .tracking_end_date => 1
                  | .tagging_start_date => 0
                  | .tagging_end_date => 1
                  | .preprocess_start_date => 0
                  | .preprocess_end_date => 1
                calendar := "standard".toList
                rest := () }
    preprocessed := none
    output := [o] }

theorem resolve_one (cwd : FPath) (i : Fin 2) : resolve cwd ⟨true, [out i]⟩ = [out i] := by
  fin_cases i <;> rfl

theorem named {cwd : FPath} {i : Fin 2} {p : FPath} (h : Named cwd (settings (out i)).folders p) : p = [out i] := by
  rcases h with ⟨name, h1, h2⟩ | ⟨name, h1, h2⟩
  · have h3 : (none : Option FileName) = some name := Except.ok.inj h1
    cases h3
  · have h3 : ⟨true, [out i]⟩ = name := Except.ok.inj h1
    subst h3
    rw [h2, resolve_one]

theorem configFolder {cwd : FPath} {i : Fin 2} {p : FPath} (h : ConfigFolder cwd (settings (out i)).folders p) :
    p = [] ∨ p = [out i] := by
  obtain ⟨q, h1, rest, h2⟩ := h
  rw [named h1] at h2
  rcases p with _ | ⟨a, p⟩
  · exact .inl rfl
  · injection h2 with h2 h3
    obtain ⟨rfl, _⟩ := List.append_eq_nil_iff.1 h3
    rw [h2]; exact .inr rfl

theorem mine {cwd : FPath} {i : Fin 2} {p : FPath} (h : Mine cwd (settings (out i)).folders [out i] fs p) :
    p.head? = some (out i) := by
  rcases h with ⟨rest, _, rfl⟩ | ⟨h1, h2⟩
  · rfl
  · rcases configFolder h1 with rfl | rfl
    · cases h2
    · rfl

theorem given (i : Fin 2) : (job out i).Given fs (settings (out i)) (cfg (out i)) [out i] (fun _ => False) where
  given := by
    refine ⟨⟨"x".toList, ?_, rfl⟩, ⟨rfl, ⟨_, rfl, ?_⟩, ⟨none, rfl, rfl⟩⟩, ?_⟩
    · fin_cases i <;> decide +kernel
    · exact (resolve_one _ i).symm
    · fin_cases i <;> decide +kernel
  folder := rfl
  named := .inr ⟨_, rfl, (resolve_one _ i).symm⟩
  reads := by
    intro fs₁ fs₂ _
    fin_cases i <;> rfl
  own := by
    rintro ⟨rest, _, h⟩
    injection h with h _
    revert h
    fin_cases i <;> decide +kernel

theorem apart : Apart (fun i => (job out i).cwd) (fun i => (settings (out i)).folders) (fun i => [out i])
    (fun i => (job out i).dir ++ [(job out i).name]) (fun _ _ => False) fs := by
  have hne : ∀ i j : Fin 2, i ≠ j → out i ≠ out j := by decide +kernel
  have hc : ∀ i : Fin 2, "c".toList ≠ out i := by decide +kernel
  intro i j hij p hp
  have h1 := mine hp
  refine ⟨fun h => ?_, ?_⟩
  · rw [mine h] at h1
    injection h1 with h1
    exact hne i j hij h1.symm
  · rintro (h | h | h)
    · rw [h] at h1
      injection h1 with h1
      exact hc i h1
    · rcases configFolder h with rfl | rfl
      · cases h1
      · injection h1 with h1
        exact hne i j hij h1.symm
    · exact h

/-- whether a process has ended, and how -/
def ended : Process Unit → Option (Except Err Unit)
  | .done r => some r
  | .call _ _ => none

end ConcurrentDemo

open ConcurrentDemo

/-- C113_as_if_alone, C113_any_time, C113_rest_unchanged, C113_progress: `track` to `/o1` and a command that draws a figure in `/o2`
and fails then, at the same time.  In every schedule in which each has called often enough, the first one succeeds and its
output is complete, the second one ends with its own exception, and its figure is there; the configuration files are as they were. -/
example : ∃ N, ∀ schedule : List (Fin 2), (∀ i, N ≤ schedule.count i) →
    (Machine.run ⟨fs, fun i => (job out i).process⟩ schedule).processes 0 = .done (.ok ()) ∧
    (Machine.run ⟨fs, fun i => (job out i).process⟩ schedule).processes 1 = .done (.error .valueError) ∧
    (Machine.run ⟨fs, fun i => (job out i).process⟩ schedule).fs ["o1".toList, "forwardtrack_1970-01-01T00-00.nc".toList] =
      some (.file "o".toList) ∧
    (Machine.run ⟨fs, fun i => (job out i).process⟩ schedule).fs ["o2".toList, "figures".toList, "summary.png".toList] =
      some (.file "p".toList) ∧
    (Machine.run ⟨fs, fun i => (job out i).process⟩ schedule).fs ["c".toList, "a.yaml".toList] = some (.file "x".toList) := by
  obtain ⟨N0, h0⟩ := C113_progress given apart 0
  obtain ⟨N1, h1⟩ := C113_progress given apart 1
  refine ⟨N0 + N1, fun schedule hs => ?_⟩
  have e0 := h0 schedule (by have := hs 0; omega)
  have e1 := h1 schedule (by have := hs 1; omega)
  have f0 := (C113_as_if_alone given apart schedule 0 _ e0).2
  have f1 := (C113_as_if_alone given apart schedule 1 _ e1).2
  refine ⟨?_, ?_, ?_, ?_, ?_⟩
  · rw [e0]; congr 1
  · rw [e1]; congr 1
  · rw [f0 _ (.inl ⟨["forwardtrack_1970-01-01T00-00.nc".toList], by simp, by decide +kernel⟩)]; decide +kernel
  · rw [f1 _ (.inl ⟨["figures".toList, "summary.png".toList], by simp, by decide +kernel⟩)]; decide +kernel
  · rw [C113_rest_unchanged given apart schedule _ ?_]
    · decide +kernel
    · intro i h
      have := mine h
      revert this
      fin_cases i <;> decide +kernel

/-- the calls in turn: a schedule in which both have ended -/
example :
    ended ((Machine.run ⟨fs, fun i => (job out i).process⟩
      (List.replicate 40 [(0 : Fin 2), 1]).flatten).processes 0) = some (.ok ()) ∧
    ended ((Machine.run ⟨fs, fun i => (job out i).process⟩
      (List.replicate 40 [(0 : Fin 2), 1]).flatten).processes 1) = some (.error .valueError) := by
  decide +kernel

/-- C113_as_if_in_turn: in whichever order -/
example (schedule : List (Fin 2))
    (h : ∀ i, ∃ r, (Machine.run ⟨fs, fun i => (job out i).process⟩ schedule).processes i = .done r) :
    (Machine.run ⟨fs, fun i => (job out i).process⟩ schedule).fs = inTurn [job out 1, job out 0] fs :=
  C113_as_if_in_turn given apart schedule h [1, 0] (by decide) (by decide)

/-- C113_folder_race with whole commands: two commands with the same output folder, which is missing.  One after the other, the first
one succeeds; at the same time, it ends with `FileExistsError`. -/
example :
    ((job (fun _ => "o".toList) 0).alone fs).2 = .ok () ∧
    ((job (fun _ => "o".toList) 0).alone (inTurn [job (fun _ => "o".toList) 1] fs)).2 = .ok () ∧
    ended ((Machine.run ⟨fs, fun i => (job (fun _ => "o".toList) i).process⟩
      [(0 : Fin 2), 0, 1, 1, 1, 0, 0]).processes 0) = some (.error (.other "FileExistsError")) := by
  decide +kernel

/-- its hypotheses -/
example : fs ["o".toList] = none ∧ fs (["o".toList] : FPath).dropLast = some .dir := by decide +kernel

end Wam
