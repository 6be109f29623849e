import Verif.Model.PrepCommand
import Verif.Spec.Disk

/-!
# Lemmas about the command `preprocess`
-/

set_option linter.unusedSectionVars false
set_option linter.unusedVariables false

namespace Wam
open Spec

section
variable {α : Type} (shw : DataFile α α → List Char) (compute : ℤ → Except Err (Dataset α α)) (c : Calendar)

theorem daySavings_loop : ∀ (ts : List ℤ) (b : Bool) (disk : PrepDisk α α),
    (daySavings shw compute c b ts disk).2 = prepLoop compute c [] b ts disk := by
  intro ts
  induction ts with
  | nil => intro b disk; rfl
  | cons t ts ih =>
    intro b disk
    unfold daySavings prepLoop
    rcases h : prepContent compute c b t (disk (inputPath c t [])) with e | f
    · simp only [h]
    · simp only [h]; exact ih false _

theorem daysSavings_days : ∀ (days : List (List ℤ)) (disk : PrepDisk α α),
    (daysSavings shw compute c days disk).2 = prepDays compute c [] days disk := by
  intro days
  induction days with
  | nil => intro disk; rfl
  | cons ts days ih =>
    intro disk
    unfold daysSavings prepDays preprocessDay
    rw [← daySavings_loop shw]
    rcases daySavings shw compute c true ts disk with ⟨ss, _ | e, disk'⟩
    · exact ih disk'
    · rfl

/-- what the writes `ss` make of the folder `disk` -/
def WritesTo (ss : List Saving) (disk disk' : PrepDisk α α) : Prop :=
  (∀ y ∈ ss, ∃ t x, y = .day t x) ∧
  ∀ p, (disk' p = disk p ∧ ∀ t x, .day t x ∈ ss → inputPath c t [] ≠ p) ∨
    ∃ before t f after, ss = before ++ .day t (PrepFile.text shw f) :: after ∧ inputPath c t [] = p ∧
      disk' p = some f ∧ ∀ t' x, .day t' x ∈ after → inputPath c t' [] ≠ p

theorem writesTo_nil (disk : PrepDisk α α) : WritesTo shw c [] disk disk :=
  ⟨fun y hy => (List.not_mem_nil hy).elim, fun p => .inl ⟨rfl, fun t x h => (List.not_mem_nil h).elim⟩⟩

theorem writesTo_one (disk : PrepDisk α α) (t : ℤ) (f : PrepFile α α) :
    WritesTo shw c [.day t (f.text shw)] disk (disk.put (inputPath c t []) (some f)) := by
  refine ⟨fun y hy => ⟨_, _, List.mem_singleton.1 hy⟩, fun p => ?_⟩
  by_cases hp : p = inputPath c t []
  · right
    exact ⟨[], t, f, [], rfl, hp.symm, by unfold PrepDisk.put; rw [if_pos hp], fun _ _ h => (List.not_mem_nil h).elim⟩
  · left
    refine ⟨by unfold PrepDisk.put; rw [if_neg hp], fun t' x h => ?_⟩
    have := List.mem_singleton.1 h
    injection this with h1 _
    subst h1
    exact fun e => hp e.symm

theorem writesTo_append {ss ss' : List Saving} {d d' d'' : PrepDisk α α} (h : WritesTo shw c ss d d')
    (h' : WritesTo shw c ss' d' d'') : WritesTo shw c (ss ++ ss') d d'' := by
  refine ⟨fun y hy => (List.mem_append.1 hy).elim (h.1 y) (h'.1 y), fun p => ?_⟩
  rcases h'.2 p with ⟨h1, h2⟩ | ⟨b, t, f, a, h1, h2, h3, h4⟩
  · rcases h.2 p with ⟨h3, h4⟩ | ⟨b, t, f, a, h3, h4, h5, h6⟩
    · exact .inl ⟨h1.trans h3, fun t x hm => (List.mem_append.1 hm).elim (h4 t x) (h2 t x)⟩
    · exact .inr ⟨b, t, f, a ++ ss', by rw [h3]; simp, h4, h1.trans h5,
        fun t x hm => (List.mem_append.1 hm).elim (h6 t x) (h2 t x)⟩
  · exact .inr ⟨ss ++ b, t, f, a, by rw [h1]; simp, h2, h3, h4⟩

theorem daySavings_writes : ∀ (ts : List ℤ) (b : Bool) (disk : PrepDisk α α),
    WritesTo shw c (daySavings shw compute c b ts disk).1 disk (daySavings shw compute c b ts disk).2.2 := by
  intro ts
  induction ts with
  | nil => intro b disk; exact writesTo_nil shw c disk
  | cons t ts ih =>
    intro b disk
    unfold daySavings
    rcases h : prepContent compute c b t (disk (inputPath c t [])) with e | f
    · exact writesTo_nil shw c disk
    · exact writesTo_append shw c (writesTo_one shw c disk t f) (ih false _)

theorem daysSavings_writes : ∀ (days : List (List ℤ)) (disk : PrepDisk α α),
    WritesTo shw c (daysSavings shw compute c days disk).1 disk (daysSavings shw compute c days disk).2.2 := by
  intro days
  induction days with
  | nil => intro disk; exact writesTo_nil shw c disk
  | cons ts days ih =>
    intro disk
    have h := daySavings_writes shw compute c ts true disk
    unfold daysSavings
    rcases hr : daySavings shw compute c true ts disk with ⟨ss, _ | e, disk'⟩
    · rw [hr] at h
      exact writesTo_append shw c h (ih disk')
    · rw [hr] at h; exact h

end

section
variable {α ρ : Type} (shw : DataFile α α → List Char) (freq : ρ → ℤ)
  (compute : Loaded ρ → FileSystem → ℤ → Except Err (Dataset α α))

/-- the experiment and the model of the folder agree -/
theorem preprocessExperiment_writes (cfg : Loaded ρ) (fs : FileSystem) :
    ∃ folder, prepExperiment (compute cfg fs) cfg.calendar [] (cfg.config.dates .preprocess_start_date)
        (cfg.config.dates .preprocess_end_date) (freq cfg.config.rest) (fun _ => none) =
          ((preprocessExperiment shw freq compute cfg fs).2, folder) ∧
      WritesTo shw cfg.calendar (preprocessExperiment shw freq compute cfg fs).1 (fun _ => none) folder := by
  refine ⟨_, ?_, daysSavings_writes shw (compute cfg fs) cfg.calendar _ _⟩
  unfold prepExperiment
  rw [← daysSavings_days shw]
  rfl

theorem preprocessExperiment_reads (cfg : Loaded ρ) (reads : FPath → Prop)
    (h : ∀ fs₁ fs₂, (∀ p, reads p → fs₁ p = fs₂ p) → compute cfg fs₁ = compute cfg fs₂) (fs₁ fs₂ : FileSystem)
    (hr : ∀ p, reads p → fs₁ p = fs₂ p) :
    preprocessExperiment shw freq compute cfg fs₁ = preprocessExperiment shw freq compute cfg fs₂ := by
  unfold preprocessExperiment
  rw [h fs₁ fs₂ hr]

end

theorem inputPath_dayName (c : Calendar) (t : ℤ) : inputPath c t [] = '/' :: dayName c t := rfl

end Wam
