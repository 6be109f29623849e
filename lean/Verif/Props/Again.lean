import Verif.Lemmas.Again

/-!
# C108: an interrupted command can be given again
-/

set_option linter.unusedSectionVars false
set_option linter.unusedVariables false

namespace Wam
open Spec

variable {ρ : Type}

private theorem mayWrite_iff (F dir : FPath) (n : List Char) (c : Calendar) (b : Bool) (ss : List Saving) (p : FPath) :
    WrittenFile F (dir ++ [n]) c b ss p ↔ MayWrite F n c b ss p := by
  unfold WrittenFile MayWrite
  simp

/-- A command that would succeed succeeds just as well after any number of attempts that were interrupted at any moment,
and leaves the same files with the same contents everywhere: the files that an interrupted attempt has left half
written are complete then, nothing of the attempts remains but their log files.  This holds for every experiment
whose input is not among the files and folders that it makes. -/
theorem C108_run_again (parse : List Char → Except Err (FileSettings ρ)) (cwd dir : FPath) (n : List Char)
    (fs fs' : FileSystem) (text stamp stamp' : List Char) (s : FileSettings ρ) (cfg : Loaded ρ)
    (backward : ρ → Bool) (folder : Loaded ρ → Option FPath) (experiment : Experiment ρ) (F : FPath)
    (reads : FPath → Prop) (ss : List Saving) (hss : ss = (experiment cfg fs).1)
    (hw : WellFormed fs) (hf : fs (dir ++ [n]) = some (.file text)) (hp : parse text = .ok s)
    (hcfg : LoadedFrom cwd s cfg) (hF : folder cfg = some F)
    (hreads : ReadsOnly experiment cfg reads)
    (hmake : ∀ p, reads p ∨ p = dir ++ [n] →
      ¬ MayMake cwd s.folders F cfg.calendar (backward cfg.config.rest) ss p)
    (hwrite : ∀ p, reads p ∨ p = dir ++ [n] → ¬ MayWrite F n cfg.calendar (backward cfg.config.rest) ss p)
    (hdis : ∀ p, MayMake cwd s.folders F cfg.calendar (backward cfg.config.rest) ss p →
      ¬ MayWrite F n cfg.calendar (backward cfg.config.rest) ss p)
    (hplace : ∀ p, MayWrite F n cfg.calendar (backward cfg.config.rest) ss p → fs p ≠ some .dir)
    (hcl : ¬ LogFile F (F ++ [n]))
    (hnl : ∀ x ∈ ss, ¬ LogFile F (x.path cfg.calendar (backward cfg.config.rest) F))
    (hok : (command parse cwd (dir ++ [n]) stamp backward folder experiment fs).2 = .ok ())
    (hatt : Attempts (fun st => command parse cwd (dir ++ [n]) st backward folder experiment) fs fs') :
    (command parse cwd (dir ++ [n]) stamp' backward folder experiment fs').2 = .ok () ∧
    ∀ p, ¬ LogFile F p →
      after (command parse cwd (dir ++ [n]) stamp' backward folder experiment) fs' p =
      after (command parse cwd (dir ++ [n]) stamp backward folder experiment) fs p := by
  have hl : (dir ++ [n]).getLast?.toList = [n] := by simp
  refine command_again (E := fun p => reads p ∨ p = dir ++ [n]) hw hss ?_ hmake ?_ hf (Or.inr rfl) hp hcfg hF
    ?_ ?_ (by rw [hl]; exact hcl) hnl hok hatt
  · intro p h1 h2; exact hdis p h1 ((mayWrite_iff _ _ _ _ _ _ _).1 h2)
  · intro p h1 h2; exact hwrite p h1 ((mayWrite_iff _ _ _ _ _ _ _).1 h2)
  · intro f h; exact hreads f fs (fun p hp => h p (Or.inl hp))
  · intro p h; exact hplace p ((mayWrite_iff _ _ _ _ _ _ _).1 h)

private theorem ends_ne {a b : List Char} {x y : Char} (h : x ≠ y) : a ++ [x] ≠ b ++ [y] := by
  intro e
  have := List.append_inj_right' e rfl
  injection this with this
  exact h this

theorem yaml_ne_log (a b : List Char) : a ++ ".yaml".toList ≠ b ++ ".log".toList := by
  have h1 : ".yaml".toList = ".yam".toList ++ ['l'] := rfl
  have h2 : ".log".toList = ".lo".toList ++ ['g'] := rfl
  rw [h1, h2, ← List.append_assoc, ← List.append_assoc]
  exact ends_ne (by decide)

theorem nc_ne_log (a b : List Char) : a ++ ".nc".toList ≠ b ++ ".log".toList := by
  have h1 : ".nc".toList = ".n".toList ++ ['c'] := rfl
  have h2 : ".log".toList = ".lo".toList ++ ['g'] := rfl
  rw [h1, h2, ← List.append_assoc, ← List.append_assoc]
  exact ends_ne (by decide)

theorem debug_ne_log (b : List Char) : "debug".toList ≠ b ++ ".log".toList := by
  have h1 : "debug".toList = "debu".toList ++ ['g'] := rfl
  have h2 : ".log".toList = ".lo".toList ++ ['g'] := rfl
  intro h
  rw [h1, h2, ← List.append_assoc] at h
  have h3 := List.append_inj_left' h rfl
  have h4 : "debu".toList = "deb".toList ++ ['u'] := rfl
  have h5 : ".lo".toList = ".l".toList ++ ['o'] := rfl
  rw [h4, h5, ← List.append_assoc] at h3
  exact ends_ne (by decide) h3

theorem debug_ne_nc (b : List Char) : "debug".toList ≠ b ++ ".nc".toList := by
  have h1 : ".nc".toList = ".n".toList ++ ['c'] := rfl
  have h2 : "debug".toList = "debu".toList ++ ['g'] := rfl
  rw [h1, h2, ← List.append_assoc]
  exact ends_ne (by decide)

theorem debug_ne_yaml (b : List Char) : "debug".toList ≠ b ++ ".yaml".toList := by
  have h1 : ".yaml".toList = ".yam".toList ++ ['l'] := rfl
  have h2 : "debug".toList = "debu".toList ++ ['g'] := rfl
  rw [h1, h2, ← List.append_assoc]
  exact ends_ne (by decide)

theorem append_last_eq {F : FPath} {a b : List Char} (h : F ++ [a] = F ++ [b]) : a = b := by
  have := List.append_cancel_left h
  injection this

private theorem track_not_log {c : Calendar} {F p : FPath} (h : TrackFile c F p) : ¬ LogFile F p := by
  rintro ⟨st, h2⟩
  cases h with
  | forward t => exact nc_ne_log _ _ (append_last_eq h2)
  | backward t => exact nc_ne_log _ _ (append_last_eq h2)
  | correction t => have := congrArg List.length h2; simp at this
  | region => have := congrArg List.length h2; simp at this

theorem track_not_debug {c : Calendar} {F : FPath} : ¬ TrackFile c F (F ++ ["debug".toList]) := by
  intro h
  generalize hq : F ++ ["debug".toList] = q at h
  cases h with
  | forward t => exact debug_ne_nc _ (append_last_eq hq)
  | backward t => exact debug_ne_nc _ (append_last_eq hq)
  | correction t => have := congrArg List.length hq; simp at this
  | region => have := congrArg List.length hq; simp at this

theorem below_of_log {F p : FPath} (h : LogFile F p) : Below F p := by
  obtain ⟨st, rfl⟩ := h
  exact ⟨_, by simp, rfl⟩

theorem below_of_trackFile {c : Calendar} {F p : FPath} (h : TrackFile c F p) : Below F p := by
  cases h <;> exact ⟨_, by simp, rfl⟩

/-- `track`: a command that would succeed succeeds just as well after any number of attempts that were interrupted at
any moment, and leaves the same files everywhere but for the log files of the attempts; provided that the input
is not in the output folder, and that the folders of the configuration are not either. -/
theorem C108_track_again (parse : List Char → Except Err (FileSettings ρ)) (cwd dir : FPath) (stem : List Char)
    (fs fs' : FileSystem) (text stamp stamp' : List Char) (s : FileSettings ρ) (cfg : Loaded ρ)
    (backward : ρ → Bool) (experiment : Experiment ρ) (reads : FPath → Prop)
    (hw : WellFormed fs) (hf : fs (dir ++ [stem ++ ".yaml".toList]) = some (.file text)) (hp : parse text = .ok s)
    (hcfg : LoadedFrom cwd s cfg) (hexp : ∀ x ∈ (experiment cfg fs).1, IsTracking x)
    (hreads : ReadsOnly experiment cfg reads)
    (hin : ∀ p, reads p ∨ p = dir ++ [stem ++ ".yaml".toList] →
      ¬ Below cfg.output p ∧ ¬ ConfigFolder cwd s.folders p)
    (hfold : ∀ p, ConfigFolder cwd s.folders p → ¬ Below cfg.output p)
    (hplace : ∀ p, LogFile cfg.output p ∨ p = cfg.output ++ [stem ++ ".yaml".toList] ∨
      TrackFile cfg.calendar cfg.output p → fs p ≠ some .dir)
    (hok : (command parse cwd (dir ++ [stem ++ ".yaml".toList]) stamp backward (fun cfg => some cfg.output)
      experiment fs).2 = .ok ())
    (hatt : Attempts (fun st => command parse cwd (dir ++ [stem ++ ".yaml".toList]) st backward
      (fun cfg => some cfg.output) experiment) fs fs') :
    (command parse cwd (dir ++ [stem ++ ".yaml".toList]) stamp' backward (fun cfg => some cfg.output)
      experiment fs').2 = .ok () ∧
    ∀ p, ¬ LogFile cfg.output p →
      after (command parse cwd (dir ++ [stem ++ ".yaml".toList]) stamp' backward (fun cfg => some cfg.output)
        experiment) fs' p =
      after (command parse cwd (dir ++ [stem ++ ".yaml".toList]) stamp backward (fun cfg => some cfg.output)
        experiment) fs p := by
  have hmw : ∀ p, MayWrite cfg.output (stem ++ ".yaml".toList) cfg.calendar (backward cfg.config.rest)
      (experiment cfg fs).1 p → LogFile cfg.output p ∨ p = cfg.output ++ [stem ++ ".yaml".toList] ∨
        TrackFile cfg.calendar cfg.output p := by
    rintro p (h | h | ⟨x, hx, rfl⟩)
    · exact .inl h
    · exact .inr (.inl h)
    · exact .inr (.inr (tracking_place (hexp x hx) _ _ _).1)
  have hbelow : ∀ p, LogFile cfg.output p ∨ p = cfg.output ++ [stem ++ ".yaml".toList] ∨
        TrackFile cfg.calendar cfg.output p → Below cfg.output p := by
    rintro p (h | rfl | h)
    · exact below_of_log h
    · exact ⟨_, by simp, rfl⟩
    · exact below_of_trackFile h
  have hmm : ∀ p, MayMake cwd s.folders cfg.output cfg.calendar (backward cfg.config.rest) (experiment cfg fs).1 p →
      ConfigFolder cwd s.folders p ∨ p = cfg.output ++ ["debug".toList] := by
    rintro p (h | ⟨x, hx, sub, h1, h2⟩)
    · exact .inl h
    · rw [(tracking_place (hexp x hx) _ _ cfg.output).2 sub h1] at h2
      exact .inr h2
  refine C108_run_again parse cwd dir _ fs fs' text stamp stamp' s cfg backward _ experiment cfg.output reads _ rfl hw
    hf hp hcfg rfl hreads ?_ ?_ ?_ (fun p h => hplace p (hmw p h)) ?_ ?_ hok hatt
  · intro p h1 h2
    rcases hmm p h2 with h | h
    · exact (hin p h1).2 h
    · exact (hin p h1).1 ⟨_, by simp, h⟩
  · intro p h1 h2
    exact (hin p h1).1 (hbelow p (hmw p h2))
  · intro p h1 h2
    rcases hmm p h1 with h | rfl
    · exact hfold p h (hbelow p (hmw p h2))
    · rcases hmw _ h2 with ⟨st, h⟩ | h | h
      · exact debug_ne_log _ (append_last_eq h)
      · exact debug_ne_yaml _ (append_last_eq h)
      · exact track_not_debug h
  · rintro ⟨st, h⟩
    exact yaml_ne_log _ _ (append_last_eq h)
  · intro x hx
    exact track_not_log (tracking_place (hexp x hx) _ _ _).1

/-- `preprocess`: the same for preprocessed files, if the input is not in the folder they are written to. -/
theorem C108_preprocess_again (parse : List Char → Except Err (FileSettings ρ)) (cwd dir : FPath) (stem : List Char)
    (fs fs' : FileSystem) (text stamp stamp' : List Char) (s : FileSettings ρ) (cfg : Loaded ρ) (F : FPath)
    (backward : ρ → Bool) (experiment : Experiment ρ) (reads : FPath → Prop)
    (hw : WellFormed fs) (hf : fs (dir ++ [stem ++ ".yaml".toList]) = some (.file text)) (hp : parse text = .ok s)
    (hcfg : LoadedFrom cwd s cfg) (hF : cfg.preprocessed = some F)
    (hexp : ∀ x ∈ (experiment cfg fs).1, IsPreprocessing x)
    (hreads : ReadsOnly experiment cfg reads)
    (hin : ∀ p, reads p ∨ p = dir ++ [stem ++ ".yaml".toList] → ¬ Below F p ∧ ¬ ConfigFolder cwd s.folders p)
    (hfold : ∀ p, ConfigFolder cwd s.folders p → ¬ Below F p)
    (hplace : ∀ p, LogFile F p ∨ p = F ++ [stem ++ ".yaml".toList] ∨ DayFile cfg.calendar F p → fs p ≠ some .dir)
    (hok : (command parse cwd (dir ++ [stem ++ ".yaml".toList]) stamp backward (fun cfg => cfg.preprocessed)
      experiment fs).2 = .ok ())
    (hatt : Attempts (fun st => command parse cwd (dir ++ [stem ++ ".yaml".toList]) st backward
      (fun cfg => cfg.preprocessed) experiment) fs fs') :
    (command parse cwd (dir ++ [stem ++ ".yaml".toList]) stamp' backward (fun cfg => cfg.preprocessed)
      experiment fs').2 = .ok () ∧
    ∀ p, ¬ LogFile F p →
      after (command parse cwd (dir ++ [stem ++ ".yaml".toList]) stamp' backward (fun cfg => cfg.preprocessed)
        experiment) fs' p =
      after (command parse cwd (dir ++ [stem ++ ".yaml".toList]) stamp backward (fun cfg => cfg.preprocessed)
        experiment) fs p := by
  have hday : ∀ x, IsPreprocessing x → (x.place cfg.calendar (backward cfg.config.rest)).1 = none ∧
      ∃ t, x.path cfg.calendar (backward cfg.config.rest) F = F ++ [dayName cfg.calendar t] := by
    intro x hx
    cases x with
    | day t y =>
      refine ⟨rfl, t, ?_⟩
      show F ++ [] ++ [dayName cfg.calendar t] = _
      rw [List.append_nil]
    | output t y => exact hx.elim
    | correction t y => exact hx.elim
    | region y => exact hx.elim
    | figure a b => exact hx.elim
  have hmw : ∀ p, MayWrite F (stem ++ ".yaml".toList) cfg.calendar (backward cfg.config.rest)
      (experiment cfg fs).1 p → LogFile F p ∨ p = F ++ [stem ++ ".yaml".toList] ∨ DayFile cfg.calendar F p := by
    rintro p (h | h | ⟨x, hx, rfl⟩)
    · exact .inl h
    · exact .inr (.inl h)
    · obtain ⟨_, t, h⟩ := hday x (hexp x hx)
      rw [h]
      exact .inr (.inr (DayFile.day t))
  have hbelow : ∀ p, LogFile F p ∨ p = F ++ [stem ++ ".yaml".toList] ∨ DayFile cfg.calendar F p → Below F p := by
    rintro p (h | rfl | h)
    · exact below_of_log h
    · exact ⟨_, by simp, rfl⟩
    · cases h; exact ⟨_, by simp, rfl⟩
  have hmm : ∀ p, MayMake cwd s.folders F cfg.calendar (backward cfg.config.rest) (experiment cfg fs).1 p →
      ConfigFolder cwd s.folders p := by
    rintro p (h | ⟨x, hx, sub, h1, h2⟩)
    · exact h
    · rw [(hday x (hexp x hx)).1] at h1; cases h1
  refine C108_run_again parse cwd dir _ fs fs' text stamp stamp' s cfg backward _ experiment F reads _ rfl hw
    hf hp hcfg hF hreads ?_ ?_ ?_ (fun p h => hplace p (hmw p h)) ?_ ?_ hok hatt
  · intro p h1 h2
    exact (hin p h1).2 (hmm p h2)
  · intro p h1 h2
    exact (hin p h1).1 (hbelow p (hmw p h2))
  · intro p h1 h2
    exact hfold p (hmm p h1) (hbelow p (hmw p h2))
  · rintro ⟨st, h⟩
    exact yaml_ne_log _ _ (append_last_eq h)
  · rintro x hx ⟨st, h⟩
    obtain ⟨_, t, h2⟩ := hday x (hexp x hx)
    rw [h2] at h
    have h3 := append_last_eq h
    unfold dayName at h3
    have h4 : "_fluxes_storages.nc".toList = "_fluxes_storages".toList ++ ".nc".toList := rfl
    rw [h4, ← List.append_assoc] at h3
    exact nc_ne_log _ _ h3

end Wam
