import Verif.Lemmas.Disk

/-!
# C106: what the commands change on disk
-/

set_option linter.unusedSectionVars false
set_option linter.unusedVariables false

namespace Wam
open Spec

variable {ρ : Type}

/-! ### Reading a configuration -/

/-- Reading a configuration makes missing folders on the way to the two folders it names, and changes nothing
else; this holds at every moment, whether the configuration is accepted or not. -/
theorem C106_loading (parse : List Char → Except Err (FileSettings ρ)) (cwd file : FPath)
    (fs fs' : FileSystem) (text : List Char) (s : FileSettings ρ) (hf : fs file = some (.file text))
    (hp : parse text = .ok s) (hm : Moment (fromYaml parse cwd file) fs fs') :
    ChangedOnly (ConfigFolder cwd s.folders) (fun _ => False) fs fs' := by
  refine moment_of_legal ?_ hm
  rw [fromYaml_eq hf hp]
  exact only_loadSettings _ _ _ _

/-- A file that is no configuration, or not there, changes nothing. -/
theorem C106_unreadable (parse : List Char → Except Err (FileSettings ρ)) (cwd file : FPath)
    (fs fs' : FileSystem) (h : ∀ text s, fs file = some (.file text) → parse text ≠ .ok s)
    (stamp : List Char) (backward : ρ → Bool) (folder : Loaded ρ → Option FPath)
    (experiment : Experiment ρ)
    (hm : Moment (command parse cwd file stamp backward folder experiment) fs fs') :
    fs' = fs ∧ ∃ e, (command parse cwd file stamp backward folder experiment fs).2 = .error e := by
  have hq : ∃ e, fromYaml parse cwd file fs = ([], .error e) := by
    unfold fromYaml
    rcases h1 : fs file with _ | (_ | text)
    · exact ⟨_, rfl⟩
    · exact ⟨_, rfl⟩
    · simp only
      rcases h2 : parse text with e | s
      · exact ⟨_, rfl⟩
      · exact absurd h2 (h text s h1)
  obtain ⟨e, hq⟩ := hq
  have hc : command parse cwd file stamp backward folder experiment fs = ([], .error e) := by
    unfold command startCommand
    exact bind_error (bind_error hq)
  obtain ⟨k, rfl⟩ := hm
  rw [hc]
  exact ⟨by simp [applyChanges], e, rfl⟩

/-! ### Commands -/

private theorem forward_name (m x : List Char) :
    modeString false ++ '_' :: (m ++ x) = "forwardtrack_".toList ++ m ++ x := by
  have h : "forwardtrack_".toList = modeString false ++ ['_'] := rfl
  rw [h]; simp only [List.append_assoc, List.cons_append, List.nil_append]

private theorem backward_name (m x : List Char) :
    modeString true ++ '_' :: (m ++ x) = "backtrack_".toList ++ m ++ x := by
  have h : "backtrack_".toList = modeString true ++ ['_'] := rfl
  rw [h]; simp only [List.append_assoc, List.cons_append, List.nil_append]

private theorem append_two (F : FPath) (a b : List Char) : F ++ [a] ++ [b] = F ++ [a, b] := by simp

theorem tracking_place {x : Saving} (hx : IsTracking x) (c : Calendar) (b : Bool)
    (F : FPath) : TrackFile c F (x.path c b F) ∧
      ∀ sub, (x.place c b).1 = some sub → sub = "debug".toList := by
  cases x with
  | output t y =>
    refine ⟨?_, fun sub h => by cases h⟩
    have h0 : Saving.path c b F (.output t y) = F ++ [outputName c b t] := by
      show F ++ [] ++ [outputName c b t] = _
      rw [List.append_nil]
    rw [h0]
    unfold outputName
    cases b
    · rw [forward_name]; exact TrackFile.forward t
    · rw [backward_name]; exact TrackFile.backward t
  | correction t y =>
    refine ⟨?_, fun sub h => by injection h with h; exact h.symm⟩
    have h0 : Saving.path c b F (.correction t y) = F ++ ["debug".toList] ++ [correctionName c t] := rfl
    rw [h0, append_two]
    exact TrackFile.correction t
  | region y =>
    refine ⟨?_, fun sub h => by injection h with h; exact h.symm⟩
    have h0 : Saving.path c b F (.region y) = F ++ ["debug".toList] ++ ["tagging_region.nc".toList] := rfl
    rw [h0, append_two]
    exact TrackFile.region
  | day t y => exact hx.elim
  | figure n y => exact hx.elim

theorem record_iff (F : FPath) (stamp : List Char) (dir : FPath) (n : List Char) (p : FPath)
    (h : RecordPath F stamp (dir ++ [n]) p) : Record F stamp n p := by
  rcases h with rfl | rfl
  · exact Record.log
  · have := Record.config (folder := F) (stamp := stamp) (name := n)
    simpa using this

theorem loadedFrom_calendar {cwd : FPath} {s : FileSettings ρ} {cfg : Loaded ρ} {c : Calendar}
    (h : LoadedFrom cwd s cfg) (hc : calendarOfName (s.settings.calendar.getD "standard".toList) = some c) :
    cfg.calendar = c := by
  unfold Loaded.calendar
  rw [makeConfig_calendar h.1, hc]; rfl

/-- `track`: at every moment, whether the run is complete, has failed or has crashed, all that is different on
disk is: folders on the way to the two folders of the configuration and the folder `debug` in the output folder,
if they were missing; and in the output folder the log file, the copy of the configuration file, output files
and debug files, named after their times. -/
theorem C106_track (parse : List Char → Except Err (FileSettings ρ)) (cwd dir : FPath)
    (n : List Char) (fs fs' : FileSystem) (text stamp : List Char) (s : FileSettings ρ) (c : Calendar)
    (name : FileName) (backward : ρ → Bool) (experiment : Experiment ρ)
    (hf : fs (dir ++ [n]) = some (.file text)) (hp : parse text = .ok s)
    (hc : calendarOfName (s.settings.calendar.getD "standard".toList) = some c)
    (hout : s.folders.output = .ok name)
    (hlog : n ≠ "wam2layers_".toList ++ stamp ++ ".log".toList)
    (hexp : ∀ cfg fs, ∀ x ∈ (experiment cfg fs).1, IsTracking x)
    (hm : Moment (command parse cwd (dir ++ [n]) stamp backward (fun cfg => some cfg.output)
      experiment) fs fs') :
    ChangedOnly
      (fun p => ConfigFolder cwd s.folders p ∨ p = resolve cwd name ++ ["debug".toList])
      (fun p => Record (resolve cwd name) stamp n p ∨ TrackFile c (resolve cwd name) p) fs fs' := by
  have hF : ∀ cfg, LoadedFrom cwd s cfg → ∀ f, some cfg.output = some f → f = resolve cwd name := by
    intro cfg hl f hff
    obtain ⟨_, ⟨name', h1, h2⟩, _⟩ := hl
    rw [hout] at h1
    injection h1 with h1
    subst h1
    injection hff with hff
    rw [← hff, h2]
  have hlog' : logPath (resolve cwd name) stamp ≠ dir ++ [n] := by
    intro h
    unfold logPath at h
    have := List.append_inj_right' h rfl
    injection this with this
    exact hlog this.symm
  have key := command_moment (D := fun p => ConfigFolder cwd s.folders p ∨
      p = resolve cwd name ++ ["debug".toList])
    (W := TrackFile c (resolve cwd name)) hf hp hF hlog' (fun p h => Or.inl h)
    (fun cfg hl fs x hx sub hs => Or.inr (by
      rw [(tracking_place (hexp cfg fs x hx) cfg.calendar _ (resolve cwd name)).2 sub hs]))
    (fun cfg hl fs x hx => by
      rw [loadedFrom_calendar hl hc]
      exact (tracking_place (hexp cfg fs x hx) c _ (resolve cwd name)).1) hm
  rcases key with h | ⟨fs1, h1, _, _, _, h2⟩
  · exact changedOnly_mono (fun _ h => Or.inl h) (fun p h => Or.inl (record_iff _ _ _ _ _ h)) h
  · exact changedOnly_trans
      (changedOnly_mono (fun _ h => Or.inl h) (fun p h => Or.inl (record_iff _ _ _ _ _ h)) h1)
      (changedOnly_mono (fun _ h => h) (fun p h => Or.inr h) h2)

private theorem below_of_track {F : FPath} {stamp n : List Char} {c : Calendar} {p : FPath}
    (h : Record F stamp n p ∨ TrackFile c F p) : Below F p := by
  rcases h with h | h
  · cases h <;> exact ⟨_, by simp, rfl⟩
  · cases h <;> exact ⟨_, by simp, rfl⟩

/-- Whatever was there before and is not in the output folder stays as it is at every moment of `track`: raw data,
preprocessed data, the configuration file, other experiments. -/
theorem C106_input_untouched (parse : List Char → Except Err (FileSettings ρ)) (cwd dir : FPath)
    (n : List Char) (fs fs' : FileSystem) (text stamp : List Char) (s : FileSettings ρ) (c : Calendar)
    (name : FileName) (backward : ρ → Bool) (experiment : Experiment ρ)
    (hf : fs (dir ++ [n]) = some (.file text)) (hp : parse text = .ok s)
    (hc : calendarOfName (s.settings.calendar.getD "standard".toList) = some c)
    (hout : s.folders.output = .ok name)
    (hlog : n ≠ "wam2layers_".toList ++ stamp ++ ".log".toList)
    (hexp : ∀ cfg fs, ∀ x ∈ (experiment cfg fs).1, IsTracking x)
    (hm : Moment (command parse cwd (dir ++ [n]) stamp backward (fun cfg => some cfg.output)
      experiment) fs fs') (p : FPath) (hex : fs p ≠ none) (hb : ¬ Below (resolve cwd name) p) :
    fs' p = fs p :=
  changedOnly_keeps (C106_track parse cwd dir n fs fs' text stamp s c name backward experiment hf hp
    hc hout hlog hexp hm) hex (fun h => hb (below_of_track h))

/-- Nothing is ever deleted, and nothing in the output folder is overwritten but files with the names above. -/
theorem C106_other_files_kept (parse : List Char → Except Err (FileSettings ρ)) (cwd dir : FPath)
    (n : List Char) (fs fs' : FileSystem) (text stamp : List Char) (s : FileSettings ρ) (c : Calendar)
    (name : FileName) (backward : ρ → Bool) (experiment : Experiment ρ)
    (hf : fs (dir ++ [n]) = some (.file text)) (hp : parse text = .ok s)
    (hc : calendarOfName (s.settings.calendar.getD "standard".toList) = some c)
    (hout : s.folders.output = .ok name)
    (hlog : n ≠ "wam2layers_".toList ++ stamp ++ ".log".toList)
    (hexp : ∀ cfg fs, ∀ x ∈ (experiment cfg fs).1, IsTracking x)
    (hm : Moment (command parse cwd (dir ++ [n]) stamp backward (fun cfg => some cfg.output)
      experiment) fs fs') (p : FPath) (hex : fs p ≠ none) :
    fs' p ≠ none ∧ (fs' p = some .dir ↔ fs p = some .dir) ∧
    (¬ Record (resolve cwd name) stamp n p → ¬ TrackFile c (resolve cwd name) p → fs' p = fs p) := by
  have h := C106_track parse cwd dir n fs fs' text stamp s c name backward experiment hf hp
    hc hout hlog hexp hm
  refine ⟨?_, ?_, fun h1 h2 => changedOnly_keeps h hex (fun h3 => h3.elim h1 h2)⟩
  · have := changedOnly_isSome h (p := p) (by rw [Option.isSome_iff_ne_none]; exact hex)
    rwa [Option.isSome_iff_ne_none] at this
  · rcases h p with a | ⟨_, a, _⟩ | ⟨_, a, t, b⟩
    · rw [a]
    · exact absurd a hex
    · rw [b]; simp [a]

/-- The configuration that was used is kept with the results: as long as the output folder holds anything of this
run besides the log file, the copy of the configuration file is complete or is being made; it does not
change any more once the experiment has begun. -/
theorem C106_configuration_kept (parse : List Char → Except Err (FileSettings ρ)) (cwd dir : FPath)
    (stem : List Char) (fs fs' : FileSystem) (text stamp : List Char) (s : FileSettings ρ)
    (c : Calendar) (name : FileName) (backward : ρ → Bool) (experiment : Experiment ρ)
    (hf : fs (dir ++ [stem ++ ".yaml".toList]) = some (.file text)) (hp : parse text = .ok s)
    (hc : calendarOfName (s.settings.calendar.getD "standard".toList) = some c)
    (hout : s.folders.output = .ok name)
    (hexp : ∀ cfg fs, ∀ x ∈ (experiment cfg fs).1, IsTracking x)
    (hm : Moment (command parse cwd (dir ++ [stem ++ ".yaml".toList]) stamp backward
      (fun cfg => some cfg.output) experiment) fs fs') :
    (fs' (resolve cwd name ++ [stem ++ ".yaml".toList]) = some (.file text) ∧
      fs' (dir ++ [stem ++ ".yaml".toList]) = some (.file text)) ∨
    ChangedOnly (ConfigFolder cwd s.folders)
      (Record (resolve cwd name) stamp (stem ++ ".yaml".toList)) fs fs' := by
  have hend : ∀ a b : List Char, ∀ x y : Char, x ≠ y → a ++ [x] ≠ b ++ [y] := by
    intro a b x y hxy h
    have := List.append_inj_right' h rfl
    injection this with this
    exact hxy this
  have hyl : ".yaml".toList = ".yam".toList ++ ['l'] := rfl
  have hnc : ".nc".toList = ".n".toList ++ ['c'] := rfl
  have hlg : ".log".toList = ".lo".toList ++ ['g'] := rfl
  have hne : ∀ a : List Char, stem ++ ".yaml".toList ≠ a ++ ".nc".toList := by
    intro a h
    rw [hyl, hnc, ← List.append_assoc, ← List.append_assoc] at h
    exact hend _ _ _ _ (by decide) h
  have hnl : ∀ a : List Char, stem ++ ".yaml".toList ≠ a ++ ".log".toList := by
    intro a h
    rw [hyl, hlg, ← List.append_assoc, ← List.append_assoc] at h
    exact hend _ _ _ _ (by decide) h
  have hF : ∀ cfg, LoadedFrom cwd s cfg → ∀ f, some cfg.output = some f → f = resolve cwd name := by
    intro cfg hl f hff
    obtain ⟨_, ⟨name', h1, h2⟩, _⟩ := hl
    rw [hout] at h1
    injection h1 with h1
    subst h1
    injection hff with hff
    rw [← hff, h2]
  have hlog' : logPath (resolve cwd name) stamp ≠ dir ++ [stem ++ ".yaml".toList] := by
    intro h
    unfold logPath at h
    have := List.append_inj_right' h rfl
    injection this with this
    exact hnl _ this.symm
  have hW : ∀ p q, TrackFile c (resolve cwd name) p → p ≠ q ++ [stem ++ ".yaml".toList] := by
    intro p q h hpq
    cases h with
    | forward t =>
      have := List.append_inj_right' hpq rfl
      injection this with this
      exact hne _ this.symm
    | backward t =>
      have := List.append_inj_right' hpq rfl
      injection this with this
      exact hne _ this.symm
    | correction t =>
      rw [show ∀ (F : FPath) a b, F ++ [a, b] = (F ++ [a]) ++ [b] from by simp] at hpq
      have := List.append_inj_right' hpq rfl
      injection this with this
      exact hne _ this.symm
    | region =>
      rw [show ∀ (F : FPath) a b, F ++ [a, b] = (F ++ [a]) ++ [b] from by simp] at hpq
      have := List.append_inj_right' hpq rfl
      injection this with this
      exact hne "tagging_region".toList this.symm
  have key := command_moment (D := fun p => ConfigFolder cwd s.folders p ∨
      p = resolve cwd name ++ ["debug".toList])
    (W := TrackFile c (resolve cwd name)) hf hp hF hlog' (fun p h => Or.inl h)
    (fun cfg hl fs x hx sub hs => Or.inr (by
      rw [(tracking_place (hexp cfg fs x hx) cfg.calendar _ (resolve cwd name)).2 sub hs]))
    (fun cfg hl fs x hx => by
      rw [loadedFrom_calendar hl hc]
      exact (tracking_place (hexp cfg fs x hx) c _ (resolve cwd name)).1) hm
  rcases key with h | ⟨fs1, h1, h2, h3, _, h4⟩
  · exact Or.inr (changedOnly_mono (fun _ h => h) (fun p h => record_iff _ _ _ _ _ h) h)
  · left
    have hl : (dir ++ [stem ++ ".yaml".toList]).getLast?.toList = [stem ++ ".yaml".toList] := by simp
    rw [hl] at h3
    refine ⟨?_, ?_⟩
    · rw [changedOnly_keeps h4 (by rw [h3]; simp) (fun h => hW _ _ h rfl), h3]
    · rw [changedOnly_keeps h4 (by rw [h2]; simp) (fun h => hW _ _ h rfl), h2]

/-- `preprocess`: the same with the folder of preprocessed data; there the log file, the copy of the configuration
file and one file per day. -/
theorem C106_preprocess (parse : List Char → Except Err (FileSettings ρ)) (cwd dir : FPath)
    (n : List Char) (fs fs' : FileSystem) (text stamp : List Char) (s : FileSettings ρ) (c : Calendar)
    (name : FileName) (backward : ρ → Bool) (experiment : Experiment ρ)
    (hf : fs (dir ++ [n]) = some (.file text)) (hp : parse text = .ok s)
    (hc : calendarOfName (s.settings.calendar.getD "standard".toList) = some c)
    (hpre : s.folders.preprocessed = .ok (some name))
    (hlog : n ≠ "wam2layers_".toList ++ stamp ++ ".log".toList)
    (hexp : ∀ cfg fs, ∀ x ∈ (experiment cfg fs).1, IsPreprocessing x)
    (hm : Moment (command parse cwd (dir ++ [n]) stamp backward (fun cfg => cfg.preprocessed)
      experiment) fs fs') :
    ChangedOnly (ConfigFolder cwd s.folders)
      (fun p => Record (resolve cwd name) stamp n p ∨ DayFile c (resolve cwd name) p) fs fs' := by
  have hF : ∀ cfg, LoadedFrom cwd s cfg → ∀ f, cfg.preprocessed = some f → f = resolve cwd name := by
    intro cfg hl f hff
    obtain ⟨_, _, pre, h1, h2⟩ := hl
    rw [hpre] at h1
    injection h1 with h1
    subst h1
    rw [h2] at hff
    injection hff with hff
    exact hff.symm
  have hlog' : logPath (resolve cwd name) stamp ≠ dir ++ [n] := by
    intro h
    unfold logPath at h
    have := List.append_inj_right' h rfl
    injection this with this
    exact hlog this.symm
  have key := command_moment (D := ConfigFolder cwd s.folders)
    (W := DayFile c (resolve cwd name)) hf hp hF hlog' (fun p h => h)
    (fun cfg hl fs x hx sub hs => by
      have := hexp cfg fs x hx
      cases x <;> first | exact this.elim | cases hs)
    (fun cfg hl fs x hx => by
      rw [loadedFrom_calendar hl hc]
      have h1 := hexp cfg fs x hx
      cases x with
      | day t y =>
        have := DayFile.day (c := c) (folder := resolve cwd name) t
        simpa [Saving.path, Saving.place, dayName] using this
      | output t y => exact h1.elim
      | correction t y => exact h1.elim
      | region y => exact h1.elim
      | figure n y => exact h1.elim) hm
  rcases key with h | ⟨fs1, h1, _, _, _, h2⟩
  · exact changedOnly_mono (fun _ h => h) (fun p h => Or.inl (record_iff _ _ _ _ _ h)) h
  · exact changedOnly_trans
      (changedOnly_mono (fun _ h => h) (fun p h => Or.inl (record_iff _ _ _ _ _ h)) h1)
      (changedOnly_mono (fun _ h => h) (fun p h => Or.inr h) h2)

/-- `visualize`: the log file, the copy of the configuration file and the figures, in the output folder. -/
theorem C106_visualize (parse : List Char → Except Err (FileSettings ρ)) (cwd dir : FPath)
    (n : List Char) (fs fs' : FileSystem) (text stamp : List Char) (s : FileSettings ρ)
    (name : FileName) (backward : ρ → Bool) (experiment : Experiment ρ)
    (hf : fs (dir ++ [n]) = some (.file text)) (hp : parse text = .ok s)
    (hout : s.folders.output = .ok name)
    (hlog : n ≠ "wam2layers_".toList ++ stamp ++ ".log".toList)
    (hexp : ∀ cfg fs, ∀ x ∈ (experiment cfg fs).1, IsFigure x)
    (hm : Moment (command parse cwd (dir ++ [n]) stamp backward (fun cfg => some cfg.output)
      experiment) fs fs') :
    ChangedOnly
      (fun p => ConfigFolder cwd s.folders p ∨ p = resolve cwd name ++ ["figures".toList])
      (fun p => Record (resolve cwd name) stamp n p ∨ FigureFile (resolve cwd name) p) fs fs' := by
  have hF : ∀ cfg, LoadedFrom cwd s cfg → ∀ f, some cfg.output = some f → f = resolve cwd name := by
    intro cfg hl f hff
    obtain ⟨_, ⟨name', h1, h2⟩, _⟩ := hl
    rw [hout] at h1
    injection h1 with h1
    subst h1
    injection hff with hff
    rw [← hff, h2]
  have hlog' : logPath (resolve cwd name) stamp ≠ dir ++ [n] := by
    intro h
    unfold logPath at h
    have := List.append_inj_right' h rfl
    injection this with this
    exact hlog this.symm
  have key := command_moment (D := fun p => ConfigFolder cwd s.folders p ∨
      p = resolve cwd name ++ ["figures".toList])
    (W := FigureFile (resolve cwd name)) hf hp hF hlog' (fun p h => Or.inl h)
    (fun cfg hl fs x hx sub hs => Or.inr (by
      have := hexp cfg fs x hx
      cases x <;> first | exact this.elim | (injection hs with hs; rw [← hs])))
    (fun cfg hl fs x hx => by
      have h1 := hexp cfg fs x hx
      cases x with
      | figure n y =>
        have := FigureFile.figure (folder := resolve cwd name) n
        simpa [Saving.path, Saving.place] using this
      | output t y => exact h1.elim
      | correction t y => exact h1.elim
      | region y => exact h1.elim
      | day t y => exact h1.elim) hm
  rcases key with h | ⟨fs1, h1, _, _, _, h2⟩
  · exact changedOnly_mono (fun _ h => Or.inl h) (fun p h => Or.inl (record_iff _ _ _ _ _ h)) h
  · exact changedOnly_trans
      (changedOnly_mono (fun _ h => Or.inl h) (fun p h => Or.inl (record_iff _ _ _ _ _ h)) h1)
      (changedOnly_mono (fun _ h => h) (fun p h => Or.inr h) h2)

end Wam
