import Verif.Spec.Again
import Verif.Props.Disk

/-!
# C106, continued: folders that are made, and what is complete in the end
-/

set_option linter.unusedSectionVars false
set_option linter.unusedVariables false

namespace Wam
open Spec

variable {ρ : Type}

/-! ### Making folders -/

theorem mkdirOnly_ok {e : Bool} {p : FPath} {fs : FileSystem} {chs : List Change} {u : Unit}
    (h : mkdirOnly e p fs = (chs, .ok u)) : applyChanges fs chs p = some .dir := by
  unfold mkdirOnly at h
  rcases hq : osMkdir p fs with ⟨c, er | v⟩
  · simp only [hq] at h
    split at h
    · next hc =>
      injection h with h _
      subst h
      unfold osMkdir at hq
      split at hq
      · injection hq with hq _; subst hq; exact hc.2
      · split at hq
        · exact absurd (congrArg Prod.snd hq) (by simp)
        · injection hq with hq _; subst hq; exact hc.2
        · injection hq with hq _; subst hq; exact hc.2
    · exact absurd (congrArg Prod.snd h) (by simp)
  · simp only [hq] at h
    injection h with h _
    subst h
    unfold osMkdir at hq
    split at hq
    · exact absurd (congrArg Prod.snd hq) (by simp)
    · split at hq
      · injection hq with hq _; subst hq; simp [applyChanges]
      · exact absurd (congrArg Prod.snd hq) (by simp)
      · exact absurd (congrArg Prod.snd hq) (by simp)

theorem mkdirParentsRev_ok {e : Bool} {r : List (List Char)} {fs : FileSystem}
    {chs : List Change} {u : Unit} (h : mkdirParentsRev e r fs = (chs, .ok u)) :
    applyChanges fs chs r.reverse = some .dir := by
  cases r with
  | nil => exact mkdirOnly_ok h
  | cons c r =>
    unfold mkdirParentsRev at h
    split at h
    · rcases hq : mkdirParentsRev true r fs with ⟨c1, er | v⟩
      · rw [bind_error hq] at h; exact absurd (congrArg Prod.snd h) (by simp)
      · rw [bind_ok hq] at h
        rcases hq2 : mkdirOnly e (c :: r).reverse (applyChanges fs c1) with ⟨c2, er | w⟩
        · rw [hq2] at h; exact absurd (congrArg Prod.snd h) (by simp)
        · rw [hq2] at h
          injection h with h _
          subst h
          rw [applyChanges_append]
          exact mkdirOnly_ok hq2
    · exact mkdirOnly_ok h

/-- a folder of an accepted configuration exists -/
theorem makeFolder_ok {p : FPath} {fs : FileSystem} {chs : List Change} {u : Unit}
    (h : makeFolder p fs = (chs, .ok u)) : (applyChanges fs chs p).isSome := by
  unfold makeFolder at h
  split at h
  · next hp => injection h with h _; subst h; exact hp
  · have := mkdirParentsRev_ok h
    rw [List.reverse_reverse] at this
    rw [this]; rfl

theorem makeFolder_exists {p : FPath} {fs : FileSystem} (h : (fs p).isSome) :
    makeFolder p fs = ([], .ok ()) := if_pos h

theorem wellFormed_prefix {fs : FileSystem} (hw : WellFormed fs) (p rest : FPath)
    (h : fs (p ++ rest) ≠ none) (hr : rest ≠ []) : fs p = some .dir := by
  induction rest using List.reverseRecOn with
  | nil => exact absurd rfl hr
  | append_singleton rest c ih =>
    rw [← List.append_assoc] at h
    have := hw.parent _ _ h
    by_cases hr' : rest = []
    · subst hr'; rwa [List.append_nil] at this
    · exact ih (by rw [this]; simp) hr'

theorem mkdirParentsRev_total {fs : FileSystem} (hw : WellFormed fs) (r : List (List Char))
    (e : Bool) (hfree : ∀ p, OnTheWayTo r.reverse p → ∀ x, fs p ≠ some (.file x))
    (he : e = true ∨ fs r.reverse = none) : ∃ chs, mkdirParentsRev e r fs = (chs, .ok ()) := by
  induction r generalizing e with
  | nil =>
    have h1 : osMkdir [] fs = ([], .error (.other "FileExistsError")) := by
      unfold osMkdir; rw [hw.root]; rfl
    rcases he with he | he
    · subst he
      refine ⟨[], ?_⟩
      show mkdirOnly true [] fs = _
      unfold mkdirOnly
      rw [h1]
      exact if_pos ⟨rfl, hw.root⟩
    · exact absurd hw.root (by rw [show ([] : FPath) = ([] : FPath).reverse from rfl, he]; simp)
  | cons c r ih =>
    have hd : (c :: r).reverse.dropLast = r.reverse := by simp
    have hself : ∀ x, fs (c :: r).reverse ≠ some (.file x) := hfree _ ⟨[], by simp⟩
    have hpar : ∀ x, fs r.reverse ≠ some (.file x) := hfree _ ⟨[c], by simp⟩
    rcases hq : fs (c :: r).reverse with _ | (_ | x)
    · rcases hq2 : fs r.reverse with _ | (_ | x)
      · have h1 : osMkdir (c :: r).reverse fs = ([], .error .fileNotFound) := by
          unfold osMkdir; rw [hq, hd, hq2]; rfl
        have h2 : mkdirParentsRev e (c :: r) fs =
            Act.bind (mkdirParentsRev true r) (fun _ => mkdirOnly e (c :: r).reverse) fs := by
          rw [mkdirParentsRev]; simp only; rw [h1]
        obtain ⟨c1, h3⟩ := ih true (fun p hp => hfree p (by
          obtain ⟨rest, hr⟩ := hp
          exact ⟨rest ++ [c], by rw [← List.append_assoc, hr]; simp⟩)) (Or.inl rfl)
        rw [h2, bind_ok h3]
        have h4 := mkdirParentsRev_ok h3
        have h5 : applyChanges fs c1 (c :: r).reverse = none := by
          have := only_ok (only_mkdirParentsRev (fun _ => False) true r) h3 (c :: r).reverse
          rcases this with a | ⟨⟨rest, a⟩, _⟩ | ⟨a, _⟩
          · rw [a, hq]
          · exfalso
            have := congrArg List.length a
            simp at this
          · exact a.elim
        have h6 : osMkdir (c :: r).reverse (applyChanges fs c1) = ([((c :: r).reverse, .dir)], .ok ()) := by
          unfold osMkdir; rw [h5, hd, h4]; rfl
        refine ⟨c1 ++ [((c :: r).reverse, .dir)], ?_⟩
        unfold mkdirOnly
        rw [h6]
      · have h1 : osMkdir (c :: r).reverse fs = ([((c :: r).reverse, .dir)], .ok ()) := by
          unfold osMkdir; rw [hq, hd, hq2]; rfl
        refine ⟨[((c :: r).reverse, .dir)], ?_⟩
        rw [mkdirParentsRev]
        simp only
        rw [h1]
        simp only
        unfold mkdirOnly
        rw [h1]
      · exact absurd hq2 (hpar x)
    · rcases he with he | he
      · subst he
        have h1 : osMkdir (c :: r).reverse fs = ([], .error (.other "FileExistsError")) := by
          unfold osMkdir; rw [hq]; rfl
        refine ⟨[], ?_⟩
        rw [mkdirParentsRev]
        simp only
        rw [h1]
        simp only
        unfold mkdirOnly
        rw [h1]
        exact if_pos ⟨rfl, hq⟩
      · rw [he] at hq; cases hq
    · exact absurd hq (hself x)

/-- A folder of a configuration can be made if nothing on the way to it is a file. -/
theorem makeFolder_total {fs : FileSystem} (hw : WellFormed fs) (p : FPath)
    (hfree : ∀ q, OnTheWayTo p q → ∀ x, fs q ≠ some (.file x)) :
    ∃ chs, makeFolder p fs = (chs, .ok ()) ∧ applyChanges fs chs p = some .dir := by
  rcases hq : fs p with _ | (_ | x)
  · have h0 : makeFolder p fs = mkdirParents false p fs := by
      unfold makeFolder; rw [hq]; rfl
    obtain ⟨chs, h⟩ := mkdirParentsRev_total hw p.reverse false
      (by rwa [List.reverse_reverse]) (Or.inr (by rwa [List.reverse_reverse]))
    refine ⟨chs, h0.trans h, ?_⟩
    have := mkdirParentsRev_ok h
    rwa [List.reverse_reverse] at this
  · exact ⟨[], makeFolder_exists (by rw [hq]; rfl), hq⟩
  · exact absurd hq (hfree p ⟨[], by simp⟩ x)

/-! ### Reading a configuration twice -/

/-- An accepted configuration has both its folders, and reading the same file again gives the same
configuration and changes nothing. -/
theorem C106_loading_again (parse : List Char → Except Err (FileSettings ρ)) (cwd file : FPath)
    (fs : FileSystem) (chs : List Change) (cfg : Loaded ρ)
    (h : fromYaml parse cwd file fs = (chs, .ok cfg)) :
    (applyChanges fs chs cfg.output).isSome ∧
    (∀ p, cfg.preprocessed = some p → (applyChanges fs chs p).isSome) ∧
    fromYaml parse cwd file (applyChanges fs chs) = ([], .ok cfg) := by
  rcases hf : fs file with _ | (_ | text)
  · unfold fromYaml at h; rw [hf] at h; exact absurd (congrArg Prod.snd h) (by simp)
  · unfold fromYaml at h; rw [hf] at h; exact absurd (congrArg Prod.snd h) (by simp)
  · rcases hp : parse text with e | s
    · unfold fromYaml at h; rw [hf] at h; simp only [hp] at h
      exact absurd (congrArg Prod.snd h) (by simp)
    · have hfile : applyChanges fs chs file = some (.file text) := by
        rw [changedOnly_keeps (fromYaml_file hf hp h) (by rw [hf]; simp) (fun h => h), hf]
      have hl := loadedFrom_of hf hp h
      rw [fromYaml_eq hf hp] at h
      obtain ⟨h1, ⟨name, h2, h3⟩, pre, h4, h5⟩ := hl
      rcases hd : convertDates s.settings with e | d
      · rw [loadSettings_error hd] at h; exact absurd (congrArg Prod.snd h) (by simp [Act.fail])
      · have ho : outputFolder cwd s.folders = Act.bind (makeFolder (resolve cwd name))
            fun _ => Act.pure (some (resolve cwd name)) := by unfold outputFolder; rw [h2]
        rw [loadSettings_eq hd] at h
        unfold loadFields at h
        rcases q1 : preprocessedFolder cwd s.folders fs with ⟨c1, e | p1⟩
        · rw [bind_error q1] at h; exact absurd (congrArg Prod.snd h) (by simp)
        · rw [bind_ok q1] at h
          rcases q2 : outputFolder cwd s.folders (applyChanges fs c1) with ⟨c2, e | p2⟩
          · rw [bind_error q2] at h; exact absurd (congrArg Prod.snd h) (by simp)
          · rw [bind_ok q2] at h
            have hc := (congrArg Prod.fst h).symm
            simp only [List.append_nil] at hc
            subst hc
            obtain ⟨_, e1, e2⟩ := acceptFields_ok (congrArg Prod.snd h)
            have k1 : (applyChanges fs (c1 ++ c2) (resolve cwd name)).isSome := by
              rw [applyChanges_append]
              rw [ho] at q2
              rcases q3 : makeFolder (resolve cwd name) (applyChanges fs c1) with ⟨c3, e | u⟩
              · rw [bind_error q3] at q2; exact absurd (congrArg Prod.snd q2) (by simp)
              · rw [bind_ok q3] at q2
                have := congrArg Prod.fst q2
                simp only [Act.pure, List.append_nil] at this
                subst this
                exact makeFolder_ok q3
            have k2 : ∀ p, cfg.preprocessed = some p → (applyChanges fs (c1 ++ c2) p).isSome := by
              intro p hpp
              rw [h5] at hpp
              cases pre with
              | none => cases hpp
              | some nm =>
                injection hpp with hpp
                subst hpp
                have hpr : preprocessedFolder cwd s.folders = Act.bind (makeFolder (resolve cwd nm))
                    fun _ => Act.pure (some (some (resolve cwd nm))) := by
                  unfold preprocessedFolder; rw [h4]
                rw [hpr] at q1
                rcases q3 : makeFolder (resolve cwd nm) fs with ⟨c3, e | u⟩
                · rw [bind_error q3] at q1; exact absurd (congrArg Prod.snd q1) (by simp)
                · rw [bind_ok q3] at q1
                  have := congrArg Prod.fst q1
                  simp only [Act.pure, List.append_nil] at this
                  subst this
                  rw [applyChanges_append]
                  exact changedOnly_isSome (only_ok (only_outputFolder (fun _ => False) _ _) q2)
                    (makeFolder_ok q3)
            refine ⟨by rw [h3]; exact k1, k2, ?_⟩
            rw [fromYaml_eq hfile hp, loadSettings_eq hd]
            unfold loadFields
            have r1 : preprocessedFolder cwd s.folders (applyChanges fs (c1 ++ c2)) =
                ([], .ok (some cfg.preprocessed)) := by
              rw [h5]
              cases pre with
              | none => unfold preprocessedFolder; rw [h4]; rfl
              | some nm =>
                have hpr : preprocessedFolder cwd s.folders = Act.bind (makeFolder (resolve cwd nm))
                    fun _ => Act.pure (some (some (resolve cwd nm))) := by
                  unfold preprocessedFolder; rw [h4]
                rw [hpr, bind_ok (makeFolder_exists (k2 _ (by rw [h5]; rfl)))]
                rfl
            have r2 : outputFolder cwd s.folders (applyChanges fs (c1 ++ c2)) =
                ([], .ok (some cfg.output)) := by
              rw [ho, bind_ok (makeFolder_exists k1), h3]
              rfl
            rw [bind_ok r1]
            simp only [applyChanges_nil]
            rw [bind_ok r2]
            simp only [List.append_nil, h1, acceptFields]

/-! ### A configuration that is rejected -/

/-- Finding: the folders are made before the order of the dates is checked.  A configuration that is
rejected leaves its folders behind. -/
theorem C106_rejected_makes_folders (cwd : FPath) (fs : FileSystem) (s : FileSettings ρ)
    (hw : WellFormed fs) (d : List Char × (DateField → ℤ)) (hd : convertDates s.settings = .ok d)
    (hrej : ∀ cfg, makeConfig s.settings ≠ .ok cfg) (name : FileName)
    (hpre : s.folders.preprocessed = .ok none) (hout : s.folders.output = .ok name)
    (hfree : ∀ p, OnTheWayTo (resolve cwd name) p → ∀ x, fs p ≠ some (.file x)) :
    (loadSettings cwd s fs).2 = .error .valueError ∧
    applyChanges fs (loadSettings cwd s fs).1 (resolve cwd name) = some .dir := by
  have ho : outputFolder cwd s.folders = Act.bind (makeFolder (resolve cwd name))
      fun _ => Act.pure (some (resolve cwd name)) := by unfold outputFolder; rw [hout]
  have hpr : preprocessedFolder cwd s.folders fs = ([], .ok (some none)) := by
    unfold preprocessedFolder; rw [hpre]; rfl
  obtain ⟨chs, h1, h2⟩ := makeFolder_total hw _ hfree
  rw [loadSettings_eq hd]
  unfold loadFields
  rw [bind_ok hpr]
  simp only [applyChanges_nil]
  have h3 : outputFolder cwd s.folders fs = (chs, .ok (some (resolve cwd name))) := by
    rw [ho, bind_ok h1]; simp [Act.pure]
  rw [bind_ok h3]
  refine ⟨?_, by simpa using h2⟩
  rcases hq : makeConfig s.settings with e | cfg
  · rfl
  · exact absurd hq (hrej cfg)

/-- Finding: `~` is not replaced by the home directory: a folder `~/…` is one in a folder called `~` of the current
directory, and the folder in the home directory is not made. -/
theorem C106_tilde (cwd home : FPath) (fs : FileSystem) (s : FileSettings ρ) (parts : FPath)
    (hparts : "..".toList ∉ parts) (hw : WellFormed fs) (d : List Char × (DateField → ℤ))
    (hd : convertDates s.settings = .ok d) (hpre : s.folders.preprocessed = .ok none)
    (hout : s.folders.output = .ok ⟨false, "~".toList :: parts⟩)
    (hfree : ∀ p, OnTheWayTo (cwd ++ "~".toList :: parts) p → ∀ x, fs p ≠ some (.file x))
    (hhome : fs (home ++ parts) = none)
    (hoff : ¬ OnTheWayTo (cwd ++ "~".toList :: parts) (home ++ parts)) :
    applyChanges fs (loadSettings cwd s fs).1 (cwd ++ "~".toList :: parts) = some .dir ∧
    applyChanges fs (loadSettings cwd s fs).1 (home ++ parts) = none := by
  have hres : ∀ (q : FPath) (ps : FPath), "..".toList ∉ ps →
      ps.foldl (fun p c => if c = "..".toList then p.dropLast else p ++ [c]) q = q ++ ps := by
    intro q ps
    induction ps generalizing q with
    | nil => intro _; simp
    | cons a ps ih =>
      intro ha
      rw [List.foldl_cons, if_neg (fun hc => ha (by rw [hc]; simp)), ih _ (fun hc => ha (List.mem_cons_of_mem _ hc))]
      simp
  have hr : resolve cwd ⟨false, "~".toList :: parts⟩ = cwd ++ "~".toList :: parts :=
    hres cwd ("~".toList :: parts) (by
      intro hc
      rcases List.mem_cons.1 hc with hc | hc
      · exact absurd hc (by decide)
      · exact hparts hc)
  have ho : outputFolder cwd s.folders = Act.bind (makeFolder (cwd ++ "~".toList :: parts))
      fun _ => Act.pure (some (cwd ++ "~".toList :: parts)) := by
    unfold outputFolder; rw [hout]; simp only [hr]
  have hpr : preprocessedFolder cwd s.folders fs = ([], .ok (some none)) := by
    unfold preprocessedFolder; rw [hpre]; rfl
  obtain ⟨chs, h1, h2⟩ := makeFolder_total hw _ hfree
  have h3 : outputFolder cwd s.folders fs = (chs, .ok (some (cwd ++ "~".toList :: parts))) := by
    rw [ho, bind_ok h1]; simp [Act.pure]
  have h4 : (loadSettings cwd s fs).1 = chs := by
    rw [loadSettings_eq hd]
    unfold loadFields
    rw [bind_ok hpr]
    simp only [applyChanges_nil]
    rw [bind_ok h3]
    simp
  rw [h4]
  refine ⟨h2, ?_⟩
  rcases only_ok (only_makeFolder (fun _ => False) _) h1 (home ++ parts) with a | ⟨a, _⟩ | ⟨a, _⟩
  · rw [a, hhome]
  · exact absurd a hoff
  · exact a.elim

/-- A file at the place of the output folder is accepted as output folder, but then the command stops at once and
changes nothing. -/
theorem C106_file_as_folder (parse : List Char → Except Err (FileSettings ρ)) (cwd file : FPath)
    (fs : FileSystem) (text x stamp : List Char) (s : FileSettings ρ) (cfg : Loaded ρ)
    (backward : ρ → Bool) (experiment : Experiment ρ) (hw : WellFormed fs)
    (hload : fromYaml parse cwd file fs = ([], .ok cfg)) (hx : fs cfg.output = some (.file x)) :
    command parse cwd file stamp backward (fun cfg => some cfg.output) experiment fs =
      ([], .error (.other "NotADirectoryError")) := by
  unfold command startCommand
  apply bind_error
  rw [bind_ok hload]
  simp only [applyChanges_nil, List.nil_append]
  have h1 : setupLogging cfg.output stamp fs = ([], .error (.other "NotADirectoryError")) := by
    unfold setupLogging save
    rw [if_neg, List.dropLast_concat, hx]
    intro hc
    have := hw.parent _ _ (show fs (cfg.output ++ [_]) ≠ none by rw [hc]; simp)
    rw [hx] at this
    cases this
  rw [bind_error h1]

/-! ### A complete command -/

private theorem savingRun_ok {c : Calendar} {b : Bool} {F : FPath} {x : Saving} {fs : FileSystem}
    {chs : List Change} {u : Unit} (h : x.run c b F fs = (chs, .ok u)) :
    applyChanges fs chs (x.path c b F) = some (.file x.content) := by
  unfold Saving.run at h
  rcases hs : (x.place c b).1 with _ | sub
  · simp only [hs] at h; exact save_content h
  · simp only [hs] at h
    rcases hq : mkdirOnly true (F ++ [sub]) fs with ⟨c1, e | v⟩
    · rw [bind_error hq] at h; exact absurd (congrArg Prod.snd h) (by simp)
    · rw [bind_ok hq] at h
      rcases hq2 : save (x.path c b F) x.content (applyChanges fs c1) with ⟨c2, e | w⟩
      · rw [hq2] at h; exact absurd (congrArg Prod.snd h) (by simp)
      · rw [hq2] at h
        injection h with h _
        subst h
        rw [applyChanges_append]
        exact save_content hq2

private theorem saveAll_ok {c : Calendar} {b : Bool} {F : FPath} {ss : List Saving} {fs : FileSystem}
    {chs : List Change} {u : Unit} (h : saveAll c b F ss fs = (chs, .ok u)) (before after : List Saving)
    (x : Saving) (hss : ss = before ++ x :: after)
    (hlast : ∀ y ∈ after, y.path c b F ≠ x.path c b F) :
    applyChanges fs chs (x.path c b F) = some (.file x.content) := by
  induction before generalizing ss fs chs with
  | nil =>
    subst hss
    rw [List.nil_append] at h
    unfold saveAll at h
    rcases hq : x.run c b F fs with ⟨c1, e | v⟩
    · rw [bind_error hq] at h; exact absurd (congrArg Prod.snd h) (by simp)
    · rw [bind_ok hq] at h
      have hc := (congrArg Prod.fst h).symm
      simp only at hc
      rw [hc, applyChanges_append]
      have h1 := savingRun_ok hq
      have := legal_changedOnly _ _ (only_saveAll (D := fun _ => True)
        (W := fun p => p ≠ x.path c b F) c b F after (fun _ _ _ _ => trivial) hlast (applyChanges fs c1))
      rw [changedOnly_keeps this (by rw [h1]; simp) (fun h => h rfl), h1]
  | cons y before ih =>
    subst hss
    rw [List.cons_append] at h
    unfold saveAll at h
    rcases hq : y.run c b F fs with ⟨c1, e | v⟩
    · rw [bind_error hq] at h; exact absurd (congrArg Prod.snd h) (by simp)
    · rw [bind_ok hq] at h
      rcases hq2 : saveAll c b F (before ++ x :: after) (applyChanges fs c1) with ⟨c2, e | w⟩
      · rw [hq2] at h; exact absurd (congrArg Prod.snd h) (by simp)
      · rw [hq2] at h
        have hc := (congrArg Prod.fst h).symm
        simp only at hc
        rw [hc, applyChanges_append]
        exact ih hq2 rfl

/-- When a command has ended without an exception, everything the experiment wrote is there, complete, at the place its
name and time say (for each place what was written last); the experiment was run with the configuration in
the file, on a file system that differs from the one at the start only by folders, the log and the copy.
Nothing else has been written. -/
theorem C106_all_written (parse : List Char → Except Err (FileSettings ρ)) (cwd dir : FPath)
    (n : List Char) (fs : FileSystem) (text stamp : List Char) (s : FileSettings ρ) (backward : ρ → Bool)
    (folder : Loaded ρ → Option FPath) (experiment : Experiment ρ) (F : FPath)
    (hf : fs (dir ++ [n]) = some (.file text)) (hp : parse text = .ok s)
    (hF : ∀ cfg, LoadedFrom cwd s cfg → folder cfg = some F)
    (hlog : F ++ ["wam2layers_".toList ++ stamp ++ ".log".toList] ≠ dir ++ [n]) (chs : List Change) (u : Unit)
    (h : command parse cwd (dir ++ [n]) stamp backward folder experiment fs = (chs, .ok u)) :
    ∃ cfg fs1, LoadedFrom cwd s cfg ∧
      ChangedOnly (ConfigFolder cwd s.folders) (Record F stamp n) fs fs1 ∧
      (experiment cfg fs1).2 = none ∧
      ChangedOnly (MayMake cwd s.folders F cfg.calendar (backward cfg.config.rest) (experiment cfg fs1).1)
        (fun p => Record F stamp n p ∨ ∃ x ∈ (experiment cfg fs1).1,
          p = x.path cfg.calendar (backward cfg.config.rest) F) fs (applyChanges fs chs) ∧
      ∀ before x after, (experiment cfg fs1).1 = before ++ x :: after →
        (∀ y ∈ after, y.path cfg.calendar (backward cfg.config.rest) F ≠
          x.path cfg.calendar (backward cfg.config.rest) F) →
        applyChanges fs chs (x.path cfg.calendar (backward cfg.config.rest) F) =
          some (.file x.content) := by
  have hF' : ∀ cfg, LoadedFrom cwd s cfg → ∀ f, folder cfg = some f → f = F := by
    intro cfg hl f hff
    rw [hF cfg hl] at hff
    injection hff with hff
    exact hff.symm
  unfold command at h
  rcases h1 : startCommand parse cwd (dir ++ [n]) stamp folder fs with ⟨c1, e | v⟩
  · rw [bind_error h1] at h; exact absurd (congrArg Prod.snd h) (by simp)
  · rw [bind_ok h1] at h
    obtain ⟨k1, _, _, _⟩ := start_ok hf hp hF' hlog h1
    have hch := legal_changedOnly _ _ (start_legal (stamp := stamp) hf hp hF')
    rw [h1] at hch
    unfold runExperiment at h
    rcases h2 : fromYaml parse cwd (dir ++ [n]) (applyChanges fs c1) with ⟨c2, e | cfg⟩
    · rw [bind_error h2] at h; exact absurd (congrArg Prod.snd h) (by simp)
    · rw [bind_ok h2] at h
      have hl := loadedFrom_of k1 hp h2
      simp only [hF cfg hl] at h
      rcases h3 : saveAll cfg.calendar (backward cfg.config.rest) F
          (experiment cfg (applyChanges (applyChanges fs c1) c2)).1
          (applyChanges (applyChanges fs c1) c2) with ⟨c3, e | w⟩
      · rw [bind_error h3] at h; exact absurd (congrArg Prod.snd h) (by simp)
      · rw [bind_ok h3] at h
        have hfirst : ChangedOnly (ConfigFolder cwd s.folders) (Record F stamp n) fs
            (applyChanges (applyChanges fs c1) c2) := by
          refine changedOnly_trans (changedOnly_mono (fun _ h => h) (fun p h => record_iff _ _ _ _ _ h) hch) ?_
          exact changedOnly_mono (fun _ h => h) (fun _ h => h.elim) (fromYaml_file k1 hp h2)
        have hnone : ∀ o g, (endWith o g).1 = [] := by
          intro o g
          cases o <;> rfl
        have hc := (congrArg Prod.fst h).symm
        simp only [hnone, List.append_nil] at hc
        refine ⟨cfg, applyChanges (applyChanges fs c1) c2, hl, hfirst, ?_, ?_, ?_⟩
        · rcases he : (experiment cfg (applyChanges (applyChanges fs c1) c2)).2 with _ | e
          · rfl
          · rw [he] at h
            exact absurd (congrArg Prod.snd h) (by simp [endWith, Act.fail])
        · refine changedOnly_trans (changedOnly_mono (fun _ h => Or.inl h) (fun _ h => Or.inl h) hfirst) ?_
          rw [hc, applyChanges_append, applyChanges_append]
          have hs := legal_changedOnly _ _ (only_saveAll
            (D := MayMake cwd s.folders F cfg.calendar (backward cfg.config.rest)
              (experiment cfg (applyChanges (applyChanges fs c1) c2)).1)
            (W := fun p => Record F stamp n p ∨ ∃ x ∈ (experiment cfg (applyChanges (applyChanges fs c1) c2)).1,
              p = x.path cfg.calendar (backward cfg.config.rest) F)
            cfg.calendar (backward cfg.config.rest) F (experiment cfg (applyChanges (applyChanges fs c1) c2)).1
            (fun x hx sub hsub => Or.inr ⟨x, hx, sub, hsub, rfl⟩) (fun x hx => Or.inr ⟨x, hx, rfl⟩)
            (applyChanges (applyChanges fs c1) c2))
          rw [h3] at hs
          exact hs
        · intro before x after hx hlast
          have key := saveAll_ok h3 before after x hx hlast
          rw [hc, applyChanges_append, applyChanges_append]
          exact key

end Wam
