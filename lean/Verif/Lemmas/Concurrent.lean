import Verif.Model.Concurrent
import Verif.Lemmas.Again

/-!
# Lemmas: processes
-/

set_option linter.unusedSectionVars false
set_option linter.unusedVariables false

namespace Wam
open Spec

namespace Process
variable {β γ : Type}

theorem alone_bind (p : Process β) (f : β → Process γ) : (p.bind f).alone = Act.bind p.alone fun b => (f b).alone := by
  induction p with
  | done r =>
    funext fs
    rcases r with e | b
    · rfl
    · simp [bind, alone, Act.bind, applyChanges]
  | call c k ih =>
    funext fs
    simp only [bind, alone, Act.bind]
    rw [ih]
    simp only [Act.bind]
    rcases h : ((k fs).alone (applyChanges fs (c fs).toList)) with ⟨chs, e | b⟩
    · rfl
    · simp only [applyChanges_append, List.append_assoc]

theorem alone_attempt (p : Process β) : p.attempt.alone = fun fs => ((p.alone fs).1, .ok (p.alone fs).2) := by
  induction p with
  | done r => rfl
  | call c k ih =>
    funext fs
    simp only [attempt, alone]
    rw [ih]

theorem alone_look (f : FileSystem → β) : (look f).alone = fun fs => ([], .ok (f fs)) := rfl

theorem alone_done (r : Except Err β) : (Process.done r).alone = fun _ => ([], r) := rfl

end Process

open Process

theorem bind_nil {β γ : Type} {a : Act β} {f : β → Act γ} {fs : FileSystem} {b : β} (h : a fs = ([], .ok b)) :
    Act.bind a f fs = f b fs := by
  unfold Act.bind
  rw [h]
  rfl

theorem alone_osMkdir (p : FPath) : (osMkdirProc p).alone = osMkdir p := by
  funext fs
  unfold osMkdirProc osMkdir
  simp only [alone, osMkdirChange, osMkdirResult]
  rcases h : (fs p).isSome with _ | _
  · rcases fs p.dropLast with _ | (_ | x) <;> rfl
  · rfl

theorem osMkdir_error {p : FPath} {fs : FileSystem} {chs : List Change} {e : Err} (h : osMkdir p fs = (chs, .error e)) : chs = [] := by
  unfold osMkdir at h
  split at h
  · exact (Prod.mk.inj h).1.symm
  · split at h
    · exact absurd (Prod.mk.inj h).2 (by simp)
    · exact (Prod.mk.inj h).1.symm
    · exact (Prod.mk.inj h).1.symm

theorem alone_mkdirExists (b : Bool) (p : FPath) (e : Err) (fs : FileSystem) :
    (mkdirExists b p e).alone fs = ([], if b = true ∧ fs p = some .dir then .ok () else .error e) := by
  unfold mkdirExists
  rw [alone_bind, bind_nil (b := decide (b = true ∧ fs p = some .dir)) rfl]
  simp only [alone]
  by_cases h : b = true ∧ fs p = some .dir
  · simp [h]
  · simp [h]

theorem bind_tried {β γ : Type} (a : Act β) (f : Except Err β → Act γ) (fs : FileSystem) {chs : List Change} {r : Except Err β}
    (h : a fs = (chs, r)) : Act.bind (fun fs => ((a fs).1, .ok (a fs).2)) f fs =
      (chs ++ (f r (applyChanges fs chs)).1, (f r (applyChanges fs chs)).2) := by
  unfold Act.bind
  simp only [h]

theorem alone_mkdirOnly (b : Bool) (p : FPath) : (mkdirOnlyProc b p).alone = mkdirOnly b p := by
  funext fs
  unfold mkdirOnlyProc mkdirOnly
  rw [alone_bind, alone_attempt, alone_osMkdir]
  rcases h : osMkdir p fs with ⟨chs, e | u⟩ <;> rw [bind_tried _ _ _ h]
  · have := osMkdir_error h
    subst this
    simp only [mkdirAfter, alone_mkdirExists]
    rw [show applyChanges fs [] = fs from rfl]
    split <;> rfl
  · simp [mkdirAfter, alone]

theorem alone_mkdirAfter (b : Bool) (p : FPath) (fs : FileSystem) {chs : List Change} {r : Except Err Unit}
    (h : osMkdir p fs = (chs, r)) : (chs ++ ((mkdirAfter b p r).alone (applyChanges fs chs)).1,
      ((mkdirAfter b p r).alone (applyChanges fs chs)).2) = mkdirOnly b p fs := by
  have e := congrFun (alone_mkdirOnly b p) fs
  rw [← e]
  unfold mkdirOnlyProc
  rw [alone_bind, alone_attempt, alone_osMkdir]
  rw [bind_tried _ _ _ h]

theorem alone_mkdirParentsRev (b : Bool) (r : List (List Char)) : (mkdirParentsRevProc b r).alone = mkdirParentsRev b r := by
  induction r generalizing b with
  | nil => exact alone_mkdirOnly b []
  | cons c r ih =>
    funext fs
    unfold mkdirParentsRevProc mkdirParentsRev
    rw [alone_bind, alone_attempt, alone_osMkdir]
    rcases h : osMkdir (c :: r).reverse fs with ⟨chs, e | u⟩ <;> rw [bind_tried _ _ _ h]
    · have hn := osMkdir_error h
      subst hn
      cases e with
      | fileNotFound =>
        simp only [mkdirParentsAfter]
        rw [alone_bind, ih true, show applyChanges fs [] = fs from rfl]
        simp only [alone_mkdirOnly]
        unfold Act.bind
        rfl
      | indexError => exact alone_mkdirAfter b _ fs h
      | keyError => exact alone_mkdirAfter b _ fs h
      | valueError => exact alone_mkdirAfter b _ fs h
      | other m => exact alone_mkdirAfter b _ fs h
    · exact alone_mkdirAfter b _ fs h

theorem alone_makeFolder (p : FPath) : (makeFolderProc p).alone = makeFolder p := by
  funext fs
  unfold makeFolderProc makeFolder
  rw [alone_bind, bind_nil (b := (fs p).isSome) rfl]
  rcases (fs p).isSome with _ | _
  · simp only [Bool.false_eq_true, if_false]
    rw [alone_mkdirParentsRev]; rfl
  · rfl

theorem alone_preprocessedFolder (cwd : FPath) (f : Folders) : (preprocessedFolderProc cwd f).alone = preprocessedFolder cwd f := by
  unfold preprocessedFolderProc preprocessedFolder
  rcases f.preprocessed with e | _ | name
  · rfl
  · rfl
  · simp only [alone_bind, alone_makeFolder]; rfl

theorem alone_outputFolder (cwd : FPath) (f : Folders) : (outputFolderProc cwd f).alone = outputFolder cwd f := by
  unfold outputFolderProc outputFolder
  rcases f.output with e | name
  · rfl
  · simp only [alone_bind, alone_makeFolder]; rfl

theorem alone_loadSettings {ρ : Type} (cwd : FPath) (s : FileSettings ρ) : (loadSettingsProc cwd s).alone = loadSettings cwd s := by
  unfold loadSettingsProc loadSettings
  rcases convertDates s.settings with e | d
  · rfl
  · simp only [alone_bind, alone_preprocessedFolder, alone_outputFolder]; rfl

theorem alone_fromYaml {ρ : Type} (parse : List Char → Except Err (FileSettings ρ)) (cwd file : FPath) :
    (fromYamlProc parse cwd file).alone = fromYaml parse cwd file := by
  funext fs
  unfold fromYamlProc fromYaml
  rw [alone_bind, bind_nil (b := fs file) rfl]
  rcases fs file with _ | (_ | text)
  · rfl
  · rfl
  · simp only [loadText]
    rcases parse text with e | s
    · rfl
    · simp only [alone_loadSettings]

theorem alone_save (p : FPath) (x : List Char) : (saveProc p x).alone = save p x := by
  funext fs
  unfold saveProc save
  rw [alone_bind]
  unfold Act.bind
  simp only [alone, openChange, openResult]
  by_cases h : fs p = some .dir
  · simp [h]
  · simp only [h, if_false]
    rcases fs p.dropLast with _ | (_ | y) <;> simp [alone]

theorem alone_copy (file folder : FPath) : (copyConfigYamlProc file folder).alone = copyConfigYaml file folder := by
  funext fs
  unfold copyConfigYamlProc copyConfigYaml
  rw [alone_bind, bind_nil (b := fs file) rfl]
  rcases fs file with _ | (_ | text)
  · rfl
  · rfl
  · simp only [copyNode]
    by_cases h : folder ++ file.getLast?.toList = file
    · rw [if_pos h, if_pos h]; rfl
    · rw [if_neg h, if_neg h, alone_save]

theorem alone_saving (c : Calendar) (b : Bool) (F : FPath) (x : Saving) : (x.proc c b F).alone = x.run c b F := by
  unfold Saving.proc Saving.run
  rcases (x.place c b).1 with _ | sub
  · exact alone_save _ _
  · simp only [alone_bind, alone_mkdirOnly, alone_save]

theorem alone_saveAll (c : Calendar) (b : Bool) (F : FPath) (ss : List Saving) : (saveAllProc c b F ss).alone = saveAll c b F ss := by
  induction ss with
  | nil => rfl
  | cons x ss ih =>
    unfold saveAllProc saveAll
    rw [alone_bind, alone_saving]
    simp only [ih]

theorem alone_runExperiment {ρ : Type} (parse : List Char → Except Err (FileSettings ρ)) (cwd file : FPath)
    (backward : ρ → Bool) (folder : Loaded ρ → Option FPath) (experiment : Experiment ρ) :
    (runExperimentProc parse cwd file backward folder experiment).alone = runExperiment parse cwd file backward folder experiment := by
  unfold runExperimentProc runExperiment
  rw [alone_bind, alone_fromYaml]
  congr 1
  funext cfg fs
  rcases folder cfg with _ | F
  · rfl
  · simp only [writeAll]
    rw [alone_bind, bind_nil (b := experiment cfg fs) rfl, alone_bind, alone_saveAll]
    congr 1
    funext u
    rcases (experiment cfg fs).2 with _ | e <;> rfl

theorem alone_startCommand {ρ : Type} (parse : List Char → Except Err (FileSettings ρ)) (cwd file : FPath)
    (stamp : List Char) (folder : Loaded ρ → Option FPath) :
    (startCommandProc parse cwd file stamp folder).alone = startCommand parse cwd file stamp folder := by
  unfold startCommandProc startCommand
  rw [alone_bind, alone_fromYaml]
  congr 1
  funext cfg fs
  rcases folder cfg with _ | F
  · rfl
  · simp only [logAndCopy]
    rw [alone_bind]
    unfold setupLoggingProc setupLogging
    simp only [alone_save, alone_copy]

theorem alone_command {ρ : Type} (parse : List Char → Except Err (FileSettings ρ)) (cwd file : FPath)
    (stamp : List Char) (backward : ρ → Bool) (folder : Loaded ρ → Option FPath) (experiment : Experiment ρ) :
    (commandProc parse cwd file stamp backward folder experiment).alone =
      command parse cwd file stamp backward folder experiment := by
  unfold commandProc command
  rw [alone_bind, alone_startCommand]
  simp only [alone_runExperiment]

end Wam
