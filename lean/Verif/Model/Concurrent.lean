import Verif.Model.Disk

/-!
# Commands that run at the same time

The commands of `Model/Disk` again, cut into single calls of the operating system, so that calls of several
processes can come in any order: `/repo/src/wam2layers/cli.py:33-131,138-283`,
`/repo/src/wam2layers/config.py:506-583` and the places that write files.  `Lemmas/Concurrent` proves that
a command that runs alone does what `Model/Disk` says.

SIMPLIFICATIONS: those of `Model/Disk`, but other processes may change the file system between two calls; the configuration
file is read in one call, and so are the input data of an experiment (`Spec/Concurrent` asks that nobody changes them
meanwhile).
-/

namespace Wam

/-- A process: it has ended, or its next call looks at the file system, makes one change or none, and goes on according to
what it has seen (any code of the package, cli.py:89-283) -/
inductive Process (β : Type) : Type
  | done (r : Except Err β)
  | call (change : FileSystem → Option Change) (next : FileSystem → Process β)

namespace Process
variable {β γ : Type}

/-- one after the other; an exception ends it (statement sequence of Python, cli.py:102-111) -/
def bind : Process β → (β → Process γ) → Process γ
  | .done (.ok b), f => f b
  | .done (.error e), _ => .done (.error e)
  | .call c k, f => .call c fun fs => (k fs).bind f

/-- `try`: an exception becomes a result (used for `Path.mkdir` of pathlib, config.py:538) -/
def attempt : Process β → Process (Except Err β)
  | .done r => .done (.ok r)
  | .call c k => .call c fun fs => (k fs).attempt

/-- look at the file system (`Path.exists`, `Path.is_dir`, reading a file, config.py:519-536) -/
def look (f : FileSystem → β) : Process β := .call (fun _ => none) fun fs => .done (.ok (f fs))

/-- what a process does when it runs alone: its changes and its result (cli.py:89-283) -/
def alone : Process β → Act β
  | .done r => fun _ => ([], r)
  | .call c k => fun fs =>
    ((c fs).toList ++ ((k fs).alone (applyChanges fs (c fs).toList)).1, ((k fs).alone (applyChanges fs (c fs).toList)).2)

end Process

/-- the file system and the processes (several commands at the same time, cli.py:89-283) -/
structure Machine (ι : Type) where
  fs : FileSystem
  processes : ι → Process Unit

/-- the next call of process `i`; a process that has ended does nothing (cli.py:89-283) -/
def Machine.step {ι : Type} [DecidableEq ι] (m : Machine ι) (i : ι) : Machine ι :=
  match m.processes i with
  | .done _ => m
  | .call c k => { fs := applyChanges m.fs (c m.fs).toList, processes := Function.update m.processes i (k m.fs) }

/-- calls in the order of a schedule (cli.py:89-283) -/
def Machine.run {ι : Type} [DecidableEq ι] (m : Machine ι) (schedule : List ι) : Machine ι := schedule.foldl Machine.step m

/-! ### Folders -/

/-- outcome of `os.mkdir`, config.py:538 -/
def osMkdirResult (p : FPath) (fs : FileSystem) : Except Err Unit :=
  if (fs p).isSome then .error (.other "FileExistsError")
  else match fs p.dropLast with
    | some .dir => .ok ()
    | some (.file _) => .error (.other "NotADirectoryError")
    | none => .error .fileNotFound

/-- change made by `os.mkdir`, config.py:538 -/
def osMkdirChange (p : FPath) (fs : FileSystem) : Option Change :=
  if (fs p).isSome then none
  else match fs p.dropLast with
    | some .dir => some (p, .dir)
    | _ => none

/-- `os.mkdir`: one call, config.py:538 -/
def osMkdirProc (p : FPath) : Process Unit := .call (osMkdirChange p) fun fs => .done (osMkdirResult p fs)

/-- after an exception of `os.mkdir`: accepted if the folder is there and that is fine, else raised again
(`Path.mkdir` of pathlib, config.py:538) -/
def mkdirExists (existOk : Bool) (p : FPath) (e : Err) : Process Unit :=
  (Process.look fun fs => decide (existOk = true ∧ fs p = some .dir)).bind fun ok => .done (if ok then .ok () else .error e)

/-- after `os.mkdir` (`Path.mkdir` of pathlib, config.py:538) -/
def mkdirAfter (existOk : Bool) (p : FPath) : Except Err Unit → Process Unit
  | .ok () => .done (.ok ())
  | .error e => mkdirExists existOk p e

/-- `Path.mkdir(exist_ok=…)` without parents, io.py:143 and profiling.py:165 -/
def mkdirOnlyProc (existOk : Bool) (p : FPath) : Process Unit := (osMkdirProc p).attempt.bind (mkdirAfter existOk p)

/-- after `os.mkdir` in `Path.mkdir(parents=True)`: `parents` makes the parent folders (config.py:538) -/
def mkdirParentsAfter (existOk : Bool) (p : FPath) (parents : Process Unit) : Except Err Unit → Process Unit
  | .error .fileNotFound => parents.bind fun _ => mkdirOnlyProc existOk p
  | r => mkdirAfter existOk p r

/-- `Path.mkdir(parents=True, exist_ok=…)`, config.py:538; the path from its last component to its first -/
def mkdirParentsRevProc (existOk : Bool) : List (List Char) → Process Unit
  | [] => mkdirOnlyProc existOk []
  | c :: r => (osMkdirProc (c :: r).reverse).attempt.bind
      (mkdirParentsAfter existOk (c :: r).reverse (mkdirParentsRevProc true r))

/-- `_make_dir`, config.py:532-539: it looks whether the path exists, and makes it if not -/
def makeFolderProc (p : FPath) : Process Unit :=
  (Process.look fun fs => (fs p).isSome).bind fun there =>
    if there then .done (.ok ()) else mkdirParentsRevProc false p.reverse

/-! ### Configuration -/

/-- `preprocessed_data_folder`, config.py:523-539 -/
def preprocessedFolderProc (cwd : FPath) (f : Folders) : Process (Option (Option FPath)) :=
  match f.preprocessed with
  | .error _ => .done (.ok none)
  | .ok none => .done (.ok (some none))
  | .ok (some name) => (makeFolderProc (resolve cwd name)).bind fun _ => .done (.ok (some (some (resolve cwd name))))

/-- `output_folder`, config.py:523-539 -/
def outputFolderProc (cwd : FPath) (f : Folders) : Process (Option FPath) :=
  match f.output with
  | .error _ => .done (.ok none)
  | .ok name => (makeFolderProc (resolve cwd name)).bind fun _ => .done (.ok (some (resolve cwd name)))

/-- `Config(**settings)`, config.py:522-583 -/
def loadSettingsProc {ρ : Type} (cwd : FPath) (s : FileSettings ρ) : Process (Loaded ρ) :=
  match convertDates s.settings with
  | .error e => .done (.error e)
  | .ok _ =>
    (preprocessedFolderProc cwd s.folders).bind fun pre =>
    (outputFolderProc cwd s.folders).bind fun out =>
    .done (acceptFields pre out (makeConfig s.settings))

/-- the content of a configuration file: loaded, or an exception (config.py:519-522) -/
def loadText {ρ : Type} (parse : List Char → Except Err (FileSettings ρ)) (cwd : FPath) : Option Node → Process (Loaded ρ)
  | none => .done (.error .fileNotFound)
  | some .dir => .done (.error (.other "IsADirectoryError"))
  | some (.file text) =>
    match parse text with
    | .error e => .done (.error e)
    | .ok s => loadSettingsProc cwd s

/-- `Config.from_yaml(config_file)`, config.py:506-522 -/
def fromYamlProc {ρ : Type} (parse : List Char → Except Err (FileSettings ρ)) (cwd file : FPath) : Process (Loaded ρ) :=
  (Process.look fun fs => fs file).bind (loadText parse cwd)

/-! ### Files -/

/-- outcome of `open(path, "w")`, cli.py:47-49, io.py:218, preprocessing/shared.py:235-237 -/
def openResult (p : FPath) (fs : FileSystem) : Except Err Unit :=
  if fs p = some .dir then .error (.other "IsADirectoryError")
  else match fs p.dropLast with
    | some .dir => .ok ()
    | some (.file _) => .error (.other "NotADirectoryError")
    | none => .error .fileNotFound

/-- change made by `open(path, "w")`: an empty file, cli.py:47-49, io.py:218, preprocessing/shared.py:235-237 -/
def openChange (p : FPath) (fs : FileSystem) : Option Change :=
  if fs p = some .dir then none
  else match fs p.dropLast with
    | some .dir => some (p, .file [])
    | _ => none

/-- write a file: open it, then write the content (cli.py:47-49,66, io.py:218, preprocessing/shared.py:235-237) -/
def saveProc (p : FPath) (content : List Char) : Process Unit :=
  (Process.call (openChange p) fun fs => .done (openResult p fs)).bind fun _ =>
    .call (fun _ => some (p, .file content)) fun _ => .done (.ok ())

/-- `setup_logging(log_path, debug)`, cli.py:33-61 -/
def setupLoggingProc (folder : FPath) (stamp : List Char) : Process Unit :=
  saveProc (folder ++ ["wam2layers_".toList ++ stamp ++ ".log".toList]) []

/-- `shutil.copy` of a file with a content to a path, cli.py:64-66 -/
def copyNode (file target : FPath) : Option Node → Process Unit
  | some (.file text) => if target = file then .done (.error (.other "SameFileError")) else saveProc target text
  | _ => .done (.error .fileNotFound)

/-- `_copy_config_yaml(yaml_path, target_path)`, cli.py:64-66 -/
def copyConfigYamlProc (file folder : FPath) : Process Unit :=
  (Process.look fun fs => fs file).bind (copyNode file (folder ++ file.getLast?.toList))

/-- one write of an experiment, io.py:143,218, profiling.py:165-170, preprocessing/shared.py:226-240, visualization.py:187-190 -/
def Saving.proc (c : Calendar) (backward : Bool) (folder : FPath) (s : Saving) : Process Unit :=
  match (s.place c backward).1 with
  | none => saveProc (s.path c backward folder) s.content
  | some sub => (mkdirOnlyProc true (folder ++ [sub])).bind fun _ => saveProc (s.path c backward folder) s.content

/-- all writes of an experiment, forwardtrack.py:177-224, preprocessing/shared.py:145-240 -/
def saveAllProc (c : Calendar) (backward : Bool) (folder : FPath) : List Saving → Process Unit
  | [] => .done (.ok ())
  | s :: ss => (s.proc c backward folder).bind fun _ => saveAllProc c backward folder ss

/-- end normally or with an exception (forwardtrack.py:226) -/
def endWithProc : Option Err → Process Unit
  | none => .done (.ok ())
  | some e => .done (.error e)

/-- the experiment: it reads its input, then writes (forwardtrack.py:119-226, preprocessing/shared.py:111-132,
visualization.py:178-233) -/
def writeAll {ρ : Type} (backward : ρ → Bool) (experiment : Experiment ρ) (cfg : Loaded ρ) : Option FPath → Process Unit
  | none => .done (.error (.other "TypeError"))
  | some folder =>
    (Process.look fun fs => experiment cfg fs).bind fun r =>
    (saveAllProc cfg.calendar (backward cfg.config.rest) folder r.1).bind fun _ => endWithProc r.2

/-- the body of an experiment, forwardtrack.py:119-226, preprocessing/shared.py:111-132, visualization.py:178-233 -/
def runExperimentProc {ρ : Type} (parse : List Char → Except Err (FileSettings ρ)) (cwd file : FPath)
    (backward : ρ → Bool) (folder : Loaded ρ → Option FPath) (experiment : Experiment ρ) : Process Unit :=
  (fromYamlProc parse cwd file).bind fun cfg => writeAll backward experiment cfg (folder cfg)

/-- start the log and copy the configuration file, cli.py:103-105 -/
def logAndCopy (file : FPath) (stamp : List Char) : Option FPath → Process Unit
  | none => .done (.error (.other "TypeError"))
  | some f => (setupLoggingProc f stamp).bind fun _ => copyConfigYamlProc file f

/-- the beginning of a command, cli.py:102-105,162-164,197-199,218-220,246-248,267-269,280-282 -/
def startCommandProc {ρ : Type} (parse : List Char → Except Err (FileSettings ρ)) (cwd file : FPath)
    (stamp : List Char) (folder : Loaded ρ → Option FPath) : Process Unit :=
  (fromYamlProc parse cwd file).bind fun cfg => logAndCopy file stamp (folder cfg)

/-- the commands `track` (cli.py:89-111), `preprocess` (cli.py:146-223) and `visualize` (cli.py:233-283) as processes -/
def commandProc {ρ : Type} (parse : List Char → Except Err (FileSettings ρ)) (cwd file : FPath)
    (stamp : List Char) (backward : ρ → Bool) (folder : Loaded ρ → Option FPath)
    (experiment : Experiment ρ) : Process Unit :=
  (startCommandProc parse cwd file stamp folder).bind fun _ => runExperimentProc parse cwd file backward folder experiment

end Wam
