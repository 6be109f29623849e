import Verif.Model.Cli
import Verif.Model.IO

/-!
# What the commands change on disk

`/repo/src/wam2layers/cli.py:33-131,138-283`, `/repo/src/wam2layers/config.py:506-539` and the places that write
files: `tracking/io.py:140-147,190-218`, `utils/profiling.py:160-170`, `preprocessing/shared.py:226-240`,
`analysis/visualization.py:187-233`.

An action returns the changes it makes, one after the other, so that a crash can happen after any
of them; writing a file first makes an empty one.

SIMPLIFICATIONS: no links, no permissions, no full disk; nobody else changes the file system
meanwhile; the lines of the log file are left out (it stays empty).
-/

namespace Wam

/-- one change of the file system: from now on `path` holds `node` (used for all file operations,
cli.py:33-131) -/
abbrev Change := FPath × Node

/-- the file system after some changes, one after the other (cli.py:33-131) -/
def applyChanges (fs : FileSystem) (chs : List Change) : FileSystem :=
  chs.foldl (fun fs ch => Function.update fs ch.1 (some ch.2)) fs

/-- something that reads the file system and changes it; returns the changes and the result or the
exception (cli.py:89-131) -/
abbrev Act (β : Type) : Type := FileSystem → List Change × Except Err β

namespace Act

/-- do nothing (statement sequence of Python, cli.py:102-111) -/
def pure {β : Type} (b : β) : Act β := fun _ => ([], .ok b)

/-- raise an exception (statement sequence of Python, cli.py:102-111) -/
def fail {β : Type} (e : Err) : Act β := fun _ => ([], .error e)

/-- one after the other; an exception ends it (statement sequence of Python, cli.py:102-111) -/
def bind {β γ : Type} (a : Act β) (f : β → Act γ) : Act γ := fun fs =>
  match a fs with
  | (chs, .error e) => (chs, .error e)
  | (chs, .ok b) => (chs ++ (f b (applyChanges fs chs)).1, (f b (applyChanges fs chs)).2)

end Act

/-! ### Folders -/

/-- `os.mkdir`, used by `pathlib.Path.mkdir`, config.py:538 -/
def osMkdir (p : FPath) : Act Unit := fun fs =>
  if (fs p).isSome then ([], .error (.other "FileExistsError"))
  else match fs p.dropLast with
    | some .dir => ([(p, .dir)], .ok ())
    | some (.file _) => ([], .error (.other "NotADirectoryError"))
    | none => ([], .error .fileNotFound)

/-- `Path.mkdir(exist_ok=…)` of pathlib without parents, io.py:143 and profiling.py:165 -/
def mkdirOnly (existOk : Bool) (p : FPath) : Act Unit := fun fs =>
  match osMkdir p fs with
  | (chs, .ok ()) => (chs, .ok ())
  | (chs, .error e) => if existOk = true ∧ fs p = some .dir then (chs, .ok ()) else (chs, .error e)

/-- `Path.mkdir(parents=True, exist_ok=…)` of pathlib, config.py:538; the path from its last component to
its first.  If the parent is missing: make the parent, then try again without parents. -/
def mkdirParentsRev (existOk : Bool) : List (List Char) → Act Unit
  | [] => mkdirOnly existOk []
  | c :: r => fun fs =>
    match osMkdir (c :: r).reverse fs with
    | (_, .error .fileNotFound) =>
      Act.bind (mkdirParentsRev true r) (fun _ => mkdirOnly existOk (c :: r).reverse) fs
    | _ => mkdirOnly existOk (c :: r).reverse fs

/-- `Path.mkdir(parents=True, exist_ok=…)`, config.py:538 -/
def mkdirParents (existOk : Bool) (p : FPath) : Act Unit := mkdirParentsRev existOk p.reverse

/-- `_make_dir`, config.py:532-539, of a path -/
def makeFolder (p : FPath) : Act Unit := fun fs =>
  if (fs p).isSome then ([], .ok ()) else mkdirParents false p fs

/-! ### Configuration -/

/-- The two folder settings after the check of their type (`Union[HttpUrl, Path]` and `Path`), config.py:96,196:
an error, an address (`none`), or a path -/
structure Folders where
  preprocessed : Except Err (Option FileName)
  output : Except Err FileName

/-- the settings in a configuration file, config.py:506-522 -/
structure FileSettings (ρ : Type) where
  settings : Settings ρ
  folders : Folders

/-- a configuration that has been accepted, with its folders, config.py:66-503; a folder that is an address
is `none` -/
structure Loaded (ρ : Type) where
  config : Config ρ
  preprocessed : Option FPath
  output : FPath

/-- the calendar of the dates of a configuration, config.py:541-563 -/
def Loaded.calendar {ρ : Type} (cfg : Loaded ρ) : Calendar :=
  (calendarOfName cfg.config.calendar).getD .standard

/-- `_expanduser` and `_make_dir` for `preprocessed_data_folder`, config.py:523-539: an address is left
alone; `path.absolute()` puts the current directory in front.  `none`: the field is wrong, pydantic goes
on with the next one and raises in the end. -/
def preprocessedFolder (cwd : FPath) (f : Folders) : Act (Option (Option FPath)) :=
  match f.preprocessed with
  | .error _ => Act.pure none
  | .ok none => Act.pure (some none)
  | .ok (some name) => Act.bind (makeFolder (resolve cwd name)) fun _ =>
      Act.pure (some (some (resolve cwd name)))

/-- the same for `output_folder`, config.py:523-539 -/
def outputFolder (cwd : FPath) (f : Folders) : Act (Option FPath) :=
  match f.output with
  | .error _ => Act.pure none
  | .ok name => Act.bind (makeFolder (resolve cwd name)) fun _ => Act.pure (some (resolve cwd name))

/-- the outcome of `Config(**settings)` when all fields have been validated, config.py:522-583: any wrong
field, or dates in the wrong order, are a `ValidationError` -/
def acceptFields {ρ : Type} (pre : Option (Option FPath)) (out : Option FPath)
    (cfg : Except Err (Config ρ)) : Except Err (Loaded ρ) :=
  match pre, out, cfg with
  | some pre, some out, .ok cfg => .ok ⟨cfg, pre, out⟩
  | _, _, _ => .error .valueError

/-- `Config(**settings)`, config.py:522-583: `convert_dates` first; then all fields, among them the two
folders; a wrong field does not keep the others from being validated, but an `OSError` of `mkdir` ends it; then
`check_date_order` -/
def loadSettings {ρ : Type} (cwd : FPath) (s : FileSettings ρ) : Act (Loaded ρ) :=
  match convertDates s.settings with
  | .error e => Act.fail e
  | .ok _ =>
    Act.bind (preprocessedFolder cwd s.folders) fun pre =>
    Act.bind (outputFolder cwd s.folders) fun out =>
    fun _ => ([], acceptFields pre out (makeConfig s.settings))

/-- `Config.from_yaml(config_file)`, config.py:506-522; `parse` is the YAML parser and the check of the types of
the fields -/
def fromYaml {ρ : Type} (parse : List Char → Except Err (FileSettings ρ)) (cwd file : FPath) :
    Act (Loaded ρ) := fun fs =>
  match fs file with
  | none => ([], .error .fileNotFound)
  | some .dir => ([], .error (.other "IsADirectoryError"))
  | some (.file text) =>
    match parse text with
    | .error e => ([], .error e)
    | .ok s => loadSettings cwd s fs

/-! ### Files -/

/-- `open(path, "w")` and writing the content: first an empty file, then the content (used at
cli.py:47-49,66, io.py:218, preprocessing/shared.py:235-237) -/
def save (p : FPath) (content : List Char) : Act Unit := fun fs =>
  if fs p = some .dir then ([], .error (.other "IsADirectoryError"))
  else match fs p.dropLast with
    | some .dir => ([(p, .file []), (p, .file content)], .ok ())
    | some (.file _) => ([], .error (.other "NotADirectoryError"))
    | none => ([], .error .fileNotFound)

/-- `setup_logging(log_path, debug)`, cli.py:33-61: opens the log file; `stamp` is the time of the call -/
def setupLogging (folder : FPath) (stamp : List Char) : Act Unit :=
  save (folder ++ ["wam2layers_".toList ++ stamp ++ ".log".toList]) []

/-- `_copy_config_yaml(yaml_path, target_path)`, cli.py:64-66: `shutil.copy` into a folder -/
def copyConfigYaml (file folder : FPath) : Act Unit := fun fs =>
  let target := folder ++ file.getLast?.toList
  match fs file with
  | some (.file text) =>
    if target = file then ([], .error (.other "SameFileError")) else save target text fs
  | _ => ([], .error .fileNotFound)

/-- name of an output file: the last part of `output_path`, io.py:28-31 -/
def outputName (c : Calendar) (backward : Bool) (t : ℤ) : List Char :=
  modeString backward ++ '_' :: (minuteString (dateTimeOf c t) ++ ".nc".toList)

/-- name of a preprocessed file, preprocessing/shared.py:227 -/
def dayName (c : Calendar) (t : ℤ) : List Char :=
  dayString (dateTimeOf c t).date ++ "_fluxes_storages.nc".toList

/-- name of a file with correction factors, profiling.py:166-167 -/
def correctionName (c : Calendar) (t : ℤ) : List Char :=
  "stability_correction_".toList ++ stampString (dateTimeOf c t) ++ ".nc".toList

/-- what an experiment writes: output (io.py:190-218), a correction field (profiling.py:160-170), the mask made from
a shapefile (io.py:140-147), preprocessed data of one time (preprocessing/shared.py:226-240), a figure
(visualization.py:187-233) -/
inductive Saving where
  | output (t : ℤ) (content : List Char)
  | correction (t : ℤ) (content : List Char)
  | region (content : List Char)
  | day (t : ℤ) (content : List Char)
  | figure (name content : List Char)
  deriving DecidableEq, Repr

/-- where it goes, relative to the folder: subfolder, if any, and name (io.py:28-31,143-147, profiling.py:164-167,
preprocessing/shared.py:227-228, visualization.py:187-189) -/
def Saving.place (c : Calendar) (backward : Bool) : Saving → Option (List Char) × List Char
  | .output t _ => (none, outputName c backward t)
  | .correction t _ => (some "debug".toList, correctionName c t)
  | .region _ => (some "debug".toList, "tagging_region.nc".toList)
  | .day t _ => (none, dayName c t)
  | .figure name _ => (some "figures".toList, name ++ ".png".toList)

/-- what is written (io.py:218, profiling.py:170, preprocessing/shared.py:235-240, visualization.py:190) -/
def Saving.content : Saving → List Char
  | .output _ x => x
  | .correction _ x => x
  | .region x => x
  | .day _ x => x
  | .figure _ x => x

/-- the path that is written to (io.py:28-31,143-147, profiling.py:164-167, preprocessing/shared.py:227-228,
visualization.py:187-189) -/
def Saving.path (c : Calendar) (backward : Bool) (folder : FPath) (s : Saving) : FPath :=
  folder ++ (s.place c backward).1.toList ++ [(s.place c backward).2]

/-- one write: make the subfolder if it is not there (`mkdir(exist_ok=True)`, io.py:143, profiling.py:165,
visualization.py:188), then write -/
def Saving.run (c : Calendar) (backward : Bool) (folder : FPath) (s : Saving) : Act Unit :=
  match (s.place c backward).1 with
  | none => save (s.path c backward folder) s.content
  | some sub => Act.bind (mkdirOnly true (folder ++ [sub])) fun _ =>
      save (s.path c backward folder) s.content

/-- all writes of an experiment, one after the other (forwardtrack.py:177-224, preprocessing/shared.py:145-240) -/
def saveAll (c : Calendar) (backward : Bool) (folder : FPath) : List Saving → Act Unit
  | [] => Act.pure ()
  | s :: ss => Act.bind (s.run c backward folder) fun _ => saveAll c backward folder ss

/-- what an experiment does, given its configuration and the files there are when it starts: what it
writes, and the exception it ends with, if any (forwardtrack.py:158-226, backtrack.py:155-215,
preprocessing/shared.py:88-132, visualization.py:173-233) -/
abbrev Experiment (ρ : Type) := Loaded ρ → FileSystem → List Saving × Option Err

/-- end normally or with an exception (forwardtrack.py:226) -/
def endWith : Option Err → Act Unit
  | none => Act.pure ()
  | some e => Act.fail e

/-- the body of an experiment; the configuration file is read again (forwardtrack.py:119-123,
preprocessing/shared.py:111, visualization.py:178) -/
def runExperiment {ρ : Type} (parse : List Char → Except Err (FileSettings ρ)) (cwd file : FPath)
    (backward : ρ → Bool) (folder : Loaded ρ → Option FPath) (experiment : Experiment ρ) : Act Unit :=
  Act.bind (fromYaml parse cwd file) fun cfg => fun fs =>
    match folder cfg with
    | none => ([], .error (.other "TypeError"))
    | some folder =>
      Act.bind
        (saveAll cfg.calendar (backward cfg.config.rest) folder (experiment cfg fs).1)
        (fun _ => endWith (experiment cfg fs).2) fs

/-- the beginning of the commands `track` (cli.py:102-105), `preprocess` (cli.py:162-164,197-199,218-220) and `visualize`
(cli.py:246-248,267-269,280-282): read the configuration, start the log, copy the configuration file.
`folder` is the output folder, or the folder of preprocessed data for `preprocess` (`none` if it is an address:
`Path(address)` is a `TypeError`). -/
def startCommand {ρ : Type} (parse : List Char → Except Err (FileSettings ρ)) (cwd file : FPath)
    (stamp : List Char) (folder : Loaded ρ → Option FPath) : Act Unit :=
  Act.bind (fromYaml parse cwd file) fun cfg => fun fs =>
    match folder cfg with
    | none => ([], .error (.other "TypeError"))
    | some f => Act.bind (setupLogging f stamp) (fun _ => copyConfigYaml file f) fs

/-- the commands `track` (cli.py:89-111), `preprocess` (cli.py:146-223) and `visualize` (cli.py:233-283) -/
def command {ρ : Type} (parse : List Char → Except Err (FileSettings ρ)) (cwd file : FPath)
    (stamp : List Char) (backward : ρ → Bool) (folder : Loaded ρ → Option FPath)
    (experiment : Experiment ρ) : Act Unit :=
  Act.bind (startCommand parse cwd file stamp folder) fun _ =>
    runExperiment parse cwd file backward folder experiment

end Wam
