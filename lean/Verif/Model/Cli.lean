import Verif.Model.Config

/-!
# Command line and download: `/repo/src/wam2layers/cli.py`, `/repo/src/wam2layers/download.py`,
`/repo/src/wam2layers/example_cases.py`

SIMPLIFICATIONS: text is ASCII; log files are left out; what a server answers is an input of the
model.
-/

namespace Wam

/-! ### DOIs -/

/-- the class `[-._;()\/:A-Z0-9]` with `re.IGNORECASE`, download.py:34-35 -/
def doiChar (c : Char) : Bool :=
  c ∈ "-._;()/:".toList || c.isAlpha || c.isDigit

/-- `(?P<suffix>[-._;()\/:A-Z0-9]+$)`: `$` also matches before a newline at the very end,
download.py:34 -/
def matchSuffix (s : List Char) : Option (List Char) :=
  let body := if s.getLast? = some '\n' then s.dropLast else s
  if body ≠ [] ∧ body.all doiChar then some body else none

/-- the regular expression `(10.\d{4,9})\/(suffix)` at the beginning of a string, download.py:34.
(The dot is not escaped: any character except a newline.)  The digits are followed by a slash,
so the run of digits must be the longest one. -/
def matchDoiHere : List Char → Option (List Char × List Char)
  | '1' :: '0' :: x :: s =>
    let digits := s.takeWhile Char.isDigit
    match s.dropWhile Char.isDigit with
    | '/' :: rest =>
      if x ≠ '\n' ∧ 4 ≤ digits.length ∧ digits.length ≤ 9 then
        (matchSuffix rest).map fun suffix => ('1' :: '0' :: x :: digits, suffix)
      else none
    | _ => none
  | _ => none

/-- `re.search`: the leftmost match, download.py:35 -/
def searchDoi : List Char → Option (List Char × List Char)
  | [] => none
  | c :: s => match matchDoiHere (c :: s) with
    | some r => some r
    | none => searchDoi s

/-- `parse_doi(doi_string)`, download.py:14-44: prefix and suffix -/
def parseDoi (doi : List Char) : Except Err (List Char × List Char) :=
  match searchDoi doi with
  | some r => .ok r
  | none => .error .valueError

/-- `get_4tu_id(doi)`, download.py:76-89: `suffix.split(".")[0]` -/
def get4tuId (doi : List Char) : Except Err (List Char) := do
  let (_, suffix) ← parseDoi doi
  return suffix.takeWhile (· ≠ '.')

/-! ### Files -/

/-- a path as its components from the root, download.py:52 -/
abbrev FPath := List (List Char)

/-- what a path holds, download.py:47-73 -/
inductive Node where
  | dir
  | file (content : List Char)
  deriving DecidableEq, Repr

/-- a file system, download.py:47-73 -/
abbrev FileSystem := FPath → Option Node

/-- `Path.mkdir(exist_ok=False)`, download.py:53 -/
def mkdir (fs : FileSystem) (p : FPath) : Except Err FileSystem :=
  if (fs p).isSome then .error (.other "FileExistsError")
  else if p ≠ [] ∧ fs p.dropLast ≠ some .dir then .error .fileNotFound
  else .ok (Function.update fs p (some .dir))

/-- `create_target_directory(name)`, download.py:47-60; `cwd` is the current directory and `name` a
simple name -/
def createTargetDirectory (fs : FileSystem) (cwd : FPath) (name : List Char) :
    Except Err (FileSystem × FPath) :=
  match mkdir fs (cwd ++ [name]) with
  | .error e => .error e
  | .ok fs => .ok (fs, cwd ++ [name])

/-- A file name as the server gives it: absolute or relative, with its components,
download.py:144-151 -/
structure FileName where
  absolute : Bool
  parts : List (List Char)
  deriving DecidableEq, Repr

/-- `destination / local_filename`, download.py:68, as the operating system resolves it: an absolute
name replaces the destination, `..` goes up -/
def resolve (destination : FPath) (name : FileName) : FPath :=
  name.parts.foldl (fun p c => if c = "..".toList then p.dropLast else p ++ [c])
    (if name.absolute then [] else destination)

/-- `open(local_path, "wb")` and writing the content, download.py:71-73 -/
def writeFile (fs : FileSystem) (p : FPath) (content : List Char) : Except Err FileSystem :=
  if fs p = some .dir then .error (.other "IsADirectoryError")
  else if fs p.dropLast ≠ some .dir then .error .fileNotFound
  else .ok (Function.update fs p (some (.file content)))

/-- the downloads of `download_from_4tu` one after the other, download.py:144-151; also returns the
file system if one fails -/
def downloadAll (fs : FileSystem) (target : FPath) :
    List (FileName × List Char) → Option Err × FileSystem
  | [] => (none, fs)
  | (name, content) :: rest =>
    match writeFile fs (resolve target name) content with
    | .error e => (some e, fs)
    | .ok fs => downloadAll fs target rest

/-- `download_from_doi(doi, name)` and `download_from_4tu`, download.py:130-170; `server id` are the
files the server offers for an identifier.  Returns the exception, if any, and the file system. -/
def downloadFromDoi (fs : FileSystem) (cwd : FPath) (doi name : List Char)
    (server : List Char → Except Err (List (FileName × List Char))) : Option Err × FileSystem :=
  match parseDoi doi with
  | .error e => (some e, fs)
  | .ok (pre, _) =>
    if pre = "10.4121".toList then
      match createTargetDirectory fs cwd name with
      | .error e => (some e, fs)
      | .ok (fs, target) =>
        match get4tuId doi with
        | .error e => (some e, fs)
        | .ok id =>
          match server id with
          | .error e => (some e, fs)
          | .ok files => downloadAll fs target files
    else if pre = "10.5281".toList then (some (.other "NotImplementedError"), fs)
    else (some .valueError, fs)

/-! ### Commands -/

/-- the value of `tracking_direction`, config.py:122 -/
inductive Direction where
  | forward
  | backward
  deriving DecidableEq, Repr

/-- the data sources of `prep_experiment`, preprocessing/shared.py and cli.py:167,202,223 -/
inductive DataSource where
  | era5
  | cmip
  | arco
  deriving DecidableEq, Repr

/-- what a command does after reading the configuration, cli.py:89-223 -/
inductive Effect where
  | copyConfig (target : FPath)
  | runForward
  | runBackward
  | preprocess (source : DataSource)
  deriving DecidableEq, Repr

/-- the settings the commands use, config.py:122 and cli.py:92-131 -/
structure CliConfig where
  direction : Direction
  output_folder : FPath
  preprocessed_data_folder : FPath

/-- the commands, cli.py:89-223 -/
inductive Command where
  | track
  | backtrack
  | forwardtrack
  | preprocess (source : DataSource)
  deriving DecidableEq, Repr

/-- `_copy_config_yaml`, cli.py:64-66: `shutil.copy` into a folder; copying a file onto itself is a
`SameFileError` -/
def copyConfig (configFile target : FPath) : Except Err Effect :=
  if target ++ configFile.getLast?.toList = configFile then .error (.other "SameFileError")
  else .ok (.copyConfig target)

/-- The commands of the command line, cli.py:89-223.  Returns the effects and the exception, if any.
The outcome of the experiment itself is not part of this model. -/
def runCommand (configFile : FPath) (config : Except Err CliConfig) :
    Command → List Effect × Option Err
  | .backtrack => ([], some .valueError)
  | .forwardtrack => ([], some .valueError)
  | .track =>
    match config with
    | .error e => ([], some e)
    | .ok cfg =>
      match copyConfig configFile cfg.output_folder with
      | .error e => ([], some e)
      | .ok c =>
        if cfg.direction = .backward then ([c, .runBackward], none) else ([c, .runForward], none)
  | .preprocess source =>
    match config with
    | .error e => ([], some e)
    | .ok cfg =>
      match copyConfig configFile cfg.preprocessed_data_folder with
      | .error e => ([], some e)
      | .ok c => ([c, .preprocess source], none)

end Wam
