import Verif.Model.Disk
import Verif.Model.Pipeline
import Verif.Model.Warnings

/-!
# The experiment of the command `track`: from the files that are there to the files that are written

`run_experiment`, `/repo/src/wam2layers/tracking/forwardtrack.py:157-226` and
`/repo/src/wam2layers/tracking/backtrack.py:154-215`, as an `Experiment` of `Model/Disk`: the input is read from the file
system, the output, the correction fields and the mask of a shapefile are put into the order in which they are
written.  The content of netCDF files is a parameter (`Library`).
-/

namespace Wam

variable {m n : ℕ} {α : Type}

/-- the tagging region in a configuration: a bounding box, a netCDF file or a shapefile, config.py:99,
io.py:137-148 -/
inductive TagSetting (α : Type) where
  | box (bbox : BoundingBox α)
  | file (path : FPath)
  | shape (path : FPath)

/-- the settings of tracking besides dates, calendar and folders, config.py:66-503 -/
structure TrackSettings (α : Type) where
  backward : Bool
  timestep : ℤ
  input_frequency : ℤ
  output_frequency : ℤ
  kvf : α
  periodic_boundary : Bool
  restart : Bool
  tracking_domain : Option (BoundingBox α)
  tagging_region : TagSetting α

/-- netCDF and the geometry of shapefiles: contents of files and what they mean, io.py:68-71,137-147,190-218,
forwardtrack.py:144, profiling.py:169-170.  `remote` is what is read from an address, `first` the file that
`next(glob("*.nc"))` gives, `mask` is `create_mask` (io.py:140-141). -/
structure Library (m n : ℕ) (α : Type) where
  readData : List Char → Except Err (DataFile α α)
  remote : List Char → Except Err (DataFile α α)
  readTag : List Char → Except Err (TagFile α α)
  first : (List Char → Bool) → Option (List Char)
  mask : List Char → List Char → Except Err (TagFile α α)
  showMask : TagFile α α → List Char
  showCorrection : Layer (m + 2) (n + 2) α → List Char
  showFwd : FwdOutput (m + 2) (n + 2) α → List Char
  readFwd : List Char → Option (FwdOutput (m + 2) (n + 2) α)
  showBwd : BwdOutput (m + 2) (n + 2) α → List Char
  readBwd : List Char → Option (BwdOutput (m + 2) (n + 2) α)

/-- the settings of the loop, forwardtrack.py:157-226, backtrack.py:154-215 -/
def Loaded.runConfig (cfg : Loaded (TrackSettings α)) : RunConfig α :=
  { tracking_start_date := cfg.config.dates .tracking_start_date
    tracking_end_date := cfg.config.dates .tracking_end_date
    tagging_start_date := cfg.config.dates .tagging_start_date
    tagging_end_date := cfg.config.dates .tagging_end_date
    timestep := cfg.config.rest.timestep
    output_frequency := cfg.config.rest.output_frequency
    kvf := cfg.config.rest.kvf
    periodic_boundary := cfg.config.rest.periodic_boundary
    restart := cfg.config.rest.restart }

/-- the settings of `load_data`, io.py:94-134; the folder is put in front by `dataFiles` -/
def Loaded.ioConfig (cfg : Loaded (TrackSettings α)) : IOConfig α :=
  { calendar := cfg.calendar
    preprocessed_data_folder := []
    tracking_domain := cfg.config.rest.tracking_domain
    input_frequency := cfg.config.rest.input_frequency }

/-- `xr.open_dataset` of a file in the preprocessed folder, io.py:20-25,68-71; the argument is `/` and the name -/
def dataFiles (lib : Library m n α) (cfg : Loaded (TrackSettings α)) (fs : FileSystem) (path : List Char) :
    Except Err (DataFile α α) :=
  match cfg.preprocessed with
  | none => lib.remote path
  | some pre =>
    match fs (pre ++ [path.drop 1]) with
    | some (.file text) => lib.readData text
    | _ => .error .fileNotFound

/-- `next(config.preprocessed_data_folder.glob("*.nc"))`, io.py:140: one of the files whose name ends in `.nc` -/
def someDataFile (lib : Library m n α) (pre : FPath) (fs : FileSystem) : Except Err (List Char) :=
  match lib.first fun name => (".nc".toList).isSuffixOf name && (fs (pre ++ [name])).isSome with
  | none => .error (.other "StopIteration")
  | some name =>
    match fs (pre ++ [name]) with
    | some (.file text) => .ok text
    | _ => .error .fileNotFound

/-- the mask of a shapefile, io.py:138-142 -/
def shapeMask (lib : Library m n α) (cfg : Loaded (TrackSettings α)) (fs : FileSystem) (path : FPath) :
    Except Err (TagFile α α) :=
  match cfg.preprocessed with
  | none => .error (.other "AttributeError")
  | some pre =>
    match someDataFile lib pre fs, fs path with
    | .ok data, some (.file shapes) => lib.mask shapes data
    | .error e, _ => .error e
    | _, _ => .error .fileNotFound

/-- the tagging region as it is read, io.py:137-148, forwardtrack.py:167-174 -/
def taggingOf (lib : Library m n α) (cfg : Loaded (TrackSettings α)) (fs : FileSystem) : TaggingRegion α α :=
  match cfg.config.rest.tagging_region with
  | .box bbox => .box bbox
  | .file path => .file (match fs path with
      | some (.file text) => lib.readTag text
      | _ => .error .fileNotFound)
  | .shape path => .file (shapeMask lib cfg fs path)

/-- the mask of a shapefile is written to the folder `debug`, io.py:143-146 -/
def maskSaving (lib : Library m n α) (cfg : Loaded (TrackSettings α)) (fs : FileSystem) : List Saving :=
  match cfg.config.rest.tagging_region with
  | .shape path =>
    match shapeMask lib cfg fs path with
    | .ok r => [.region (lib.showMask r)]
    | .error _ => []
  | _ => []

/-- the state of the loop, the thresholds of the warnings, and what has been written (forwardtrack.py:177-224,
profiling.py:42-44) -/
structure Noted (ω α : Type) where
  state : LoopState ω α
  warn : WarnState α
  saved : List Saving

/-- How the loop ends: what has been written and the exception, if any, forwardtrack.py:177-226.
SIMPLIFICATION: a loop that does not end (C24) counts as an exception. -/
def endOfLoop {ω : Type} : Outcome (Noted ω α) → List Saving × Option Err
  | .finished s => (s.saved, none)
  | .raised e s => (s.saved, some e)
  | .stillRunning s => (s.saved, some (.other "does not end"))

section
variable [Add α] [Mul α] [Div α] [NpOps α]

/-- the correction fields written by `stabilize_fluxes` in one step, core.py:138-154, profiling.py:160-170 -/
def noteLayers (lib : Library m n α) (dt : α) (a : Fin (m + 2) → α) (t : ℤ) :
    WarnState α → List (Layer (m + 2) (n + 2) α) → WarnState α × List Saving
  | w, [] => (w, [])
  | w, l :: ls =>
    let r := warnLayer dt a w l
    let rest := noteLayers lib dt a t r.1 ls
    (rest.1, (r.2.toList.map fun _ => .correction t (lib.showCorrection l)) ++ rest.2)

/-- the same with the data of the step: `S` are the storages and `F` the fluxes at `t`, forwardtrack.py:201-202,
backtrack.py:193-194 -/
def noteStep (lib : Library m n α) (cfg : RunConfig α) (src : Source m n α) (w : WarnState α) (t : ℤ)
    (S : Except Err (States (m + 2) (n + 2) α)) (F : Except Err (Fluxes (m + 2) (n + 2) α)) :
    WarnState α × List Saving :=
  match S, F with
  | .ok S, .ok F => noteLayers lib (ofRat cfg.timestep) src.grid.a t w (stepLayers (scaleFluxes src.grid F) S)
  | _, _ => (w, [])

end

section
variable [Add α] [Sub α] [Mul α] [Div α] [Neg α] [NpOps α]

/-- One iteration: first the correction fields, then the output, forwardtrack.py:178-224 -/
def fwdNotedBody (lib : Library m n α) (cfg : RunConfig α) (src : Source m n α) (region : Region (m + 2) (n + 2) α)
    (s : Noted (FwdOutput (m + 2) (n + 2) α) α) : Except Err (Noted (FwdOutput (m + 2) (n + 2) α) α) :=
  match fwdBody cfg src region s.state with
  | .error e => .error e
  | .ok s' =>
    let c := noteStep lib cfg src s.warn s.state.t0 (src.states s.state.t0) (src.fluxes s.state.th)
    .ok { state := s', warn := c.1
          saved := s.saved ++ c.2 ++
            (s'.files.drop s.state.files.length).map fun x => .output x.1 (lib.showFwd x.2) }

/-- One iteration, backtrack.py:175-213 -/
def bwdNotedBody (lib : Library m n α) (cfg : RunConfig α) (src : Source m n α) (region : Region (m + 2) (n + 2) α)
    (s : Noted (BwdOutput (m + 2) (n + 2) α) α) : Except Err (Noted (BwdOutput (m + 2) (n + 2) α) α) :=
  match bwdBody cfg src region s.state with
  | .error e => .error e
  | .ok s' =>
    let c := noteStep lib cfg src s.warn s.state.t1 (src.states s.state.t1) (src.fluxes s.state.th)
    .ok { state := s', warn := c.1
          saved := s.saved ++ c.2 ++
            (s'.files.drop s.state.files.length).map fun x => .output x.1 (lib.showBwd x.2) }

/-- `run_experiment` of forwardtrack.py:157-226 after reading the configuration: `initialize`, tagging region, loop -/
def fwdTracking (lib : Library m n α) (cfg : RunConfig α) (src : Source m n α) (mask : List Saving)
    {P : Type} (path : ℤ → P) (disk : P → Option (FwdOutput (m + 2) (n + 2) α)) (fuel : ℕ) :
    List Saving × Option Err :=
  match fwdInitialize cfg src path disk with
  | .error e => ([], some e)
  | .ok o =>
    match src.region with
    | .error e => (mask, some e)
    | .ok region => endOfLoop (whileLoop (fun s => fwdGuard cfg s.state) (fwdNotedBody lib cfg src region) fuel
        { state := fwdStart cfg src o, warn := WarnState.start, saved := mask })

/-- `run_experiment` of backtrack.py:154-215 after reading the configuration -/
def bwdTracking (lib : Library m n α) (cfg : RunConfig α) (src : Source m n α) (mask : List Saving)
    {P : Type} (path : ℤ → P) (disk : P → Option (BwdOutput (m + 2) (n + 2) α)) (fuel : ℕ) :
    List Saving × Option Err :=
  match bwdInitialize cfg src path disk with
  | .error e => ([], some e)
  | .ok o =>
    match src.region with
    | .error e => (mask, some e)
    | .ok region => endOfLoop (whileLoop (fun s => bwdGuard cfg s.state) (bwdNotedBody lib cfg src region) fuel
        { state := bwdStart cfg src o, warn := WarnState.start, saved := mask })

/-- an output file that is read for a restart, forwardtrack.py:141-146, backtrack.py:138-143 -/
def restartFile {ω : Type} (read : List Char → Option ω) (fs : FileSystem) (path : FPath) : Option ω :=
  match fs path with
  | some (.file text) => read text
  | _ => none

/-- more iterations than the loop makes (C23), forwardtrack.py:177, backtrack.py:174 -/
def Loaded.fuel (cfg : Loaded (TrackSettings α)) : ℕ :=
  ((cfg.runConfig.tracking_end_date - cfg.runConfig.tracking_start_date) / cfg.runConfig.dt).toNat

variable [LinearOrder α] [NpTrig α]

/-- the data a forward run reads, forwardtrack.py:157-184 -/
def fwdSource (lib : Library m n α) (cfg : Loaded (TrackSettings α)) (fs : FileSystem) : Source m n α :=
  experimentSource (dataFiles lib cfg fs) cfg.ioConfig (taggingOf lib cfg fs) cfg.runConfig.tracking_start_date

/-- the data a backward run reads, backtrack.py:154-181 -/
def bwdSource (lib : Library m n α) (cfg : Loaded (TrackSettings α)) (fs : FileSystem) : Source m n α :=
  experimentSource (dataFiles lib cfg fs) cfg.ioConfig (taggingOf lib cfg fs) cfg.runConfig.tracking_end_date

/-- `run_experiment`, called by `track` according to the direction, cli.py:106-111, forwardtrack.py:157-226,
backtrack.py:154-215 -/
def trackExperiment (lib : Library m n α) : Experiment (TrackSettings α) := fun cfg fs =>
  if cfg.config.rest.backward then
    bwdTracking lib cfg.runConfig (bwdSource lib cfg fs) (maskSaving lib cfg fs)
      (fun t => cfg.output ++ [outputName cfg.calendar true t]) (restartFile lib.readBwd fs) cfg.fuel
  else
    fwdTracking lib cfg.runConfig (fwdSource lib cfg fs) (maskSaving lib cfg fs)
      (fun t => cfg.output ++ [outputName cfg.calendar false t]) (restartFile lib.readFwd fs) cfg.fuel

end

end Wam
