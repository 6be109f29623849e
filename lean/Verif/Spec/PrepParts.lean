import Verif.Spec.Works

/-!
# Preprocessing with several commands
-/

namespace Wam.Spec

variable {α ρ : Type}

/-- how `preprocess` is called: current directory, configuration file `dir/stem.yaml` with these settings in it, time stamp of the log
file; `cfg` is what the settings are loaded as -/
structure PrepCall (ρ : Type) where
  cwd : FPath
  dir : FPath
  stem : List Char
  stamp : List Char
  settings : FileSettings ρ
  cfg : Loaded ρ

/-- the command -/
def PrepCall.act (shw : DataFile α α → List Char) (freq : ρ → ℤ) (compute : Loaded ρ → FileSystem → ℤ → Except Err (Dataset α α))
    (backward : ρ → Bool) (parse : List Char → Except Err (FileSettings ρ)) (x : PrepCall ρ) : Act Unit :=
  command parse x.cwd (x.dir ++ [x.stem ++ ".yaml".toList]) x.stamp backward (fun cfg => cfg.preprocessed)
    (preprocessExperiment shw freq compute)

/-- the times that the command preprocesses -/
def PrepCall.times (freq : ρ → ℤ) (x : PrepCall ρ) : List ℤ :=
  inputDates (x.cfg.config.dates .preprocess_start_date) (x.cfg.config.dates .preprocess_end_date) (freq x.cfg.config.rest)

/-- Everything is ready for the command, which writes files with dates of calendar `c` to folder `pre`: its configuration file is there; the raw
data `reads` are none of the files that it writes; and there is room for these. -/
structure PrepCall.Ready (parse : List Char → Except Err (FileSettings ρ)) (reads : FPath → Prop) (pre : FPath) (c : Calendar)
    (x : PrepCall ρ) (fs : FileSystem) : Prop where
  given : GivenWith parse x.cwd x.dir (x.stem ++ ".yaml".toList) x.stamp fs x.settings x.cfg
  folder : x.cfg.preprocessed = some pre
  calendar : x.cfg.calendar = c
  raw : ∀ p, reads p → ¬ ConfigFolder x.cwd x.settings.folders p ∧ ¬ Below pre p
  room : RoomForPreprocessing x.cwd x.settings x.cfg x.dir pre x.stem x.stamp fs

/-- the file system after the commands, one after the other -/
def afterAll (acts : List (Act Unit)) (fs : FileSystem) : FileSystem := acts.foldl (fun fs a => after a fs) fs

/-- given one after the other, all commands end without an error -/
def AllEnd : List (Act Unit) → FileSystem → Prop
  | [], _ => True
  | a :: as, fs => (a fs).2 = .ok () ∧ AllEnd as (after a fs)

/-- the file of preprocessed data of the day of `t` -/
def preprocessedFile (pre : FPath) (c : Calendar) (t : ℤ) : FPath :=
  pre ++ [dayString (dateTimeOf c t).date ++ "_fluxes_storages.nc".toList]

/-- the times of `ts` on the day of `t` -/
def onDay (ts : List ℤ) (t : ℤ) : List ℤ := ts.filter fun s => decide (SameDay s t)

/-- The times `ps` are whole days of the times `ts`: on every day on which there are times of `ps`, they are the times of `ts` on that day. -/
def WholeDays (ps ts : List ℤ) : Prop := ∀ t ∈ ps, onDay ps t = onDay ts t

end Wam.Spec
