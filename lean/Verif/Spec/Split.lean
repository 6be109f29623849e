import Verif.Spec.Works

/-!
# A tracking run in two commands
-/

namespace Wam.Spec

variable {α : Type}

/-- how `track` is called: current directory, configuration file `dir/stem.yaml` with these settings in it, time stamp of the log file -/
structure TrackCall (α : Type) where
  cwd : FPath
  dir : FPath
  stem : List Char
  stamp : List Char
  settings : FileSettings (TrackSettings α)

/-- the configuration with `tracking_end_date: B` -/
def endingAt (B : ℤ) (cfg : Loaded (TrackSettings α)) : Loaded (TrackSettings α) :=
  { cfg with config := { cfg.config with dates := fun f => if f = .tracking_end_date then B else cfg.config.dates f } }

/-- the configuration with `tracking_start_date: B` -/
def startingAt (B : ℤ) (cfg : Loaded (TrackSettings α)) : Loaded (TrackSettings α) :=
  { cfg with config := { cfg.config with dates := fun f => if f = .tracking_start_date then B else cfg.config.dates f } }

/-- the configuration with `restart: b` -/
def withRestart (b : Bool) (cfg : Loaded (TrackSettings α)) : Loaded (TrackSettings α) :=
  { cfg with config := { cfg.config with rest := { cfg.config.rest with restart := b } } }

/-- Everything is ready for the command: its configuration file, with settings that load as `cfg`, and room for what it writes. -/
structure TrackCall.Ready (parse : List Char → Except Err (FileSettings (TrackSettings α))) (c : TrackCall α) (fs : FileSystem)
    (cfg : Loaded (TrackSettings α)) : Prop where
  given : GivenWith parse c.cwd c.dir (c.stem ++ ".yaml".toList) c.stamp fs c.settings cfg
  input : Untouched c.cwd c.settings cfg.output c.stamp (c.stem ++ ".yaml".toList) (TrackInput cfg)
  room : RoomForTracking c.cwd c.settings cfg c.dir c.stem c.stamp fs

section
variable {m n : ℕ} [Add α] [Sub α] [Mul α] [Div α] [Neg α] [NpOps α] [LinearOrder α] [NpTrig α]

/-- the command -/
def TrackCall.act (lib : Library m n α) (parse : List Char → Except Err (FileSettings (TrackSettings α)))
    (c : TrackCall α) : Act Unit :=
  command parse c.cwd (c.dir ++ [c.stem ++ ".yaml".toList]) c.stamp (fun r => r.backward) (fun cfg => some cfg.output)
    (trackExperiment lib)

/-- The command, given in `fs`, finds its configuration file, with settings that load as `cfg`; its input is none of the files that are made
in the beginning (folders, log, copy of the configuration); and it ends normally. -/
structure TrackCall.Works (lib : Library m n α) (parse : List Char → Except Err (FileSettings (TrackSettings α)))
    (c : TrackCall α) (fs : FileSystem) (cfg : Loaded (TrackSettings α)) : Prop where
  given : GivenWith parse c.cwd c.dir (c.stem ++ ".yaml".toList) c.stamp fs c.settings cfg
  input : Untouched c.cwd c.settings cfg.output c.stamp (c.stem ++ ".yaml".toList) (TrackInput cfg)
  ends : (c.act lib parse fs).2 = .ok ()

end

/-- the states at both times are on the same axes -/
def SameAxes {m n : ℕ} [Add α] [Sub α] [Mul α] [Div α] [LinearOrder α] [NpOps α] (lib : Library m n α)
    (cfg : Loaded (TrackSettings α)) (fs : FileSystem) (t u : ℤ) : Prop :=
  ∃ d e, loadData (dataFiles lib cfg fs) cfg.ioConfig t .states = .ok d ∧
    loadData (dataFiles lib cfg fs) cfg.ioConfig u .states = .ok e ∧ d.latitude = e.latitude ∧ d.longitude = e.longitude

/-- the times at which forward tracking writes output: time steps that end at a multiple of the output frequency, and the last one -/
def ForwardOutputTime (cfg : Loaded (TrackSettings α)) (t : ℤ) : Prop :=
  let A := cfg.config.dates .tracking_start_date
  let dt := cfg.config.rest.timestep * 1000000
  let N := ((cfg.config.dates .tracking_end_date - A) / dt).toNat
  ∃ k : ℕ, 1 ≤ k ∧ k ≤ N ∧ t = A + k * dt ∧ (cfg.config.rest.output_frequency ∣ t ∨ k = N)

/-- the same for backward tracking, which begins at the end -/
def BackwardOutputTime (cfg : Loaded (TrackSettings α)) (t : ℤ) : Prop :=
  let B := cfg.config.dates .tracking_end_date
  let dt := cfg.config.rest.timestep * 1000000
  let N := ((B - cfg.config.dates .tracking_start_date) / dt).toNat
  ∃ k : ℕ, 1 ≤ k ∧ k ≤ N ∧ t = B - k * dt ∧ (cfg.config.rest.output_frequency ∣ t ∨ k = N)

/-- the output file of time `t` -/
def forwardFile (cfg : Loaded (TrackSettings α)) (t : ℤ) : FPath :=
  cfg.output ++ ["forwardtrack_".toList ++ minuteString (dateTimeOf cfg.calendar t) ++ ".nc".toList]

def backwardFile (cfg : Loaded (TrackSettings α)) (t : ℤ) : FPath :=
  cfg.output ++ ["backtrack_".toList ++ minuteString (dateTimeOf cfg.calendar t) ++ ".nc".toList]

end Wam.Spec
