import Verif.Model.Command

/-!
# Which files tracking looks at
-/

namespace Wam.Spec

variable {α : Type}

/-- The input of a tracking run: preprocessed files; the file of the tagging region; for a shapefile also one of
the `.nc` files in the preprocessed folder, for its coordinates; for a restart the output file of the time
at which the run starts. -/
inductive TrackInput (cfg : Loaded (TrackSettings α)) : FPath → Prop
  | data (pre : FPath) (t : ℤ) (h : cfg.preprocessed = some pre) : TrackInput cfg
      (pre ++ [dayString (dateTimeOf cfg.calendar t).date ++ "_fluxes_storages.nc".toList])
  | tag (p : FPath) (h : cfg.config.rest.tagging_region = .file p) : TrackInput cfg p
  | shape (p : FPath) (h : cfg.config.rest.tagging_region = .shape p) : TrackInput cfg p
  | axes (pre p : FPath) (name : List Char) (hp : cfg.preprocessed = some pre)
      (h : cfg.config.rest.tagging_region = .shape p) : TrackInput cfg (pre ++ [name ++ ".nc".toList])
  | forward (h : cfg.config.rest.restart = true) (hb : cfg.config.rest.backward = false) : TrackInput cfg
      (cfg.output ++ ["forwardtrack_".toList ++
        minuteString (dateTimeOf cfg.calendar (cfg.config.dates .tracking_start_date)) ++ ".nc".toList])
  | backward (h : cfg.config.rest.restart = true) (hb : cfg.config.rest.backward = true) : TrackInput cfg
      (cfg.output ++ ["backtrack_".toList ++
        minuteString (dateTimeOf cfg.calendar (cfg.config.dates .tracking_end_date)) ++ ".nc".toList])

/-- the times and contents of the output files among what is written -/
def outputs : List Saving → List (ℤ × List Char)
  | [] => []
  | .output t x :: ss => (t, x) :: outputs ss
  | _ :: ss => outputs ss

/-- The experiment `r` writes the output files of the run, and nothing else as output, and ends as the run does: normally, or
with the same exception. -/
def EndsLike {ω : Type} (shw : ω → List Char) : Outcome (LoopState ω α) → List Saving × Option Err → Prop
  | .finished s, r => outputs r.1 = s.files.map (fun x => (x.1, shw x.2)) ∧ r.2 = none
  | .raised e s, r => outputs r.1 = s.files.map (fun x => (x.1, shw x.2)) ∧ r.2 = some e
  | .stillRunning s, r => outputs r.1 = s.files.map (fun x => (x.1, shw x.2)) ∧ r.2 ≠ none

/-- `run` and `io`, the settings of a run and of the reading of its data, are what the configuration file says -/
structure AsConfigured (cfg : Loaded (TrackSettings α)) (run : RunConfig α) (io : IOConfig α) : Prop where
  tracking_start : run.tracking_start_date = cfg.config.dates .tracking_start_date
  tracking_end : run.tracking_end_date = cfg.config.dates .tracking_end_date
  tagging_start : run.tagging_start_date = cfg.config.dates .tagging_start_date
  tagging_end : run.tagging_end_date = cfg.config.dates .tagging_end_date
  timestep : run.timestep = cfg.config.rest.timestep
  output_frequency : run.output_frequency = cfg.config.rest.output_frequency
  kvf : run.kvf = cfg.config.rest.kvf
  periodic_boundary : run.periodic_boundary = cfg.config.rest.periodic_boundary
  restart : run.restart = cfg.config.rest.restart
  calendar : io.calendar = cfg.calendar
  tracking_domain : io.tracking_domain = cfg.config.rest.tracking_domain
  input_frequency : io.input_frequency = cfg.config.rest.input_frequency

/-- `tag` is the tagging region of the configuration file: its box; what its file holds; or the mask of its shapefile, on the axes of
a `.nc` file of the preprocessed folder -/
def TaggingRead {m n : ℕ} (lib : Library m n α) (cfg : Loaded (TrackSettings α)) (fs : FileSystem) (tag : TaggingRegion α α) : Prop :=
  match cfg.config.rest.tagging_region with
  | .box box => tag = .box box
  | .file p => ∀ text, fs p = some (.file text) → tag = .file (lib.readTag text)
  | .shape p => ∀ shapes pre, fs p = some (.file shapes) → cfg.preprocessed = some pre →
      (∃ name, fs (pre ++ [name ++ ".nc".toList]) ≠ none) → (∀ name, fs (pre ++ [name ++ ".nc".toList]) ≠ some .dir) →
      ∃ name data, fs (pre ++ [name ++ ".nc".toList]) = some (.file data) ∧ tag = .file (lib.mask shapes data)

end Wam.Spec
