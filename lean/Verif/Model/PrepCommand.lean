import Verif.Model.Disk
import Verif.Model.Prep

/-!
# The experiment of the command `preprocess`

`prep_experiment`, `/repo/src/wam2layers/preprocessing/shared.py:88-132`, with `parallel_preprocess: false`, as an
`Experiment` of `Model/Disk`: every time of the period is written to the file of its day.
-/

namespace Wam

section
variable {α : Type}

/-- the bytes of a file of preprocessed data; `shw` is `to_netcdf`, preprocessing/shared.py:230-240 -/
def PrepFile.text (shw : DataFile α α → List Char) : PrepFile α α → List Char
  | .broken => []
  | .data f => shw f

/-- The loop of `preprocess` over the times of a day, preprocessing/shared.py:145-240: what is written, and how it ends.
`disk` is what has been written so far.  The first time of the day replaces the file, later ones append to it.
SIMPLIFICATION: what is appended to is the content that was written, not what the file system gives
back for it (`append_to_netcdf` opens the file again, xarray_append.py:31-44). -/
def daySavings (shw : DataFile α α → List Char) (compute : ℤ → Except Err (Dataset α α)) (c : Calendar) :
    (isNew : Bool) → List ℤ → PrepDisk α α → List Saving × (Option Err × PrepDisk α α)
  | _, [], disk => ([], (none, disk))
  | isNew, t :: ts, disk =>
    match prepContent compute c isNew t (disk (inputPath c t [])) with
    | .error e => ([], (some e, disk))
    | .ok f =>
      let r := daySavings shw compute c false ts (disk.put (inputPath c t []) (some f))
      (.day t (f.text shw) :: r.1, r.2)

/-- the loop over the days, preprocessing/shared.py:131-132 -/
def daysSavings (shw : DataFile α α → List Char) (compute : ℤ → Except Err (Dataset α α)) (c : Calendar) :
    List (List ℤ) → PrepDisk α α → List Saving × (Option Err × PrepDisk α α)
  | [], disk => ([], (none, disk))
  | ts :: days, disk =>
    match daySavings shw compute c true ts disk with
    | (ss, (some e, disk)) => (ss, (some e, disk))
    | (ss, (none, disk)) =>
      let r := daysSavings shw compute c days disk
      (ss ++ r.1, r.2)

/-- `prep_experiment(config_file, data_source)`, preprocessing/shared.py:88-132, called by the commands
`preprocess era5`, `preprocess cmip` and `preprocess arco-era5` (cli.py:162-223).  `compute` is what is computed for a time
(preprocessing/shared.py:146-218) from the files there are; `freq` is the setting `input_frequency`.
SIMPLIFICATION: without the warning of `validate_calendar_type` for CMIP data (C87), which changes nothing on disk. -/
def preprocessExperiment {ρ : Type} (shw : DataFile α α → List Char) (freq : ρ → ℤ)
    (compute : Loaded ρ → FileSystem → ℤ → Except Err (Dataset α α)) : Experiment ρ := fun cfg fs =>
  let r := daysSavings shw (compute cfg fs) cfg.calendar
    ((groupByDay cfg.calendar (inputDates (cfg.config.dates .preprocess_start_date)
      (cfg.config.dates .preprocess_end_date) (freq cfg.config.rest))).map Prod.snd) (fun _ => none)
  (r.1, r.2.1)

end

end Wam
