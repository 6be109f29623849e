import Verif.Model.PrepCommand
import Verif.Spec.Command
import Verif.Spec.Again
import Verif.Spec.Pipeline

/-!
# `preprocess` followed by `track`, on the file system
-/

namespace Wam.Spec

/-- A command is given with the configuration file `name` in folder `dir`: it holds the settings `s`, which are
loaded as `cfg`.  It is not the log file of the command. -/
structure GivenWith {ρ : Type} (parse : List Char → Except Err (FileSettings ρ)) (cwd dir : FPath)
    (name stamp : List Char) (fs : FileSystem) (s : FileSettings ρ) (cfg : Loaded ρ) : Prop where
  file : ∃ text, fs (dir ++ [name]) = some (.file text) ∧ parse text = .ok s
  loaded : LoadedFrom cwd s cfg
  log : name ≠ "wam2layers_".toList ++ stamp ++ ".log".toList

/-- The files `reads` are none of those that are made at the start of a command that writes to folder `F`: folders of the
configuration, log file, and copy of the configuration file. -/
def Untouched {ρ : Type} (cwd : FPath) (s : FileSettings ρ) (F : FPath) (stamp name : List Char) (reads : FPath → Prop) : Prop :=
  ∀ p, reads p → ¬ ConfigFolder cwd s.folders p ∧ ¬ Record F stamp name p

/-- The function looks only at the files of `reads`. -/
def LooksOnlyAt {β : Type} (f : FileSystem → β) (reads : FPath → Prop) : Prop :=
  ∀ fs₁ fs₂, (∀ p, reads p → fs₁ p = fs₂ p) → f fs₁ = f fs₂

/-- `f` is the content of the file of preprocessed data for the day of `t`: on the calendar of the configuration, all times `ts` of
that day in their order, with what is computed for them on the coordinates of the first of them -/
def HoldsDay {α : Type} (c : Calendar) (compute : ℤ → Except Err (Dataset α α)) (ts : List ℤ) (t : ℤ) (f : DataFile α α) : Prop :=
  f.calendar = c ∧ ∃ d0, (ts.filter fun s => decide (SameDay s t)).head?.map compute = some (.ok d0) ∧
    List.Forall₂ (fun s e => ∃ raw, compute s = .ok raw ∧
        e = (s, { raw with latitude := d0.latitude, longitude := d0.longitude }) ∧
        raw.latitude.length = d0.latitude.length ∧ raw.longitude.length = d0.longitude.length)
      (ts.filter fun s => decide (SameDay s t)) f.entries

/-- `track` finds what `preprocess` left: the same folder, calendar and frequency, and files that read back as what was
written to them -/
structure Follows {m n : ℕ} {α ρ : Type} (shw : DataFile α α → List Char) (lib : Library m n α) (freq : ρ → ℤ)
    (compute : ℤ → Except Err (Dataset α α)) (cfg₀ : Loaded ρ) (pre : FPath) (cfg : Loaded (TrackSettings α)) : Prop where
  folder₀ : cfg₀.preprocessed = some pre
  folder : cfg.preprocessed = some pre
  calendar : cfg.calendar = cfg₀.calendar
  frequency : cfg.config.rest.input_frequency = freq cfg₀.config.rest
  read : ∀ t ∈ inputDates (cfg₀.config.dates .preprocess_start_date) (cfg₀.config.dates .preprocess_end_date)
      (freq cfg₀.config.rest), ∀ f, HoldsDay cfg₀.calendar compute (inputDates (cfg₀.config.dates .preprocess_start_date)
        (cfg₀.config.dates .preprocess_end_date) (freq cfg₀.config.rest)) t f → lib.readData (shw f) = .ok f

/-- The output of forward tracking on disk: at every time at which it writes (every time step that ends at a multiple of the output
frequency, and the last one) there is a file with that time in its name, with an output of the run, in which
tracked water is non-negative and no more than the water there is, as are all fluxes, gains and losses. -/
def ForwardFiles {m n : ℕ} {α : Type} [Field α] [LinearOrder α] (lib : Library m n α)
    (cfg : Loaded (TrackSettings α)) (fs' : FileSystem) (inp : Input m n α) (files : List (ℤ × FwdOutput (m + 2) (n + 2) α)) : Prop :=
  let A := cfg.config.dates .tracking_start_date
  let dt := cfg.config.rest.timestep * 1000000
  let N := ((cfg.config.dates .tracking_end_date - A) / dt).toNat
  ∀ k : ℕ, 1 ≤ k → k ≤ N → (cfg.config.rest.output_frequency ∣ A + k * dt ∨ k = N) →
    ∃ o, (A + k * dt, o) ∈ files ∧ SoundFwd cfg.config.rest.periodic_boundary (inp.states (A + k * dt)) o ∧
      fs' (cfg.output ++ ["forwardtrack_".toList ++ minuteString (dateTimeOf cfg.calendar (A + k * dt)) ++ ".nc".toList]) =
        some (.file (lib.showFwd o))

/-- the same for backward tracking -/
def BackwardFiles {m n : ℕ} {α : Type} [Field α] [LinearOrder α] (lib : Library m n α)
    (cfg : Loaded (TrackSettings α)) (fs' : FileSystem) (inp : Input m n α) (files : List (ℤ × BwdOutput (m + 2) (n + 2) α)) : Prop :=
  let B := cfg.config.dates .tracking_end_date
  let dt := cfg.config.rest.timestep * 1000000
  let N := ((B - cfg.config.dates .tracking_start_date) / dt).toNat
  ∀ k : ℕ, 1 ≤ k → k ≤ N → (cfg.config.rest.output_frequency ∣ B - k * dt ∨ k = N) →
    ∃ o, (B - k * dt, o) ∈ files ∧ SoundBwd cfg.config.rest.periodic_boundary (inp.states (B - k * dt)) o ∧
      fs' (cfg.output ++ ["backtrack_".toList ++ minuteString (dateTimeOf cfg.calendar (B - k * dt)) ++ ".nc".toList]) =
        some (.file (lib.showBwd o))

/-- What forward tracking after preprocessing gives, for a user who finds the files in `fs'`: a run from the raw data as preprocessed
(`compute`, at input times of `[start, last]`; in between interpolated linearly) in the tracking domain, with the tagging region on
the same grid, which ends, and all whose output is on disk. -/
def ForwardResult {m n : ℕ} {α : Type} [Field α] [LinearOrder α] [NpTrig α] (lib : Library m n α) (compute : ℤ → Except Err (Dataset α α))
    (freq start last : ℤ) (cfg : Loaded (TrackSettings α)) (fs fs' : FileSystem) : Prop :=
  ∃ (inp : Input m n α) (lat lon : List α) (s' : LoopState (FwdOutput (m + 2) (n + 2) α) α),
    (∀ t, start ≤ t → t ≤ last → freq ∣ t → ∃ ds, compute t = .ok ds ∧
      CutTo cfg.config.rest.tracking_domain ds.latitude ds.longitude lat lon) ∧
    InputFrom compute freq start last cfg.config.rest.tracking_domain lat lon inp ∧
    (∀ t, ∀ (i : Fin (m + 2)) (j : Fin (n + 2)), RegionValue cfg.config.rest.tracking_domain (taggingOf lib cfg fs) lat lon t
      i j (inp.region t i j)) ∧
    AsConfigured cfg cfg.runConfig cfg.ioConfig ∧ Runnable cfg.runConfig (fwdSource lib cfg fs) inp ∧
    EndsIn (fwdRun cfg.runConfig (fwdSource lib cfg fs) (fun t => cfg.output ++ [outputName cfg.calendar false t])
      (restartFile lib.readFwd fs)) s' ∧
    ForwardFiles lib cfg fs' inp s'.files

/-- the same for backward tracking -/
def BackwardResult {m n : ℕ} {α : Type} [Field α] [LinearOrder α] [NpTrig α] (lib : Library m n α) (compute : ℤ → Except Err (Dataset α α))
    (freq start last : ℤ) (cfg : Loaded (TrackSettings α)) (fs fs' : FileSystem) : Prop :=
  ∃ (inp : Input m n α) (lat lon : List α) (s' : LoopState (BwdOutput (m + 2) (n + 2) α) α),
    (∀ t, start ≤ t → t ≤ last → freq ∣ t → ∃ ds, compute t = .ok ds ∧
      CutTo cfg.config.rest.tracking_domain ds.latitude ds.longitude lat lon) ∧
    InputFrom compute freq start last cfg.config.rest.tracking_domain lat lon inp ∧
    (∀ t, ∀ (i : Fin (m + 2)) (j : Fin (n + 2)), RegionValue cfg.config.rest.tracking_domain (taggingOf lib cfg fs) lat lon t
      i j (inp.region t i j)) ∧
    AsConfigured cfg cfg.runConfig cfg.ioConfig ∧ Runnable cfg.runConfig (bwdSource lib cfg fs) inp ∧
    EndsIn (bwdRun cfg.runConfig (bwdSource lib cfg fs) (fun t => cfg.output ++ [outputName cfg.calendar true t])
      (restartFile lib.readBwd fs)) s' ∧
    BackwardFiles lib cfg fs' inp s'.files

end Wam.Spec
