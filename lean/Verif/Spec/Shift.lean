import Verif.Spec.Mirror
import Verif.Model.Pipeline
import Verif.Spec.IO

/-! # Specification: all dates moved by the same amount of time -/

namespace Wam.Spec

variable {m n : ℕ} {α : Type*}

/-- all dates of a configuration moved by `δ` -/
def shiftConfig (δ : ℤ) (cfg : RunConfig α) : RunConfig α :=
  { cfg with
    tracking_start_date := cfg.tracking_start_date + δ
    tracking_end_date := cfg.tracking_end_date + δ
    tagging_start_date := cfg.tagging_start_date + δ
    tagging_end_date := cfg.tagging_end_date + δ }

/-- a moving region moved in time by `δ` -/
def shiftRegion (δ : ℤ) : Region m n α → Region m n α
  | .stationary mask => .stationary mask
  | .moving maskAt => .moving fun t => maskAt (t - δ)

/-- all data of a run moved in time by `δ`: what was at time `t` is at time `t + δ` -/
def shiftSource (δ : ℤ) (src : Source m n α) : Source m n α :=
  { src with
    states := fun t => src.states (t - δ)
    fluxes := fun t => src.fluxes (t - δ)
    region := src.region.map (shiftRegion δ) }

/-- a region file with all its times moved by `δ` -/
def shiftTagFile {κ β : Type} (δ : ℤ) (r : TagFile κ β) : TagFile κ β := { r with time := r.time.map (List.map (· + δ)) }

/-- a tagging region with all its times moved by `δ` -/
def shiftTag {κ β : Type} (δ : ℤ) : TaggingRegion κ β → TaggingRegion κ β
  | .box b => .box b
  | .file content => .file (content.map (shiftTagFile δ))

/-- a preprocessed file with all its times moved by `δ`, in another calendar -/
def shiftFile {κ β : Type} (δ : ℤ) (c : Calendar) (f : DataFile κ β) : DataFile κ β :=
  ⟨c, f.entries.map fun e => (e.1 + δ, e.2)⟩

/-- The files that `io'` has for the days from `lo + δ` to `hi + δ` are those that `io` has for the days from `lo` to `hi`, with
all times moved by `δ` (in any calendar and any folder; years have four digits). -/
structure MovedArchive {κ β : Type} (δ lo hi : ℤ) (io io' : IOConfig κ) (files files' : List Char → Except Err (DataFile κ β)) :
    Prop where
  input_frequency : io'.input_frequency = io.input_frequency
  tracking_domain : io'.tracking_domain = io.tracking_domain
  moved : ∀ s, lo ≤ s → s ≤ hi → files' (inputPath io'.calendar (s + δ) io'.preprocessed_data_folder) =
    (files (inputPath io.calendar s io.preprocessed_data_folder)).map (shiftFile δ io'.calendar)
  calendar : ∀ s f, lo ≤ s → s ≤ hi → files (inputPath io.calendar s io.preprocessed_data_folder) = .ok f → f.calendar = io.calendar
  years : ∀ s, lo ≤ s → s ≤ hi → FourDigitYear io.calendar s ∧ FourDigitYear io'.calendar (s + δ)
  entries : ∀ s f, lo ≤ s → s ≤ hi → files (inputPath io.calendar s io.preprocessed_data_folder) = .ok f →
    ∀ e ∈ f.entries, FourDigitYear io.calendar e.1 ∧ FourDigitYear io'.calendar (e.1 + δ)

/-- the same item loaded `δ` later -/
def shiftLoad (δ : ℤ) : Load → Load
  | .states t => .states (t + δ)
  | .fluxes t => .fluxes (t + δ)
  | .region t => .region (t + δ)

/-- The second run is where the first run is, with all times later by `δ`. -/
structure ShiftedBy {ω : Type*} (δ : ℤ) (s s' : LoopState ω α) : Prop where
  t0 : s'.t0 = s.t0 + δ
  th : s'.th = s.th + δ
  t1 : s'.t1 = s.t1 + δ
  output : s'.output = s.output
  tracker : s'.tracker = s.tracker
  loads : s'.loads = s.loads.map (shiftLoad δ)
  files : s'.files = s.files.map fun x => (x.1 + δ, x.2)
  reports : s'.reports = s.reports.map fun x => (x.1 + δ, x.2)

end Wam.Spec
