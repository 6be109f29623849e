import Verif.Model.Run
import Verif.Spec.Step
import Mathlib.Algebra.BigOperators.Fin

/-! # Specification of a whole run

What the input files say (`Input`), when a data source delivers them (`Serves`), and the number of time
steps of a run. -/

namespace Wam.Spec

variable {m n : ℕ} {K : Type*}

/-- The weather data and the tagging region as functions of time -/
structure Input (m n : ℕ) (K : Type*) where
  states : ℤ → States (m + 2) (n + 2) K
  fluxes : ℤ → Fluxes (m + 2) (n + 2) K
  region : ℤ → Arr (m + 2) (n + 2) K

/-- what a region says at time `t` -/
def regionAt : Region (m + 2) (n + 2) K → ℤ → Except Err (Arr (m + 2) (n + 2) K)
  | .stationary mask, _ => .ok mask
  | .moving maskAt, t => maskAt t

/-- The source delivers the input at all times in `[A, B]` -/
structure Serves (src : Source m n K) (inp : Input m n K) (A B : ℤ) : Prop where
  states : ∀ t, A ≤ t → t ≤ B → src.states t = .ok (inp.states t)
  fluxes : ∀ t, A ≤ t → t ≤ B → src.fluxes t = .ok (inp.fluxes t)
  region : ∃ r, src.region = .ok r ∧ ∀ t, A ≤ t → t ≤ B → regionAt r t = .ok (inp.region t)

/-- number of whole time steps of `dt` that fit into `[A, B]` -/
def stepCount (A B dt : ℤ) : ℕ := ((B - A) / dt).toNat

/-- Is time `t` inside the (closed) tagging window? -/
def inWindow (cfg : RunConfig K) (t : ℤ) : Prop :=
  cfg.tagging_start_date ≤ t ∧ t ≤ cfg.tagging_end_date

instance (cfg : RunConfig K) (t : ℤ) : Decidable (inWindow cfg t) :=
  inferInstanceAs (Decidable (_ ∧ _))

/-- Times at which a run with `N` steps writes: `time k` (`1 ≤ k ≤ N`) is a multiple of the output
frequency `u`, or `k = N`. -/
def writes (time : ℕ → ℤ) (u : ℤ) (N k : ℕ) : Prop := u ∣ time k ∨ k = N

instance (time : ℕ → ℤ) (u : ℤ) (N k : ℕ) : Decidable (writes time u N k) :=
  inferInstanceAs (Decidable (_ ∨ _))

/-- a configuration a user can run: positive time step, ordered dates, and data for the whole tracking
period -/
structure Runnable (cfg : RunConfig K) (src : Source m n K) (inp : Input m n K) : Prop where
  timestep_pos : 0 < cfg.timestep
  ordered : cfg.tracking_start_date ≤ cfg.tracking_end_date
  serves : Serves src inp cfg.tracking_start_date cfg.tracking_end_date

/-- The run ends normally with final state (and log) `s` -/
def EndsIn {σ : Type*} (run : ℕ → Outcome σ) (s : σ) : Prop :=
  ∃ N, ∀ fuel, N ≤ fuel → run fuel = .finished s

/-- The run never ends -/
def NeverEnds {σ : Type*} (run : ℕ → Outcome σ) : Prop :=
  ∀ fuel, ∃ s, run fuel = .stillRunning s

/-- meteorological data that make sense at all times in `[A, B]`: both layers hold water, precipitation
and evaporation are not negative, region masks are not negative -/
structure Physical [Zero K] [LT K] [LE K] (inp : Input m n K) (A B : ℤ) : Prop where
  wet : ∀ t, A ≤ t → t ≤ B → ∀ i j, 0 < (inp.states t).s_upper i j ∧ 0 < (inp.states t).s_lower i j
  precip : ∀ t, A ≤ t → t ≤ B → ∀ i j, 0 ≤ (inp.fluxes t).precip i j
  evap : ∀ t, A ≤ t → t ≤ B → ∀ i j, 0 ≤ (inp.fluxes t).evap i j
  region : ∀ t, A ≤ t → t ≤ B → ∀ i j, 0 ≤ inp.region t i j

/-- area-weighted total of a field -/
def total [AddCommMonoid K] [Mul K] (a : Fin (m + 2) → K) (f : Arr (m + 2) (n + 2) K) : K :=
  ∑ i, ∑ j, a i * f i j

/-- sum of a quantity over all files -/
def sumFiles {ω M : Type*} [AddCommMonoid M] (files : List (ℤ × ω)) (q : ω → M) : M :=
  (files.map fun x => q x.2).sum

/-- tracked storage (lower, upper) a forward run starts with: zero, or that of the restart file -/
def startFwd {P : Type*} [Zero K] (cfg : RunConfig K) (path : ℤ → P)
    (disk : P → Option (FwdOutput (m + 2) (n + 2) K)) :
    Arr (m + 2) (n + 2) K × Arr (m + 2) (n + 2) K :=
  match cfg.restart, disk (path cfg.tracking_start_date) with
  | true, some f => (f.s_track_lower, f.s_track_upper)
  | _, _ => (fun _ _ => 0, fun _ _ => 0)

/-- tracked storage (lower, upper) a backward run starts with: zero, or that of the restart file -/
def startBwd {P : Type*} [Zero K] (cfg : RunConfig K) (path : ℤ → P)
    (disk : P → Option (BwdOutput (m + 2) (n + 2) K)) :
    Arr (m + 2) (n + 2) K × Arr (m + 2) (n + 2) K :=
  match cfg.restart, disk (path cfg.tracking_end_date) with
  | true, some f => (f.s_track_lower, f.s_track_upper)
  | _, _ => (fun _ _ => 0, fun _ _ => 0)

/-- what C26 claims of one forward file with storages `S` at its time -/
structure SoundFwd [Zero K] [LE K] (periodic : Bool) (S : States (m + 2) (n + 2) K)
    (f : FwdOutput (m + 2) (n + 2) K) : Prop where
  lower : ∀ i j, 0 ≤ f.s_track_lower i j ∧ f.s_track_lower i j ≤ S.s_lower i j
  upper : ∀ i j, 0 ≤ f.s_track_upper i j ∧ f.s_track_upper i j ≤ S.s_upper i j
  boundary : ∀ i j, isBoundary periodic i j → f.s_track_lower i j = 0 ∧ f.s_track_upper i j = 0
  tagged : ∀ i j, 0 ≤ f.tagged_evap i j
  tracked : ∀ i j, 0 ≤ f.p_track_lower i j ∧ 0 ≤ f.p_track_upper i j
  gains : ∀ i j, 0 ≤ f.gains i j
  losses : ∀ i j, ¬ isBoundary periodic i j → 0 ≤ f.losses i j

/-- what C26 claims of one backward file with storages `S` at its time -/
structure SoundBwd [Zero K] [LE K] (periodic : Bool) (S : States (m + 2) (n + 2) K)
    (f : BwdOutput (m + 2) (n + 2) K) : Prop where
  lower : ∀ i j, 0 ≤ f.s_track_lower i j ∧ f.s_track_lower i j ≤ S.s_lower i j
  upper : ∀ i j, 0 ≤ f.s_track_upper i j ∧ f.s_track_upper i j ≤ S.s_upper i j
  boundary : ∀ i j, isBoundary periodic i j → f.s_track_lower i j = 0 ∧ f.s_track_upper i j = 0
  tagged : ∀ i j, 0 ≤ f.tagged_precip i j
  tracked : ∀ i j, 0 ≤ f.e_track i j
  gains : ∀ i j, 0 ≤ f.gains i j
  losses : ∀ i j, ¬ isBoundary periodic i j → 0 ≤ f.losses i j

/-- loads of weather data (everything except the tagging region) -/
def isWeather : Load → Bool
  | .region _ => false
  | _ => true

end Wam.Spec
