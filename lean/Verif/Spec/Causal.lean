import Verif.Model.Run

/-! # Specification: data that agree during a period -/

namespace Wam.Spec

variable {m n : ℕ} {α : Type*}

/-- the same tagging region (or the same error) at all times from `lo` to `hi` -/
inductive SameRegionOn (lo hi : ℤ) : Except Err (Region m n α) → Except Err (Region m n α) → Prop
  | error (e : Err) : SameRegionOn lo hi (.error e) (.error e)
  | stationary (mask : Arr m n α) : SameRegionOn lo hi (.ok (.stationary mask)) (.ok (.stationary mask))
  | moving (f g : ℤ → Except Err (Arr m n α)) (h : ∀ t, lo ≤ t → t ≤ hi → g t = f t) :
      SameRegionOn lo hi (.ok (.moving f)) (.ok (.moving g))

/-- Two sources of data on one grid give the same data, or fail in the same way, at all times from `lo` to `hi`. -/
structure AgreeOn (lo hi : ℤ) (src src' : Source m n α) : Prop where
  states : ∀ t, lo ≤ t → t ≤ hi → src'.states t = src.states t
  fluxes : ∀ t, lo ≤ t → t ≤ hi → src'.fluxes t = src.fluxes t
  region : SameRegionOn lo hi src.region src'.region
  grid : src'.grid = src.grid
  weight : src'.weight = src.weight

/-- Two configurations that are the same for times from `lo` to `hi`; they may end (or, for a backward run, start) at different
times and tag at different times outside that period. -/
structure SameSettingsOn (lo hi : ℤ) (cfg cfg' : RunConfig α) : Prop where
  timestep : cfg'.timestep = cfg.timestep
  output_frequency : cfg'.output_frequency = cfg.output_frequency
  kvf : cfg'.kvf = cfg.kvf
  periodic_boundary : cfg'.periodic_boundary = cfg.periodic_boundary
  restart : cfg'.restart = cfg.restart
  tagging : ∀ t, lo ≤ t → t ≤ hi → ((cfg'.tagging_start_date ≤ t ∧ t ≤ cfg'.tagging_end_date) ↔
    (cfg.tagging_start_date ≤ t ∧ t ≤ cfg.tagging_end_date))

/-- the state at the end of a run, whichever way it ended -/
def lastState {σ : Type*} : Outcome σ → σ
  | .finished s => s
  | .raised _ s => s
  | .stillRunning s => s

/-- what is dated at `T` or before -/
def upTo {β : Type*} (T : ℤ) (l : List (ℤ × β)) : List (ℤ × β) := l.filter fun x => decide (x.1 ≤ T)

/-- what is dated at `T` or after -/
def since {β : Type*} (T : ℤ) (l : List (ℤ × β)) : List (ℤ × β) := l.filter fun x => decide (T ≤ x.1)

end Wam.Spec
