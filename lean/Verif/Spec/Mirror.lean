import Verif.Spec.Run

/-! # Specification: mirror images

`Mirror` says which way the map is turned over: east-west, north-south or both.  Row 0 is the northernmost row, column 0 the
westernmost column; `fx` is positive eastward, `fy` positive northward. -/

namespace Wam.Spec

variable {m n : ℕ} {α β : Type*}

/-- which way the map is turned over -/
structure Mirror where
  /-- east and west exchanged -/
  eastWest : Bool
  /-- north and south exchanged -/
  northSouth : Bool

namespace Mirror
variable (μ : Mirror)

/-- the row that takes the place of row `i` -/
def row (i : Fin m) : Fin m := if μ.northSouth then i.rev else i
/-- the column that takes the place of column `j` -/
def col (j : Fin n) : Fin n := if μ.eastWest then j.rev else j

/-- mirror image of a field -/
def field (f : Arr m n β) : Arr m n β := fun i j => f (μ.row i) (μ.col j)

/-- mirror image of an eastward flux: turned over east-west it is a westward flux -/
def eastward [Neg α] (f : Arr m n α) : Arr m n α := fun i j =>
  if μ.eastWest then -f (μ.row i) (μ.col j) else f (μ.row i) (μ.col j)

/-- mirror image of a northward flux: turned over north-south it is a southward flux -/
def northward [Neg α] (f : Arr m n α) : Arr m n α := fun i j =>
  if μ.northSouth then -f (μ.row i) (μ.col j) else f (μ.row i) (μ.col j)

/-- mirror image of the storages -/
def states (S : States m n α) : States m n α := ⟨μ.field S.s_upper, μ.field S.s_lower⟩

/-- mirror image of the fluxes -/
def fluxes [Neg α] (F : Fluxes m n α) : Fluxes m n α :=
  ⟨μ.eastward F.fx_upper, μ.northward F.fy_upper, μ.eastward F.fx_lower, μ.northward F.fy_lower, μ.field F.evap,
    μ.field F.precip⟩

/-- mirror image of the areas and lengths of the cells -/
def grid (g : GridInfo m α) : GridInfo m α := ⟨fun i => g.a (μ.row i), g.dy, fun i => g.dx (μ.row i)⟩

/-- mirror image of the tagging region -/
def region : Region m n α → Region m n α
  | .stationary mask => .stationary (μ.field mask)
  | .moving maskAt => .moving fun t => (maskAt t).map μ.field

/-- mirror image of all data of a run -/
def source [Neg α] (src : Source m n α) : Source m n α where
  states := fun t => (src.states t).map μ.states
  fluxes := fun t => (src.fluxes t).map μ.fluxes
  grid := μ.grid src.grid
  region := src.region.map μ.region
  weight := fun i => src.weight (μ.row i)

/-- mirror image of an output file -/
def fwd (o : FwdOutput m n α) : FwdOutput m n α :=
  ⟨μ.field o.s_track_upper, μ.field o.s_track_lower, μ.field o.p_track_upper, μ.field o.p_track_lower,
    μ.field o.tagged_evap, μ.field o.losses, μ.field o.gains⟩

/-- mirror image of an output file -/
def bwd (o : BwdOutput m n α) : BwdOutput m n α :=
  ⟨μ.field o.s_track_upper, μ.field o.s_track_lower, μ.field o.e_track, μ.field o.tagged_precip, μ.field o.losses,
    μ.field o.gains⟩

end Mirror

/-- Two runs end in the same way: both normally, both with the same error or both not yet, in states that correspond -/
inductive Corresponds {σ τ : Type*} (R : σ → τ → Prop) : Outcome σ → Outcome τ → Prop
  | finished {s t} : R s t → Corresponds R (.finished s) (.finished t)
  | raised {e s t} : R s t → Corresponds R (.raised e s) (.raised e t)
  | stillRunning {s t} : R s t → Corresponds R (.stillRunning s) (.stillRunning t)

/-- The second run is at the same time, has loaded the same data and written files for the same times, and its files and
output fields are those of the first run changed by `T`. -/
structure ChangedBy {ω ω' α' : Type*} (T : ω → ω') (s : LoopState ω α) (s' : LoopState ω' α') : Prop where
  t0 : s'.t0 = s.t0
  th : s'.th = s.th
  t1 : s'.t1 = s.t1
  output : s'.output = T s.output
  loads : s'.loads = s.loads
  files : s'.files = s.files.map fun x => (x.1, T x.2)

end Wam.Spec
