import Verif.Model.Core

/-!
# Stability warnings: `ProgressTracker.track_stability_correction`

`/repo/src/wam2layers/utils/profiling.py:42-44,127-180` and its two calls per time step in
`/repo/src/wam2layers/tracking/core.py:138-154`.

Every call sees the field of corrected meridional fluxes `fy_stable` and the uncorrected
`fy_abs` of one layer.  SIMPLIFICATION: the log text and the contents of the debug file are
left out; what is kept is whether a warning is issued (then a debug file is written as well), by
which of the two criteria, and the stored thresholds.
-/

namespace Wam

variable {m n : ℕ} {α : Type*}

/-- The thresholds kept by the tracker, profiling.py:43-44 -/
structure WarnState (α : Type*) where
  previous_grid : α
  previous_factor : α

/-- Which criterion caused the warning: `factor` (profiling.py:149-151), `area`
(profiling.py:153-158) -/
inductive WarnKind where
  | factor
  | area
  deriving DecidableEq, Repr

section
variable [Add α] [Mul α] [Div α] [NpOps α]

/-- initial thresholds 0.0 and 1.0, profiling.py:43-44 -/
def WarnState.start : WarnState α := ⟨ofRat 0, ofRat 1⟩

/-- all values of a field, row by row, profiling.py:143-146 -/
def Arr.toList {β : Type*} (f : Arr m n β) : List β :=
  (List.finRange m).flatMap fun i => (List.finRange n).map fun j => f i j

/-- `DataArray.min()` of a float field: the minimum of the values that are not NaN, NaN (written
`0/0`) if there are none (numpy `nanmin`), profiling.py:146 -/
def npNanMin (f : Arr m n α) : α :=
  match (Arr.toList f).filter (fun x => !NpOps.isnan x) with
  | [] => ofRat 0 / ofRat 0
  | x :: xs => xs.foldl minimum x

/-- `corrected_area.sum() / corrected_area.count() * 100` with
`corrected_area = fy_corrected < fy_abs`, profiling.py:143-144.  `count` counts the booleans that
are not NaN, i.e. all of them. -/
def correctedPercent (fy_corrected fy_abs : Arr m n α) : α :=
  let corrected_area := Arr.toList fun i j => NpOps.lt (fy_corrected i j) (fy_abs i j)
  ofRat (corrected_area.count true) / ofRat corrected_area.length * ofRat 100

/-- `track_stability_correction(fy_corrected, fy_abs, ...)`, profiling.py:143-158: new thresholds
and the warning issued, if any.  `x / 1.1` and `x * 1.1` use the literal `11/10`. -/
def trackStabilityCorrection (st : WarnState α) (fy_corrected fy_abs : Arr m n α) :
    WarnState α × Option WarnKind :=
  let corrected_percent := correctedPercent fy_corrected fy_abs
  let strongest_correction := npNanMin fun i j => fy_corrected i j / fy_abs i j
  if NpOps.lt strongest_correction (st.previous_factor / ofRat (11 / 10)) then
    ({ st with previous_factor := strongest_correction }, some .factor)
  else if NpOps.lt (ofRat 5) corrected_percent &&
      NpOps.lt (st.previous_grid * ofRat (11 / 10)) corrected_percent then
    ({ st with previous_grid := corrected_percent }, some .area)
  else (st, none)

/-- `fy_stable` at one cell before the sign is put back, core.py:139-152 -/
def fyStable (dt a s fx fy : α) : α :=
  let fx' := fx * dt
  let fy' := fy * dt
  let sa := s * a
  let ft_abs := absolute fx' + absolute fy'
  minimum (absolute fy') (ofRat 1 / ofRat 2 * absolute fy' / ft_abs * sa)

/-- One layer of one time step: storage and fluxes of the layer, core.py:138-154 -/
structure Layer (m n : ℕ) (α : Type*) where
  s : Arr m n α
  fx : Arr m n α
  fy : Arr m n α

/-- The call of the tracker for one layer inside `stabilize_fluxes`, core.py:138-154 -/
def warnLayer (dt : α) (a : Fin m → α) (st : WarnState α) (l : Layer m n α) :
    WarnState α × Option WarnKind :=
  trackStabilityCorrection st
    (fun i j => fyStable dt (a i) (l.s i j) (l.fx i j) (l.fy i j))
    (fun i j => absolute (l.fy i j * dt))

/-- The two layers of `stabilize_fluxes(F, S, ...)` in the order of the loop, core.py:138 -/
def stepLayers (F : Fluxes m n α) (S : States m n α) : List (Layer m n α) :=
  [⟨S.s_upper, F.fx_upper, F.fy_upper⟩, ⟨S.s_lower, F.fx_lower, F.fy_lower⟩]

/-- Any number of calls in sequence: final thresholds and the warnings in order,
profiling.py:127-158 -/
def warnAll (dt : α) (a : Fin m → α) :
    WarnState α → List (Layer m n α) → WarnState α × List WarnKind
  | st, [] => (st, [])
  | st, l :: ls =>
    let (st', w) := warnLayer dt a st l
    let (st'', ws) := warnAll dt a st' ls
    (st'', w.toList ++ ws)

/-- The warnings of a whole run whose time steps use the (scaled) fluxes `F` and storages `S`:
`stabilize_fluxes` is called once per step with the one tracker of the run,
forwardtrack.py:201-202, backtrack.py:193-194 -/
def runWarnings (dt : α) (a : Fin m → α) (steps : List (Fluxes m n α × States m n α)) :
    List WarnKind :=
  (warnAll dt a WarnState.start (steps.flatMap fun p => stepLayers p.1 p.2)).2

end

end Wam
