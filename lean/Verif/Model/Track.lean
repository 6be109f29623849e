import Verif.Model.Core

/-!
# One tracking step: `forwardtrack` and `backtrack`

`/repo/src/wam2layers/tracking/forwardtrack.py:30-116` and
`/repo/src/wam2layers/tracking/backtrack.py:30-114`.

The Python functions mutate the dataset `output`; the model returns the new value.  The in-place
`s_track_lower += ...` (forwardtrack.py:62, backtrack.py:61) mutates the array that `output` holds,
but all later terms are computed from `s_track_relative_*`, which were computed before, and
`output["s_track_*_restart"].values` is overwritten at the end, so no intermediate value is
observable.  `xr.where` and `np.where` are modelled by `if`.
-/

namespace Wam

variable {m n : ℕ} {α : Type*}

/-- The dataset `output` of a forward run, forwardtrack.py:128-138 -/
structure FwdOutput (m n : ℕ) (α : Type*) where
  s_track_upper : Arr m n α
  s_track_lower : Arr m n α
  p_track_upper : Arr m n α
  p_track_lower : Arr m n α
  tagged_evap : Arr m n α
  losses : Arr m n α
  gains : Arr m n α

/-- The dataset `output` of a backward run, backtrack.py:126-136 -/
structure BwdOutput (m n : ℕ) (α : Type*) where
  s_track_upper : Arr m n α
  s_track_lower : Arr m n α
  e_track : Arr m n α
  tagged_precip : Arr m n α
  losses : Arr m n α
  gains : Arr m n α

section
variable [Div α] [NpOps α]

/-- `np.minimum(s_track / s, 1.0)`, forwardtrack.py:57-58, backtrack.py:55-56 (one cell) -/
def relStorage (s_track s : α) : α := minimum (s_track / s) (ofRat 1)

end

/-- Result of the bookkeeping after the transport, per cell,
forwardtrack.py:109-116, backtrack.py:108-114 -/
structure Settled (α : Type*) where
  lower : α
  upper : α
  losses : α
  gains : α

section
variable [Add α] [Sub α] [Neg α] [NpOps α]

/-- Bookkeeping at one cell after the transport: forwardtrack.py:83-107 (with `Sl`, `Su` from `S1`)
and backtrack.py:82-106 (with `Sl`, `Su` from `S0`).  `bnd` is the boundary mask, `tl`, `tu` the
tracked storages after adding the tendencies. -/
def settle (bnd : Bool) (tl tu Sl Su : α) : Settled α :=
  -- Remove boundary transport from s_track and bookkeep losses
  let losses := if bnd then tu + tl else ofRat 0
  let tu := if bnd then ofRat 0 else tu
  let tl := if bnd then ofRat 0 else tl
  -- redistribute unaccounted water that is otherwise lost from the system
  let overshoot_lower := maximum (ofRat 0) (tl - Sl)
  let overshoot_upper := maximum (ofRat 0) (tu - Su)
  let tl := tl - overshoot_lower + overshoot_upper
  let tu := tu - overshoot_upper + overshoot_lower
  -- account for negative storages that are set to zero
  let gains_lower := if NpOps.lt tl (ofRat 0) then -tl else ofRat 0
  let gains_upper := if NpOps.lt tu (ofRat 0) then -tu else ofRat 0
  let gains := gains_lower + gains_upper
  let tl := maximum tl (ofRat 0)
  let tu := maximum tu (ofRat 0)
  -- the storages could still be overfull: assign internal losses
  let losses_lower := maximum (ofRat 0) (tl - Sl)
  let losses_upper := maximum (ofRat 0) (tu - Su)
  let losses := losses + (losses_lower + losses_upper)
  let tl := minimum tl Sl
  let tu := minimum tu Su
  { lower := tl, upper := tu, losses := losses, gains := gains }

end

section
variable [Add α] [Sub α] [Mul α] [Div α] [Neg α] [NpOps α]

/-- Tracked storages after adding the tendencies, before the bookkeeping: forwardtrack.py:55-81.
Returns `(lower, upper)`. -/
def fwdTransport (periodic : Bool) (dt kvf : α) (a : Fin (m + 2) → α)
    (F : Fluxes (m + 2) (n + 2) α) (f_vert : Arr (m + 2) (n + 2) α)
    (S0 : States (m + 2) (n + 2) α) (region : Arr (m + 2) (n + 2) α)
    (tl tu : Arr (m + 2) (n + 2) α) : Arr (m + 2) (n + 2) α × Arr (m + 2) (n + 2) α :=
  let precip_lower : Arr (m + 2) (n + 2) α := fun i j =>
    F.precip i j * S0.s_lower i j / (S0.s_upper i j + S0.s_lower i j)
  let precip_upper : Arr (m + 2) (n + 2) α := fun i j =>
    F.precip i j * S0.s_upper i j / (S0.s_upper i j + S0.s_lower i j)
  let rl : Arr (m + 2) (n + 2) α := fun i j => relStorage (tl i j) (S0.s_lower i j)
  let ru : Arr (m + 2) (n + 2) α := fun i j => relStorage (tu i j) (S0.s_upper i j)
  let advl := advect periodic false rl F.fx_lower F.fy_lower
  let advu := advect periodic false ru F.fx_upper F.fy_upper
  (fun i j => tl i j + dt * (advl i j / a i
      + verticalAdvection (f_vert i j) (rl i j) (ru i j)
      + verticalDispersion (f_vert i j) (rl i j) (ru i j) kvf
      + region i j * F.evap i j
      - precip_lower i j * rl i j),
   fun i j => tu i j + dt * (advu i j / a i
      - verticalAdvection (f_vert i j) (rl i j) (ru i j)
      - verticalDispersion (f_vert i j) (rl i j) (ru i j) kvf
      - precip_upper i j * ru i j))

/-- `forwardtrack(F, S1, S0, region, output, config)`, forwardtrack.py:30-116 -/
def forwardtrack (periodic : Bool) (dt kvf : α) (a : Fin (m + 2) → α)
    (F : Fluxes (m + 2) (n + 2) α) (f_vert : Arr (m + 2) (n + 2) α)
    (S1 S0 : States (m + 2) (n + 2) α) (region : Arr (m + 2) (n + 2) α)
    (out : FwdOutput (m + 2) (n + 2) α) : FwdOutput (m + 2) (n + 2) α :=
  let t := fwdTransport periodic dt kvf a F f_vert S0 region out.s_track_lower out.s_track_upper
  let st : Arr (m + 2) (n + 2) (Settled α) := fun i j =>
    settle (getBoundary periodic i j) (t.1 i j) (t.2 i j) (S1.s_lower i j) (S1.s_upper i j)
  let precip_lower : Arr (m + 2) (n + 2) α := fun i j =>
    F.precip i j * S0.s_lower i j / (S0.s_upper i j + S0.s_lower i j)
  let precip_upper : Arr (m + 2) (n + 2) α := fun i j =>
    F.precip i j * S0.s_upper i j / (S0.s_upper i j + S0.s_lower i j)
  { s_track_lower := fun i j => (st i j).lower
    s_track_upper := fun i j => (st i j).upper
    tagged_evap := fun i j => out.tagged_evap i j + region i j * F.evap i j * dt
    p_track_lower := fun i j => out.p_track_lower i j +
      precip_lower i j * relStorage (out.s_track_lower i j) (S0.s_lower i j) * dt
    p_track_upper := fun i j => out.p_track_upper i j +
      precip_upper i j * relStorage (out.s_track_upper i j) (S0.s_upper i j) * dt
    losses := fun i j => out.losses i j + (st i j).losses
    gains := fun i j => out.gains i j + (st i j).gains }

/-- Tracked storages after adding the tendencies, before the bookkeeping: backtrack.py:54-80.
All fluxes change sign.  Returns `(lower, upper)`. -/
def bwdTransport (periodic : Bool) (dt kvf : α) (a : Fin (m + 2) → α)
    (F : Fluxes (m + 2) (n + 2) α) (f_vert : Arr (m + 2) (n + 2) α)
    (S1 : States (m + 2) (n + 2) α) (mask : Arr (m + 2) (n + 2) α)
    (tl tu : Arr (m + 2) (n + 2) α) : Arr (m + 2) (n + 2) α × Arr (m + 2) (n + 2) α :=
  let rl : Arr (m + 2) (n + 2) α := fun i j => relStorage (tl i j) (S1.s_lower i j)
  let ru : Arr (m + 2) (n + 2) α := fun i j => relStorage (tu i j) (S1.s_upper i j)
  let advl := advect periodic true rl F.fx_lower F.fy_lower
  let advu := advect periodic true ru F.fx_upper F.fy_upper
  (fun i j => tl i j + dt * (advl i j / a i
      + verticalAdvection (-f_vert i j) (rl i j) (ru i j)
      + verticalDispersion (-f_vert i j) (rl i j) (ru i j) kvf
      + mask i j * F.precip i j * S1.s_lower i j / (S1.s_upper i j + S1.s_lower i j)
      - F.evap i j * rl i j),
   fun i j => tu i j + dt * (advu i j / a i
      - verticalAdvection (-f_vert i j) (rl i j) (ru i j)
      - verticalDispersion (-f_vert i j) (rl i j) (ru i j) kvf
      + mask i j * F.precip i j * S1.s_upper i j / (S1.s_upper i j + S1.s_lower i j)))

/-- `backtrack(F, S1, S0, tagging_mask, output, config)`, backtrack.py:30-114 -/
def backtrack (periodic : Bool) (dt kvf : α) (a : Fin (m + 2) → α)
    (F : Fluxes (m + 2) (n + 2) α) (f_vert : Arr (m + 2) (n + 2) α)
    (S1 S0 : States (m + 2) (n + 2) α) (mask : Arr (m + 2) (n + 2) α)
    (out : BwdOutput (m + 2) (n + 2) α) : BwdOutput (m + 2) (n + 2) α :=
  let t := bwdTransport periodic dt kvf a F f_vert S1 mask out.s_track_lower out.s_track_upper
  let st : Arr (m + 2) (n + 2) (Settled α) := fun i j =>
    settle (getBoundary periodic i j) (t.1 i j) (t.2 i j) (S0.s_lower i j) (S0.s_upper i j)
  { s_track_lower := fun i j => (st i j).lower
    s_track_upper := fun i j => (st i j).upper
    tagged_precip := fun i j => out.tagged_precip i j + mask i j * F.precip i j * dt
    e_track := fun i j => out.e_track i j +
      F.evap i j * relStorage (out.s_track_lower i j) (S1.s_lower i j) * dt
    losses := fun i j => out.losses i j + (st i j).losses
    gains := fun i j => out.gains i j + (st i j).gains }

end

end Wam
