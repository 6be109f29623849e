import Verif.Model.Grid

/-!
# `/repo/src/wam2layers/tracking/core.py`
-/

namespace Wam

variable {m n : ℕ} {α : Type*}

section Advection
variable [Add α] [Sub α] [Mul α] [NpOps α]

/-- The part of `horizontal_advection` after padding, core.py:87-102.
`sp : [M+2, N+2]`, `up : [M, N+1]`, `vp : [M+1, N]`.
`west = :-1`, `east = 1:`, `south = 1:`, `north = :-1`, `inner = 1:-1`. -/
def donorCell (sp : Arr (m + 2) (n + 2) α) (up : Arr m (n + 1) α) (vp : Arr (m + 1) n α) :
    Arr m n α :=
  -- us = np.where(up > 0, up * sp[inner, west], up * sp[inner, east])
  let us : Arr m (n + 1) α := fun i j =>
    if NpOps.lt (ofRat 0) (up i j)
    then up i j * Arr.colsButLast (n := n + 1) (Arr.rowsInner sp) i j
    else up i j * Arr.colsButFirst (n := n + 1) (Arr.rowsInner sp) i j
  -- vs = np.where(vp > 0, vp * sp[south, inner], vp * sp[north, inner])
  let vs : Arr (m + 1) n α := fun i j =>
    if NpOps.lt (ofRat 0) (vp i j)
    then vp i j * Arr.rowsButFirst (m := m + 1) (Arr.colsInner sp) i j
    else vp i j * Arr.rowsButLast (m := m + 1) (Arr.colsInner sp) i j
  -- adv_x = us[:, west] - us[:, east];  adv_y = vs[south, :] - vs[north, :]
  fun i j =>
    (Arr.colsButLast us i j - Arr.colsButFirst us i j) +
      (Arr.rowsButFirst vs i j - Arr.rowsButLast vs i j)

/-- `horizontal_advection(s, u, v, periodic_x=False)`, core.py:17-102 (lines 83-85: zero padding).
`s : [M, N]`, `u : [M-2, N-1]`, `v : [M-1, N-2]`. -/
def horizontalAdvectionClosed (s : Arr (m + 2) (n + 2) α) (u : Arr m (n + 1) α)
    (v : Arr (m + 1) n α) : Arr (m + 2) (n + 2) α :=
  donorCell (Arr.padXYZero s) (Arr.padXYZero u) (Arr.padXYZero v)

/-- `horizontal_advection(s, u, v, periodic_x=True)`, core.py:17-102 (lines 78-81: wrap in x).
`s : [M, N]`, `u : [M-2, N+1]`, `v : [M-1, N]`. -/
def horizontalAdvectionPeriodic (s : Arr (m + 2) (n + 2) α) (u : Arr m (n + 3) α)
    (v : Arr (m + 1) (n + 2) α) : Arr (m + 2) (n + 2) α :=
  donorCell (Arr.padYZero (Arr.padXWrap s)) (Arr.padYZero u) (Arr.padYZero v)

end Advection

section Negation
variable [Add α] [Sub α] [Mul α] [Neg α] [NpOps α]

/-- What the tracking routines do with the cell-centred fluxes: stagger them to the interfaces
(backtrack.py:41-44, forwardtrack.py:41-44), optionally change their sign (backtrack.py:62,73) and
advect the relative storage `s` with them (forwardtrack.py:63,74).  `sgn = true` is the sign change
of backtracking. -/
def advect (periodic sgn : Bool) (s fx fy : Arr (m + 2) (n + 2) α) : Arr (m + 2) (n + 2) α :=
  let neg : α → α := fun x => if sgn then -x else x
  if periodic then
    horizontalAdvectionPeriodic s (fun i j => neg (staggerXPeriodic fx i j))
      (fun i j => neg (staggerYPeriodic fy i j))
  else
    horizontalAdvectionClosed s (fun i j => neg (staggerX fx i j))
      (fun i j => neg (staggerY fy i j))

end Negation

section Vertical
variable [Sub α] [Mul α] [NpOps α]

/-- `vertical_advection(fv, s_lower, s_upper)`, core.py:105-113 (one cell) -/
def verticalAdvection (fv s_lower s_upper : α) : α :=
  if NpOps.le (ofRat 0) fv then fv * s_upper else fv * s_lower

/-- `vertical_dispersion(fv, s_lower, s_upper, kvf)`, core.py:116-121 (one cell) -/
def verticalDispersion (fv s_lower s_upper kvf : α) : α :=
  kvf * absolute fv * (s_upper - s_lower)

end Vertical

/-- The fluxes `F` of one time step (`load_data(th, config, "fluxes")`, io.py:97-99), without the
vertical flux that is added later. -/
structure Fluxes (m n : ℕ) (α : Type*) where
  fx_upper : Arr m n α
  fy_upper : Arr m n α
  fx_lower : Arr m n α
  fy_lower : Arr m n α
  evap : Arr m n α
  precip : Arr m n α

/-- The states `S` (`load_data(t, config, "states")`, io.py:97-99). -/
structure States (m n : ℕ) (α : Type*) where
  s_upper : Arr m n α
  s_lower : Arr m n α

section Stabilize
variable [Add α] [Mul α] [Div α] [NpOps α]

/-- One component of the stability correction at one cell, core.py:139-162: `f` is the component to
correct, `fx` and `fy` both components, `s` the storage [kg m-2], `a` the cell area, `dt` the time
step.  The value of `fx_stable.fillna(0)` (core.py:157-158) is discarded by the code: `fillna` is
not in-place.  Hence it does not occur here. -/
def stabilizeComponent (dt a s fx fy f : α) : α :=
  let fx' := fx * dt
  let fy' := fy * dt
  let f' := f * dt
  let sa := s * a
  let ft_abs := absolute fx' + absolute fy'
  let limit := ofRat 1 / ofRat 2 * absolute f' / ft_abs * sa
  let stable := minimum (absolute f') limit
  NpOps.sign f' * stable / dt

/-- `stabilize_fluxes(F, S, ...)`, core.py:124-162, returning the modified `F`.  Logging by the
progress tracker (core.py:154) is modelled separately. -/
def stabilizeFluxes (dt : α) (a : Fin m → α) (F : Fluxes m n α) (S : States m n α) :
    Fluxes m n α :=
  { F with
    fx_upper := fun i j => stabilizeComponent dt (a i) (S.s_upper i j) (F.fx_upper i j)
      (F.fy_upper i j) (F.fx_upper i j)
    fy_upper := fun i j => stabilizeComponent dt (a i) (S.s_upper i j) (F.fx_upper i j)
      (F.fy_upper i j) (F.fy_upper i j)
    fx_lower := fun i j => stabilizeComponent dt (a i) (S.s_lower i j) (F.fx_lower i j)
      (F.fy_lower i j) (F.fx_lower i j)
    fy_lower := fun i j => stabilizeComponent dt (a i) (S.s_lower i j) (F.fx_lower i j)
      (F.fy_lower i j) (F.fy_lower i j) }

end Stabilize

section Fz
variable [Add α] [Sub α] [Mul α] [Div α] [NpOps α]

/-- `np.gradient` along one axis with unit spacing (default `edge_order=1`): central differences in
the interior, one-sided differences at both ends.  Used at core.py:167. -/
def npGradient (f : Fin (n + 2) → α) : Fin (n + 2) → α := fun j =>
  if h0 : j.val = 0 then f 1 - f 0
  else if hl : j.val = n + 1 then f (Fin.last (n + 1)) - f (Fin.castSucc (Fin.last n))
  else (f ⟨j.val + 1, by omega⟩ - f ⟨j.val - 1, by omega⟩) / ofRat 2

/-- `divergence(fx, fy)`, core.py:165-167 -/
def divergence (fx fy : Arr (m + 2) (n + 2) α) : Arr (m + 2) (n + 2) α := fun i j =>
  npGradient (fun j' => fx i j') j - npGradient (fun i' => fy i' j) i

/-- The unlimited vertical accumulation `fz` at one cell, core.py:223-237.  `div_u`, `div_l` are the
divergences of the two layers, `p`, `e` precipitation and evaporation. -/
def fzClosure (dt a s0u s0l s1u s1l div_u div_l p e : α) : α :=
  let mean_u := (s1u + s0u) / ofRat 2
  let mean_l := (s1l + s0l) / ofRat 2
  let s_total := mean_u + mean_l
  let rel_u := mean_u / s_total
  let rel_l := mean_l / s_total
  let foo_upper := (s1u - s0u) + dt * (div_u + p * rel_u) / a
  let foo_lower := (s1l - s0l) + dt * (div_l + p * rel_l - e) / a
  foo_lower - s1l / (s1l + s1u) * (foo_upper + foo_lower)

/-- Limiting of the vertical flux and conversion back to a flux, core.py:241-250 -/
def fzLimit (dt kvf s0u s0l s1u s1l fz : α) : α :=
  let stab := ofRat 1 / (kvf + ofRat 1)
  let flux_limit := minimum ((s1u + s0u) / ofRat 2) ((s1l + s0l) / ofRat 2)
  let fz_stable := minimum (absolute fz) (stab * flux_limit)
  NpOps.sign fz * fz_stable / dt

/-- `calculate_fz(F, S0, S1, dt, kvf)`, core.py:170-250 -/
def calculateFz (a : Fin (m + 2) → α) (F : Fluxes (m + 2) (n + 2) α)
    (S0 S1 : States (m + 2) (n + 2) α) (dt kvf : α) : Arr (m + 2) (n + 2) α := fun i j =>
  fzLimit dt kvf (S0.s_upper i j) (S0.s_lower i j) (S1.s_upper i j) (S1.s_lower i j)
    (fzClosure dt (a i) (S0.s_upper i j) (S0.s_lower i j) (S1.s_upper i j) (S1.s_lower i j)
      (divergence F.fx_upper F.fy_upper i j) (divergence F.fx_lower F.fy_lower i j)
      (F.precip i j) (F.evap i j))

end Fz

end Wam
