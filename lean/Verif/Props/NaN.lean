import Verif.Lemmas.Lift
import Verif.Props.Step
import Verif.Model.Run

/-!
# C09: NaN

Carrier `XF K`: exact numbers with IEEE-754 special values.
-/
set_option linter.unusedSectionVars false
set_option linter.unusedVariables false

namespace Wam
open Spec
variable {K : Type*} [Field K] [LinearOrder K] [IsStrictOrderedRing K] {m n : ℕ}

/-- **C09**: where both components of the horizontal flux are zero, `stabilize_fluxes` returns NaN for
both, whatever the storage (also NaN or infinite) of the cell. -/
theorem C09_zero_flux_becomes_nan (dt : K) (a : Fin m → XF K) (F : Fluxes m n (XF K))
    (S : States m n (XF K)) (i : Fin m) (j : Fin n) :
    let F' := stabilizeFluxes (XF.fin dt) a F S
    (F.fx_upper i j = XF.fin 0 → F.fy_upper i j = XF.fin 0 →
      F'.fx_upper i j = XF.nan ∧ F'.fy_upper i j = XF.nan) ∧
    (F.fx_lower i j = XF.fin 0 → F.fy_lower i j = XF.fin 0 →
      F'.fx_lower i j = XF.nan ∧ F'.fy_lower i j = XF.nan) := by
  have key : ∀ s : XF K, stabilizeComponent (XF.fin dt) (a i) s (XF.fin 0) (XF.fin 0) (XF.fin 0) =
      XF.nan := by
    intro s
    unfold stabilizeComponent
    have h2 : (2 : K) ≠ 0 := by norm_num
    simp [XF.fin_div _ _ h2, XF.fin_div_zero]
  constructor <;> intro hx hy <;> simp only [stabilizeFluxes, hx, hy, key, and_self]

/-- an interior cell that has lost one tracked storage to NaN loses both -/
theorem settle_nan (tl tu Sl Su : XF K) (h : tl = XF.nan ∨ tu = XF.nan) :
    (settle false tl tu Sl Su).lower = XF.nan ∧ (settle false tl tu Sl Su).upper = XF.nan ∧
    (settle false tl tu Sl Su).losses = XF.nan := by
  unfold settle
  rcases h with rfl | rfl <;> simp

theorem relStorage_nan (s : XF K) : relStorage XF.nan s = XF.nan := by simp [relStorage]

/-- **C09** (forward): NaN never leaves an interior cell: if either tracked storage of a cell is NaN,
both are NaN after the next step, whatever the fluxes, states and tagging are, and the
accumulated precipitation and losses of the cell become NaN too. -/
theorem C09_nan_stays_forward (periodic : Bool) (dt kvf : XF K) (a : Fin (m + 2) → XF K)
    (F : Fluxes (m + 2) (n + 2) (XF K)) (fz : Arr (m + 2) (n + 2) (XF K))
    (S1 S0 : States (m + 2) (n + 2) (XF K)) (region : Arr (m + 2) (n + 2) (XF K))
    (out : FwdOutput (m + 2) (n + 2) (XF K)) (i : Fin (m + 2)) (j : Fin (n + 2))
    (hb : ¬ isBoundary periodic i j)
    (h : out.s_track_lower i j = XF.nan ∨ out.s_track_upper i j = XF.nan) :
    let out' := forwardtrack periodic dt kvf a F fz S1 S0 region out
    out'.s_track_lower i j = XF.nan ∧ out'.s_track_upper i j = XF.nan ∧ out'.losses i j = XF.nan ∧
      (out'.p_track_lower i j = XF.nan ∨ out'.p_track_upper i j = XF.nan) := by
  have hb' : getBoundary periodic i j = false := by
    rw [← getBoundary_iff] at hb; simpa using hb
  have ht : (fwdTransport periodic dt kvf a F fz S0 region out.s_track_lower
        out.s_track_upper).1 i j = XF.nan ∨
      (fwdTransport periodic dt kvf a F fz S0 region out.s_track_lower
        out.s_track_upper).2 i j = XF.nan := by
    rcases h with h | h
    · left; simp only [fwdTransport, h, XF.nan_add]
    · right; simp only [fwdTransport, h, XF.nan_add]
  have hs := settle_nan _ _ (S1.s_lower i j) (S1.s_upper i j) ht
  simp only [forwardtrack, hb', hs, XF.add_nan, true_and]
  rcases h with h | h
  · left; simp [h, relStorage_nan]
  · right; simp [h, relStorage_nan]

/-- **C09** (backward) -/
theorem C09_nan_stays_backward (periodic : Bool) (dt kvf : XF K) (a : Fin (m + 2) → XF K)
    (F : Fluxes (m + 2) (n + 2) (XF K)) (fz : Arr (m + 2) (n + 2) (XF K))
    (S1 S0 : States (m + 2) (n + 2) (XF K)) (mask : Arr (m + 2) (n + 2) (XF K))
    (out : BwdOutput (m + 2) (n + 2) (XF K)) (i : Fin (m + 2)) (j : Fin (n + 2))
    (hb : ¬ isBoundary periodic i j)
    (h : out.s_track_lower i j = XF.nan ∨ out.s_track_upper i j = XF.nan) :
    let out' := backtrack periodic dt kvf a F fz S1 S0 mask out
    out'.s_track_lower i j = XF.nan ∧ out'.s_track_upper i j = XF.nan ∧
      out'.losses i j = XF.nan := by
  have hb' : getBoundary periodic i j = false := by
    rw [← getBoundary_iff] at hb; simpa using hb
  have ht : (bwdTransport periodic dt kvf a F fz S1 mask out.s_track_lower
        out.s_track_upper).1 i j = XF.nan ∨
      (bwdTransport periodic dt kvf a F fz S1 mask out.s_track_lower
        out.s_track_upper).2 i j = XF.nan := by
    rcases h with h | h
    · left; simp only [bwdTransport, h, XF.nan_add]
    · right; simp only [bwdTransport, h, XF.nan_add]
  have hs := settle_nan _ _ (S0.s_lower i j) (S0.s_upper i j) ht
  simp only [backtrack, hb', hs, XF.add_nan, and_self]

/-! ### spreading to the neighbours -/

/-- the same cell or a cell sharing a face with it -/
def Spec.faceNeighbour (periodic : Bool) (i i' : Fin m) (j j' : Fin n) : Prop :=
  (i = i' ∧ (j = j' ∨ j.val = j'.val + 1 ∨ j'.val = j.val + 1 ∨
    (periodic = true ∧ (j.val = 0 ∧ j'.val + 1 = n ∨ j'.val = 0 ∧ j.val + 1 = n)))) ∨
  (j = j' ∧ (i = i' ∨ i.val = i'.val + 1 ∨ i'.val = i.val + 1))

theorem donorCell_nan (sp : Arr (m + 2) (n + 2) (XF K)) (up : Arr m (n + 1) (XF K))
    (vp : Arr (m + 1) n (XF K)) (i : Fin m) (j : Fin n)
    (h : up i j.castSucc = XF.nan ∨ up i j.succ = XF.nan ∨ vp i.castSucc j = XF.nan ∨
      vp i.succ j = XF.nan) : donorCell sp up vp i j = XF.nan := by
  simp only [donorCell, Arr.colsButLast, Arr.colsButFirst, Arr.rowsButFirst, Arr.rowsButLast]
  rcases h with h | h | h | h <;> simp [h]

theorem padWith_inner {α : Type*} (l r : α) (f : Fin n → α) (k : Fin (n + 2)) (x : Fin n)
    (h : k.val = x.val + 1) : Arr.padWith l r f k = f x := by
  have : k = x.castSucc.succ := Fin.ext (by simp [h])
  rw [this, Arr.padWith_mid]

theorem padYZero_inner (f : Arr m n (XF K)) (i : Fin (m + 2)) (j : Fin n) (x : Fin m)
    (h : i.val = x.val + 1) : Arr.padYZero f i j = f x j :=
  padWith_inner _ _ _ i x h

theorem padXYZero_inner (f : Arr m n (XF K)) (i : Fin (m + 2)) (j : Fin (n + 2)) (x : Fin m)
    (y : Fin n) (h : i.val = x.val + 1) (h' : j.val = y.val + 1) :
    Arr.padXYZero f i j = f x y := by
  unfold Arr.padXYZero
  rw [padYZero_inner _ i j x h]
  exact padWith_inner _ _ _ j y h'

theorem neg_ite_nan (sgn : Bool) (x : XF K) (h : x = XF.nan) :
    (if sgn = true then -x else x) = XF.nan := by
  subst h; simp

/-- a NaN flux of cell `(i, j)` makes the tendency of all interior cells sharing a face with it NaN -/
theorem advect_nan (periodic sgn : Bool) (s fx fy : Arr (m + 2) (n + 2) (XF K))
    (i i' : Fin (m + 2)) (j j' : Fin (n + 2)) (hx : fx i j = XF.nan) (hy : fy i j = XF.nan)
    (hb : ¬ isBoundary periodic i' j') (hn : faceNeighbour periodic i i' j j') :
    advect periodic sgn s fx fy i' j' = XF.nan := by
  have hi' := i'.isLt
  have hj' := j'.isLt
  have hjj := j.isLt
  have hii := i.isLt
  unfold isBoundary at hb
  unfold faceNeighbour at hn
  unfold advect
  cases periodic
  · simp only [Bool.false_eq_true, if_false] at hb hn ⊢
    simp only [true_and, not_or] at hb
    obtain ⟨h1, h2, h3, h4⟩ := hb
    -- rows and columns of the interior
    have ex : ∀ y : Fin (n + 1), (y.val = j.val ∨ y.val + 1 = j.val) → i = i' →
        staggerX fx ⟨i'.val - 1, by omega⟩ y = XF.nan := by
      intro y hy' e
      subst e
      simp only [staggerX, Arr.rowsInner, Arr.colsButLast, Arr.colsButFirst]
      have ei : (Fin.castSucc (⟨i.val - 1, by omega⟩ : Fin m)).succ = i :=
        Fin.ext (by simp; omega)
      rcases hy' with e | e
      · have : y.castSucc = j := Fin.ext (by simp [e])
        rw [ei, this, hx]; simp
      · have : y.succ = j := Fin.ext (by simp [e])
        rw [ei, this, hx]; simp
    have ey : ∀ x : Fin (m + 1), (x.val = i.val ∨ x.val + 1 = i.val) → j = j' →
        staggerY fy x ⟨j'.val - 1, by omega⟩ = XF.nan := by
      intro x hx' e
      subst e
      simp only [staggerY, Arr.colsInner, Arr.rowsButLast, Arr.rowsButFirst]
      have ej : (Fin.castSucc (⟨j.val - 1, by omega⟩ : Fin n)).succ = j :=
        Fin.ext (by simp; omega)
      rcases hx' with e | e
      · have : x.castSucc = i := Fin.ext (by simp [e])
        rw [ej, this, hy]; simp
      · have : x.succ = i := Fin.ext (by simp [e])
        rw [ej, this, hy]; simp
    unfold horizontalAdvectionClosed
    apply donorCell_nan
    rcases hn with ⟨e, hh⟩ | ⟨e, hh⟩
    · rcases hh with hh | hh | hh | hh
      · left
        rw [padXYZero_inner _ _ _ ⟨i'.val - 1, by omega⟩ ⟨j'.val - 1, by omega⟩ (by simp; omega)
          (by simp; omega)]
        exact neg_ite_nan _ _ (ex _ (by right; simp; omega) e)
      · right; left
        rw [padXYZero_inner _ _ _ ⟨i'.val - 1, by omega⟩ ⟨j'.val, by omega⟩ (by simp; omega)
          (by simp)]
        exact neg_ite_nan _ _ (ex _ (by right; simp; omega) e)
      · left
        rw [padXYZero_inner _ _ _ ⟨i'.val - 1, by omega⟩ ⟨j'.val - 1, by omega⟩ (by simp; omega)
          (by simp; omega)]
        exact neg_ite_nan _ _ (ex _ (by left; simp; omega) e)
      · simp at hh
    · rcases hh with hh | hh | hh
      · right; right; left
        rw [padXYZero_inner _ _ _ ⟨i'.val - 1, by omega⟩ ⟨j'.val - 1, by omega⟩ (by simp; omega)
          (by simp; omega)]
        exact neg_ite_nan _ _ (ey _ (by right; simp; omega) e)
      · right; right; right
        rw [padXYZero_inner _ _ _ ⟨i'.val, by omega⟩ ⟨j'.val - 1, by omega⟩ (by simp)
          (by simp; omega)]
        exact neg_ite_nan _ _ (ey _ (by right; simp; omega) e)
      · right; right; left
        rw [padXYZero_inner _ _ _ ⟨i'.val - 1, by omega⟩ ⟨j'.val - 1, by omega⟩ (by simp; omega)
          (by simp; omega)]
        exact neg_ite_nan _ _ (ey _ (by left; simp; omega) e)
  · simp only [if_true] at hb hn ⊢
    simp only [Bool.true_eq_false, false_and, or_false, not_or] at hb
    obtain ⟨h1, h2⟩ := hb
    have ex : ∀ y : Fin (n + 3), (y.val = j.val ∨ y.val = j.val + 1 ∨
          (y.val = 0 ∧ j.val = n + 1) ∨ (y.val = n + 2 ∧ j.val = 0)) → i = i' →
        staggerXPeriodic fx ⟨i'.val - 1, by omega⟩ y = XF.nan := by
      intro y hy' e
      subst e
      have ei : (Fin.castSucc (⟨i.val - 1, by omega⟩ : Fin m)).succ = i :=
        Fin.ext (by simp; omega)
      simp only [staggerXPeriodic, Arr.rowsInner]
      rw [ei]
      rw [Arr.padWith_apply]
      by_cases c0 : y.val = 0
      · rw [dif_pos c0]
        have : j = 0 ∨ j = Fin.last (n + 1) := by
          rcases hy' with h | h | h | h
          · left; exact Fin.ext (by show j.val = 0; omega)
          · omega
          · right; exact Fin.ext (by simp; omega)
          · omega
        rcases this with rfl | rfl <;> simp [hx]
      · rw [dif_neg c0]
        by_cases cl : y.val = n + 1 + 1
        · rw [dif_pos cl]
          have : j = 0 ∨ j = Fin.last (n + 1) := by
            rcases hy' with h | h | h | h
            · omega
            · right; exact Fin.ext (by simp; omega)
            · omega
            · left; exact Fin.ext (by show j.val = 0; omega)
          rcases this with rfl | rfl <;> simp [hx]
        · rw [dif_neg cl]
          simp only [Arr.colsButLast, Arr.colsButFirst]
          rcases hy' with h | h | h | h
          · have : (Fin.succ (⟨y.val - 1, by omega⟩ : Fin (n + 1))) = j :=
              Fin.ext (by simp; omega)
            rw [this, hx]; simp
          · have : (Fin.castSucc (⟨y.val - 1, by omega⟩ : Fin (n + 1))) = j :=
              Fin.ext (by simp; omega)
            rw [this, hx]; simp
          · omega
          · omega
    have ey : ∀ x : Fin (m + 1), (x.val = i.val ∨ x.val + 1 = i.val) →
        staggerYPeriodic fy x j = XF.nan := by
      intro x hx'
      simp only [staggerYPeriodic, Arr.rowsButLast, Arr.rowsButFirst]
      rcases hx' with e | e
      · have : x.castSucc = i := Fin.ext (by simp [e])
        rw [this, hy]; simp
      · have : x.succ = i := Fin.ext (by simp [e])
        rw [this, hy]; simp
    unfold horizontalAdvectionPeriodic
    apply donorCell_nan
    rcases hn with ⟨e, hh⟩ | ⟨e, hh⟩
    · have west : (j'.val = j.val ∨ j'.val = j.val + 1 ∨ (j'.val = 0 ∧ j.val = n + 1)) →
          Arr.padYZero (fun i j => if sgn = true then -staggerXPeriodic fx i j
            else staggerXPeriodic fx i j) i' j'.castSucc = XF.nan := by
        intro h
        rw [padYZero_inner _ _ _ ⟨i'.val - 1, by omega⟩ (by simp; omega)]
        exact neg_ite_nan _ _ (ex _ (by
          show j'.val = j.val ∨ j'.val = j.val + 1 ∨ (j'.val = 0 ∧ j.val = n + 1) ∨
            (j'.val = n + 2 ∧ j.val = 0)
          omega) e)
      have east : (j'.val + 1 = j.val ∨ (j'.val = n + 1 ∧ j.val = 0)) →
          Arr.padYZero (fun i j => if sgn = true then -staggerXPeriodic fx i j
            else staggerXPeriodic fx i j) i' j'.succ = XF.nan := by
        intro h
        rw [padYZero_inner _ _ _ ⟨i'.val - 1, by omega⟩ (by simp; omega)]
        exact neg_ite_nan _ _ (ex _ (by
          show j'.val + 1 = j.val ∨ j'.val + 1 = j.val + 1 ∨ (j'.val + 1 = 0 ∧ j.val = n + 1) ∨
            (j'.val + 1 = n + 2 ∧ j.val = 0)
          omega) e)
      rcases hh with hh | hh | hh | ⟨_, hh⟩
      · left; exact west (by simp [hh])
      · right; left; exact east (by omega)
      · left; exact west (by omega)
      · rcases hh with hh | hh
        · right; left; exact east (by omega)
        · left; exact west (by omega)
    · subst e
      have north : (i'.val = i.val ∨ i'.val = i.val + 1) →
          Arr.padYZero (fun i j => if sgn = true then -staggerYPeriodic fy i j
            else staggerYPeriodic fy i j) i'.castSucc j = XF.nan := by
        intro h
        rw [padYZero_inner _ _ _ ⟨i'.val - 1, by omega⟩ (by simp; omega)]
        exact neg_ite_nan _ _ (ey _ (by simp; omega))
      have south : (i'.val + 1 = i.val) →
          Arr.padYZero (fun i j => if sgn = true then -staggerYPeriodic fy i j
            else staggerYPeriodic fy i j) i'.succ j = XF.nan := by
        intro h
        rw [padYZero_inner _ _ _ ⟨i'.val, by omega⟩ (by simp)]
        exact neg_ite_nan _ _ (ey _ (by simp; omega))
      right; right
      rcases hh with hh | hh | hh
      · left; exact north (by simp [hh])
      · right; exact south (by omega)
      · left; exact north (by omega)

/-- **C09** (forward): one step after stabilisation, a cell without horizontal flux in the upper or in
the lower layer has turned the tracked storage of both layers and the losses into NaN, in the cell itself and in all
its face neighbours (as far as these are interior cells), whatever everything else is. -/
theorem C09_nan_spreads_forward (periodic : Bool) (dt : K) (kvf : XF K) (a : Fin (m + 2) → XF K)
    (F : Fluxes (m + 2) (n + 2) (XF K)) (fz : Arr (m + 2) (n + 2) (XF K))
    (S1 S0 : States (m + 2) (n + 2) (XF K)) (region : Arr (m + 2) (n + 2) (XF K))
    (out : FwdOutput (m + 2) (n + 2) (XF K)) (i i' : Fin (m + 2)) (j j' : Fin (n + 2))
    (h0 : (F.fx_lower i j = XF.fin 0 ∧ F.fy_lower i j = XF.fin 0) ∨
      (F.fx_upper i j = XF.fin 0 ∧ F.fy_upper i j = XF.fin 0))
    (hn : faceNeighbour periodic i i' j j') (hb : ¬ isBoundary periodic i' j') :
    let F' := stabilizeFluxes (XF.fin dt) a F S0
    let out' := forwardtrack periodic (XF.fin dt) kvf a F' fz S1 S0 region out
    out'.s_track_lower i' j' = XF.nan ∧ out'.s_track_upper i' j' = XF.nan ∧ out'.losses i' j' = XF.nan := by
  intro F' out'
  have hb' : getBoundary periodic i' j' = false := by
    rw [← getBoundary_iff] at hb; simpa using hb
  have hz := C09_zero_flux_becomes_nan dt a F S0 i j
  have ht : (fwdTransport periodic (XF.fin dt) kvf a F' fz S0 region out.s_track_lower
        out.s_track_upper).1 i' j' = XF.nan ∨
      (fwdTransport periodic (XF.fin dt) kvf a F' fz S0 region out.s_track_lower
        out.s_track_upper).2 i' j' = XF.nan := by
    rcases h0 with ⟨hx, hy⟩ | ⟨hx, hy⟩
    · obtain ⟨hx', hy'⟩ := hz.2 hx hy
      left
      simp only [fwdTransport, advect_nan periodic false _ F'.fx_lower F'.fy_lower i i' j j' hx' hy'
        hb hn]
      simp
    · obtain ⟨hx', hy'⟩ := hz.1 hx hy
      right
      simp only [fwdTransport, advect_nan periodic false _ F'.fx_upper F'.fy_upper i i' j j' hx' hy'
        hb hn]
      simp
  have hs := settle_nan _ _ (S1.s_lower i' j') (S1.s_upper i' j') ht
  simp only [out', forwardtrack, hb', hs, XF.add_nan, and_self]

/-- **C09** (backward) -/
theorem C09_nan_spreads_backward (periodic : Bool) (dt : K) (kvf : XF K) (a : Fin (m + 2) → XF K)
    (F : Fluxes (m + 2) (n + 2) (XF K)) (fz : Arr (m + 2) (n + 2) (XF K))
    (S1 S0 : States (m + 2) (n + 2) (XF K)) (mask : Arr (m + 2) (n + 2) (XF K))
    (out : BwdOutput (m + 2) (n + 2) (XF K)) (i i' : Fin (m + 2)) (j j' : Fin (n + 2))
    (h0 : (F.fx_lower i j = XF.fin 0 ∧ F.fy_lower i j = XF.fin 0) ∨
      (F.fx_upper i j = XF.fin 0 ∧ F.fy_upper i j = XF.fin 0))
    (hn : faceNeighbour periodic i i' j j') (hb : ¬ isBoundary periodic i' j') :
    let F' := stabilizeFluxes (XF.fin dt) a F S1
    let out' := backtrack periodic (XF.fin dt) kvf a F' fz S1 S0 mask out
    out'.s_track_lower i' j' = XF.nan ∧ out'.s_track_upper i' j' = XF.nan ∧ out'.losses i' j' = XF.nan := by
  intro F' out'
  have hb' : getBoundary periodic i' j' = false := by
    rw [← getBoundary_iff] at hb; simpa using hb
  have hz := C09_zero_flux_becomes_nan dt a F S1 i j
  have ht : (bwdTransport periodic (XF.fin dt) kvf a F' fz S1 mask out.s_track_lower
        out.s_track_upper).1 i' j' = XF.nan ∨
      (bwdTransport periodic (XF.fin dt) kvf a F' fz S1 mask out.s_track_lower
        out.s_track_upper).2 i' j' = XF.nan := by
    rcases h0 with ⟨hx, hy⟩ | ⟨hx, hy⟩
    · obtain ⟨hx', hy'⟩ := hz.2 hx hy
      left
      simp only [bwdTransport, advect_nan periodic true _ F'.fx_lower F'.fy_lower i i' j j' hx' hy'
        hb hn]
      simp
    · obtain ⟨hx', hy'⟩ := hz.1 hx hy
      right
      simp only [bwdTransport, advect_nan periodic true _ F'.fx_upper F'.fy_upper i i' j j' hx' hy'
        hb hn]
      simp
  have hs := settle_nan _ _ (S0.s_lower i' j') (S0.s_upper i' j') ht
  simp only [out', backtrack, hb', hs, XF.add_nan, and_self]

/-- the hypotheses are met by the centre and the next cell of a 3 x 4 grid -/
example : faceNeighbour false (1 : Fin 3) 1 (1 : Fin 4) 2 ∧ ¬ isBoundary false (1 : Fin 3) (2 : Fin 4) := by
  unfold faceNeighbour isBoundary; decide

/-- **C09** (forward): emptying the accumulators by multiplying with zero does not remove NaN: every
accumulator that is NaN when a file is written is NaN afterwards. -/
theorem C09_flush_keeps_nan_forward (o : FwdOutput (m + 2) (n + 2) (XF K)) (i j) :
    (o.p_track_upper i j = XF.nan → o.flush.p_track_upper i j = XF.nan) ∧
    (o.p_track_lower i j = XF.nan → o.flush.p_track_lower i j = XF.nan) ∧
    (o.tagged_evap i j = XF.nan → o.flush.tagged_evap i j = XF.nan) ∧
    (o.losses i j = XF.nan → o.flush.losses i j = XF.nan) ∧
    (o.gains i j = XF.nan → o.flush.gains i j = XF.nan) := by
  refine ⟨fun h => ?_, fun h => ?_, fun h => ?_, fun h => ?_, fun h => ?_⟩ <;>
    simp [FwdOutput.flush, h]

/-- **C09** (backward) -/
theorem C09_flush_keeps_nan_backward (o : BwdOutput (m + 2) (n + 2) (XF K)) (i j) :
    (o.e_track i j = XF.nan → o.flush.e_track i j = XF.nan) ∧
    (o.tagged_precip i j = XF.nan → o.flush.tagged_precip i j = XF.nan) ∧
    (o.losses i j = XF.nan → o.flush.losses i j = XF.nan) ∧
    (o.gains i j = XF.nan → o.flush.gains i j = XF.nan) := by
  refine ⟨fun h => ?_, fun h => ?_, fun h => ?_, fun h => ?_⟩ <;>
    simp [BwdOutput.flush, h]

/-! ### otherwise no special values arise -/

/-- **C09** (converse, stabilisation): where no cell is without flux, numbers stay numbers and the
theorems of exact arithmetic apply. -/
theorem C09_no_nan_stabilize (dt : K) (hdt : 0 < dt) (a : Fin m → K) (F : Fluxes m n K)
    (S : States m n K)
    (hu : ∀ i j, F.fx_upper i j ≠ 0 ∨ F.fy_upper i j ≠ 0)
    (hl : ∀ i j, F.fx_lower i j ≠ 0 ∨ F.fy_lower i j ≠ 0) :
    stabilizeFluxes (XF.fin dt) (fun i => XF.fin (a i)) (liftF F) (liftS S) =
      liftF (stabilizeFluxes dt a F S) := by
  have key : ∀ a s fx fy f : K, (fx ≠ 0 ∨ fy ≠ 0) →
      stabilizeComponent (XF.fin dt) (XF.fin a) (XF.fin s) (XF.fin fx) (XF.fin fy) (XF.fin f) =
        XF.fin (stabilizeComponent dt a s fx fy f) := by
    intro a s fx fy f h
    have hT : absolute (fx * dt) + absolute (fy * dt) ≠ 0 := by
      simp only [np_abs]
      rcases h with h | h
      · exact (add_pos_of_pos_of_nonneg (abs_pos.2 (mul_ne_zero h hdt.ne')) (abs_nonneg _)).ne'
      · exact (add_pos_of_nonneg_of_pos (abs_nonneg _) (abs_pos.2 (mul_ne_zero h hdt.ne'))).ne'
    have h2 : (ofRat 2 : K) ≠ 0 := by rw [ofRat_two]; norm_num
    unfold stabilizeComponent
    simp only [XF.fin_mul, XF.fin_abs, XF.fin_add, XF.ofRat_eq, XF.fin_div _ _ h2,
      XF.fin_div _ _ hT, XF.fin_min, XF.fin_sign, XF.fin_div _ _ hdt.ne']
  unfold stabilizeFluxes liftF
  congr 1 <;> funext i j
  · exact key _ _ _ _ _ (hu i j)
  · exact key _ _ _ _ _ (hu i j)
  · exact key _ _ _ _ _ (hl i j)
  · exact key _ _ _ _ _ (hl i j)

/-- **C09** (converse, vertical flux) -/
theorem C09_no_nan_fz (a : Fin (m + 2) → K) (F : Fluxes (m + 2) (n + 2) K)
    (S0 S1 : States (m + 2) (n + 2) K) (dt kvf : K) (hdt : 0 < dt) (hk : 0 ≤ kvf)
    (ha : ∀ i, 0 < a i) (h0 : Wet S0) (h1 : Wet S1) :
    calculateFz (fun i => XF.fin (a i)) (liftF F) (liftS S0) (liftS S1) (XF.fin dt) (XF.fin kvf) =
      liftA (calculateFz a F S0 S1 dt kvf) := by
  have hg : ∀ {n : ℕ} (f : Fin (n + 2) → K) (j), npGradient (fun j' => XF.fin (f j')) j =
      XF.fin (npGradient f j) := by
    intro n f j
    have h2 : (ofRat 2 : K) ≠ 0 := by rw [ofRat_two]; norm_num
    unfold npGradient
    split_ifs <;> simp only [XF.fin_sub, XF.ofRat_eq, XF.fin_div _ _ h2]
  have hd : ∀ fx fy : Arr (m + 2) (n + 2) K,
      divergence (liftA fx) (liftA fy) = liftA (divergence fx fy) := by
    intro fx fy
    funext i j
    simp only [divergence, liftA]
    rw [hg (fun j' => fx i j') j, hg (fun i' => fy i' j) i, XF.fin_sub]
  funext i j
  have h2 : (ofRat 2 : K) ≠ 0 := by rw [ofRat_two]; norm_num
  have hk' : kvf + ofRat 1 ≠ 0 := by rw [ofRat_one]; positivity
  have hc1 : S1.s_lower i j + S1.s_upper i j ≠ 0 := (add_pos (h1 i j).2 (h1 i j).1).ne'
  have hm : (S1.s_upper i j + S0.s_upper i j) / ofRat 2 + (S1.s_lower i j + S0.s_lower i j) / ofRat 2
      ≠ 0 := by
    have := (h1 i j).1; have := (h1 i j).2; have := (h0 i j).1; have := (h0 i j).2
    rw [ofRat_two]; positivity
  unfold calculateFz
  simp only [liftF, hd, liftS]
  simp only [liftA, fzClosure, fzLimit, XF.fin_add, XF.fin_sub, XF.fin_mul, XF.ofRat_eq,
    XF.fin_div _ _ h2, XF.fin_div _ _ hm, XF.fin_div _ _ (ha i).ne', XF.fin_div _ _ hc1,
    XF.fin_div _ _ hk', XF.fin_min, XF.fin_abs, XF.fin_sign, XF.fin_div _ _ hdt.ne']

/-- **C09** (converse, forward step) -/
theorem C09_no_nan_forward (periodic : Bool) (dt kvf : K) (a : Fin (m + 2) → K)
    (F : Fluxes (m + 2) (n + 2) K) (fz : Arr (m + 2) (n + 2) K)
    (S1 S0 : States (m + 2) (n + 2) K) (region : Arr (m + 2) (n + 2) K)
    (out : FwdOutput (m + 2) (n + 2) K) (ha : ∀ i, 0 < a i) (h0 : Wet S0) :
    forwardtrack periodic (XF.fin dt) (XF.fin kvf) (fun i => XF.fin (a i)) (liftF F) (liftA fz)
      (liftS S1) (liftS S0) (liftA region) (liftFwd out) =
    liftFwd (forwardtrack periodic dt kvf a F fz S1 S0 region out) := by
  have hc : ∀ i j, S0.s_upper i j + S0.s_lower i j ≠ 0 :=
    fun i j => (add_pos (h0 i j).1 (h0 i j).2).ne'
  have hrl : (fun i j => relStorage ((liftFwd out).s_track_lower i j) ((liftS S0).s_lower i j)) =
      liftA (fun i j => relStorage (out.s_track_lower i j) (S0.s_lower i j)) := by
    funext i j; exact relStorage_lift _ _ (h0 i j).2.ne'
  have hru : (fun i j => relStorage ((liftFwd out).s_track_upper i j) ((liftS S0).s_upper i j)) =
      liftA (fun i j => relStorage (out.s_track_upper i j) (S0.s_upper i j)) := by
    funext i j; exact relStorage_lift _ _ (h0 i j).1.ne'
  have ht : fwdTransport periodic (XF.fin dt) (XF.fin kvf) (fun i => XF.fin (a i)) (liftF F)
        (liftA fz) (liftS S0) (liftA region) (liftFwd out).s_track_lower (liftFwd out).s_track_upper =
      (liftA (fwdTransport periodic dt kvf a F fz S0 region out.s_track_lower
        out.s_track_upper).1,
       liftA (fwdTransport periodic dt kvf a F fz S0 region out.s_track_lower
        out.s_track_upper).2) := by
    unfold fwdTransport
    simp only [hrl, hru]
    refine Prod.ext ?_ ?_ <;> funext i j
    · simp only [liftF, advect_lift]
      simp only [liftA, liftS, relStorage_lift _ _ (h0 i j).2.ne', relStorage_lift _ _ (h0 i j).1.ne',
        (vertical_lift _ kvf _ _).1, (vertical_lift _ kvf _ _).2, XF.fin_mul, XF.fin_add, XF.fin_sub,
        XF.fin_div _ _ (hc i j), XF.fin_div _ _ (ha i).ne', liftFwd]
    · simp only [liftF, advect_lift]
      simp only [liftA, liftS, relStorage_lift _ _ (h0 i j).2.ne', relStorage_lift _ _ (h0 i j).1.ne',
        (vertical_lift _ kvf _ _).1, (vertical_lift _ kvf _ _).2, XF.fin_mul, XF.fin_add, XF.fin_sub,
        XF.fin_div _ _ (hc i j), XF.fin_div _ _ (ha i).ne', liftFwd]
  unfold forwardtrack
  simp only [ht]
  simp only [liftFwd, liftA, liftS, liftF, settle_lift, liftSettled,
    XF.fin_mul, XF.fin_add]
  congr 1 <;> funext i j <;>
    simp only [relStorage_lift _ _ (h0 i j).2.ne', relStorage_lift _ _ (h0 i j).1.ne',
      XF.fin_div _ _ (hc i j), XF.fin_mul, XF.fin_add, liftA]

/-- **C09** (converse, backward step) -/
theorem C09_no_nan_backward (periodic : Bool) (dt kvf : K) (a : Fin (m + 2) → K)
    (F : Fluxes (m + 2) (n + 2) K) (fz : Arr (m + 2) (n + 2) K)
    (S1 S0 : States (m + 2) (n + 2) K) (mask : Arr (m + 2) (n + 2) K)
    (out : BwdOutput (m + 2) (n + 2) K) (ha : ∀ i, 0 < a i) (h1 : Wet S1) :
    backtrack periodic (XF.fin dt) (XF.fin kvf) (fun i => XF.fin (a i)) (liftF F) (liftA fz)
      (liftS S1) (liftS S0) (liftA mask) (liftBwd out) =
    liftBwd (backtrack periodic dt kvf a F fz S1 S0 mask out) := by
  have hc : ∀ i j, S1.s_upper i j + S1.s_lower i j ≠ 0 :=
    fun i j => (add_pos (h1 i j).1 (h1 i j).2).ne'
  have hrl : (fun i j => relStorage ((liftBwd out).s_track_lower i j) ((liftS S1).s_lower i j)) =
      liftA (fun i j => relStorage (out.s_track_lower i j) (S1.s_lower i j)) := by
    funext i j; exact relStorage_lift _ _ (h1 i j).2.ne'
  have hru : (fun i j => relStorage ((liftBwd out).s_track_upper i j) ((liftS S1).s_upper i j)) =
      liftA (fun i j => relStorage (out.s_track_upper i j) (S1.s_upper i j)) := by
    funext i j; exact relStorage_lift _ _ (h1 i j).1.ne'
  have ht : bwdTransport periodic (XF.fin dt) (XF.fin kvf) (fun i => XF.fin (a i)) (liftF F)
        (liftA fz) (liftS S1) (liftA mask) (liftBwd out).s_track_lower (liftBwd out).s_track_upper =
      (liftA (bwdTransport periodic dt kvf a F fz S1 mask out.s_track_lower
        out.s_track_upper).1,
       liftA (bwdTransport periodic dt kvf a F fz S1 mask out.s_track_lower
        out.s_track_upper).2) := by
    unfold bwdTransport
    simp only [hrl, hru]
    refine Prod.ext ?_ ?_ <;> funext i j
    · simp only [liftF, advect_lift]
      simp only [liftA, liftS, relStorage_lift _ _ (h1 i j).2.ne', relStorage_lift _ _ (h1 i j).1.ne',
        (vertical_lift _ kvf _ _).1, (vertical_lift _ kvf _ _).2, XF.fin_mul, XF.fin_add, XF.fin_sub,
        XF.fin_neg, XF.fin_div _ _ (hc i j), XF.fin_div _ _ (ha i).ne', liftBwd]
    · simp only [liftF, advect_lift]
      simp only [liftA, liftS, relStorage_lift _ _ (h1 i j).2.ne', relStorage_lift _ _ (h1 i j).1.ne',
        (vertical_lift _ kvf _ _).1, (vertical_lift _ kvf _ _).2, XF.fin_mul, XF.fin_add, XF.fin_sub,
        XF.fin_neg, XF.fin_div _ _ (hc i j), XF.fin_div _ _ (ha i).ne', liftBwd]
  unfold backtrack
  simp only [ht]
  simp only [liftBwd, liftA, liftS, liftF, settle_lift, liftSettled,
    XF.fin_mul, XF.fin_add]
  congr 1 <;> funext i j <;>
    simp only [relStorage_lift _ _ (h1 i j).2.ne', relStorage_lift _ _ (h1 i j).1.ne',
      XF.fin_div _ _ (hc i j), XF.fin_mul, XF.fin_add, liftA]

end Wam
