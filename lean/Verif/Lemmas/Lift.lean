import Verif.Lemmas.XF
import Verif.Lemmas.Step

/-! The model at `XF K` on numbers agrees with the model at `K`, as long as no divisor is zero. -/
set_option linter.unusedSectionVars false

namespace Wam
open Spec
variable {K : Type*} [Field K] [LinearOrder K] [IsStrictOrderedRing K] {m n : ℕ}

/-- a field of numbers as a field of IEEE numbers -/
def liftA (f : Arr m n K) : Arr m n (XF K) := fun i j => XF.fin (f i j)
/-- the same for datasets -/
def liftF (F : Fluxes m n K) : Fluxes m n (XF K) :=
  ⟨liftA F.fx_upper, liftA F.fy_upper, liftA F.fx_lower, liftA F.fy_lower, liftA F.evap,
    liftA F.precip⟩
/-- the same for datasets -/
def liftS (S : States m n K) : States m n (XF K) := ⟨liftA S.s_upper, liftA S.s_lower⟩
/-- the same for datasets -/
def liftFwd (o : FwdOutput m n K) : FwdOutput m n (XF K) :=
  ⟨liftA o.s_track_upper, liftA o.s_track_lower, liftA o.p_track_upper, liftA o.p_track_lower,
    liftA o.tagged_evap, liftA o.losses, liftA o.gains⟩
/-- the same for datasets -/
def liftBwd (o : BwdOutput m n K) : BwdOutput m n (XF K) :=
  ⟨liftA o.s_track_upper, liftA o.s_track_lower, liftA o.e_track, liftA o.tagged_precip,
    liftA o.losses, liftA o.gains⟩

theorem padWith_lift (l r : K) (f : Fin n → K) (k : Fin (n + 2)) :
    Arr.padWith (XF.fin l) (XF.fin r) (fun j => XF.fin (f j)) k = XF.fin (Arr.padWith l r f k) := by
  rw [Arr.padWith_apply, Arr.padWith_apply]
  split_ifs <;> rfl

theorem padYZero_lift (f : Arr m n K) : Arr.padYZero (liftA f) = liftA (Arr.padYZero f) := by
  funext i j
  simp only [Arr.padYZero, liftA, XF.ofRat_eq]
  exact padWith_lift _ _ (fun i' => f i' j) i

theorem padXYZero_lift (f : Arr m n K) : Arr.padXYZero (liftA f) = liftA (Arr.padXYZero f) := by
  unfold Arr.padXYZero
  rw [← padYZero_lift]
  congr 1
  funext i j
  simp only [liftA, XF.ofRat_eq]
  exact padWith_lift _ _ (f i) j

theorem padXWrap_lift (f : Arr m (n + 1) K) : Arr.padXWrap (liftA f) = liftA (Arr.padXWrap f) := by
  funext i j
  exact padWith_lift _ _ (f i) j

theorem ite_fin (c : Prop) [Decidable c] (x y : K) :
    (if c then XF.fin x else XF.fin y) = XF.fin (if c then x else y) := by
  split_ifs <;> rfl

theorem donorCell_lift (sp : Arr (m + 2) (n + 2) K) (up : Arr m (n + 1) K)
    (vp : Arr (m + 1) n K) :
    donorCell (liftA sp) (liftA up) (liftA vp) = liftA (donorCell sp up vp) := by
  funext i j
  have w : ∀ q x y : K, (if NpOps.lt (ofRat 0) (XF.fin q) then XF.fin q * XF.fin x
      else XF.fin q * XF.fin y) = XF.fin (if NpOps.lt (ofRat 0) q then q * x else q * y) := by
    intro q x y
    have e : NpOps.lt (ofRat 0) (XF.fin q) = NpOps.lt (ofRat 0) q := rfl
    cases h : NpOps.lt (ofRat 0) q <;> rw [h] at e <;> simp only [e, Bool.false_eq_true, if_true, if_false, XF.fin_mul]
  exact congrArg₂ (· + ·) (congrArg₂ (· - ·) (w _ _ _) (w _ _ _))
    (congrArg₂ (· - ·) (w _ _ _) (w _ _ _)) |>.trans (by
      show (XF.fin _ - XF.fin _) + (XF.fin _ - XF.fin _) = XF.fin _
      rw [XF.fin_sub, XF.fin_sub, XF.fin_add]; rfl)

theorem advect_lift (periodic sgn : Bool) (s fx fy : Arr (m + 2) (n + 2) K) :
    advect periodic sgn (liftA s) (liftA fx) (liftA fy) = liftA (advect periodic sgn s fx fy) := by
  have hx : staggerX (liftA fx) = liftA (staggerX fx) := by
    funext i j
    simp [staggerX, liftA, Arr.rowsInner, Arr.colsButLast, Arr.colsButFirst]
  have hy : staggerY (liftA fy) = liftA (staggerY fy) := by
    funext i j
    simp [staggerY, liftA, Arr.colsInner, Arr.rowsButLast, Arr.rowsButFirst]
  have hyp : staggerYPeriodic (liftA fy) = liftA (staggerYPeriodic fy) := by
    funext i j
    simp [staggerYPeriodic, liftA, Arr.rowsButLast, Arr.rowsButFirst]
  have hxp : staggerXPeriodic (liftA fx) = liftA (staggerXPeriodic fx) := by
    funext i j
    simp only [staggerXPeriodic, liftA, Arr.rowsInner, Arr.colsButLast, Arr.colsButFirst,
      XF.ofRat_eq, XF.fin_mul, XF.fin_add]
    exact padWith_lift _ _ _ _
  have neg : ∀ {p q : ℕ} (f : Arr p q K),
      (fun i j => if sgn = true then -liftA f i j else liftA f i j) =
        liftA (fun i j => if sgn = true then -f i j else f i j) := by
    intro p q f
    funext i j
    simp only [liftA, XF.fin_neg, ite_fin]
  unfold advect
  cases periodic
  · simp only [Bool.false_eq_true, if_false, horizontalAdvectionClosed, hx, hy, neg, padXYZero_lift,
      donorCell_lift]
  · simp only [if_true, horizontalAdvectionPeriodic, hxp, hyp, neg, padYZero_lift, padXWrap_lift,
      donorCell_lift]

/-- one settled cell as IEEE numbers -/
def liftSettled (s : Settled K) : Settled (XF K) :=
  ⟨XF.fin s.lower, XF.fin s.upper, XF.fin s.losses, XF.fin s.gains⟩

theorem settle_lift (bnd : Bool) (tl tu Sl Su : K) :
    settle bnd (XF.fin tl) (XF.fin tu) (XF.fin Sl) (XF.fin Su) =
      liftSettled (settle bnd tl tu Sl Su) := by
  unfold settle liftSettled
  simp only [XF.ofRat_eq, XF.fin_lt, XF.fin_mul, ite_fin, XF.fin_neg,
    XF.fin_sub, XF.fin_add, XF.fin_max, XF.fin_min]

theorem relStorage_lift (t s : K) (h : s ≠ 0) :
    relStorage (XF.fin t) (XF.fin s) = XF.fin (relStorage t s) := by
  simp [relStorage, XF.fin_div _ _ h]

theorem vertical_lift (fv kvf rl ru : K) :
    verticalAdvection (XF.fin fv) (XF.fin rl) (XF.fin ru) = XF.fin (verticalAdvection fv rl ru) ∧
    verticalDispersion (XF.fin fv) (XF.fin rl) (XF.fin ru) (XF.fin kvf) =
      XF.fin (verticalDispersion fv rl ru kvf) := by
  constructor
  · unfold verticalAdvection
    have e : NpOps.le (ofRat 0) (XF.fin fv) = NpOps.le (ofRat 0) fv := rfl
    cases h : NpOps.le (ofRat 0) fv <;> rw [h] at e <;> simp only [e, Bool.false_eq_true, if_true, if_false, XF.fin_mul]
  · simp only [verticalDispersion, XF.fin_abs, XF.fin_mul, XF.fin_sub]

end Wam
