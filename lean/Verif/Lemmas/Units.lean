import Verif.Spec.Units
import Verif.Lemmas.Equivariant
import Verif.Model.Rounded
import Mathlib.Tactic.FieldSimp

/-! # Another unit for water, for exact and for rounded numbers -/
set_option linter.unusedSectionVars false
set_option linter.unusedVariables false

namespace Wam
open Spec

/-- `φ` is multiplication by a positive number, without rounding errors -/
structure UnitChange {α : Type*} [Add α] [Sub α] [Mul α] [Div α] [Neg α] [NpOps α] (φ : α → α) : Prop where
  add : ∀ x y, φ x + φ y = φ (x + y)
  sub : ∀ x y, φ x - φ y = φ (x - y)
  neg : ∀ x, -φ x = φ (-x)
  mul_l : ∀ x y, φ x * y = φ (x * y)
  mul_r : ∀ x y, x * φ y = φ (x * y)
  div_l : ∀ x y, φ x / y = φ (x / y)
  div_both : ∀ x y, φ x / φ y = x / y
  min : ∀ x y, minimum (φ x) (φ y) = φ (minimum x y)
  max : ∀ x y, maximum (φ x) (φ y) = φ (maximum x y)
  abs : ∀ x, absolute (φ x) = φ (absolute x)
  sign : ∀ x, NpOps.sign (φ x) = NpOps.sign x
  zero : φ (ofRat 0) = ofRat 0
  lt_zero : ∀ x, NpOps.lt (φ x) (ofRat 0) = NpOps.lt x (ofRat 0)
  zero_lt : ∀ x, NpOps.lt (ofRat 0) (φ x) = NpOps.lt (ofRat 0) x
  zero_le : ∀ x, NpOps.le (ofRat 0) (φ x) = NpOps.le (ofRat 0) x

theorem scaled_neg {K : Type*} [Field K] [LinearOrder K] [IsStrictOrderedRing K] {c x : K} (hc : 0 < c) : c * x < 0 ↔ x < 0 :=
  ⟨fun h => not_le.mp fun hx => not_lt.mpr (mul_nonneg hc.le hx) h, fun h => mul_neg_of_pos_of_neg hc h⟩

theorem unitChange_field {K : Type*} [Field K] [LinearOrder K] [IsStrictOrderedRing K] (c : K) (hc : 0 < c) :
    UnitChange (fun x : K => c * x) where
  add := fun x y => by ring
  sub := fun x y => by ring
  neg := fun x => by ring
  mul_l := fun x y => by ring
  mul_r := fun x y => by ring
  div_l := fun x y => by ring
  div_both := fun x y => mul_div_mul_left x y hc.ne'
  min := fun x y => (mul_min_of_nonneg x y hc.le).symm
  max := fun x y => (mul_max_of_nonneg x y hc.le).symm
  abs := fun x => by
    show Max.max (c * x) (-(c * x)) = c * Max.max x (-x)
    rw [mul_max_of_nonneg _ _ hc.le, mul_neg]
  sign := fun x => by
    show (if 0 < c * x then (1 : K) else if c * x < 0 then -1 else 0) = if 0 < x then (1 : K) else if x < 0 then -1 else 0
    simp only [mul_pos_iff_of_pos_left hc, scaled_neg hc]
  zero := by show c * ((0 : ℚ) : K) = ((0 : ℚ) : K); simp
  lt_zero := fun x => by
    show decide (c * x < ((0 : ℚ) : K)) = decide (x < ((0 : ℚ) : K))
    simp only [Rat.cast_zero, scaled_neg hc]
  zero_lt := fun x => by
    show decide (((0 : ℚ) : K) < c * x) = decide (((0 : ℚ) : K) < x)
    simp only [Rat.cast_zero, mul_pos_iff_of_pos_left hc]
  zero_le := fun x => by
    show decide (((0 : ℚ) : K) ≤ c * x) = decide (((0 : ℚ) : K) ≤ x)
    simp only [Rat.cast_zero, mul_nonneg_iff_of_pos_left hc]

/-- multiplication of a float by a number that only changes its exponent -/
def Fl.times {K : Type*} [Field K] [LinearOrder K] {R : Rounding K} (c : K) (hR : ∀ x, R.rnd (c * x) = c * R.rnd x) (x : Fl R) :
    Fl R := ⟨c * x.val, by rw [hR, x.rep]⟩

theorem unitChange_fl {K : Type*} [Field K] [LinearOrder K] [IsStrictOrderedRing K] (R : Rounding K) (c : K) (hc : 0 < c)
    (hR : ∀ x, R.rnd (c * x) = c * R.rnd x) : UnitChange (Fl.times (R := R) c hR) where
  add := fun x y => Fl.ext (show R.rnd (c * x.val + c * y.val) = c * R.rnd (x.val + y.val) by rw [← hR]; congr 1; ring)
  sub := fun x y => Fl.ext (show R.rnd (c * x.val - c * y.val) = c * R.rnd (x.val - y.val) by rw [← hR]; congr 1; ring)
  neg := fun x => Fl.ext (show -(c * x.val) = c * -x.val by ring)
  mul_l := fun x y => Fl.ext (show R.rnd (c * x.val * y.val) = c * R.rnd (x.val * y.val) by rw [← hR]; congr 1; ring)
  mul_r := fun x y => Fl.ext (show R.rnd (x.val * (c * y.val)) = c * R.rnd (x.val * y.val) by rw [← hR]; congr 1; ring)
  div_l := fun x y => Fl.ext (show R.rnd (c * x.val / y.val) = c * R.rnd (x.val / y.val) by rw [← hR]; congr 1; ring)
  div_both := fun x y => Fl.ext (show R.rnd (c * x.val / (c * y.val)) = R.rnd (x.val / y.val) by rw [mul_div_mul_left _ _ hc.ne'])
  min := fun x y => by
    have hm : ∀ a b : Fl R, (Min.min a b).val = Min.min a.val b.val := fun a b => by
      rcases le_total a b with h | h
      · rw [min_eq_left h, min_eq_left (show a.val ≤ b.val from h)]
      · rw [min_eq_right h, min_eq_right (show b.val ≤ a.val from h)]
    refine Fl.ext ?_
    show (Min.min (Fl.times c hR x) (Fl.times c hR y)).val = c * (Min.min x y).val
    rw [hm, hm]
    exact (mul_min_of_nonneg x.val y.val hc.le).symm
  max := fun x y => by
    have hm : ∀ a b : Fl R, (Max.max a b).val = Max.max a.val b.val := fun a b => by
      rcases le_total a b with h | h
      · rw [max_eq_right h, max_eq_right (show a.val ≤ b.val from h)]
      · rw [max_eq_left h, max_eq_left (show b.val ≤ a.val from h)]
    refine Fl.ext ?_
    show (Max.max (Fl.times c hR x) (Fl.times c hR y)).val = c * (Max.max x y).val
    rw [hm, hm]
    exact (mul_max_of_nonneg x.val y.val hc.le).symm
  abs := fun x => by
    have hm : ∀ a b : Fl R, (Max.max a b).val = Max.max a.val b.val := fun a b => by
      rcases le_total a b with h | h
      · rw [max_eq_right h, max_eq_right (show a.val ≤ b.val from h)]
      · rw [max_eq_left h, max_eq_left (show b.val ≤ a.val from h)]
    refine Fl.ext ?_
    show (Max.max (Fl.times c hR x) (-Fl.times c hR x)).val = c * (Max.max x (-x)).val
    rw [hm, hm]
    show Max.max (c * x.val) (-(c * x.val)) = c * Max.max x.val (-x.val)
    rw [mul_max_of_nonneg _ _ hc.le, mul_neg]
  sign := fun x => by
    have e : ∀ y : Fl R, (0 < y) = (0 < y.val) := fun _ => rfl
    have e' : ∀ y : Fl R, (y < 0) = (y.val < 0) := fun _ => rfl
    show (if 0 < Fl.times c hR x then (1 : Fl R) else if Fl.times c hR x < 0 then -1 else 0) =
      if 0 < x then (1 : Fl R) else if x < 0 then -1 else 0
    simp only [e, e', Fl.times, mul_pos_iff_of_pos_left hc, scaled_neg hc]
  zero := Fl.ext (show c * R.rnd ((0 : ℚ) : K) = R.rnd ((0 : ℚ) : K) by simp [R.zero])
  lt_zero := fun x => by
    show decide (c * x.val < R.rnd ((0 : ℚ) : K)) = decide (x.val < R.rnd ((0 : ℚ) : K))
    simp only [Rat.cast_zero, R.zero, scaled_neg hc]
  zero_lt := fun x => by
    show decide (R.rnd ((0 : ℚ) : K) < c * x.val) = decide (R.rnd ((0 : ℚ) : K) < x.val)
    simp only [Rat.cast_zero, R.zero, mul_pos_iff_of_pos_left hc]
  zero_le := fun x => by
    show decide (R.rnd ((0 : ℚ) : K) ≤ c * x.val) = decide (R.rnd ((0 : ℚ) : K) ≤ x.val)
    simp only [Rat.cast_zero, R.zero, mul_nonneg_iff_of_pos_left hc]

namespace UnitChange
variable {m n : ℕ} {α : Type*} [Add α] [Sub α] [Mul α] [Div α] [Neg α] [NpOps α] {φ : α → α} (h : UnitChange φ)
include h

theorem ite (b : Bool) (x y : α) : (if b = true then φ x else φ y) = φ (if b = true then x else y) := by
  cases b <;> rfl

theorem relStorage (t s : α) : Wam.relStorage (φ t) (φ s) = Wam.relStorage t s := by
  unfold Wam.relStorage; rw [h.div_both]

theorem padWith (f : Fin n → α) : Arr.padWith (ofRat 0) (ofRat 0) (fun j => φ (f j)) = fun k => φ (Arr.padWith (ofRat 0) (ofRat 0) f k) := by
  funext k
  rw [Arr.padWith_apply, Arr.padWith_apply]
  split_ifs
  · rw [h.zero]
  · rw [h.zero]
  · rfl

theorem padYZero (f : Arr m n α) : Arr.padYZero (scaleField φ f) = scaleField φ (Arr.padYZero f) := by
  funext i j
  unfold Arr.padYZero scaleField
  rw [h.padWith fun i' => f i' j]

theorem padXYZero (f : Arr m n α) : Arr.padXYZero (scaleField φ f) = scaleField φ (Arr.padXYZero f) := by
  unfold Arr.padXYZero
  rw [← h.padYZero]
  congr 1
  funext i
  exact h.padWith (f i)

theorem donorCell (sp : Arr (m + 2) (n + 2) α) (up : Arr m (n + 1) α) (vp : Arr (m + 1) n α) :
    Wam.donorCell sp (scaleField φ up) (scaleField φ vp) = scaleField φ (Wam.donorCell sp up vp) := by
  funext i j
  simp only [Wam.donorCell, scaleField, Arr.rowsInner, Arr.colsInner, Arr.rowsButFirst, Arr.rowsButLast, Arr.colsButFirst,
    Arr.colsButLast, h.zero_lt, h.mul_l, h.ite, h.sub, h.add]

theorem advect (periodic sgn : Bool) (s fx fy : Arr (m + 2) (n + 2) α) :
    Wam.advect periodic sgn s (scaleField φ fx) (scaleField φ fy) = scaleField φ (Wam.advect periodic sgn s fx fy) := by
  have hx : staggerX (scaleField φ fx) = scaleField φ (staggerX fx) := by
    funext i j
    simp only [staggerX, scaleField, Arr.rowsInner, Arr.colsButFirst, Arr.colsButLast, h.add, h.mul_r]
  have hy : staggerY (scaleField φ fy) = scaleField φ (staggerY fy) := by
    funext i j
    simp only [staggerY, scaleField, Arr.colsInner, Arr.rowsButFirst, Arr.rowsButLast, h.add, h.mul_r]
  have hy' : staggerYPeriodic (scaleField φ fy) = scaleField φ (staggerYPeriodic fy) := by
    funext i j
    simp only [staggerYPeriodic, scaleField, Arr.rowsButFirst, Arr.rowsButLast, h.add, h.mul_r]
  have hx' : staggerXPeriodic (scaleField φ fx) = scaleField φ (staggerXPeriodic fx) := by
    funext i j
    simp only [staggerXPeriodic, scaleField, Arr.rowsInner, Arr.colsButFirst, Arr.colsButLast, h.add, h.mul_r]
    rw [Arr.padWith_apply, Arr.padWith_apply]
    split_ifs <;> rfl
  have hs : ∀ {m n : ℕ} (f : Arr m n α), (fun i j => if sgn = true then -scaleField φ f i j else scaleField φ f i j) =
      scaleField φ (fun i j => if sgn = true then -f i j else f i j) := by
    intro m n f
    funext i j
    simp only [scaleField, h.neg, h.ite]
  cases periodic
  · simp only [Wam.advect, Bool.false_eq_true, if_false, horizontalAdvectionClosed]
    rw [hx, hy]
    rw [hs, hs, h.padXYZero, h.padXYZero, h.donorCell]
  · simp only [Wam.advect, if_true, horizontalAdvectionPeriodic]
    rw [hx', hy']
    rw [hs, hs, h.padYZero, h.padYZero, h.donorCell]

theorem stabilizeComponent (dt a s fx fy f : α) :
    Wam.stabilizeComponent dt a (φ s) (φ fx) (φ fy) (φ f) = φ (Wam.stabilizeComponent dt a s fx fy f) := by
  simp only [Wam.stabilizeComponent, h.mul_l, h.abs, h.add, h.sign, h.mul_r, h.div_both, h.min, h.div_l]

theorem npGradient (f : Fin (n + 2) → α) (j : Fin (n + 2)) : Wam.npGradient (fun j' => φ (f j')) j = φ (Wam.npGradient f j) := by
  unfold Wam.npGradient
  split_ifs
  · rw [h.sub]
  · rw [h.sub]
  · rw [h.sub, h.div_l]

theorem divergence (fx fy : Arr (m + 2) (n + 2) α) :
    Wam.divergence (scaleField φ fx) (scaleField φ fy) = scaleField φ (Wam.divergence fx fy) := by
  funext i j
  unfold Wam.divergence scaleField
  rw [h.npGradient fun j' => fx i j', h.npGradient fun i' => fy i' j, h.sub]

theorem fzClosure (dt a s0u s0l s1u s1l du dl p e : α) :
    Wam.fzClosure dt a (φ s0u) (φ s0l) (φ s1u) (φ s1l) (φ du) (φ dl) (φ p) (φ e) =
      φ (Wam.fzClosure dt a s0u s0l s1u s1l du dl p e) := by
  unfold Wam.fzClosure
  simp only [h.add, h.sub]
  simp only [h.div_l (s1u + s0u), h.div_l (s1l + s0l), h.add, h.div_both, h.mul_l, h.mul_r, h.sub]
  simp only [h.div_l, h.add, h.mul_r, h.sub]

theorem fzLimit (dt kvf s0u s0l s1u s1l fz : α) :
    Wam.fzLimit dt kvf (φ s0u) (φ s0l) (φ s1u) (φ s1l) (φ fz) = φ (Wam.fzLimit dt kvf s0u s0l s1u s1l fz) := by
  unfold Wam.fzLimit
  simp only [h.add, h.div_l, h.min, h.mul_r, h.abs, h.sign]

theorem calculateFz (a : Fin (m + 2) → α) (F : Fluxes (m + 2) (n + 2) α) (S0 S1 : States (m + 2) (n + 2) α) (dt kvf : α) :
    Wam.calculateFz a (unitFluxes φ F) (scaleStates φ S0) (scaleStates φ S1) dt kvf = scaleField φ (Wam.calculateFz a F S0 S1 dt kvf) := by
  funext i j
  unfold Wam.calculateFz
  simp only [unitFluxes, scaleStates, h.divergence]
  simp only [scaleField, h.fzClosure, h.fzLimit]

theorem stabilizeFluxes (dt : α) (a : Fin (m + 2) → α) (F : Fluxes (m + 2) (n + 2) α) (S : States (m + 2) (n + 2) α) :
    Wam.stabilizeFluxes dt a (unitFluxes φ F) (scaleStates φ S) = unitFluxes φ (Wam.stabilizeFluxes dt a F S) := by
  simp only [Wam.stabilizeFluxes, unitFluxes, scaleStates, scaleField, h.stabilizeComponent]
  rfl

theorem scaleFluxes (g : GridInfo (m + 2) α) (F : Fluxes (m + 2) (n + 2) α) :
    Wam.scaleFluxes g (unitFluxes φ F) = unitFluxes φ (Wam.scaleFluxes g F) := by
  simp only [Wam.scaleFluxes, unitFluxes, scaleField, h.mul_l]
  rfl

theorem verticalAdvection (f l u : α) : Wam.verticalAdvection (φ f) l u = φ (Wam.verticalAdvection f l u) := by
  simp only [Wam.verticalAdvection, h.zero_le, h.mul_l, h.ite]

theorem verticalDispersion (f l u k : α) : Wam.verticalDispersion (φ f) l u k = φ (Wam.verticalDispersion f l u k) := by
  simp only [Wam.verticalDispersion, h.abs, h.mul_l, h.mul_r]

theorem settle (b : Bool) (tl tu Sl Su : α) :
    Wam.settle b (φ tl) (φ tu) (φ Sl) (φ Su) =
      ⟨φ (Wam.settle b tl tu Sl Su).lower, φ (Wam.settle b tl tu Sl Su).upper, φ (Wam.settle b tl tu Sl Su).losses,
        φ (Wam.settle b tl tu Sl Su).gains⟩ := by
  have h0 : ∀ (c : Bool) (x : α), (if c = true then ofRat 0 else φ x) = φ (if c = true then ofRat 0 else x) := fun c x => by
    cases c
    · rfl
    · exact h.zero.symm
  have h1 : ∀ (c : Bool) (x : α), (if c = true then φ x else ofRat 0) = φ (if c = true then x else ofRat 0) := fun c x => by
    cases c
    · exact h.zero.symm
    · rfl
  have h2 : ∀ x, maximum (ofRat 0) (φ x) = φ (maximum (ofRat 0) x) := fun x => by rw [← h.max, h.zero]
  have h3 : ∀ x, maximum (φ x) (ofRat 0) = φ (maximum x (ofRat 0)) := fun x => by rw [← h.max, h.zero]
  simp only [Wam.settle, h.add, h0, h1, h.sub, h2, h3, h.lt_zero, h.neg, h.min]

theorem forwardtrack (periodic : Bool) (dt kvf : α) (a : Fin (m + 2) → α) (F : Fluxes (m + 2) (n + 2) α)
    (fz : Arr (m + 2) (n + 2) α) (S1 S0 : States (m + 2) (n + 2) α) (mask : Arr (m + 2) (n + 2) α)
    (o : FwdOutput (m + 2) (n + 2) α) :
    Wam.forwardtrack periodic dt kvf a (unitFluxes φ F) (scaleField φ fz) (scaleStates φ S1) (scaleStates φ S0) mask
      (unitFwd φ o) = unitFwd φ (Wam.forwardtrack periodic dt kvf a F fz S1 S0 mask o) := by
  have hp : ∀ p s t : α, φ p * φ s / φ t = φ (p * s / t) := fun p s t => by
    rw [h.mul_l, h.mul_r, h.div_both, h.div_l]
  have ht : fwdTransport periodic dt kvf a (unitFluxes φ F) (scaleField φ fz) (scaleStates φ S0) mask
      (unitFwd φ o).s_track_lower (unitFwd φ o).s_track_upper =
      (scaleField φ (fwdTransport periodic dt kvf a F fz S0 mask o.s_track_lower o.s_track_upper).1,
        scaleField φ (fwdTransport periodic dt kvf a F fz S0 mask o.s_track_lower o.s_track_upper).2) := by
    have e : ∀ t s : Arr (m + 2) (n + 2) α, (fun i j => Wam.relStorage (scaleField φ t i j) (scaleField φ s i j)) =
        fun i j => Wam.relStorage (t i j) (s i j) := fun t s => by
      funext i j; exact h.relStorage _ _
    refine Prod.ext ?_ ?_ <;> funext i j <;> simp only [fwdTransport, unitFluxes, scaleStates, unitFwd] <;> rw [e, h.advect] <;>
      simp only [scaleField, h.relStorage, h.verticalAdvection, h.verticalDispersion, h.add, hp] <;>
      simp only [h.div_l, h.mul_l, h.mul_r, h.add, h.sub]
  unfold Wam.forwardtrack
  simp only [ht]
  simp only [unitFwd, FwdOutput.mk.injEq]
  refine ⟨?_, ?_, ?_, ?_, ?_, ?_, ?_⟩ <;> funext i j <;>
    simp only [unitFluxes, scaleStates, scaleField, h.settle, h.relStorage, h.add, hp] <;> simp only [h.mul_l, h.mul_r, h.add]

theorem backtrack (periodic : Bool) (dt kvf : α) (a : Fin (m + 2) → α) (F : Fluxes (m + 2) (n + 2) α)
    (fz : Arr (m + 2) (n + 2) α) (S1 S0 : States (m + 2) (n + 2) α) (mask : Arr (m + 2) (n + 2) α)
    (o : BwdOutput (m + 2) (n + 2) α) :
    Wam.backtrack periodic dt kvf a (unitFluxes φ F) (scaleField φ fz) (scaleStates φ S1) (scaleStates φ S0) mask
      (unitBwd φ o) = unitBwd φ (Wam.backtrack periodic dt kvf a F fz S1 S0 mask o) := by
  have hp : ∀ q p s t : α, q * φ p * φ s / φ t = φ (q * p * s / t) := fun q p s t => by
    rw [h.mul_r q p, h.mul_l, h.mul_r, h.div_both, h.div_l]
  have ht : bwdTransport periodic dt kvf a (unitFluxes φ F) (scaleField φ fz) (scaleStates φ S1) mask
      (unitBwd φ o).s_track_lower (unitBwd φ o).s_track_upper =
      (scaleField φ (bwdTransport periodic dt kvf a F fz S1 mask o.s_track_lower o.s_track_upper).1,
        scaleField φ (bwdTransport periodic dt kvf a F fz S1 mask o.s_track_lower o.s_track_upper).2) := by
    have e : ∀ t s : Arr (m + 2) (n + 2) α, (fun i j => Wam.relStorage (scaleField φ t i j) (scaleField φ s i j)) =
        fun i j => Wam.relStorage (t i j) (s i j) := fun t s => by
      funext i j; exact h.relStorage _ _
    refine Prod.ext ?_ ?_ <;> funext i j <;> simp only [bwdTransport, unitFluxes, scaleStates, unitBwd] <;> rw [e, h.advect] <;>
      simp only [scaleField, h.relStorage, h.neg, h.verticalAdvection, h.verticalDispersion, h.add, hp] <;>
      simp only [h.div_l, h.mul_l, h.mul_r, h.add, h.sub]
  unfold Wam.backtrack
  simp only [ht]
  simp only [unitBwd, BwdOutput.mk.injEq]
  refine ⟨?_, ?_, ?_, ?_, ?_, ?_⟩ <;> funext i j <;>
    simp only [unitFluxes, scaleStates, scaleField, h.settle, h.relStorage, h.add] <;> simp only [h.mul_l, h.mul_r, h.add]

end UnitChange

end Wam
