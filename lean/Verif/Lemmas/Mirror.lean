import Verif.Spec.Mirror
import Verif.Lemmas.Equivariant
import Verif.Model.Rounded

/-! # Mirror images, for exact and for rounded numbers -/
set_option linter.unusedSectionVars false
set_option linter.unusedVariables false

namespace Wam
open Spec

/-- Arithmetic that treats positive and negative numbers alike: exact and rounded numbers do. -/
class MirrorNum (α : Type*) [Add α] [Sub α] [Mul α] [Div α] [Neg α] [NpOps α] : Prop where
  m_add_comm : ∀ x y : α, x + y = y + x
  m_neg_add : ∀ x y : α, -x + -y = -(x + y)
  m_neg_sub : ∀ x y : α, -x - -y = y - x
  m_mul_neg : ∀ x y : α, x * -y = -(x * y)
  m_neg_mul : ∀ x y : α, -x * y = -(x * y)
  m_neg_div : ∀ x y : α, -x / y = -(x / y)
  m_neg_zero : -(ofRat 0 : α) = ofRat 0
  m_flip : ∀ q a b : α, (if NpOps.lt (ofRat 0) (-q) then -q * a else -q * b) = -(if NpOps.lt (ofRat 0) q then q * b else q * a)
  m_abs_neg : ∀ x : α, absolute (-x) = absolute x
  m_sign_neg : ∀ x : α, NpOps.sign (-x) = -NpOps.sign x

instance mirrorNumField {K : Type*} [Field K] [LinearOrder K] [IsStrictOrderedRing K] : MirrorNum K where
  m_add_comm := add_comm
  m_neg_add := fun x y => by ring
  m_neg_sub := fun x y => by ring
  m_mul_neg := fun x y => by ring
  m_neg_mul := fun x y => by ring
  m_neg_div := fun x y => by ring
  m_neg_zero := by simp [ofRat]
  m_flip := fun q a b => by
    have h : ∀ x : K, (NpOps.lt (ofRat 0) x = true) = (0 < x) := fun x => by simp [NpOps.lt, ofRat]
    simp only [h, Left.neg_pos_iff]
    rcases lt_trichotomy q 0 with hq | hq | hq
    · rw [if_pos hq, if_neg (not_lt.mpr hq.le)]; ring
    · subst hq; simp
    · rw [if_neg (not_lt.mpr hq.le), if_pos hq]; ring
  m_abs_neg := fun x => by simp only [absolute, neg_neg]; exact max_comm _ _
  m_sign_neg := fun x => by
    simp only [NpOps.sign, Left.neg_pos_iff, Left.neg_neg_iff]
    rcases lt_trichotomy x 0 with hq | hq | hq
    · rw [if_pos hq, if_neg (not_lt.mpr hq.le), if_pos hq]; simp
    · subst hq; simp
    · rw [if_neg (not_lt.mpr hq.le), if_pos hq, if_pos hq]

instance mirrorNumFl {K : Type*} [Field K] [LinearOrder K] [IsStrictOrderedRing K] (R : Rounding K) : MirrorNum (Fl R) where
  m_add_comm := fun x y => Fl.ext (show R.rnd (x.val + y.val) = R.rnd (y.val + x.val) by rw [add_comm])
  m_neg_add := fun x y => Fl.ext (show R.rnd (-x.val + -y.val) = -R.rnd (x.val + y.val) by rw [← R.neg]; congr 1; ring)
  m_neg_sub := fun x y => Fl.ext (show R.rnd (-x.val - -y.val) = R.rnd (y.val - x.val) by congr 1; ring)
  m_mul_neg := fun x y => Fl.ext (show R.rnd (x.val * -y.val) = -R.rnd (x.val * y.val) by rw [← R.neg]; congr 1; ring)
  m_neg_mul := fun x y => Fl.ext (show R.rnd (-x.val * y.val) = -R.rnd (x.val * y.val) by rw [← R.neg]; congr 1; ring)
  m_neg_div := fun x y => Fl.ext (show R.rnd (-x.val / y.val) = -R.rnd (x.val / y.val) by rw [← R.neg]; congr 1; ring)
  m_neg_zero := Fl.ext (show -R.rnd ((0 : ℚ) : K) = R.rnd ((0 : ℚ) : K) by rw [Rat.cast_zero, R.zero, neg_zero])
  m_flip := fun q a b => by
    have h : ∀ x : Fl R, (NpOps.lt (ofRat 0) x = true) = (0 < x.val) := fun x => by
      show (decide (Fl.round R ((0 : ℚ) : K) < x) = true) = _
      rw [decide_eq_true_eq]
      show (R.rnd ((0 : ℚ) : K) < x.val) = _
      rw [Rat.cast_zero, R.zero]
    have hn : ∀ x y : Fl R, -x * y = -(x * y) := fun x y =>
      Fl.ext (show R.rnd (-x.val * y.val) = -R.rnd (x.val * y.val) by rw [← R.neg]; congr 1; ring)
    simp only [h]
    show (if 0 < -q.val then _ else _) = _
    simp only [Left.neg_pos_iff]
    rcases lt_trichotomy q.val 0 with hq | hq | hq
    · rw [if_pos hq, if_neg (not_lt.mpr hq.le), hn]
    · have hz : ∀ x : Fl R, q * x = q := fun x => Fl.ext (show R.rnd (q.val * x.val) = q.val by rw [hq, zero_mul, R.zero])
      have hz' : -q = q := Fl.ext (show -q.val = q.val by rw [hq, neg_zero])
      simp only [hz', hz, ite_self]
    · rw [if_neg (not_lt.mpr hq.le), if_pos hq, hn]
  m_abs_neg := fun x => by
    show max (-x) (- -x) = max x (-x)
    rw [show - -x = x from Fl.ext (neg_neg x.val)]; exact max_comm _ _
  m_sign_neg := fun x => by
    have e : ∀ y : Fl R, (0 < y) = (0 < y.val) := fun _ => rfl
    have e' : ∀ y : Fl R, (y < 0) = (y.val < 0) := fun _ => rfl
    show (if (0 : Fl R) < -x then (1 : Fl R) else if -x < (0 : Fl R) then -1 else 0) =
      -(if (0 : Fl R) < x then (1 : Fl R) else if x < (0 : Fl R) then -1 else 0)
    simp only [e, e']
    show (if 0 < -x.val then (1 : Fl R) else if -x.val < 0 then -1 else 0) = _
    simp only [Left.neg_pos_iff, Left.neg_neg_iff]
    rcases lt_trichotomy x.val 0 with hq | hq | hq
    · rw [if_pos hq, if_neg (not_lt.mpr hq.le), if_pos hq]; exact Fl.ext (neg_neg (1 : K)).symm
    · rw [hq]; simp only [lt_irrefl, if_false]; exact Fl.ext (neg_zero (G := K)).symm
    · rw [if_neg (not_lt.mpr hq.le), if_pos hq, if_pos hq]

namespace Mir
variable {m n : ℕ} {α : Type*} [Add α] [Sub α] [Mul α] [Div α] [Neg α] [NpOps α] [MirrorNum α]
open MirrorNum

/-- columns reversed -/
def rx {β : Type*} (f : Arr m n β) : Arr m n β := fun i j => f i j.rev
/-- rows reversed -/
def ry {β : Type*} (f : Arr m n β) : Arr m n β := fun i j => f i.rev j
/-- sign changed -/
def ng (f : Arr m n α) : Arr m n α := fun i j => -f i j

theorem padWith_rev {β : Type*} (l r : β) (f : Fin n → β) (k : Fin (n + 2)) :
    Arr.padWith l r (fun j => f j.rev) k = Arr.padWith r l f k.rev := by
  rw [Arr.padWith_apply, Arr.padWith_apply]
  by_cases h1 : k.val = 0
  · rw [dif_pos h1, dif_neg (by simp [Fin.val_rev, h1]), dif_pos (by simp [Fin.val_rev, h1])]
  · by_cases h2 : k.val = n + 1
    · rw [dif_neg h1, dif_pos h2, dif_pos (by simp [Fin.val_rev, h2])]
    · have hk := k.isLt
      rw [dif_neg h1, dif_neg h2, dif_neg (by simp [Fin.val_rev]; omega), dif_neg (by simp [Fin.val_rev]; omega)]
      congr 1
      apply Fin.ext
      simp only [Fin.val_rev]
      omega

theorem padWith_neg (l r : α) (f : Fin n → α) (k : Fin (n + 2)) :
    Arr.padWith (-l) (-r) (fun j => -f j) k = -Arr.padWith l r f k := by
  rw [Arr.padWith_apply, Arr.padWith_apply]
  split_ifs <;> rfl

theorem padXYZero_rx (a : Arr m n α) : Arr.padXYZero (rx a) = rx (Arr.padXYZero a) := by
  funext i j
  simp only [Arr.padXYZero, Arr.padYZero, rx]
  congr 1
  funext i'
  exact padWith_rev _ _ (a i') j

theorem padXYZero_ry (a : Arr m n α) : Arr.padXYZero (ry a) = ry (Arr.padXYZero a) := by
  funext i j
  simp only [Arr.padXYZero, Arr.padYZero, ry]
  exact padWith_rev _ _ (fun i' => Arr.padWith (ofRat 0) (ofRat 0) (a i') j) i

theorem padXYZero_ng (a : Arr m n α) : Arr.padXYZero (ng a) = ng (Arr.padXYZero a) := by
  funext i j
  have h : ∀ i' , Arr.padWith (ofRat 0) (ofRat 0) (fun j => -a i' j) j = -Arr.padWith (ofRat 0) (ofRat 0) (a i') j := by
    intro i'
    rw [← padWith_neg, m_neg_zero]
  show Arr.padWith (ofRat 0) (ofRat 0) (fun i' => Arr.padWith (ofRat 0) (ofRat 0) (fun j => -a i' j) j) i = _
  simp only [h]
  show _ = -Arr.padWith (ofRat 0) (ofRat 0) (fun i' => Arr.padWith (ofRat 0) (ofRat 0) (a i') j) i
  rw [← padWith_neg, m_neg_zero]

theorem padYZero_rx (a : Arr m n α) : Arr.padYZero (rx a) = rx (Arr.padYZero a) := rfl

theorem padYZero_ry (a : Arr m n α) : Arr.padYZero (ry a) = ry (Arr.padYZero a) := by
  funext i j
  exact padWith_rev _ _ (fun i' => a i' j) i

theorem padYZero_ng (a : Arr m n α) : Arr.padYZero (ng a) = ng (Arr.padYZero a) := by
  funext i j
  simp only [Arr.padYZero, ng]
  rw [← padWith_neg, m_neg_zero]

theorem padXWrap_rx (a : Arr m (n + 1) α) : Arr.padXWrap (rx a) = rx (Arr.padXWrap a) := by
  funext i j
  simp only [Arr.padXWrap, rx, Fin.rev_last, Fin.rev_zero]
  exact padWith_rev _ _ (a i) j

theorem padXWrap_ry (a : Arr m (n + 1) α) : Arr.padXWrap (ry a) = ry (Arr.padXWrap a) := rfl

theorem staggerX_rx (f : Arr (m + 2) (n + 2) α) : staggerX (rx f) = rx (staggerX f) := by
  funext i j
  simp only [staggerX, rx, Arr.rowsInner, Arr.colsButLast, Arr.colsButFirst, Fin.rev_castSucc, Fin.rev_succ]
  rw [m_add_comm]

theorem staggerX_ry (f : Arr (m + 2) (n + 2) α) : staggerX (ry f) = ry (staggerX f) := by
  funext i j
  simp only [staggerX, ry, Arr.rowsInner, Arr.colsButLast, Arr.colsButFirst, Fin.rev_castSucc, Fin.rev_succ,
    ← Fin.succ_castSucc]

theorem staggerX_ng (f : Arr (m + 2) (n + 2) α) : staggerX (ng f) = ng (staggerX f) := by
  funext i j
  simp only [staggerX, ng, Arr.rowsInner, Arr.colsButLast, Arr.colsButFirst]
  rw [m_neg_add, m_mul_neg]

theorem staggerY_rx (f : Arr (m + 2) (n + 2) α) : staggerY (rx f) = rx (staggerY f) := by
  funext i j
  simp only [staggerY, rx, Arr.colsInner, Arr.rowsButLast, Arr.rowsButFirst, Fin.rev_castSucc, Fin.rev_succ,
    ← Fin.succ_castSucc]

theorem staggerY_ry (f : Arr (m + 2) (n + 2) α) : staggerY (ry f) = ry (staggerY f) := by
  funext i j
  simp only [staggerY, ry, Arr.colsInner, Arr.rowsButLast, Arr.rowsButFirst, Fin.rev_castSucc, Fin.rev_succ]
  rw [m_add_comm]

theorem staggerY_ng (f : Arr (m + 2) (n + 2) α) : staggerY (ng f) = ng (staggerY f) := by
  funext i j
  simp only [staggerY, ng, Arr.colsInner, Arr.rowsButLast, Arr.rowsButFirst]
  rw [m_neg_add, m_mul_neg]

theorem staggerYP_rx (f : Arr (m + 2) (n + 2) α) : staggerYPeriodic (rx f) = rx (staggerYPeriodic f) := rfl

theorem staggerYP_ry (f : Arr (m + 2) (n + 2) α) : staggerYPeriodic (ry f) = ry (staggerYPeriodic f) := by
  funext i j
  simp only [staggerYPeriodic, ry, Arr.rowsButLast, Arr.rowsButFirst, Fin.rev_castSucc, Fin.rev_succ]
  rw [m_add_comm]

theorem staggerYP_ng (f : Arr (m + 2) (n + 2) α) : staggerYPeriodic (ng f) = ng (staggerYPeriodic f) := by
  funext i j
  simp only [staggerYPeriodic, ng, Arr.rowsButLast, Arr.rowsButFirst]
  rw [m_neg_add, m_mul_neg]

theorem staggerXP_rx (f : Arr (m + 2) (n + 2) α) : staggerXPeriodic (rx f) = rx (staggerXPeriodic f) := by
  funext i j
  simp only [staggerXPeriodic, rx, Arr.rowsInner, Arr.colsButLast, Arr.colsButFirst, Fin.rev_castSucc, Fin.rev_succ, Fin.rev_last,
    Fin.rev_zero]
  rw [← padWith_rev]
  simp only [Fin.rev_castSucc, Fin.rev_succ, m_add_comm]

theorem staggerXP_ry (f : Arr (m + 2) (n + 2) α) : staggerXPeriodic (ry f) = ry (staggerXPeriodic f) := by
  funext i j
  simp only [staggerXPeriodic, ry, Arr.rowsInner, Arr.colsButLast, Arr.colsButFirst, Fin.rev_castSucc, Fin.rev_succ,
    ← Fin.succ_castSucc]

theorem staggerXP_ng (f : Arr (m + 2) (n + 2) α) : staggerXPeriodic (ng f) = ng (staggerXPeriodic f) := by
  funext i j
  simp only [staggerXPeriodic, ng, Arr.rowsInner, Arr.colsButLast, Arr.colsButFirst]
  rw [← padWith_neg]
  simp only [m_neg_add, m_mul_neg]

theorem donorCell_rx (sp : Arr (m + 2) (n + 2) α) (up : Arr m (n + 1) α) (vp : Arr (m + 1) n α) :
    donorCell (rx sp) (ng (rx up)) (rx vp) = rx (donorCell sp up vp) := by
  funext i j
  simp only [donorCell, rx, ng, Arr.rowsInner, Arr.colsInner, Arr.rowsButFirst, Arr.rowsButLast, Arr.colsButFirst,
    Arr.colsButLast, Fin.rev_castSucc, Fin.rev_succ, m_flip, m_neg_sub, ← Fin.succ_castSucc]

theorem donorCell_ry (sp : Arr (m + 2) (n + 2) α) (up : Arr m (n + 1) α) (vp : Arr (m + 1) n α) :
    donorCell (ry sp) (ry up) (ng (ry vp)) = ry (donorCell sp up vp) := by
  funext i j
  simp only [donorCell, ry, ng, Arr.rowsInner, Arr.colsInner, Arr.rowsButFirst, Arr.rowsButLast, Arr.colsButFirst,
    Arr.colsButLast, Fin.rev_castSucc, Fin.rev_succ, m_flip, m_neg_sub, ← Fin.succ_castSucc]

/-- optional sign change -/
def sg (sgn : Bool) (f : Arr m n α) : Arr m n α := fun i j => if sgn then -f i j else f i j

theorem sg_rx (sgn : Bool) (f : Arr m n α) : sg sgn (rx f) = rx (sg sgn f) := rfl
theorem sg_ry (sgn : Bool) (f : Arr m n α) : sg sgn (ry f) = ry (sg sgn f) := rfl
theorem sg_ng (sgn : Bool) (f : Arr m n α) : sg sgn (ng f) = ng (sg sgn f) := by
  cases sgn <;> rfl
theorem ng_rx (f : Arr m n α) : ng (rx f) = rx (ng f) := rfl
theorem ng_ry (f : Arr m n α) : ng (ry f) = ry (ng f) := rfl

theorem advect_eq (periodic sgn : Bool) (s fx fy : Arr (m + 2) (n + 2) α) :
    advect periodic sgn s fx fy = if periodic then
      horizontalAdvectionPeriodic s (sg sgn (staggerXPeriodic fx)) (sg sgn (staggerYPeriodic fy))
    else horizontalAdvectionClosed s (sg sgn (staggerX fx)) (sg sgn (staggerY fy)) := rfl

theorem advect_rx (periodic sgn : Bool) (s fx fy : Arr (m + 2) (n + 2) α) :
    advect periodic sgn (rx s) (ng (rx fx)) (rx fy) = rx (advect periodic sgn s fx fy) := by
  rw [advect_eq, advect_eq]
  cases periodic
  · simp only [Bool.false_eq_true, if_false, horizontalAdvectionClosed]
    rw [staggerX_ng, staggerX_rx, staggerY_rx, sg_ng, sg_rx, sg_rx, padXYZero_rx, padXYZero_rx, padXYZero_ng, padXYZero_rx]
    exact donorCell_rx _ _ _
  · simp only [if_true, horizontalAdvectionPeriodic]
    rw [staggerXP_ng, staggerXP_rx, staggerYP_rx, sg_ng, sg_rx, sg_rx, padXWrap_rx, padYZero_rx, padYZero_rx, padYZero_ng,
      padYZero_rx]
    exact donorCell_rx _ _ _

theorem advect_ry (periodic sgn : Bool) (s fx fy : Arr (m + 2) (n + 2) α) :
    advect periodic sgn (ry s) (ry fx) (ng (ry fy)) = ry (advect periodic sgn s fx fy) := by
  rw [advect_eq, advect_eq]
  cases periodic
  · simp only [Bool.false_eq_true, if_false, horizontalAdvectionClosed]
    rw [staggerY_ng, staggerY_ry, staggerX_ry, sg_ng, sg_ry, sg_ry, padXYZero_ry, padXYZero_ry, padXYZero_ng, padXYZero_ry]
    exact donorCell_ry _ _ _
  · simp only [if_true, horizontalAdvectionPeriodic]
    rw [staggerYP_ng, staggerYP_ry, staggerXP_ry, sg_ng, sg_ry, sg_ry, padXWrap_ry, padYZero_ry, padYZero_ry, padYZero_ng,
      padYZero_ry]
    exact donorCell_ry _ _ _

variable (μ : Mirror)

theorem advect_mirror (periodic sgn : Bool) (s fx fy : Arr (m + 2) (n + 2) α) :
    advect periodic sgn (μ.field s) (μ.eastward fx) (μ.northward fy) = μ.field (advect periodic sgn s fx fy) := by
  obtain ⟨ew, ns⟩ := μ
  cases ew <;> cases ns
  · rfl
  · exact advect_ry periodic sgn s fx fy
  · exact advect_rx periodic sgn s fx fy
  · have h := advect_ry periodic sgn (rx s) (ng (rx fx)) (rx fy)
    rw [advect_rx] at h
    exact h

theorem npGradient_rev (f : Fin (n + 2) → α) (j : Fin (n + 2)) :
    npGradient (fun j' => -f j'.rev) j = npGradient f j.rev := by
  have hj := j.isLt
  unfold npGradient
  by_cases h0 : j.val = 0
  · rw [dif_pos h0, dif_neg (by rw [Fin.val_rev]; omega), dif_pos (by rw [Fin.val_rev]; omega), m_neg_sub]
    congr 2
  · by_cases h1 : j.val = n + 1
    · rw [dif_neg h0, dif_pos h1, dif_pos (by rw [Fin.val_rev]; omega), m_neg_sub]
      congr 2
      · rw [Fin.rev_castSucc, Fin.rev_last]; rfl
      · rw [Fin.rev_last]
    · rw [dif_neg h0, dif_neg h1, dif_neg (by rw [Fin.val_rev]; omega), dif_neg (by rw [Fin.val_rev]; omega), m_neg_sub]
      have e1 : Fin.rev (⟨j.val - 1, by omega⟩ : Fin (n + 2)) = ⟨j.rev.val + 1, by rw [Fin.val_rev]; omega⟩ := by
        apply Fin.ext; simp only [Fin.val_rev]; omega
      have e2 : Fin.rev (⟨j.val + 1, by omega⟩ : Fin (n + 2)) = ⟨j.rev.val - 1, by rw [Fin.val_rev]; omega⟩ := by
        apply Fin.ext; simp only [Fin.val_rev]; omega
      rw [e1, e2]

theorem divergence_rx (fx fy : Arr (m + 2) (n + 2) α) : divergence (ng (rx fx)) (rx fy) = rx (divergence fx fy) := by
  funext i j
  unfold divergence rx ng
  rw [npGradient_rev (fun j' => fx i j') j]

theorem divergence_ry (fx fy : Arr (m + 2) (n + 2) α) : divergence (ry fx) (ng (ry fy)) = ry (divergence fx fy) := by
  funext i j
  unfold divergence ry ng
  rw [npGradient_rev (fun i' => fy i' j) i]

theorem divergence_mirror (fx fy : Arr (m + 2) (n + 2) α) :
    divergence (μ.eastward fx) (μ.northward fy) = μ.field (divergence fx fy) := by
  obtain ⟨ew, ns⟩ := μ
  cases ew <;> cases ns
  · rfl
  · exact divergence_ry fx fy
  · exact divergence_rx fx fy
  · have h := divergence_ry (ng (rx fx)) (rx fy)
    rw [divergence_rx] at h
    exact h

theorem stabilize_neg (dt a s fx fy : α) (b c : Bool) :
    stabilizeComponent dt a s (if b then -fx else fx) (if c then -fy else fy) (if b then -fx else fx) =
      (if b then -stabilizeComponent dt a s fx fy fx else stabilizeComponent dt a s fx fy fx) ∧
    stabilizeComponent dt a s (if b then -fx else fx) (if c then -fy else fy) (if c then -fy else fy) =
      (if c then -stabilizeComponent dt a s fx fy fy else stabilizeComponent dt a s fx fy fy) := by
  cases b <;> cases c <;> simp only [Bool.false_eq_true, if_false, if_true, stabilizeComponent, m_neg_mul, m_abs_neg, m_sign_neg,
    m_neg_div, and_self]

theorem stabilizeFluxes_mirror (dt : α) (a : Fin (m + 2) → α) (F : Fluxes (m + 2) (n + 2) α) (S : States (m + 2) (n + 2) α) :
    stabilizeFluxes dt (fun i => a (μ.row i)) (μ.fluxes F) (μ.states S) = μ.fluxes (stabilizeFluxes dt a F S) := by
  unfold stabilizeFluxes Mirror.fluxes
  simp only [Fluxes.mk.injEq]
  refine ⟨?_, ?_, ?_, ?_, trivial, trivial⟩ <;> funext i j
  · exact (stabilize_neg _ _ _ _ _ μ.eastWest μ.northSouth).1
  · exact (stabilize_neg _ _ _ _ _ μ.eastWest μ.northSouth).2
  · exact (stabilize_neg _ _ _ _ _ μ.eastWest μ.northSouth).1
  · exact (stabilize_neg _ _ _ _ _ μ.eastWest μ.northSouth).2

theorem scaleFluxes_mirror (g : GridInfo (m + 2) α) (F : Fluxes (m + 2) (n + 2) α) :
    scaleFluxes (μ.grid g) (μ.fluxes F) = μ.fluxes (scaleFluxes g F) := by
  unfold scaleFluxes Mirror.fluxes
  simp only [Fluxes.mk.injEq]
  refine ⟨?_, ?_, ?_, ?_, trivial, trivial⟩ <;> funext i j <;> simp only [Mirror.eastward, Mirror.northward, Mirror.grid] <;>
    split_ifs <;> simp only [m_neg_mul]

theorem calculateFz_mirror (a : Fin (m + 2) → α) (F : Fluxes (m + 2) (n + 2) α) (S0 S1 : States (m + 2) (n + 2) α) (dt kvf : α) :
    calculateFz (fun i => a (μ.row i)) (μ.fluxes F) (μ.states S0) (μ.states S1) dt kvf = μ.field (calculateFz a F S0 S1 dt kvf) := by
  funext i j
  unfold calculateFz
  simp only [Mirror.fluxes, divergence_mirror]
  rfl

theorem getBoundary_mirror (periodic : Bool) (i : Fin (m + 2)) (j : Fin (n + 2)) :
    getBoundary periodic (μ.row i) (μ.col j) = getBoundary periodic i j := by
  have hi := i.isLt
  have hj := j.isLt
  have e1 : (1 ≤ (μ.row i).val ∧ (μ.row i).val + 1 < m + 2) ↔ (1 ≤ i.val ∧ i.val + 1 < m + 2) := by
    unfold Mirror.row; split_ifs
    · rw [Fin.val_rev]; omega
    · rfl
  have e2 : (1 ≤ (μ.col j).val ∧ (μ.col j).val + 1 < n + 2) ↔ (1 ≤ j.val ∧ j.val + 1 < n + 2) := by
    unfold Mirror.col; split_ifs
    · rw [Fin.val_rev]; omega
    · rfl
  simp only [getBoundary, e1, e2]

theorem forwardtrack_mirror (periodic : Bool) (dt kvf : α) (a : Fin (m + 2) → α) (F : Fluxes (m + 2) (n + 2) α)
    (fz : Arr (m + 2) (n + 2) α) (S1 S0 : States (m + 2) (n + 2) α) (mask : Arr (m + 2) (n + 2) α)
    (o : FwdOutput (m + 2) (n + 2) α) :
    forwardtrack periodic dt kvf (fun i => a (μ.row i)) (μ.fluxes F) (μ.field fz) (μ.states S1) (μ.states S0) (μ.field mask)
      (μ.fwd o) = μ.fwd (forwardtrack periodic dt kvf a F fz S1 S0 mask o) := by
  have hl := advect_mirror μ periodic false (fun i j => relStorage (o.s_track_lower i j) (S0.s_lower i j)) F.fx_lower F.fy_lower
  have hu := advect_mirror μ periodic false (fun i j => relStorage (o.s_track_upper i j) (S0.s_upper i j)) F.fx_upper F.fy_upper
  have ht : fwdTransport periodic dt kvf (fun i => a (μ.row i)) (μ.fluxes F) (μ.field fz) (μ.states S0) (μ.field mask)
      (μ.fwd o).s_track_lower (μ.fwd o).s_track_upper =
      (μ.field (fwdTransport periodic dt kvf a F fz S0 mask o.s_track_lower o.s_track_upper).1,
        μ.field (fwdTransport periodic dt kvf a F fz S0 mask o.s_track_lower o.s_track_upper).2) := by
    refine Prod.ext ?_ ?_ <;> funext i j
    · have := congrFun (congrFun hl i) j
      simp only [fwdTransport, Mirror.fluxes, Mirror.states, Mirror.fwd]
      rw [show (fun i j => relStorage (μ.field o.s_track_lower i j) (μ.field S0.s_lower i j)) =
        μ.field (fun i j => relStorage (o.s_track_lower i j) (S0.s_lower i j)) from rfl, this]
      rfl
    · have := congrFun (congrFun hu i) j
      simp only [fwdTransport, Mirror.fluxes, Mirror.states, Mirror.fwd]
      rw [show (fun i j => relStorage (μ.field o.s_track_upper i j) (μ.field S0.s_upper i j)) =
        μ.field (fun i j => relStorage (o.s_track_upper i j) (S0.s_upper i j)) from rfl, this]
      rfl
  unfold forwardtrack
  simp only [ht]
  simp only [Mirror.fwd, FwdOutput.mk.injEq]
  refine ⟨?_, ?_, ?_, ?_, ?_, ?_, ?_⟩ <;> funext i j <;> simp only [Mirror.field, getBoundary_mirror] <;> rfl

theorem backtrack_mirror (periodic : Bool) (dt kvf : α) (a : Fin (m + 2) → α) (F : Fluxes (m + 2) (n + 2) α)
    (fz : Arr (m + 2) (n + 2) α) (S1 S0 : States (m + 2) (n + 2) α) (mask : Arr (m + 2) (n + 2) α)
    (o : BwdOutput (m + 2) (n + 2) α) :
    backtrack periodic dt kvf (fun i => a (μ.row i)) (μ.fluxes F) (μ.field fz) (μ.states S1) (μ.states S0) (μ.field mask)
      (μ.bwd o) = μ.bwd (backtrack periodic dt kvf a F fz S1 S0 mask o) := by
  have hl := advect_mirror μ periodic true (fun i j => relStorage (o.s_track_lower i j) (S1.s_lower i j)) F.fx_lower F.fy_lower
  have hu := advect_mirror μ periodic true (fun i j => relStorage (o.s_track_upper i j) (S1.s_upper i j)) F.fx_upper F.fy_upper
  have ht : bwdTransport periodic dt kvf (fun i => a (μ.row i)) (μ.fluxes F) (μ.field fz) (μ.states S1) (μ.field mask)
      (μ.bwd o).s_track_lower (μ.bwd o).s_track_upper =
      (μ.field (bwdTransport periodic dt kvf a F fz S1 mask o.s_track_lower o.s_track_upper).1,
        μ.field (bwdTransport periodic dt kvf a F fz S1 mask o.s_track_lower o.s_track_upper).2) := by
    refine Prod.ext ?_ ?_ <;> funext i j
    · have := congrFun (congrFun hl i) j
      simp only [bwdTransport, Mirror.fluxes, Mirror.states, Mirror.bwd]
      rw [show (fun i j => relStorage (μ.field o.s_track_lower i j) (μ.field S1.s_lower i j)) =
        μ.field (fun i j => relStorage (o.s_track_lower i j) (S1.s_lower i j)) from rfl, this]
      rfl
    · have := congrFun (congrFun hu i) j
      simp only [bwdTransport, Mirror.fluxes, Mirror.states, Mirror.bwd]
      rw [show (fun i j => relStorage (μ.field o.s_track_upper i j) (μ.field S1.s_upper i j)) =
        μ.field (fun i j => relStorage (o.s_track_upper i j) (S1.s_upper i j)) from rfl, this]
      rfl
  unfold backtrack
  simp only [ht]
  simp only [Mirror.bwd, BwdOutput.mk.injEq]
  refine ⟨?_, ?_, ?_, ?_, ?_, ?_⟩ <;> funext i j <;> simp only [Mirror.field, getBoundary_mirror] <;> rfl

end Mir

end Wam
