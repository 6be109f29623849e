import Verif.Spec.Cone
import Verif.Lemmas.Excerpt

/-! # A step uses a cell and its neighbours only, for every number type -/
set_option linter.unusedSectionVars false
set_option linter.unusedVariables false

namespace Wam
open Spec

namespace Cone
variable {m n : ℕ} {α : Type*} [Add α] [Sub α] [Mul α] [Div α] [Neg α] [NpOps α]

theorem padWith_congr {l r l' r' : α} {f g : Fin n → α} (k : Fin (n + 2)) (hl : k.val = 0 → l = l')
    (hr : k.val = n + 1 → r = r') (hm : ∀ i : Fin n, k.val = i.val + 1 → f i = g i) :
    Arr.padWith l r f k = Arr.padWith l' r' g k := by
  unfold Arr.padWith
  induction k using Fin.cases with
  | zero => exact hl rfl
  | succ k =>
    rw [Fin.cons_succ, Fin.cons_succ]
    induction k using Fin.lastCases with
    | last => rw [Fin.snoc_last, Fin.snoc_last]; exact hr (by simp)
    | cast i => rw [Fin.snoc_castSucc, Fin.snoc_castSucc]; exact hm i (by simp)

theorem padYZero_congr {a b : Arr m n α} (k : Fin (m + 2)) (l : Fin n) (h : ∀ i : Fin m, k.val = i.val + 1 → a i l = b i l) :
    Arr.padYZero a k l = Arr.padYZero b k l :=
  padWith_congr k (fun _ => rfl) (fun _ => rfl) h

theorem padXYZero_congr {a b : Arr m n α} (k : Fin (m + 2)) (l : Fin (n + 2))
    (h : ∀ (i : Fin m) (j : Fin n), k.val = i.val + 1 → l.val = j.val + 1 → a i j = b i j) :
    Arr.padXYZero a k l = Arr.padXYZero b k l :=
  padYZero_congr k l fun i hi => padWith_congr l (fun _ => rfl) (fun _ => rfl) fun j hj => h i j hi hj

theorem padXWrap_congr {a b : Arr m (n + 1) α} (i : Fin m) (l : Fin (n + 3)) (h0 : l.val = 0 → a i (Fin.last n) = b i (Fin.last n))
    (h1 : l.val = n + 2 → a i 0 = b i 0) (h : ∀ j : Fin (n + 1), l.val = j.val + 1 → a i j = b i j) :
    Arr.padXWrap a i l = Arr.padXWrap b i l :=
  padWith_congr l h0 h1 h

theorem advect_cone (periodic sgn : Bool) (s s' fx fx' fy fy' : Arr (m + 2) (n + 2) α) (i : Fin (m + 2)) (j : Fin (n + 2))
    (hs : ∀ i' j', cellSteps periodic i i' j j' ≤ 1 → s i' j' = s' i' j')
    (hx : ∀ i' j', cellSteps periodic i i' j j' ≤ 1 → fx i' j' = fx' i' j')
    (hy : ∀ i' j', cellSteps periodic i i' j j' ≤ 1 → fy i' j' = fy' i' j') :
    advect periodic sgn s fx fy i j = advect periodic sgn s' fx' fy' i j := by
  have hi := i.isLt
  have hj := j.isLt
  cases periodic
  · simp only [cellSteps, columnSteps, Bool.false_eq_true, if_false] at hs hx hy
    simp only [advect, Bool.false_eq_true, if_false, horizontalAdvectionClosed]
    rw [Local.donorCell_nine, Local.donorCell_nine]
    congr 1
    · refine padXYZero_congr _ _ fun a b h1 h2 => hs a b ?_
      simp at h1 h2; omega
    · refine padXYZero_congr _ _ fun a b h1 h2 => hs a b ?_
      simp at h1 h2; omega
    · refine padXYZero_congr _ _ fun a b h1 h2 => hs a b ?_
      simp at h1 h2; omega
    · refine padXYZero_congr _ _ fun a b h1 h2 => hs a b ?_
      simp at h1 h2; omega
    · refine padXYZero_congr _ _ fun a b h1 h2 => hs a b ?_
      simp at h1 h2; omega
    · refine padXYZero_congr (n := n + 1) _ _ fun a b h1 h2 => ?_
      simp only [staggerX, Arr.rowsInner, Arr.colsButLast, Arr.colsButFirst]
      rw [hx _ _ (by simp at h1 h2 ⊢; omega), hx _ _ (by simp at h1 h2 ⊢; omega)]
    · refine padXYZero_congr (n := n + 1) _ _ fun a b h1 h2 => ?_
      simp only [staggerX, Arr.rowsInner, Arr.colsButLast, Arr.colsButFirst]
      rw [hx _ _ (by simp at h1 h2 ⊢; omega), hx _ _ (by simp at h1 h2 ⊢; omega)]
    · refine padXYZero_congr (m := m + 1) _ _ fun a b h1 h2 => ?_
      simp only [staggerY, Arr.colsInner, Arr.rowsButLast, Arr.rowsButFirst]
      rw [hy _ _ (by simp at h1 h2 ⊢; omega), hy _ _ (by simp at h1 h2 ⊢; omega)]
    · refine padXYZero_congr (m := m + 1) _ _ fun a b h1 h2 => ?_
      simp only [staggerY, Arr.colsInner, Arr.rowsButLast, Arr.rowsButFirst]
      rw [hy _ _ (by simp at h1 h2 ⊢; omega), hy _ _ (by simp at h1 h2 ⊢; omega)]
  · simp only [cellSteps, columnSteps, if_true] at hs hx hy
    have hwrap : ∀ (k : Fin (m + 4)) (l : Fin (n + 4)),
        ((k.val = i.val + 1 ∧ (l.val = j.val ∨ l.val = j.val + 1 ∨ l.val = j.val + 2)) ∨
          (l.val = j.val + 1 ∧ (k.val = i.val ∨ k.val = i.val + 2))) →
        Arr.padYZero (Arr.padXWrap s) k l = Arr.padYZero (Arr.padXWrap s') k l := by
      intro k l hkl
      refine padYZero_congr k l fun a ha => padXWrap_congr a l (fun h0 => hs _ _ ?_) (fun h1 => hs _ _ ?_) fun b hb => hs _ _ ?_
      · simp; omega
      · simp; omega
      · omega
    have hst : ∀ (k : Fin (m + 2)) (l : Fin (n + 3)), k.val = i.val → (l.val = j.val ∨ l.val = j.val + 1) →
        Arr.padYZero (m := m) (fun i j => if sgn = true then -staggerXPeriodic fx i j else staggerXPeriodic fx i j) k l =
        Arr.padYZero (m := m) (fun i j => if sgn = true then -staggerXPeriodic fx' i j else staggerXPeriodic fx' i j) k l := by
      intro k l hk hl
      refine padYZero_congr (n := n + 3) k l fun a ha => ?_
      have : staggerXPeriodic fx a l = staggerXPeriodic fx' a l := by
        unfold staggerXPeriodic Arr.rowsInner
        refine padWith_congr (n := n + 1) l (fun h0 => ?_) (fun h1 => ?_) fun b hb => ?_
        · rw [hx _ 0 (by simp; omega), hx _ (Fin.last (n + 1)) (by simp; omega)]
        · rw [hx _ 0 (by simp; omega), hx _ (Fin.last (n + 1)) (by simp; omega)]
        · simp only [Arr.colsButLast, Arr.colsButFirst]
          rw [hx _ _ (by simp; omega), hx _ _ (by simp; omega)]
      simp only [this]
    have hst' : ∀ (k : Fin (m + 3)), (k.val = i.val ∨ k.val = i.val + 1) →
        Arr.padYZero (m := m + 1) (fun i j => if sgn = true then -staggerYPeriodic fy i j else staggerYPeriodic fy i j) k j =
        Arr.padYZero (m := m + 1) (fun i j => if sgn = true then -staggerYPeriodic fy' i j else staggerYPeriodic fy' i j) k j := by
      intro k hk
      refine padYZero_congr (m := m + 1) k j fun a ha => ?_
      simp only [staggerYPeriodic, Arr.rowsButLast, Arr.rowsButFirst]
      rw [hy _ _ (by simp; omega), hy _ _ (by simp; omega)]
    simp only [advect, if_true, horizontalAdvectionPeriodic]
    rw [Local.donorCell_nine, Local.donorCell_nine]
    congr 1
    · exact hwrap _ _ (by simp)
    · exact hwrap _ _ (by simp)
    · exact hwrap _ _ (by simp)
    · exact hwrap _ _ (by simp)
    · exact hwrap _ _ (by simp)
    · exact hst _ _ (by simp) (by simp)
    · exact hst _ _ (by simp) (by simp)
    · exact hst' _ (by simp)
    · exact hst' _ (by simp)

theorem npGradient_congr {f g : Fin (n + 2) → α} (j : Fin (n + 2))
    (h : ∀ j' : Fin (n + 2), (j.val - j'.val) + (j'.val - j.val) ≤ 1 → f j' = g j') : npGradient f j = npGradient g j := by
  have hj := j.isLt
  unfold npGradient
  split
  · rw [h 1 (by simp; omega), h 0 (by simp; omega)]
  · split
    · rw [h (Fin.last (n + 1)) (by simp; omega), h (Fin.castSucc (Fin.last n)) (by simp; omega)]
    · rw [h _ (by simp), h _ (by simp; omega)]

theorem steps_row (periodic : Bool) (i i' : Fin m) (j : Fin n) (h : (i.val - i'.val) + (i'.val - i.val) ≤ 1) :
    cellSteps periodic i i' j j ≤ 1 := by
  unfold cellSteps columnSteps
  cases periodic <;> simp <;> omega

theorem steps_col (periodic : Bool) (i : Fin m) (j j' : Fin n) (h : (j.val - j'.val) + (j'.val - j.val) ≤ 1) :
    cellSteps periodic i i j j' ≤ 1 := by
  unfold cellSteps columnSteps
  cases periodic <;> simp <;> omega

theorem divergence_cone (periodic : Bool) (fx fx' fy fy' : Arr (m + 2) (n + 2) α) (i : Fin (m + 2)) (j : Fin (n + 2))
    (hx : ∀ i' j', cellSteps periodic i i' j j' ≤ 1 → fx i' j' = fx' i' j')
    (hy : ∀ i' j', cellSteps periodic i i' j j' ≤ 1 → fy i' j' = fy' i' j') :
    divergence fx fy i j = divergence fx' fy' i j := by
  unfold divergence
  rw [npGradient_congr (f := fun j' => fx i j') (g := fun j' => fx' i j') j fun j' h => hx i j' (steps_col _ _ _ _ h),
    npGradient_congr (f := fun i' => fy i' j) (g := fun i' => fy' i' j) i fun i' h => hy i' j (steps_row _ _ _ _ h)]

/-- two sets of fluxes agree in a cell -/
structure SameFluxes (F F' : Fluxes m n α) (i : Fin m) (j : Fin n) : Prop where
  fx_upper : F.fx_upper i j = F'.fx_upper i j
  fy_upper : F.fy_upper i j = F'.fy_upper i j
  fx_lower : F.fx_lower i j = F'.fx_lower i j
  fy_lower : F.fy_lower i j = F'.fy_lower i j
  evap : F.evap i j = F'.evap i j
  precip : F.precip i j = F'.precip i j

/-- two sets of states agree in a cell -/
structure SameStates (S S' : States m n α) (i : Fin m) (j : Fin n) : Prop where
  s_upper : S.s_upper i j = S'.s_upper i j
  s_lower : S.s_lower i j = S'.s_lower i j

theorem stable_cone (cfg : RunConfig α) (g : GridInfo (m + 2) α) (F F' : Fluxes (m + 2) (n + 2) α) (S S' : States (m + 2) (n + 2) α)
    (i : Fin (m + 2)) (j : Fin (n + 2)) (hF : SameFluxes F F' i j) (hS : SameStates S S' i j) :
    SameFluxes (stableFluxes cfg g F S) (stableFluxes cfg g F' S') i j := by
  constructor <;> simp only [stableFluxes, stabilizeFluxes, scaleFluxes, hF.fx_upper, hF.fy_upper, hF.fx_lower, hF.fy_lower,
    hF.evap, hF.precip, hS.s_upper, hS.s_lower]

theorem calculateFz_cone (periodic : Bool) (a : Fin (m + 2) → α) (F F' : Fluxes (m + 2) (n + 2) α)
    (S0 S0' S1 S1' : States (m + 2) (n + 2) α) (dt kvf : α) (i : Fin (m + 2)) (j : Fin (n + 2))
    (hF : ∀ i' j', cellSteps periodic i i' j j' ≤ 1 → SameFluxes F F' i' j')
    (h0 : SameStates S0 S0' i j) (h1 : SameStates S1 S1' i j) :
    calculateFz a F S0 S1 dt kvf i j = calculateFz a F' S0' S1' dt kvf i j := by
  have hu := divergence_cone periodic F.fx_upper F'.fx_upper F.fy_upper F'.fy_upper i j
    (fun i' j' h => (hF i' j' h).fx_upper) fun i' j' h => (hF i' j' h).fy_upper
  have hl := divergence_cone periodic F.fx_lower F'.fx_lower F.fy_lower F'.fy_lower i j
    (fun i' j' h => (hF i' j' h).fx_lower) fun i' j' h => (hF i' j' h).fy_lower
  have hc := hF i j (steps_row _ _ _ _ (by omega))
  unfold calculateFz
  rw [hu, hl, h0.s_upper, h0.s_lower, h1.s_upper, h1.s_lower, hc.evap, hc.precip]

theorem forwardtrack_cone (periodic : Bool) (dt kvf : α) (a : Fin (m + 2) → α) (F F' : Fluxes (m + 2) (n + 2) α)
    (S0 S0' S1 S1' : States (m + 2) (n + 2) α) (mask mask' : Arr (m + 2) (n + 2) α) (o o' : FwdOutput (m + 2) (n + 2) α)
    (i : Fin (m + 2)) (j : Fin (n + 2))
    (hF : ∀ i' j', cellSteps periodic i i' j j' ≤ 1 → SameFluxes F F' i' j')
    (h0 : ∀ i' j', cellSteps periodic i i' j j' ≤ 1 → SameStates S0 S0' i' j')
    (h1 : SameStates S1 S1' i j) (hm : mask i j = mask' i j)
    (ho : ∀ i' j', cellSteps periodic i i' j j' ≤ 1 → SameCellFwd o i' j' o' i' j') :
    SameCellFwd (forwardtrack periodic dt kvf a F (calculateFz a F S0 S1 dt kvf) S1 S0 mask o) i j
      (forwardtrack periodic dt kvf a F' (calculateFz a F' S0' S1' dt kvf) S1' S0' mask' o') i j := by
  have hself := steps_row periodic i i j (by omega)
  have hc := hF i j hself
  have hs := h0 i j hself
  have hk := ho i j hself
  have hz := calculateFz_cone periodic a F F' S0 S0' S1 S1' dt kvf i j hF hs h1
  have al := advect_cone periodic false (fun i j => relStorage (o.s_track_lower i j) (S0.s_lower i j))
    (fun i j => relStorage (o'.s_track_lower i j) (S0'.s_lower i j)) F.fx_lower F'.fx_lower F.fy_lower F'.fy_lower i j
    (fun i' j' h => by simp only [(ho i' j' h).s_track_lower, (h0 i' j' h).s_lower])
    (fun i' j' h => (hF i' j' h).fx_lower) (fun i' j' h => (hF i' j' h).fy_lower)
  have au := advect_cone periodic false (fun i j => relStorage (o.s_track_upper i j) (S0.s_upper i j))
    (fun i j => relStorage (o'.s_track_upper i j) (S0'.s_upper i j)) F.fx_upper F'.fx_upper F.fy_upper F'.fy_upper i j
    (fun i' j' h => by simp only [(ho i' j' h).s_track_upper, (h0 i' j' h).s_upper])
    (fun i' j' h => (hF i' j' h).fx_upper) (fun i' j' h => (hF i' j' h).fy_upper)
  have e1 : (fwdTransport periodic dt kvf a F (calculateFz a F S0 S1 dt kvf) S0 mask o.s_track_lower o.s_track_upper).1 i j =
      (fwdTransport periodic dt kvf a F' (calculateFz a F' S0' S1' dt kvf) S0' mask' o'.s_track_lower o'.s_track_upper).1 i j := by
    simp only [fwdTransport]
    rw [hz, al, hk.s_track_lower, hk.s_track_upper, hm, hc.evap, hc.precip, hs.s_upper, hs.s_lower]
  have e2 : (fwdTransport periodic dt kvf a F (calculateFz a F S0 S1 dt kvf) S0 mask o.s_track_lower o.s_track_upper).2 i j =
      (fwdTransport periodic dt kvf a F' (calculateFz a F' S0' S1' dt kvf) S0' mask' o'.s_track_lower o'.s_track_upper).2 i j := by
    simp only [fwdTransport]
    rw [hz, au, hk.s_track_lower, hk.s_track_upper, hc.precip, hs.s_upper, hs.s_lower]
  simp only [forwardtrack]
  constructor <;> simp only [e1, e2, hk.s_track_lower, hk.s_track_upper, hk.p_track_upper, hk.p_track_lower,
    hk.tagged_evap, hk.losses, hk.gains, hm, hc.evap, hc.precip, hs.s_upper, hs.s_lower, h1.s_upper, h1.s_lower]

theorem backtrack_cone (periodic : Bool) (dt kvf : α) (a : Fin (m + 2) → α) (F F' : Fluxes (m + 2) (n + 2) α)
    (S0 S0' S1 S1' : States (m + 2) (n + 2) α) (mask mask' : Arr (m + 2) (n + 2) α) (o o' : BwdOutput (m + 2) (n + 2) α)
    (i : Fin (m + 2)) (j : Fin (n + 2))
    (hF : ∀ i' j', cellSteps periodic i i' j j' ≤ 1 → SameFluxes F F' i' j')
    (h0 : SameStates S0 S0' i j)
    (h1 : ∀ i' j', cellSteps periodic i i' j j' ≤ 1 → SameStates S1 S1' i' j') (hm : mask i j = mask' i j)
    (ho : ∀ i' j', cellSteps periodic i i' j j' ≤ 1 → SameCellBwd o i' j' o' i' j') :
    SameCellBwd (backtrack periodic dt kvf a F (calculateFz a F S0 S1 dt kvf) S1 S0 mask o) i j
      (backtrack periodic dt kvf a F' (calculateFz a F' S0' S1' dt kvf) S1' S0' mask' o') i j := by
  have hself := steps_row periodic i i j (by omega)
  have hc := hF i j hself
  have hs := h1 i j hself
  have hk := ho i j hself
  have hz := calculateFz_cone periodic a F F' S0 S0' S1 S1' dt kvf i j hF h0 hs
  have al := advect_cone periodic true (fun i j => relStorage (o.s_track_lower i j) (S1.s_lower i j))
    (fun i j => relStorage (o'.s_track_lower i j) (S1'.s_lower i j)) F.fx_lower F'.fx_lower F.fy_lower F'.fy_lower i j
    (fun i' j' h => by simp only [(ho i' j' h).s_track_lower, (h1 i' j' h).s_lower])
    (fun i' j' h => (hF i' j' h).fx_lower) (fun i' j' h => (hF i' j' h).fy_lower)
  have au := advect_cone periodic true (fun i j => relStorage (o.s_track_upper i j) (S1.s_upper i j))
    (fun i j => relStorage (o'.s_track_upper i j) (S1'.s_upper i j)) F.fx_upper F'.fx_upper F.fy_upper F'.fy_upper i j
    (fun i' j' h => by simp only [(ho i' j' h).s_track_upper, (h1 i' j' h).s_upper])
    (fun i' j' h => (hF i' j' h).fx_upper) (fun i' j' h => (hF i' j' h).fy_upper)
  have e1 : (bwdTransport periodic dt kvf a F (calculateFz a F S0 S1 dt kvf) S1 mask o.s_track_lower o.s_track_upper).1 i j =
      (bwdTransport periodic dt kvf a F' (calculateFz a F' S0' S1' dt kvf) S1' mask' o'.s_track_lower o'.s_track_upper).1 i j := by
    simp only [bwdTransport]
    rw [hz, al, hk.s_track_lower, hk.s_track_upper, hm, hc.evap, hc.precip, hs.s_upper, hs.s_lower]
  have e2 : (bwdTransport periodic dt kvf a F (calculateFz a F S0 S1 dt kvf) S1 mask o.s_track_lower o.s_track_upper).2 i j =
      (bwdTransport periodic dt kvf a F' (calculateFz a F' S0' S1' dt kvf) S1' mask' o'.s_track_lower o'.s_track_upper).2 i j := by
    simp only [bwdTransport]
    rw [hz, au, hk.s_track_lower, hk.s_track_upper, hm, hc.precip, hs.s_upper, hs.s_lower]
  simp only [backtrack]
  constructor <;> simp only [e1, e2, hk.s_track_lower, hk.s_track_upper, hk.e_track, hk.tagged_precip,
    hk.losses, hk.gains, hm, hc.evap, hc.precip, hs.s_upper, hs.s_lower, h0.s_upper, h0.s_lower]

private theorem wrap_triangle (n x y z : ℕ) (hx : x < n) (hy : y < n) (hz : z < n) :
    min ((x - z) + (z - x)) (n - ((x - z) + (z - x))) ≤
      min ((x - y) + (y - x)) (n - ((x - y) + (y - x))) + min ((y - z) + (z - y)) (n - ((y - z) + (z - y))) := by
  rcases min_choice ((x - y) + (y - x)) (n - ((x - y) + (y - x))) with h1 | h1 <;>
  rcases min_choice ((y - z) + (z - y)) (n - ((y - z) + (z - y))) with h2 | h2 <;> rw [h1, h2] <;>
  rcases le_total x y with h3 | h3 <;> rcases le_total y z with h4 | h4 <;> rcases le_total x z with h5 | h5 <;>
  first
    | (refine (min_le_left _ _).trans ?_; omega)
    | (refine (min_le_right _ _).trans ?_; omega)

theorem cellSteps_triangle (periodic : Bool) (i i' i'' : Fin m) (j j' j'' : Fin n) :
    cellSteps periodic i i'' j j'' ≤ cellSteps periodic i i' j j' + cellSteps periodic i' i'' j' j'' := by
  have h : columnSteps periodic j j'' ≤ columnSteps periodic j j' + columnSteps periodic j' j'' := by
    unfold columnSteps
    cases periodic
    · simp only [Bool.false_eq_true, if_false]; omega
    · simp only [if_true]; exact wrap_triangle n _ _ _ j.isLt j'.isLt j''.isLt
  unfold cellSteps
  omega

theorem cellSteps_self (periodic : Bool) (i : Fin m) (j : Fin n) : cellSteps periodic i i j j = 0 := by
  unfold cellSteps columnSteps
  cases periodic <;> simp

theorem cellSteps_comm (periodic : Bool) (i i' : Fin m) (j j' : Fin n) : cellSteps periodic i i' j j' = cellSteps periodic i' i j' j := by
  unfold cellSteps columnSteps
  rw [Nat.add_comm (i.val - i'.val), Nat.add_comm (j.val - j'.val)]

/-! ### Runs -/

/-- Nothing that differs can have reached the cell at the time `t` of a forward run. -/
def FreeFwd (cfg : RunConfig α) (D : ℤ → Fin (m + 2) → Fin (n + 2) → Prop) (E : Fin (m + 2) → Fin (n + 2) → Prop) (t : ℤ)
    (i : Fin (m + 2)) (j : Fin (n + 2)) : Prop :=
  (∀ u i' j', D u i' j' → cfg.tracking_start_date ≤ u → u ≤ t →
    t - u + cfg.dt < cellSteps cfg.periodic_boundary i i' j j' * cfg.dt) ∧
  (∀ i' j', E i' j' → t - cfg.tracking_start_date < cellSteps cfg.periodic_boundary i i' j j' * cfg.dt)

theorem freeFwd_step {cfg : RunConfig α} {D : ℤ → Fin (m + 2) → Fin (n + 2) → Prop} {E : Fin (m + 2) → Fin (n + 2) → Prop}
    (hdt : 0 < cfg.dt) {t : ℤ} (ht : cfg.tracking_start_date ≤ t) {i i' : Fin (m + 2)} {j j' : Fin (n + 2)}
    (h : FreeFwd cfg D E (t + cfg.dt) i j) (hn : cellSteps cfg.periodic_boundary i i' j j' ≤ 1) :
    FreeFwd cfg D E t i' j' ∧ ∀ u, cfg.tracking_start_date ≤ u → u ≤ t + cfg.dt → ¬ D u i' j' := by
  have hle : ∀ a b, ((cellSteps cfg.periodic_boundary i a j b : ℕ) : ℤ) * cfg.dt ≤
      cellSteps cfg.periodic_boundary i' a j' b * cfg.dt + cfg.dt := by
    intro a b
    have h1 := cellSteps_triangle cfg.periodic_boundary i i' a j j' b
    have h2 : ((cellSteps cfg.periodic_boundary i a j b : ℕ) : ℤ) ≤ cellSteps cfg.periodic_boundary i' a j' b + 1 := by
      exact_mod_cast (show _ ≤ cellSteps cfg.periodic_boundary i' a j' b + 1 by omega)
    nlinarith [mul_le_mul_of_nonneg_right h2 hdt.le]
  refine ⟨⟨fun u a b hD h1 h2 => ?_, fun a b hE => ?_⟩, fun u h1 h2 hD => ?_⟩
  · have := h.1 u a b hD h1 (by linarith)
    have := hle a b
    linarith
  · have := h.2 a b hE
    have := hle a b
    linarith
  · have h3 := h.1 u i' j' hD h1 h2
    have h4 : ((cellSteps cfg.periodic_boundary i i' j j' : ℕ) : ℤ) ≤ 1 := by exact_mod_cast hn
    have := mul_le_mul_of_nonneg_right h4 hdt.le
    linarith

theorem sameStates {D : ℤ → Fin (m + 2) → Fin (n + 2) → Prop} {lo hi : ℤ} {inp inp' : Input m n α} (h : SameExcept D lo hi inp inp')
    {t : ℤ} {i j} (h1 : lo ≤ t) (h2 : t ≤ hi) (hD : ¬ D t i j) : SameStates (inp.states t) (inp'.states t) i j :=
  ⟨h.s_upper t i j h1 h2 hD, h.s_lower t i j h1 h2 hD⟩

theorem sameFluxes {D : ℤ → Fin (m + 2) → Fin (n + 2) → Prop} {lo hi : ℤ} {inp inp' : Input m n α} (h : SameExcept D lo hi inp inp')
    {t : ℤ} {i j} (h1 : lo ≤ t) (h2 : t ≤ hi) (hD : ¬ D t i j) : SameFluxes (inp.fluxes t) (inp'.fluxes t) i j :=
  ⟨h.fx_upper t i j h1 h2 hD, h.fy_upper t i j h1 h2 hD, h.fx_lower t i j h1 h2 hD, h.fy_lower t i j h1 h2 hD,
    h.evap t i j h1 h2 hD, h.precip t i j h1 h2 hD⟩

theorem maskAt_same {cfg : RunConfig α} {D : ℤ → Fin (m + 2) → Fin (n + 2) → Prop} {lo hi : ℤ} {inp inp' : Input m n α}
    (h : SameExcept D lo hi inp inp') {t : ℤ} {i j} (h1 : lo ≤ t) (h2 : t ≤ hi) (hD : ¬ D t i j) :
    maskAt cfg inp t i j = maskAt cfg inp' t i j := by
  unfold maskAt
  by_cases hw : inWindow cfg t
  · rw [if_pos hw, if_pos hw]; exact h.region t i j h1 h2 hD
  · rw [if_neg hw, if_neg hw]

theorem fwd_out_cone {cfg : RunConfig α} {D : ℤ → Fin (m + 2) → Fin (n + 2) → Prop} {E : Fin (m + 2) → Fin (n + 2) → Prop}
    (hts : 0 < cfg.timestep) (hAB : cfg.tracking_start_date ≤ cfg.tracking_end_date) (g : GridInfo (m + 2) α) {inp inp' : Input m n α}
    (h : SameExcept D cfg.tracking_start_date cfg.tracking_end_date inp inp') {o o' : FwdOutput (m + 2) (n + 2) α}
    (ho : ∀ i j, ¬ E i j → SameCellFwd o i j o' i j) (k : ℕ) (hk : k < cfg.steps) :
    ∀ i j, FreeFwd cfg D E (cfg.fwdTime (k + 1)) i j →
      SameCellFwd ((fwdProc cfg g inp).full o k) i j ((fwdProc cfg g inp').full o' k) i j := by
  have hdt := cfg.dt_pos hts
  have hstep : ∀ k, k < cfg.steps →
      (∀ i j, FreeFwd cfg D E (cfg.fwdTime k) i j → SameCellFwd ((fwdProc cfg g inp).out o k) i j ((fwdProc cfg g inp').out o' k) i j) →
      ∀ i j, FreeFwd cfg D E (cfg.fwdTime (k + 1)) i j →
      SameCellFwd ((fwdProc cfg g inp).full o k) i j ((fwdProc cfg g inp').full o' k) i j := by
    intro k hk ih i j hfree
    have t0 := cfg.fwdTime_mem hts hAB k hk.le
    have t1 := cfg.fwdTime_mem hts hAB (k + 1) hk
    have th := cfg.fwdHalf_mem hts hAB k hk
    have he := cfg.fwdTime_succ k
    have h2 := cfg.dt_eq
    have h3 := cfg.halfDt_pos hts
    rw [he] at hfree t1
    have hn := fun {i' j'} (hh : cellSteps cfg.periodic_boundary i i' j j' ≤ 1) => freeFwd_step hdt t0.1 hfree hh
    have hself : cellSteps cfg.periodic_boundary i i j j ≤ 1 := by rw [cellSteps_self]; omega
    show SameCellFwd (fwdStepAt cfg g inp (cfg.fwdTime k) _) i j (fwdStepAt cfg g inp' (cfg.fwdTime k) _) i j
    exact forwardtrack_cone _ _ _ _ _ _ _ _ _ _ _ _ _ _ i j
      (fun i' j' hh => stable_cone _ _ _ _ _ _ i' j' (sameFluxes h th.1 th.2 ((hn hh).2 _ th.1 (by linarith)))
        (sameStates h t0.1 t0.2 ((hn hh).2 _ t0.1 (by linarith))))
      (fun i' j' hh => sameStates h t0.1 t0.2 ((hn hh).2 _ t0.1 (by linarith)))
      (sameStates h t1.1 t1.2 ((hn hself).2 _ t1.1 (by linarith)))
      (maskAt_same h t0.1 t0.2 ((hn hself).2 _ t0.1 (by linarith)))
      (fun i' j' hh => ih i' j' (hn hh).1)
  have hout : ∀ k, k < cfg.steps → ∀ i j, FreeFwd cfg D E (cfg.fwdTime k) i j →
      SameCellFwd ((fwdProc cfg g inp).out o k) i j ((fwdProc cfg g inp').out o' k) i j := by
    intro k
    induction k with
    | zero =>
      intro _ i j hfree
      refine ho i j fun hE => ?_
      have := hfree.2 i j hE
      rw [cellSteps_self] at this
      simp [RunConfig.fwdTime] at this
    | succ k ih =>
      intro hk i j hd
      have hk' : k < cfg.steps := by omega
      have h' := hstep k hk' (ih hk') i j hd
      have hw : (fwdProc cfg g inp).write (k + 1) = (fwdProc cfg g inp').write (k + 1) := rfl
      simp only [Proc.out]
      rw [hw]
      split
      · have h'' : SameCellFwd (FwdOutput.flush ((fwdProc cfg g inp).full o k)) i j
            (FwdOutput.flush ((fwdProc cfg g inp').full o' k)) i j := by
          constructor <;> simp only [FwdOutput.flush, h'.s_track_upper, h'.s_track_lower, h'.p_track_upper, h'.p_track_lower,
            h'.tagged_evap, h'.losses, h'.gains]
        exact h''
      · exact h'
  exact hstep k hk (hout k hk)

/-- Nothing that differs can have reached the cell at the time `t` of a backward run. -/
def FreeBwd (cfg : RunConfig α) (D : ℤ → Fin (m + 2) → Fin (n + 2) → Prop) (E : Fin (m + 2) → Fin (n + 2) → Prop) (t : ℤ)
    (i : Fin (m + 2)) (j : Fin (n + 2)) : Prop :=
  (∀ u i' j', D u i' j' → u ≤ cfg.tracking_end_date → t ≤ u →
    u - t + cfg.dt < cellSteps cfg.periodic_boundary i i' j j' * cfg.dt) ∧
  (∀ i' j', E i' j' → cfg.tracking_end_date - t < cellSteps cfg.periodic_boundary i i' j j' * cfg.dt)

theorem freeBwd_step {cfg : RunConfig α} {D : ℤ → Fin (m + 2) → Fin (n + 2) → Prop} {E : Fin (m + 2) → Fin (n + 2) → Prop}
    (hdt : 0 < cfg.dt) {t : ℤ} (ht : t ≤ cfg.tracking_end_date) {i i' : Fin (m + 2)} {j j' : Fin (n + 2)}
    (h : FreeBwd cfg D E (t - cfg.dt) i j) (hn : cellSteps cfg.periodic_boundary i i' j j' ≤ 1) :
    FreeBwd cfg D E t i' j' ∧ ∀ u, u ≤ cfg.tracking_end_date → t - cfg.dt ≤ u → ¬ D u i' j' := by
  have hle : ∀ a b, ((cellSteps cfg.periodic_boundary i a j b : ℕ) : ℤ) * cfg.dt ≤
      cellSteps cfg.periodic_boundary i' a j' b * cfg.dt + cfg.dt := by
    intro a b
    have h1 := cellSteps_triangle cfg.periodic_boundary i i' a j j' b
    have h2 : ((cellSteps cfg.periodic_boundary i a j b : ℕ) : ℤ) ≤ cellSteps cfg.periodic_boundary i' a j' b + 1 := by
      exact_mod_cast (show _ ≤ cellSteps cfg.periodic_boundary i' a j' b + 1 by omega)
    nlinarith [mul_le_mul_of_nonneg_right h2 hdt.le]
  refine ⟨⟨fun u a b hD h1 h2 => ?_, fun a b hE => ?_⟩, fun u h1 h2 hD => ?_⟩
  · have := h.1 u a b hD h1 (by linarith)
    have := hle a b
    linarith
  · have := h.2 a b hE
    have := hle a b
    linarith
  · have h3 := h.1 u i' j' hD h1 h2
    have h4 : ((cellSteps cfg.periodic_boundary i i' j j' : ℕ) : ℤ) ≤ 1 := by exact_mod_cast hn
    have := mul_le_mul_of_nonneg_right h4 hdt.le
    linarith

theorem bwd_out_cone {cfg : RunConfig α} {D : ℤ → Fin (m + 2) → Fin (n + 2) → Prop} {E : Fin (m + 2) → Fin (n + 2) → Prop}
    (hts : 0 < cfg.timestep) (hAB : cfg.tracking_start_date ≤ cfg.tracking_end_date) (g : GridInfo (m + 2) α) {inp inp' : Input m n α}
    (h : SameExcept D cfg.tracking_start_date cfg.tracking_end_date inp inp') {o o' : BwdOutput (m + 2) (n + 2) α}
    (ho : ∀ i j, ¬ E i j → SameCellBwd o i j o' i j) (k : ℕ) (hk : k < cfg.steps) :
    ∀ i j, FreeBwd cfg D E (cfg.bwdTime (k + 1)) i j →
      SameCellBwd ((bwdProc cfg g inp).full o k) i j ((bwdProc cfg g inp').full o' k) i j := by
  have hdt := cfg.dt_pos hts
  have hstep : ∀ k, k < cfg.steps →
      (∀ i j, FreeBwd cfg D E (cfg.bwdTime k) i j → SameCellBwd ((bwdProc cfg g inp).out o k) i j ((bwdProc cfg g inp').out o' k) i j) →
      ∀ i j, FreeBwd cfg D E (cfg.bwdTime (k + 1)) i j →
      SameCellBwd ((bwdProc cfg g inp).full o k) i j ((bwdProc cfg g inp').full o' k) i j := by
    intro k hk ih i j hfree
    have t0 := cfg.bwdTime_mem hts hAB k hk.le
    have t1 := cfg.bwdTime_mem hts hAB (k + 1) hk
    have th := cfg.bwdHalf_mem hts hAB k hk
    have he := cfg.bwdTime_succ k
    have h2 := cfg.dt_eq
    have h3 := cfg.halfDt_pos hts
    rw [he] at hfree t1
    have hn := fun {i' j'} (hh : cellSteps cfg.periodic_boundary i i' j j' ≤ 1) => freeBwd_step hdt t0.2 hfree hh
    have hself : cellSteps cfg.periodic_boundary i i j j ≤ 1 := by rw [cellSteps_self]; omega
    show SameCellBwd (bwdStepAt cfg g inp (cfg.bwdTime k) _) i j (bwdStepAt cfg g inp' (cfg.bwdTime k) _) i j
    exact backtrack_cone _ _ _ _ _ _ _ _ _ _ _ _ _ _ i j
      (fun i' j' hh => stable_cone _ _ _ _ _ _ i' j' (sameFluxes h th.1 th.2 ((hn hh).2 _ th.2 (by linarith)))
        (sameStates h t0.1 t0.2 ((hn hh).2 _ t0.2 (by linarith))))
      (sameStates h t1.1 t1.2 ((hn hself).2 _ t1.2 (by linarith)))
      (fun i' j' hh => sameStates h t0.1 t0.2 ((hn hh).2 _ t0.2 (by linarith)))
      (maskAt_same h t0.1 t0.2 ((hn hself).2 _ t0.2 (by linarith)))
      (fun i' j' hh => ih i' j' (hn hh).1)
  have hout : ∀ k, k < cfg.steps → ∀ i j, FreeBwd cfg D E (cfg.bwdTime k) i j →
      SameCellBwd ((bwdProc cfg g inp).out o k) i j ((bwdProc cfg g inp').out o' k) i j := by
    intro k
    induction k with
    | zero =>
      intro _ i j hfree
      refine ho i j fun hE => ?_
      have := hfree.2 i j hE
      rw [cellSteps_self] at this
      simp [RunConfig.bwdTime] at this
    | succ k ih =>
      intro hk i j hd
      have hk' : k < cfg.steps := by omega
      have h' := hstep k hk' (ih hk') i j hd
      have hw : (bwdProc cfg g inp).write (k + 1) = (bwdProc cfg g inp').write (k + 1) := rfl
      simp only [Proc.out]
      rw [hw]
      split
      · have h'' : SameCellBwd (BwdOutput.flush ((bwdProc cfg g inp).full o k)) i j
            (BwdOutput.flush ((bwdProc cfg g inp').full o' k)) i j := by
          constructor <;> simp only [BwdOutput.flush, h'.s_track_upper, h'.s_track_lower, h'.e_track, h'.tagged_precip,
            h'.losses, h'.gains]
        exact h''
      · exact h'
  exact hstep k hk (hout k hk)

end Cone

end Wam
