import Verif.Lemmas.Compare
import Verif.Props.RunPhysics
import Verif.Lemmas.Demo

/-!
# C77, C78: comparing runs with different tagging regions
-/
set_option linter.unusedSectionVars false
set_option linter.unusedVariables false

namespace Wam
open Spec
variable {K : Type*} [Field K] [LinearOrder K] [IsStrictOrderedRing K] {m n : ℕ} {P : Type*}

section step
variable (periodic : Bool) (dt kvf : K) (a : Fin (m + 2) → K) (F : Fluxes (m + 2) (n + 2) K)
  (fz : Arr (m + 2) (n + 2) K) (S0 S1 : States (m + 2) (n + 2) K)

/-- **C77** (forward step): more tracked water and a larger region give more (at least as much) tracked
water, tracked precipitation, tagged evaporation and losses, in every cell. -/
theorem C77_step_forward (mask mask' : Arr (m + 2) (n + 2) K)
    (o o' : FwdOutput (m + 2) (n + 2) K) (h0 : Wet S0) (h1 : Wet S1) (ha : ∀ i, 0 < a i)
    (hdt : 0 ≤ dt) (hk : 0 ≤ kvf) (hp : ∀ i j, 0 ≤ F.precip i j)
    (calm : NoOverdrawFwd periodic dt kvf a F fz S0)
    (hm : ∀ i j, mask i j * F.evap i j ≤ mask' i j * F.evap i j) (ho : FwdLE o o') :
    FwdLE (forwardtrack periodic dt kvf a F fz S1 S0 mask o)
      (forwardtrack periodic dt kvf a F fz S1 S0 mask' o') := by
  have hl : ∀ i j, (fwdTransport periodic dt kvf a F fz S0 mask o.s_track_lower o.s_track_upper).1 i j
      ≤ (fwdTransport periodic dt kvf a F fz S0 mask' o'.s_track_lower o'.s_track_upper).1 i j := by
    intro i j
    rw [(fwdTransport_layer periodic dt kvf a F fz S0 mask _ _ h0 ha i j).1,
      (fwdTransport_layer periodic dt kvf a F fz S0 mask' _ _ h0 ha i j).1]
    exact layer_mono _ _ _ _ _ _ _ _ _ _ _ _ _ _ _ _ (fun i j => (h0 i j).2) (fun i j => (h0 i j).1) ha hdt hk hm
      ho.s_track_lower ho.s_track_upper i j (calm.lower i j)
  have hu : ∀ i j, (fwdTransport periodic dt kvf a F fz S0 mask o.s_track_lower o.s_track_upper).2 i j
      ≤ (fwdTransport periodic dt kvf a F fz S0 mask' o'.s_track_lower o'.s_track_upper).2 i j := by
    intro i j
    rw [(fwdTransport_layer periodic dt kvf a F fz S0 mask _ _ h0 ha i j).2,
      (fwdTransport_layer periodic dt kvf a F fz S0 mask' _ _ h0 ha i j).2]
    refine layer_mono _ _ _ _ _ _ _ _ _ _ _ _ _ _ _ _ (fun i j => (h0 i j).1) (fun i j => (h0 i j).2) ha hdt hk
      (fun _ _ => le_rfl) ho.s_track_upper ho.s_track_lower i j ?_
    rw [abs_neg, neg_neg]
    exact calm.upper i j
  have hs := fun i j => settle_mono (getBoundary periodic i j) _ _ _ _ (S1.s_lower i j)
    (S1.s_upper i j) (h1 i j).2.le (h1 i j).1.le (hl i j) (hu i j)
  have sh : ∀ (i : Fin (m + 2)) (j : Fin (n + 2)) (s s' : K), 0 < s → 0 < s' →
      0 ≤ F.precip i j * s / (s' + s) := fun i j s s' h h' =>
    div_nonneg (mul_nonneg (hp i j) h.le) (by positivity)
  refine ⟨fun i j => (hs i j).1, fun i j => (hs i j).2.1, fun i j => ?_, fun i j => ?_,
    fun i j => ?_, fun i j => add_le_add (ho.losses i j) (hs i j).2.2⟩
  · simp only [forwardtrack, relStorage_eq]
    refine add_le_add (ho.p_track_lower i j) (mul_le_mul_of_nonneg_right
      (mul_le_mul_of_nonneg_left (fraction_mono (h0 i j).2 (ho.s_track_lower i j))
        (sh i j _ _ (h0 i j).2 (h0 i j).1)) hdt)
  · simp only [forwardtrack, relStorage_eq]
    refine add_le_add (ho.p_track_upper i j) (mul_le_mul_of_nonneg_right
      (mul_le_mul_of_nonneg_left (fraction_mono (h0 i j).1 (ho.s_track_upper i j)) ?_) hdt)
    rw [add_comm (S0.s_upper i j)]; exact sh i j _ _ (h0 i j).1 (h0 i j).2
  · simp only [forwardtrack]
    exact add_le_add (ho.tagged_evap i j) (mul_le_mul_of_nonneg_right (hm i j) hdt)

/-- **C77** (backward step) -/
theorem C77_step_backward (mask mask' : Arr (m + 2) (n + 2) K)
    (o o' : BwdOutput (m + 2) (n + 2) K) (h0 : Wet S0) (h1 : Wet S1) (ha : ∀ i, 0 < a i)
    (hdt : 0 ≤ dt) (hk : 0 ≤ kvf) (he : ∀ i j, 0 ≤ F.evap i j)
    (calm : NoOverdrawBwd periodic dt kvf a F fz S1)
    (hm : ∀ i j, mask i j * F.precip i j ≤ mask' i j * F.precip i j) (ho : BwdLE o o') :
    BwdLE (backtrack periodic dt kvf a F fz S1 S0 mask o)
      (backtrack periodic dt kvf a F fz S1 S0 mask' o') := by
  have hsh : ∀ (i : Fin (m + 2)) (j : Fin (n + 2)) (s s' : K), 0 < s → 0 < s' →
      share (mask i j * F.precip i j) s s' ≤ share (mask' i j * F.precip i j) s s' :=
    fun i j s s' h h' => by
      unfold share
      exact div_le_div_of_nonneg_right (mul_le_mul_of_nonneg_right (hm i j) h.le) (by positivity)
  have hl : ∀ i j, (bwdTransport periodic dt kvf a F fz S1 mask o.s_track_lower o.s_track_upper).1 i j
      ≤ (bwdTransport periodic dt kvf a F fz S1 mask' o'.s_track_lower o'.s_track_upper).1 i j := by
    intro i j
    rw [(bwdTransport_layer periodic dt kvf a F fz S1 mask _ _ h1 ha i j).1,
      (bwdTransport_layer periodic dt kvf a F fz S1 mask' _ _ h1 ha i j).1]
    refine layer_mono _ _ _ _ _ _ _ _ _ _ _ _ _ _ _ _ (fun i j => (h1 i j).2) (fun i j => (h1 i j).1) ha hdt hk
      (fun i j => hsh i j _ _ (h1 i j).2 (h1 i j).1) ho.s_track_lower ho.s_track_upper i j ?_
    rw [abs_neg, neg_neg]
    exact calm.lower i j
  have hu : ∀ i j, (bwdTransport periodic dt kvf a F fz S1 mask o.s_track_lower o.s_track_upper).2 i j
      ≤ (bwdTransport periodic dt kvf a F fz S1 mask' o'.s_track_lower o'.s_track_upper).2 i j := by
    intro i j
    rw [(bwdTransport_layer periodic dt kvf a F fz S1 mask _ _ h1 ha i j).2,
      (bwdTransport_layer periodic dt kvf a F fz S1 mask' _ _ h1 ha i j).2]
    refine layer_mono _ _ _ _ _ _ _ _ _ _ _ _ _ _ _ _ (fun i j => (h1 i j).1) (fun i j => (h1 i j).2) ha hdt hk
      (fun i j => hsh i j _ _ (h1 i j).1 (h1 i j).2) ho.s_track_upper ho.s_track_lower i j ?_
    rw [add_zero]
    exact calm.upper i j
  have hs := fun i j => settle_mono (getBoundary periodic i j) _ _ _ _ (S0.s_lower i j)
    (S0.s_upper i j) (h0 i j).2.le (h0 i j).1.le (hl i j) (hu i j)
  refine ⟨fun i j => (hs i j).1, fun i j => (hs i j).2.1, fun i j => ?_, fun i j => ?_,
    fun i j => add_le_add (ho.losses i j) (hs i j).2.2⟩
  · simp only [backtrack, relStorage_eq]
    exact add_le_add (ho.e_track i j) (mul_le_mul_of_nonneg_right
      (mul_le_mul_of_nonneg_left (fraction_mono (h1 i j).2 (ho.s_track_lower i j)) (he i j)) hdt)
  · simp only [backtrack]
    exact add_le_add (ho.tagged_precip i j) (mul_le_mul_of_nonneg_right (hm i j) hdt)

/-- **C78** (forward step): as long as no layer is completely filled with tracked water, a combination
of two states and regions gives the combination of the results. -/
theorem C78_step_forward (c1 c2 : K) (hc1 : 0 ≤ c1) (hc2 : 0 ≤ c2)
    (mask1 mask2 : Arr (m + 2) (n + 2) K) (o1 o2 : FwdOutput (m + 2) (n + 2) K)
    (h0 : Wet S0) (h1 : Wet S1) (ha : ∀ i, 0 < a i) (hdt : 0 ≤ dt) (hk : 0 ≤ kvf)
    (calm : NoOverdrawFwd periodic dt kvf a F fz S0)
    (hm1 : ∀ i j, 0 ≤ mask1 i j * F.evap i j) (hm2 : ∀ i j, 0 ≤ mask2 i j * F.evap i j)
    (l1 : ∀ i j, 0 ≤ o1.s_track_lower i j ∧ o1.s_track_lower i j ≤ S0.s_lower i j)
    (u1 : ∀ i j, 0 ≤ o1.s_track_upper i j ∧ o1.s_track_upper i j ≤ S0.s_upper i j)
    (l2 : ∀ i j, 0 ≤ o2.s_track_lower i j ∧ o2.s_track_lower i j ≤ S0.s_lower i j)
    (u2 : ∀ i j, 0 ≤ o2.s_track_upper i j ∧ o2.s_track_upper i j ≤ S0.s_upper i j)
    (l : ∀ i j, (fwdComb c1 c2 o1 o2).s_track_lower i j ≤ S0.s_lower i j)
    (u : ∀ i j, (fwdComb c1 c2 o1 o2).s_track_upper i j ≤ S0.s_upper i j)
    (mask : Arr (m + 2) (n + 2) K) (hmask : ∀ i j, mask i j = c1 * mask1 i j + c2 * mask2 i j)
    (n1 : ∀ i j, ¬ isBoundary periodic i j →
      (forwardtrack periodic dt kvf a F fz S1 S0 mask1 o1).s_track_lower i j < S1.s_lower i j ∧
      (forwardtrack periodic dt kvf a F fz S1 S0 mask1 o1).s_track_upper i j < S1.s_upper i j)
    (n2 : ∀ i j, ¬ isBoundary periodic i j →
      (forwardtrack periodic dt kvf a F fz S1 S0 mask2 o2).s_track_lower i j < S1.s_lower i j ∧
      (forwardtrack periodic dt kvf a F fz S1 S0 mask2 o2).s_track_upper i j < S1.s_upper i j)
    (n0 : ∀ i j, ¬ isBoundary periodic i j →
      (forwardtrack periodic dt kvf a F fz S1 S0 mask (fwdComb c1 c2 o1 o2)).s_track_lower i j
        < S1.s_lower i j ∧
      (forwardtrack periodic dt kvf a F fz S1 S0 mask (fwdComb c1 c2 o1 o2)).s_track_upper i j
        < S1.s_upper i j) :
    forwardtrack periodic dt kvf a F fz S1 S0 mask (fwdComb c1 c2 o1 o2) =
      fwdComb c1 c2 (forwardtrack periodic dt kvf a F fz S1 S0 mask1 o1)
        (forwardtrack periodic dt kvf a F fz S1 S0 mask2 o2) := by
  obtain rfl : mask = fun i j => c1 * mask1 i j + c2 * mask2 i j := by
    funext i j; exact hmask i j
  set mask := fun i j => c1 * mask1 i j + c2 * mask2 i j with hmaskdef
  set o := fwdComb c1 c2 o1 o2 with hodef
  have ml : (fun i j => mask i j * F.evap i j) =
      fun i j => c1 * (mask1 i j * F.evap i j) + c2 * (mask2 i j * F.evap i j) := by
    funext i j; simp only [hmaskdef]; ring
  have tl : ∀ i j, (fwdTransport periodic dt kvf a F fz S0 mask o.s_track_lower o.s_track_upper).1 i j
      = c1 * (fwdTransport periodic dt kvf a F fz S0 mask1 o1.s_track_lower o1.s_track_upper).1 i j +
        c2 * (fwdTransport periodic dt kvf a F fz S0 mask2 o2.s_track_lower o2.s_track_upper).1 i j := by
    intro i j
    rw [(fwdTransport_layer periodic dt kvf a F fz S0 mask _ _ h0 ha i j).1,
      (fwdTransport_layer periodic dt kvf a F fz S0 mask1 _ _ h0 ha i j).1,
      (fwdTransport_layer periodic dt kvf a F fz S0 mask2 _ _ h0 ha i j).1, ml]
    exact layer_comb _ _ _ _ _ _ _ _ _ _ c1 c2 _ _ _ _ _ _ (fun i j => (h0 i j).2) (fun i j => (h0 i j).1)
      (fun i j => (l1 i j).2) (fun i j => (u1 i j).2) (fun i j => (l2 i j).2)
      (fun i j => (u2 i j).2) l u i j
  have tu : ∀ i j, (fwdTransport periodic dt kvf a F fz S0 mask o.s_track_lower o.s_track_upper).2 i j
      = c1 * (fwdTransport periodic dt kvf a F fz S0 mask1 o1.s_track_lower o1.s_track_upper).2 i j +
        c2 * (fwdTransport periodic dt kvf a F fz S0 mask2 o2.s_track_lower o2.s_track_upper).2 i j := by
    intro i j
    rw [(fwdTransport_layer periodic dt kvf a F fz S0 mask _ _ h0 ha i j).2,
      (fwdTransport_layer periodic dt kvf a F fz S0 mask1 _ _ h0 ha i j).2,
      (fwdTransport_layer periodic dt kvf a F fz S0 mask2 _ _ h0 ha i j).2]
    have := layer_comb periodic dt kvf a F.fx_upper F.fy_upper (fun i j => -fz i j) S0.s_upper
      S0.s_lower (fun i j => share (F.precip i j) (S0.s_upper i j) (S0.s_lower i j))
      c1 c2 (fun _ _ => 0) (fun _ _ => 0) o1.s_track_upper o1.s_track_lower o2.s_track_upper
      o2.s_track_lower (fun i j => (h0 i j).1) (fun i j => (h0 i j).2)
      (fun i j => (u1 i j).2) (fun i j => (l1 i j).2) (fun i j => (u2 i j).2)
      (fun i j => (l2 i j).2) u l i j
    simp only [mul_zero, add_zero] at this
    exact this
  have pos1 := fun i j => C22_no_gains_forward periodic dt kvf a F fz S0 S1 mask1 o1 h0 h1 ha hdt hk
    (fun i j => (l1 i j).1) (fun i j => (u1 i j).1) hm1 i j (calm.lower i j) (calm.upper i j)
  have pos2 := fun i j => C22_no_gains_forward periodic dt kvf a F fz S0 S1 mask2 o2 h0 h1 ha hdt hk
    (fun i j => (l2 i j).1) (fun i j => (u2 i j).1) hm2 i j (calm.lower i j) (calm.upper i j)
  have nb : ∀ (i : Fin (m + 2)) (j : Fin (n + 2)), getBoundary periodic i j = false → ¬ isBoundary periodic i j :=
    fun i j h hb => by rw [(getBoundary_iff periodic i j).2 hb] at h; cases h
  have S := fun i j => settle_comb (getBoundary periodic i j) c1 c2
    ((fwdTransport periodic dt kvf a F fz S0 mask1 o1.s_track_lower o1.s_track_upper).1 i j)
    ((fwdTransport periodic dt kvf a F fz S0 mask1 o1.s_track_lower o1.s_track_upper).2 i j)
    ((fwdTransport periodic dt kvf a F fz S0 mask2 o2.s_track_lower o2.s_track_upper).1 i j)
    ((fwdTransport periodic dt kvf a F fz S0 mask2 o2.s_track_lower o2.s_track_upper).2 i j)
    (S1.s_lower i j) (S1.s_upper i j) (h1 i j).2.le (h1 i j).1.le
    (fun hb => by
      have := n1 i j (nb i j hb)
      simp only [forwardtrack, hb] at this
      have := settle_not_full _ _ _ _ (h1 i j).2.le (h1 i j).1.le this.1 this.2
      exact ⟨(pos1 i j).1, this.1, (pos1 i j).2.1, this.2⟩)
    (fun hb => by
      have := n2 i j (nb i j hb)
      simp only [forwardtrack, hb] at this
      have := settle_not_full _ _ _ _ (h1 i j).2.le (h1 i j).1.le this.1 this.2
      exact ⟨(pos2 i j).1, this.1, (pos2 i j).2.1, this.2⟩)
    (fun hb => by
      have := n0 i j (nb i j hb)
      simp only [forwardtrack, hb] at this
      have := settle_not_full _ _ _ _ (h1 i j).2.le (h1 i j).1.le this.1 this.2
      rw [tl, tu] at this
      exact ⟨add_nonneg (mul_nonneg hc1 (pos1 i j).1) (mul_nonneg hc2 (pos2 i j).1), this.1,
        add_nonneg (mul_nonneg hc1 (pos1 i j).2.1) (mul_nonneg hc2 (pos2 i j).2.1), this.2⟩)
  have fr : ∀ t t' s : K, 0 < s → t ≤ s → t' ≤ s → c1 * t + c2 * t' ≤ s →
      fraction (c1 * t + c2 * t') s = c1 * fraction t s + c2 * fraction t' s :=
    fun t t' s hs h h' hc => by
      rw [fraction_inside hs h, fraction_inside hs h', fraction_inside hs hc]; ring
  unfold forwardtrack fwdComb
  simp only [FwdOutput.mk.injEq]
  refine ⟨?_, ?_, ?_, ?_, ?_, ?_, ?_⟩ <;> funext i j
  · rw [tl, tu]; exact (S i j).2.1
  · rw [tl, tu]; exact (S i j).1
  · simp only [relStorage_eq]
    rw [hodef]
    simp only [fwdComb]
    rw [fr _ _ _ (h0 i j).1 (u1 i j).2 (u2 i j).2 (u i j)]
    ring
  · simp only [relStorage_eq]
    rw [hodef]
    simp only [fwdComb]
    rw [fr _ _ _ (h0 i j).2 (l1 i j).2 (l2 i j).2 (l i j)]
    ring
  · simp only [hodef, fwdComb, hmaskdef]; ring
  · rw [tl, tu, (S i j).2.2.1]; simp only [hodef, fwdComb]; ring
  · rw [tl, tu, (S i j).2.2.2]; simp only [hodef, fwdComb]; ring

/-- **C78** (backward step): as long as no layer is completely filled with tracked water, a combination
of two states and regions gives the combination of the results. -/
theorem C78_step_backward (c1 c2 : K) (hc1 : 0 ≤ c1) (hc2 : 0 ≤ c2)
    (mask1 mask2 : Arr (m + 2) (n + 2) K) (o1 o2 : BwdOutput (m + 2) (n + 2) K)
    (h0 : Wet S0) (h1 : Wet S1) (ha : ∀ i, 0 < a i) (hdt : 0 ≤ dt) (hk : 0 ≤ kvf)
    (calm : NoOverdrawBwd periodic dt kvf a F fz S1)
    (hm1 : ∀ i j, 0 ≤ mask1 i j * F.precip i j) (hm2 : ∀ i j, 0 ≤ mask2 i j * F.precip i j)
    (l1 : ∀ i j, 0 ≤ o1.s_track_lower i j ∧ o1.s_track_lower i j ≤ S1.s_lower i j)
    (u1 : ∀ i j, 0 ≤ o1.s_track_upper i j ∧ o1.s_track_upper i j ≤ S1.s_upper i j)
    (l2 : ∀ i j, 0 ≤ o2.s_track_lower i j ∧ o2.s_track_lower i j ≤ S1.s_lower i j)
    (u2 : ∀ i j, 0 ≤ o2.s_track_upper i j ∧ o2.s_track_upper i j ≤ S1.s_upper i j)
    (l : ∀ i j, (bwdComb c1 c2 o1 o2).s_track_lower i j ≤ S1.s_lower i j)
    (u : ∀ i j, (bwdComb c1 c2 o1 o2).s_track_upper i j ≤ S1.s_upper i j)
    (mask : Arr (m + 2) (n + 2) K) (hmask : ∀ i j, mask i j = c1 * mask1 i j + c2 * mask2 i j)
    (n1 : ∀ i j, ¬ isBoundary periodic i j →
      (backtrack periodic dt kvf a F fz S1 S0 mask1 o1).s_track_lower i j < S0.s_lower i j ∧
      (backtrack periodic dt kvf a F fz S1 S0 mask1 o1).s_track_upper i j < S0.s_upper i j)
    (n2 : ∀ i j, ¬ isBoundary periodic i j →
      (backtrack periodic dt kvf a F fz S1 S0 mask2 o2).s_track_lower i j < S0.s_lower i j ∧
      (backtrack periodic dt kvf a F fz S1 S0 mask2 o2).s_track_upper i j < S0.s_upper i j)
    (n0 : ∀ i j, ¬ isBoundary periodic i j →
      (backtrack periodic dt kvf a F fz S1 S0 mask (bwdComb c1 c2 o1 o2)).s_track_lower i j
        < S0.s_lower i j ∧
      (backtrack periodic dt kvf a F fz S1 S0 mask (bwdComb c1 c2 o1 o2)).s_track_upper i j
        < S0.s_upper i j) :
    backtrack periodic dt kvf a F fz S1 S0 mask (bwdComb c1 c2 o1 o2) =
      bwdComb c1 c2 (backtrack periodic dt kvf a F fz S1 S0 mask1 o1)
        (backtrack periodic dt kvf a F fz S1 S0 mask2 o2) := by
  obtain rfl : mask = fun i j => c1 * mask1 i j + c2 * mask2 i j := by
    funext i j; exact hmask i j
  set mask := fun i j => c1 * mask1 i j + c2 * mask2 i j with hmaskdef
  set o := bwdComb c1 c2 o1 o2 with hodef
  have ml : ∀ S S' : Arr (m + 2) (n + 2) K, (fun i j => share (mask i j * F.precip i j) (S i j) (S' i j)) =
      fun i j => c1 * share (mask1 i j * F.precip i j) (S i j) (S' i j)
        + c2 * share (mask2 i j * F.precip i j) (S i j) (S' i j) := by
    intro S S'
    funext i j; simp only [hmaskdef, share]; ring
  have tl : ∀ i j, (bwdTransport periodic dt kvf a F fz S1 mask o.s_track_lower o.s_track_upper).1 i j
      = c1 * (bwdTransport periodic dt kvf a F fz S1 mask1 o1.s_track_lower o1.s_track_upper).1 i j +
        c2 * (bwdTransport periodic dt kvf a F fz S1 mask2 o2.s_track_lower o2.s_track_upper).1 i j := by
    intro i j
    rw [(bwdTransport_layer periodic dt kvf a F fz S1 mask _ _ h1 ha i j).1,
      (bwdTransport_layer periodic dt kvf a F fz S1 mask1 _ _ h1 ha i j).1,
      (bwdTransport_layer periodic dt kvf a F fz S1 mask2 _ _ h1 ha i j).1, ml]
    exact layer_comb _ _ _ _ _ _ _ _ _ _ c1 c2 _ _ _ _ _ _ (fun i j => (h1 i j).2) (fun i j => (h1 i j).1)
      (fun i j => (l1 i j).2) (fun i j => (u1 i j).2) (fun i j => (l2 i j).2)
      (fun i j => (u2 i j).2) l u i j
  have tu : ∀ i j, (bwdTransport periodic dt kvf a F fz S1 mask o.s_track_lower o.s_track_upper).2 i j
      = c1 * (bwdTransport periodic dt kvf a F fz S1 mask1 o1.s_track_lower o1.s_track_upper).2 i j +
        c2 * (bwdTransport periodic dt kvf a F fz S1 mask2 o2.s_track_lower o2.s_track_upper).2 i j := by
    intro i j
    rw [(bwdTransport_layer periodic dt kvf a F fz S1 mask _ _ h1 ha i j).2,
      (bwdTransport_layer periodic dt kvf a F fz S1 mask1 _ _ h1 ha i j).2,
      (bwdTransport_layer periodic dt kvf a F fz S1 mask2 _ _ h1 ha i j).2, ml]
    exact layer_comb _ _ _ _ _ _ _ _ _ _ c1 c2 _ _ _ _ _ _ (fun i j => (h1 i j).1) (fun i j => (h1 i j).2)
      (fun i j => (u1 i j).2) (fun i j => (l1 i j).2) (fun i j => (u2 i j).2)
      (fun i j => (l2 i j).2) u l i j
  have pos1 := fun i j => C22_no_gains_backward periodic dt kvf a F fz S0 S1 mask1 o1 h0 h1 ha hdt hk
    (fun i j => (l1 i j).1) (fun i j => (u1 i j).1) hm1 i j (calm.lower i j) (calm.upper i j)
  have pos2 := fun i j => C22_no_gains_backward periodic dt kvf a F fz S0 S1 mask2 o2 h0 h1 ha hdt hk
    (fun i j => (l2 i j).1) (fun i j => (u2 i j).1) hm2 i j (calm.lower i j) (calm.upper i j)
  have nb : ∀ (i : Fin (m + 2)) (j : Fin (n + 2)), getBoundary periodic i j = false → ¬ isBoundary periodic i j :=
    fun i j h hb => by rw [(getBoundary_iff periodic i j).2 hb] at h; cases h
  have S := fun i j => settle_comb (getBoundary periodic i j) c1 c2
    ((bwdTransport periodic dt kvf a F fz S1 mask1 o1.s_track_lower o1.s_track_upper).1 i j)
    ((bwdTransport periodic dt kvf a F fz S1 mask1 o1.s_track_lower o1.s_track_upper).2 i j)
    ((bwdTransport periodic dt kvf a F fz S1 mask2 o2.s_track_lower o2.s_track_upper).1 i j)
    ((bwdTransport periodic dt kvf a F fz S1 mask2 o2.s_track_lower o2.s_track_upper).2 i j)
    (S0.s_lower i j) (S0.s_upper i j) (h0 i j).2.le (h0 i j).1.le
    (fun hb => by
      have := n1 i j (nb i j hb)
      simp only [backtrack, hb] at this
      have := settle_not_full _ _ _ _ (h0 i j).2.le (h0 i j).1.le this.1 this.2
      exact ⟨(pos1 i j).1, this.1, (pos1 i j).2.1, this.2⟩)
    (fun hb => by
      have := n2 i j (nb i j hb)
      simp only [backtrack, hb] at this
      have := settle_not_full _ _ _ _ (h0 i j).2.le (h0 i j).1.le this.1 this.2
      exact ⟨(pos2 i j).1, this.1, (pos2 i j).2.1, this.2⟩)
    (fun hb => by
      have := n0 i j (nb i j hb)
      simp only [backtrack, hb] at this
      have := settle_not_full _ _ _ _ (h0 i j).2.le (h0 i j).1.le this.1 this.2
      rw [tl, tu] at this
      exact ⟨add_nonneg (mul_nonneg hc1 (pos1 i j).1) (mul_nonneg hc2 (pos2 i j).1), this.1,
        add_nonneg (mul_nonneg hc1 (pos1 i j).2.1) (mul_nonneg hc2 (pos2 i j).2.1), this.2⟩)
  have fr : ∀ t t' s : K, 0 < s → t ≤ s → t' ≤ s → c1 * t + c2 * t' ≤ s →
      fraction (c1 * t + c2 * t') s = c1 * fraction t s + c2 * fraction t' s :=
    fun t t' s hs h h' hc => by
      rw [fraction_inside hs h, fraction_inside hs h', fraction_inside hs hc]; ring
  unfold backtrack bwdComb
  simp only [BwdOutput.mk.injEq]
  refine ⟨?_, ?_, ?_, ?_, ?_, ?_⟩ <;> funext i j
  · rw [tl, tu]; exact (S i j).2.1
  · rw [tl, tu]; exact (S i j).1
  · simp only [relStorage_eq]
    rw [hodef]
    simp only [bwdComb]
    rw [fr _ _ _ (h1 i j).2 (l1 i j).2 (l2 i j).2 (l i j)]
    ring
  · simp only [hodef, bwdComb, hmaskdef]; ring
  · rw [tl, tu, (S i j).2.2.1]; simp only [hodef, bwdComb]; ring
  · rw [tl, tu, (S i j).2.2.2]; simp only [hodef, bwdComb]; ring

end step


/-! ### Whole runs -/

namespace Proc
variable {ω : Type*}

theorem out_rel {p q : Proc ω} (o o' : ω) (R : ℕ → ω → ω → Prop) (h0 : R 0 o o') (N : ℕ)
    (hw : ∀ k, p.write k = q.write k)
    (hs : ∀ k < N, R k (p.out o k) (q.out o' k) → R (k + 1) (p.step k (p.out o k)) (q.step k (q.out o' k)))
    (hf : ∀ k x y, R k x y → R k (p.flush x) (q.flush y)) :
    ∀ k ≤ N, R k (p.out o k) (q.out o' k) := by
  intro k hk
  induction k with
  | zero => exact h0
  | succ k ih =>
    have := hs k (by omega) (ih (by omega))
    simp only [out, ← hw]
    split
    · exact hf _ _ _ this
    · exact this

theorem files_rel {p q : Proc ω} (o o' : ω) (R : ω → ω → Prop) (N : ℕ)
    (hw : ∀ k, p.write k = q.write k) (ht : ∀ k, p.time k = q.time k)
    (hs : ∀ k < N, R (p.full o k) (q.full o' k)) :
    ∀ k ≤ N, List.Forall₂ (fun x y => x.1 = y.1 ∧ R x.2 y.2) (p.files o k) (q.files o' k) := by
  intro k hk
  induction k with
  | zero => exact .nil
  | succ k ih =>
    simp only [files, ← hw]
    refine List.rel_append (ih (by omega)) ?_
    split
    · exact .cons ⟨ht _, hs k (by omega)⟩ .nil
    · exact .nil

theorem files_comb {p p1 p2 : Proc ω} (o o1 o2 : ω) (f : ω → ω → ω) (N : ℕ)
    (hw1 : ∀ k, p.write k = p1.write k) (hw2 : ∀ k, p.write k = p2.write k)
    (ht1 : ∀ k, p.time k = p1.time k) (ht2 : ∀ k, p.time k = p2.time k)
    (hs : ∀ k < N, p.full o k = f (p1.full o1 k) (p2.full o2 k)) :
    ∀ k ≤ N, p.files o k =
        List.zipWith (fun x y => (x.1, f x.2 y.2)) (p1.files o1 k) (p2.files o2 k) ∧
      (p1.files o1 k).map Prod.fst = (p.files o k).map Prod.fst ∧
      (p2.files o2 k).map Prod.fst = (p.files o k).map Prod.fst := by
  intro k hk
  induction k with
  | zero => exact ⟨rfl, rfl, rfl⟩
  | succ k ih =>
    obtain ⟨a, b, c⟩ := ih (by omega)
    have hlen : (p1.files o1 k).length = (p2.files o2 k).length := by
      have := congrArg List.length (b.trans c.symm)
      simpa using this
    simp only [files, ← hw1, ← hw2]
    by_cases hw : p.write (k + 1) = true
    · simp only [hw, if_true, List.map_append, b, c]
      refine ⟨?_, ?_, ?_⟩
      · rw [List.zipWith_append hlen, ← a, hs k (by omega), ← ht1]
        rfl
      · rw [← ht1]; rfl
      · rw [← ht2]; rfl
    · simp only [hw, Bool.false_eq_true, if_false, List.append_nil]
      exact ⟨a, b, c⟩

end Proc

section run
variable (cfg : RunConfig K) (src src' : Source m n K) (inp inp' : Input m n K) (path : ℤ → P)

theorem fwd_calm_at (h : 0 < cfg.timestep) (g : GridInfo (m + 2) K) (calm : CalmFwd cfg g inp)
    (k : ℕ) (hk : k < cfg.steps) :
    NoOverdrawFwd cfg.periodic_boundary (ofRat cfg.timestep : K) cfg.kvf g.a
      (stableFluxes cfg g (inp.fluxes (cfg.fwdTime k + cfg.halfDt)) (inp.states (cfg.fwdTime k)))
      (calculateFz g.a (stableFluxes cfg g (inp.fluxes (cfg.fwdTime k + cfg.halfDt))
        (inp.states (cfg.fwdTime k))) (inp.states (cfg.fwdTime k))
        (inp.states (cfg.fwdTime k + cfg.dt)) (ofRat cfg.timestep) cfg.kvf)
      (inp.states (cfg.fwdTime k)) := by
  have := calm k ((lt_stepCount (cfg.dt_pos h) k).mp hk)
  simp only [ofRat_int, stableFluxes]
  exact this

theorem bwd_calm_at (h : 0 < cfg.timestep) (g : GridInfo (m + 2) K) (calm : CalmBwd cfg g inp)
    (k : ℕ) (hk : k < cfg.steps) :
    NoOverdrawBwd cfg.periodic_boundary (ofRat cfg.timestep : K) cfg.kvf g.a
      (stableFluxes cfg g (inp.fluxes (cfg.bwdTime k - cfg.halfDt)) (inp.states (cfg.bwdTime k)))
      (calculateFz g.a (stableFluxes cfg g (inp.fluxes (cfg.bwdTime k - cfg.halfDt))
        (inp.states (cfg.bwdTime k))) (inp.states (cfg.bwdTime k - cfg.dt))
        (inp.states (cfg.bwdTime k)) (ofRat cfg.timestep) cfg.kvf)
      (inp.states (cfg.bwdTime k)) := by
  have := calm k ((lt_stepCount (cfg.dt_pos h) k).mp hk)
  simp only [ofRat_int, stableFluxes]
  exact this

theorem maskAt_mono {t : ℤ} (h : ∀ i j, inp.region t i j ≤ inp'.region t i j) (i j) :
    maskAt cfg inp t i j ≤ maskAt cfg inp' t i j := by
  unfold maskAt
  split
  · exact h i j
  · exact le_rfl

theorem FwdLE_flush (o o' : FwdOutput (m + 2) (n + 2) K) (h : FwdLE o o') :
    FwdLE o.flush o'.flush := by
  refine ⟨h.s_track_lower, h.s_track_upper, ?_, ?_, ?_, ?_⟩ <;>
    simp [FwdOutput.flush, ofRat_zero]

theorem BwdLE_flush (o o' : BwdOutput (m + 2) (n + 2) K) (h : BwdLE o o') :
    BwdLE o.flush o'.flush := by
  refine ⟨h.s_track_lower, h.s_track_upper, ?_, ?_, ?_⟩ <;>
    simp [BwdOutput.flush, ofRat_zero]

theorem fwd_out_le (h : Runnable cfg src inp) (hw : SameWeather inp inp')
    (hp : Physical inp cfg.tracking_start_date cfg.tracking_end_date)
    (hr : ∀ t, cfg.tracking_start_date ≤ t → t ≤ cfg.tracking_end_date → ∀ i j,
      inp.region t i j ≤ inp'.region t i j)
    (ha : ∀ i, 0 < src.grid.a i) (hk : 0 ≤ cfg.kvf) (calm : CalmFwd cfg src.grid inp)
    (o o') (ho : FwdLE o o') :
    (∀ k ≤ cfg.steps, FwdLE ((fwdProc cfg src.grid inp).out o k)
      ((fwdProc cfg src.grid inp').out o' k)) ∧
    ∀ k < cfg.steps, FwdLE ((fwdProc cfg src.grid inp).full o k)
      ((fwdProc cfg src.grid inp').full o' k) := by
  have hpos := h.timestep_pos
  have hAB := h.ordered
  have step : ∀ k < cfg.steps, ∀ x y, FwdLE x y → FwdLE ((fwdProc cfg src.grid inp).step k x)
      ((fwdProc cfg src.grid inp').step k y) := by
    intro k hk' x y hxy
    have t0 := cfg.fwdTime_mem hpos hAB k hk'.le
    have t1 := cfg.fwdTime_mem hpos hAB (k + 1) hk'
    have th := cfg.fwdHalf_mem hpos hAB k hk'
    simp only [fwdProc, fwdStepAt, hw.1, hw.2]
    refine C77_step_forward _ _ _ _ _ _ _ _ _ _ _ _ (hp.wet _ t0.1 t0.2) ?_ ha ?_ hk
      (hp.precip _ th.1 th.2) (fwd_calm_at cfg inp hpos src.grid calm k hk') ?_ hxy
    · rw [← cfg.fwdTime_succ]; exact hp.wet _ t1.1 t1.2
    · rw [ofRat_int]; exact_mod_cast hpos.le
    · intro i j
      exact mul_le_mul_of_nonneg_right (maskAt_mono cfg inp inp' (hr _ t0.1 t0.2) i j)
        (hp.evap _ th.1 th.2 i j)
  have out := Proc.out_rel (p := fwdProc cfg src.grid inp) (q := fwdProc cfg src.grid inp') o o'
    (fun _ x y => FwdLE x y) ho cfg.steps (fun _ => rfl) (fun k hk' => step k hk' _ _)
    (fun _ x y => FwdLE_flush x y)
  exact ⟨out, fun k hk' => step k hk' _ _ (out k hk'.le)⟩

theorem bwd_out_le (h : Runnable cfg src inp) (hw : SameWeather inp inp')
    (hp : Physical inp cfg.tracking_start_date cfg.tracking_end_date)
    (hr : ∀ t, cfg.tracking_start_date ≤ t → t ≤ cfg.tracking_end_date → ∀ i j,
      inp.region t i j ≤ inp'.region t i j)
    (ha : ∀ i, 0 < src.grid.a i) (hk : 0 ≤ cfg.kvf) (calm : CalmBwd cfg src.grid inp)
    (o o') (ho : BwdLE o o') :
    (∀ k ≤ cfg.steps, BwdLE ((bwdProc cfg src.grid inp).out o k)
      ((bwdProc cfg src.grid inp').out o' k)) ∧
    ∀ k < cfg.steps, BwdLE ((bwdProc cfg src.grid inp).full o k)
      ((bwdProc cfg src.grid inp').full o' k) := by
  have hpos := h.timestep_pos
  have hAB := h.ordered
  have step : ∀ k < cfg.steps, ∀ x y, BwdLE x y → BwdLE ((bwdProc cfg src.grid inp).step k x)
      ((bwdProc cfg src.grid inp').step k y) := by
    intro k hk' x y hxy
    have t0 := cfg.bwdTime_mem hpos hAB k hk'.le
    have t1 := cfg.bwdTime_mem hpos hAB (k + 1) hk'
    have th := cfg.bwdHalf_mem hpos hAB k hk'
    simp only [bwdProc, bwdStepAt, hw.1, hw.2]
    refine C77_step_backward _ _ _ _ _ _ _ _ _ _ _ _ ?_ (hp.wet _ t0.1 t0.2) ha ?_ hk
      (hp.evap _ th.1 th.2) (bwd_calm_at cfg inp hpos src.grid calm k hk') ?_ hxy
    · rw [← cfg.bwdTime_succ]; exact hp.wet _ t1.1 t1.2
    · rw [ofRat_int]; exact_mod_cast hpos.le
    · intro i j
      exact mul_le_mul_of_nonneg_right (maskAt_mono cfg inp inp' (hr _ t0.1 t0.2) i j)
        (hp.precip _ th.1 th.2 i j)
  have out := Proc.out_rel (p := bwdProc cfg src.grid inp) (q := bwdProc cfg src.grid inp') o o'
    (fun _ x y => BwdLE x y) ho cfg.steps (fun _ => rfl) (fun k hk' => step k hk' _ _)
    (fun _ x y => BwdLE_flush x y)
  exact ⟨out, fun k hk' => step k hk' _ _ (out k hk'.le)⟩

theorem fwd_start_le {path' : ℤ → P} {disk disk' : P → Option (FwdOutput (m + 2) (n + 2) K)} {o o'}
    (ho : fwdInitialize cfg src path disk = .ok o) (ho' : fwdInitialize cfg src' path' disk' = .ok o')
    (hs : ∀ i j, (startFwd cfg path disk).1 i j ≤ (startFwd cfg path' disk').1 i j ∧
      (startFwd cfg path disk).2 i j ≤ (startFwd cfg path' disk').2 i j) : FwdLE o o' := by
  rw [fwd_init_eq cfg src path disk o ho, fwd_init_eq cfg src' path' disk' o' ho']
  exact ⟨fun i j => (hs i j).1, fun i j => (hs i j).2, fun _ _ => le_rfl, fun _ _ => le_rfl,
    fun _ _ => le_rfl, fun _ _ => le_rfl⟩

theorem bwd_start_le {path' : ℤ → P} {disk disk' : P → Option (BwdOutput (m + 2) (n + 2) K)} {o o'}
    (ho : bwdInitialize cfg src path disk = .ok o) (ho' : bwdInitialize cfg src' path' disk' = .ok o')
    (hs : ∀ i j, (startBwd cfg path disk).1 i j ≤ (startBwd cfg path' disk').1 i j ∧
      (startBwd cfg path disk).2 i j ≤ (startBwd cfg path' disk').2 i j) : BwdLE o o' := by
  rw [bwd_init_eq cfg src path disk o ho, bwd_init_eq cfg src' path' disk' o' ho']
  exact ⟨fun i j => (hs i j).1, fun i j => (hs i j).2, fun _ _ => le_rfl, fun _ _ => le_rfl,
    fun _ _ => le_rfl⟩

/-- **C77** (forward run): with the same weather, a larger tagging region (and at least as much tracked
water at the start) gives, file by file and cell by cell, at least as much of everything. -/
theorem C77_run_forward (path' : ℤ → P) (disk disk' : P → Option (FwdOutput (m + 2) (n + 2) K))
    (h : Runnable cfg src inp) (h' : Runnable cfg src' inp') (hg : src'.grid = src.grid)
    (hw : SameWeather inp inp')
    (hp : Physical inp cfg.tracking_start_date cfg.tracking_end_date)
    (hr : ∀ t, cfg.tracking_start_date ≤ t → t ≤ cfg.tracking_end_date → ∀ i j,
      inp.region t i j ≤ inp'.region t i j)
    (ha : ∀ i, 0 < src.grid.a i) (hk : 0 ≤ cfg.kvf) (calm : CalmFwd cfg src.grid inp)
    (hstart : ∀ i j, (startFwd cfg path disk).1 i j ≤ (startFwd cfg path' disk').1 i j ∧
      (startFwd cfg path disk).2 i j ≤ (startFwd cfg path' disk').2 i j)
    {s s'} (hs : EndsIn (fwdRun cfg src path disk) s)
    (hs' : EndsIn (fwdRun cfg src' path' disk') s') :
    List.Forall₂ (fun x y => x.1 = y.1 ∧ FwdLE x.2 y.2) s.files s'.files := by
  obtain ⟨o, r, ho, rfl⟩ := fwd_ends cfg src inp path disk h hs
  obtain ⟨o', r', ho', rfl⟩ := fwd_ends cfg src' inp' path' disk' h' hs'
  show List.Forall₂ _ ((fwdProc cfg src.grid inp).files o cfg.steps)
    ((fwdProc cfg src'.grid inp').files o' cfg.steps)
  rw [hg]
  refine Proc.files_rel (p := fwdProc cfg src.grid inp) (q := fwdProc cfg src.grid inp') o o'
    FwdLE cfg.steps (fun _ => rfl) (fun _ => rfl) ?_ cfg.steps le_rfl
  exact (fwd_out_le cfg src inp inp' h hw hp hr ha hk calm o o'
    (fwd_start_le cfg src src' path ho ho' hstart)).2

/-- **C77** (backward run) -/
theorem C77_run_backward (path' : ℤ → P) (disk disk' : P → Option (BwdOutput (m + 2) (n + 2) K))
    (h : Runnable cfg src inp) (h' : Runnable cfg src' inp') (hg : src'.grid = src.grid)
    (hw : SameWeather inp inp')
    (hp : Physical inp cfg.tracking_start_date cfg.tracking_end_date)
    (hr : ∀ t, cfg.tracking_start_date ≤ t → t ≤ cfg.tracking_end_date → ∀ i j,
      inp.region t i j ≤ inp'.region t i j)
    (ha : ∀ i, 0 < src.grid.a i) (hk : 0 ≤ cfg.kvf) (calm : CalmBwd cfg src.grid inp)
    (hstart : ∀ i j, (startBwd cfg path disk).1 i j ≤ (startBwd cfg path' disk').1 i j ∧
      (startBwd cfg path disk).2 i j ≤ (startBwd cfg path' disk').2 i j)
    {s s'} (hs : EndsIn (bwdRun cfg src path disk) s)
    (hs' : EndsIn (bwdRun cfg src' path' disk') s') :
    List.Forall₂ (fun x y => x.1 = y.1 ∧ BwdLE x.2 y.2) s.files s'.files := by
  obtain ⟨o, r, ho, rfl⟩ := bwd_ends cfg src inp path disk h hs
  obtain ⟨o', r', ho', rfl⟩ := bwd_ends cfg src' inp' path' disk' h' hs'
  show List.Forall₂ _ ((bwdProc cfg src.grid inp).files o cfg.steps)
    ((bwdProc cfg src'.grid inp').files o' cfg.steps)
  rw [hg]
  refine Proc.files_rel (p := bwdProc cfg src.grid inp) (q := bwdProc cfg src.grid inp') o o'
    BwdLE cfg.steps (fun _ => rfl) (fun _ => rfl) ?_ cfg.steps le_rfl
  exact (bwd_out_le cfg src inp inp' h hw hp hr ha hk calm o o'
    (bwd_start_le cfg src src' path ho ho' hstart)).2

end run

end Wam
