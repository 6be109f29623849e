import Verif.Spec.Dual
import Verif.Lemmas.Compare

/-! # The transport of backward tracking is the transpose of that of forward tracking -/
set_option linter.unusedSectionVars false
set_option linter.unusedVariables false

namespace Wam
open Spec
variable {K : Type*} [Field K] [LinearOrder K] [IsStrictOrderedRing K] {m n : ℕ}

/-- what two fields exchange through a face with flux `q` from `A` to `B` -/
def across (q rA rB bA bB : K) : K := max q 0 * (rA * bB) - max (-q) 0 * (rB * bA)

theorem pos_sub_neg (q : K) : max q 0 - max (-q) 0 = q := by
  rcases le_total 0 q with h | h
  · rw [max_eq_left h, max_eq_right (by linarith)]; ring
  · rw [max_eq_right h, max_eq_left (by linarith)]; ring

theorem tendency_dual (r rw re rn rs b bw be bn bs qw qe qn qs : K) :
    b * tendency r rw re rn rs qw qe qn qs - r * tendency b bw be bn bs (-qw) (-qe) (-qn) (-qs) -
      r * b * (qw - qe + qs - qn) =
    across qw rw r bw b - across qe r re b be + across qs rs r bs b - across qn r rn b bn := by
  have h1 := pos_sub_neg qw
  have h2 := pos_sub_neg qe
  have h3 := pos_sub_neg qn
  have h4 := pos_sub_neg qs
  unfold tendency carried across
  simp only [neg_neg]
  linear_combination r * b * h1 - r * b * h2 - r * b * h3 + r * b * h4

theorem telescope_faces {k : ℕ} (f : ℤ → K) : ∑ j : Fin k, (f j - f (j + 1)) = f 0 - f k := by
  induction k with
  | zero => simp
  | succ k ih =>
    rw [Fin.sum_univ_castSucc]
    simp only [Fin.val_castSucc, Fin.val_last, ih]
    push_cast
    ring

theorem inflow_dual (periodic : Bool) (r b fx fy : Arr (m + 2) (n + 2) K) :
    ∑ i, ∑ j, (b i j * inflow periodic r fx fy i j -
      r i j * inflow periodic b (fun i j => -fx i j) (fun i j => -fy i j) i j -
      r i j * b i j * convergence periodic fx fy i j) = 0 := by
  let N : ℤ := (n + 2 : ℕ)
  let GX : ℤ → ℤ → K := fun x y => across (faceX periodic fx x y) (at2 r x ((y - 1) % N)) (at2 r x (y % N))
    (at2 b x ((y - 1) % N)) (at2 b x (y % N))
  let GY : ℤ → ℤ → K := fun x y => across (faceY periodic fy x y) (at2 r x y) (at2 r (x - 1) y)
    (at2 b x y) (at2 b (x - 1) y)
  have cell : ∀ (i : Fin (m + 2)) (j : Fin (n + 2)), b i j * inflow periodic r fx fy i j -
      r i j * inflow periodic b (fun i j => -fx i j) (fun i j => -fy i j) i j -
      r i j * b i j * convergence periodic fx fy i j =
      (GX i j - GX i (j + 1)) - (GY i j - GY (i + 1) j) := by
    intro i j
    unfold inflow convergence
    simp only [faceX_neg, faceY_neg]
    rw [tendency_dual]
    have e : ∀ f : Arr (m + 2) (n + 2) K, at2 f i ((j : ℤ) % N) = f i j := fun f =>
      at2_in f i j _ _ rfl (Int.emod_eq_of_lt (by omega) (by simp only [N]; omega))
    have e' : ∀ f : Arr (m + 2) (n + 2) K, at2 f i (j : ℤ) = f i j := fun f => at2_in f i j _ _ rfl rfl
    simp only [GX, GY, add_sub_cancel_right, e, e']
    push_cast [N]
    ring
  have hx : ∀ x : ℤ, GX x 0 - GX x N = 0 := by
    intro x
    cases periodic
    · have h0 : faceX false fx x 0 = 0 := by unfold faceX; rw [if_neg]; simp
      have h1 : faceX false fx x N = 0 := by unfold faceX; rw [if_neg]; simp [N]
      simp [GX, h0, h1, across]
    · have h1 : faceX true fx x N = faceX true fx x 0 := faceX_mod fx x N 0 (by simp [N])
      simp only [GX, h1]
      have e : (N - 1) % N = (0 - 1) % N := by simp [Int.sub_emod]
      rw [e]
      simp
  have hy : ∀ y : ℤ, GY 0 y - GY (m + 2 : ℕ) y = 0 := by
    intro y
    have h0 : faceY periodic fy 0 y = 0 := by unfold faceY; rw [if_neg]; simp
    have h1 : faceY periodic fy (m + 2 : ℕ) y = 0 := by unfold faceY; rw [if_neg]; simp
    simp only [GY, h0, h1]
    simp [across]
  simp only [cell, Finset.sum_sub_distrib]
  have s1 : ∑ i : Fin (m + 2), (∑ j : Fin (n + 2), GX i j - ∑ j : Fin (n + 2), GX i (j + 1)) = 0 := by
    refine Finset.sum_eq_zero fun i _ => ?_
    rw [← Finset.sum_sub_distrib, telescope_faces (GX i), hx]
  have s2 : ∑ j : Fin (n + 2), (∑ i : Fin (m + 2), GY i j - ∑ i : Fin (m + 2), GY (i + 1) j) = 0 := by
    refine Finset.sum_eq_zero fun j _ => ?_
    rw [← Finset.sum_sub_distrib, telescope_faces (fun x => GY x j), hy]
  simp only [Finset.sum_sub_distrib] at s1 s2
  rw [Finset.sum_comm (f := fun (j : Fin (n + 2)) (i : Fin (m + 2)) => GY i j),
    Finset.sum_comm (f := fun (j : Fin (n + 2)) (i : Fin (m + 2)) => GY (i + 1) j)] at s2
  rw [s1, s2, sub_zero]

/-- vertical exchange of two fields: transposed, too -/
theorem downward_dual (fz kvf rl ru bl bu : K) :
    bl * downward fz kvf ru rl - bu * downward fz kvf ru rl -
      (rl * downward (-fz) kvf bu bl - ru * downward (-fz) kvf bu bl) =
    rl * bl * fz - ru * bu * fz := by
  have h := pos_sub_neg fz
  unfold downward carried
  rw [neg_neg, abs_neg]
  linear_combination (rl * bl - ru * bu) * h

/-! ### one step -/

theorem settle_near (tl tu Sl Su xl xu : K) (hl : 0 ≤ tl) (hu : 0 ≤ tu) (hSl : 0 ≤ Sl) (hSu : 0 ≤ Su) (hxl : 0 ≤ xl)
    (hxu : 0 ≤ xu) (hl' : tl ≤ Sl + xl) (hu' : tu ≤ Su + xu) :
    |(settle false tl tu Sl Su).lower - tl| ≤ xl + xu ∧ |(settle false tl tu Sl Su).upper - tu| ≤ xl + xu := by
  unfold settle
  simp only [np_max, np_min, ofRat_zero, Bool.false_eq_true, if_false]
  have a1 : 0 ≤ max 0 (tl - Sl) := le_max_left _ _
  have a2 : 0 ≤ max 0 (tu - Su) := le_max_left _ _
  have a3 : max 0 (tl - Sl) ≤ xl := max_le hxl (by linarith)
  have a4 : max 0 (tu - Su) ≤ xu := max_le hxu (by linarith)
  have a5 : tl - max 0 (tl - Sl) ≤ Sl := by have := le_max_right 0 (tl - Sl); linarith
  have a6 : tu - max 0 (tu - Su) ≤ Su := by have := le_max_right 0 (tu - Su); linarith
  have a7 : 0 ≤ tl - max 0 (tl - Sl) := by have := max_le hl (show tl - Sl ≤ tl by linarith); linarith
  have a8 : 0 ≤ tu - max 0 (tu - Su) := by have := max_le hu (show tu - Su ≤ tu by linarith); linarith
  generalize max 0 (tl - Sl) = ol at *
  generalize max 0 (tu - Su) = ou at *
  rw [max_eq_left (by linarith : (0:K) ≤ tl - ol + ou), max_eq_left (by linarith : (0:K) ≤ tu - ou + ol)]
  constructor
  · rw [abs_le]
    constructor
    · have : tl - ol ≤ min (tl - ol + ou) Sl := le_min (by linarith) a5
      linarith
    · have := min_le_left (tl - ol + ou) Sl
      linarith
  · rw [abs_le]
    constructor
    · have : tu - ou ≤ min (tu - ou + ol) Su := le_min (by linarith) a6
      linarith
    · have := min_le_left (tu - ou + ol) Su
      linarith

theorem inflow_one (periodic : Bool) (fx fy : Arr (m + 2) (n + 2) K) (i j) :
    inflow periodic (fun _ _ => 1) fx fy i j = convergence periodic fx fy i j := by
  rw [← advect_eq_inflow, C03_constant_field]
  simp

theorem inflow_compl (periodic : Bool) (r fx fy : Arr (m + 2) (n + 2) K) (i j) :
    inflow periodic (fun i j => 1 - r i j) fx fy i j =
      convergence periodic fx fy i j - inflow periodic r fx fy i j := by
  have := inflow_comb periodic 1 (-1) (fun _ _ => 1) r fx fy i j
  rw [inflow_one] at this
  have e : (fun i j => 1 * (1 : K) + -1 * r i j) = fun i j => 1 - r i j := by funext i j; ring
  rw [e] at this
  rw [this]; ring

theorem downward_compl (fz kvf ru rl : K) :
    downward fz kvf (1 - ru) (1 - rl) = fz - downward fz kvf ru rl := by
  have h := pos_sub_neg fz
  unfold downward carried
  linear_combination h

theorem fraction_compl {t S : K} (hS : 0 < S) (h0 : 0 ≤ t) (h : t ≤ S) : fraction (S - t) S = 1 - fraction t S := by
  rw [fraction_inside hS h, fraction_inside hS (by linarith)]
  field_simp

theorem convergence_neg (periodic : Bool) (fx fy : Arr (m + 2) (n + 2) K) (i j : ℤ) :
    convergence periodic (fun i j => -fx i j) (fun i j => -fy i j) i j = -convergence periodic fx fy i j := by
  unfold convergence
  simp only [faceX_neg, faceY_neg]
  ring

section
variable (periodic : Bool) (dt kvf : K) (a : Fin (m + 2) → K) (F : Fluxes (m + 2) (n + 2) K)
  (fz : Arr (m + 2) (n + 2) K) (S0 S1 : States (m + 2) (n + 2) K) (A B : Arr (m + 2) (n + 2) K)

/-- forward: no layer receives more than all the water there is, up to the imbalance -/
theorem fwd_transport_bounds (o : FwdOutput (m + 2) (n + 2) K) (h0 : Wet S0) (ha : ∀ i, 0 < a i) (hdt : 0 ≤ dt)
    (hk : 0 ≤ kvf) (he : ∀ i j, 0 ≤ F.evap i j) (hA : ∀ i j, 0 ≤ A i j ∧ A i j ≤ 1)
    (hl : ∀ i j, 0 ≤ o.s_track_lower i j ∧ o.s_track_lower i j ≤ S0.s_lower i j)
    (hu : ∀ i j, 0 ≤ o.s_track_upper i j ∧ o.s_track_upper i j ≤ S0.s_upper i j)
    (h1 : Wet S1) (hM : Moderate periodic dt kvf a F fz S0 S1) (i j) :
    let t := fwdTransport periodic dt kvf a F fz S0 A o.s_track_lower o.s_track_upper
    (0 ≤ t.1 i j ∧ t.1 i j ≤ S1.s_lower i j + imbalanceLower periodic dt a F fz S0 S1 i j) ∧
    (0 ≤ t.2 i j ∧ t.2 i j ≤ S1.s_upper i j + imbalanceUpper periodic dt a F fz S0 S1 i j) := by
  intro t
  have p := C22_no_gains_forward periodic dt kvf a F fz S0 S1 A o h0 h1 ha hdt hk (fun i j => (hl i j).1)
    (fun i j => (hu i j).1) (fun i j => mul_nonneg (hA i j).1 (he i j)) i j (hM.fwd_lower i j) (hM.fwd_upper i j)
  let o' : FwdOutput (m + 2) (n + 2) K := { o with
    s_track_lower := fun i j => S0.s_lower i j - o.s_track_lower i j
    s_track_upper := fun i j => S0.s_upper i j - o.s_track_upper i j }
  have q := C22_no_gains_forward periodic dt kvf a F fz S0 S1 (fun i j => 1 - A i j) o' h0 h1 ha hdt hk
    (fun i j => sub_nonneg.2 (hl i j).2) (fun i j => sub_nonneg.2 (hu i j).2)
    (fun i j => mul_nonneg (sub_nonneg.2 (hA i j).2) (he i j)) i j (hM.fwd_lower i j) (hM.fwd_upper i j)
  obtain ⟨e1, e2⟩ := C20_forward_transport periodic dt kvf a F fz S0 A o.s_track_lower o.s_track_upper h0 ha i j
  obtain ⟨e1', e2'⟩ := C20_forward_transport periodic dt kvf a F fz S0 (fun i j => 1 - A i j)
    o'.s_track_lower o'.s_track_upper h0 ha i j
  have fl : (fun i j => fraction (o'.s_track_lower i j) (S0.s_lower i j)) =
      fun i j => 1 - fraction (o.s_track_lower i j) (S0.s_lower i j) := by
    funext i j; exact fraction_compl (h0 i j).2 (hl i j).1 (hl i j).2
  have fu : (fun i j => fraction (o'.s_track_upper i j) (S0.s_upper i j)) =
      fun i j => 1 - fraction (o.s_track_upper i j) (S0.s_upper i j) := by
    funext i j; exact fraction_compl (h0 i j).1 (hu i j).1 (hu i j).2
  rw [fl, fu] at e1'
  simp only [inflow_compl, downward_compl] at e1'
  rw [fl, fu] at e2'
  simp only [inflow_compl, downward_compl] at e2'
  refine ⟨⟨p.1, ?_⟩, ⟨p.2.1, ?_⟩⟩
  · have := q.1
    rw [e1'] at this
    show (fwdTransport periodic dt kvf a F fz S0 A o.s_track_lower o.s_track_upper).1 i j ≤ _
    rw [e1]
    unfold imbalanceLower
    simp only [o'] at this
    rw [sub_div] at this
    linarith
  · have := q.2.1
    rw [e2'] at this
    show (fwdTransport periodic dt kvf a F fz S0 A o.s_track_lower o.s_track_upper).2 i j ≤ _
    rw [e2]
    unfold imbalanceUpper
    simp only [o'] at this
    rw [sub_div] at this
    linarith

/-- backward: the same against the flow; the shares of the precipitation are those at the end of the step -/
theorem bwd_transport_bounds (o : BwdOutput (m + 2) (n + 2) K) (h1 : Wet S1) (ha : ∀ i, 0 < a i) (hdt : 0 ≤ dt)
    (hk : 0 ≤ kvf) (hp : ∀ i j, 0 ≤ F.precip i j) (hB : ∀ i j, 0 ≤ B i j ∧ B i j ≤ 1)
    (hl : ∀ i j, 0 ≤ o.s_track_lower i j ∧ o.s_track_lower i j ≤ S1.s_lower i j)
    (hu : ∀ i j, 0 ≤ o.s_track_upper i j ∧ o.s_track_upper i j ≤ S1.s_upper i j)
    (h0 : Wet S0) (hM : Moderate periodic dt kvf a F fz S0 S1) (i j) :
    let t := bwdTransport periodic dt kvf a F fz S1 B o.s_track_lower o.s_track_upper
    (0 ≤ t.1 i j ∧ t.1 i j ≤ S0.s_lower i j - imbalanceLower periodic dt a F fz S0 S1 i j +
      dt * (share (F.precip i j) (S1.s_lower i j) (S1.s_upper i j) -
        share (F.precip i j) (S0.s_lower i j) (S0.s_upper i j))) ∧
    (0 ≤ t.2 i j ∧ t.2 i j ≤ S0.s_upper i j - imbalanceUpper periodic dt a F fz S0 S1 i j +
      dt * (share (F.precip i j) (S1.s_upper i j) (S1.s_lower i j) -
        share (F.precip i j) (S0.s_upper i j) (S0.s_lower i j))) := by
  intro t
  have p := C22_no_gains_backward periodic dt kvf a F fz S0 S1 B o h0 h1 ha hdt hk (fun i j => (hl i j).1)
    (fun i j => (hu i j).1) (fun i j => mul_nonneg (hB i j).1 (hp i j)) i j (hM.bwd_lower i j) (hM.bwd_upper i j)
  let o' : BwdOutput (m + 2) (n + 2) K := { o with
    s_track_lower := fun i j => S1.s_lower i j - o.s_track_lower i j
    s_track_upper := fun i j => S1.s_upper i j - o.s_track_upper i j }
  have q := C22_no_gains_backward periodic dt kvf a F fz S0 S1 (fun i j => 1 - B i j) o' h0 h1 ha hdt hk
    (fun i j => sub_nonneg.2 (hl i j).2) (fun i j => sub_nonneg.2 (hu i j).2)
    (fun i j => mul_nonneg (sub_nonneg.2 (hB i j).2) (hp i j)) i j (hM.bwd_lower i j) (hM.bwd_upper i j)
  obtain ⟨e1, e2⟩ := C20_backward_transport periodic dt kvf a F fz S1 B o.s_track_lower o.s_track_upper h1 ha i j
  obtain ⟨e1', e2'⟩ := C20_backward_transport periodic dt kvf a F fz S1 (fun i j => 1 - B i j)
    o'.s_track_lower o'.s_track_upper h1 ha i j
  have fl : (fun i j => fraction (o'.s_track_lower i j) (S1.s_lower i j)) =
      fun i j => 1 - fraction (o.s_track_lower i j) (S1.s_lower i j) := by
    funext i j; exact fraction_compl (h1 i j).2 (hl i j).1 (hl i j).2
  have fu : (fun i j => fraction (o'.s_track_upper i j) (S1.s_upper i j)) =
      fun i j => 1 - fraction (o.s_track_upper i j) (S1.s_upper i j) := by
    funext i j; exact fraction_compl (h1 i j).1 (hu i j).1 (hu i j).2
  have sh : ∀ s s' : K, share ((1 - B i j) * F.precip i j) s s' =
      share (F.precip i j) s s' - share (B i j * F.precip i j) s s' := by
    intro s s'; unfold share; ring
  rw [fl, fu] at e1'
  simp only [inflow_compl, downward_compl, convergence_neg] at e1'
  rw [fl, fu] at e2'
  simp only [inflow_compl, downward_compl, convergence_neg] at e2'
  refine ⟨⟨p.1, ?_⟩, ⟨p.2.1, ?_⟩⟩
  · have := q.1
    rw [e1'] at this
    show (bwdTransport periodic dt kvf a F fz S1 B o.s_track_lower o.s_track_upper).1 i j ≤ _
    rw [e1]
    unfold imbalanceLower
    simp only [o', sh] at this
    rw [sub_div, neg_div] at this
    linarith
  · have := q.2.1
    rw [e2'] at this
    show (bwdTransport periodic dt kvf a F fz S1 B o.s_track_lower o.s_track_upper).2 i j ≤ _
    rw [e2]
    unfold imbalanceUpper
    simp only [o', sh] at this
    rw [sub_div, neg_div] at this
    linarith

/-- what two tracked fields have in common at one time -/
def pairing (a : Fin (m + 2) → K) (S : States (m + 2) (n + 2) K) (xl xu yl yu : Arr (m + 2) (n + 2) K) : K :=
  ∑ i, ∑ j, a i * (xl i j * yl i j / S.s_lower i j + xu i j * yu i j / S.s_upper i j)

/-- the transport of one step, forward paired with backward -/
theorem transport_dual (of : FwdOutput (m + 2) (n + 2) K) (ob : BwdOutput (m + 2) (n + 2) K) (h0 : Wet S0) (h1 : Wet S1)
    (ha : ∀ i, 0 < a i)
    (hl : ∀ i j, of.s_track_lower i j ≤ S0.s_lower i j) (hu : ∀ i j, of.s_track_upper i j ≤ S0.s_upper i j)
    (hl' : ∀ i j, ob.s_track_lower i j ≤ S1.s_lower i j) (hu' : ∀ i j, ob.s_track_upper i j ≤ S1.s_upper i j) :
    let t := fwdTransport periodic dt kvf a F fz S0 A of.s_track_lower of.s_track_upper
    let t' := bwdTransport periodic dt kvf a F fz S1 B ob.s_track_lower ob.s_track_upper
    let rl := fun i j => fraction (of.s_track_lower i j) (S0.s_lower i j)
    let ru := fun i j => fraction (of.s_track_upper i j) (S0.s_upper i j)
    let bl := fun i j => fraction (ob.s_track_lower i j) (S1.s_lower i j)
    let bu := fun i j => fraction (ob.s_track_upper i j) (S1.s_upper i j)
    ∑ i, ∑ j, a i * (bl i j * t.1 i j + bu i j * t.2 i j - rl i j * t'.1 i j - ru i j * t'.2 i j) =
    ∑ i, ∑ j, a i * (rl i j * bl i j * imbalanceLower periodic dt a F fz S0 S1 i j +
      ru i j * bu i j * imbalanceUpper periodic dt a F fz S0 S1 i j + dt * (bl i j * (A i j * F.evap i j)) -
      dt * (rl i j * share (B i j * F.precip i j) (S1.s_lower i j) (S1.s_upper i j) +
        ru i j * share (B i j * F.precip i j) (S1.s_upper i j) (S1.s_lower i j))) := by
  intro t t' rl ru bl bu
  have dl := inflow_dual periodic rl bl F.fx_lower F.fy_lower
  have du := inflow_dual periodic ru bu F.fx_upper F.fy_upper
  rw [← sub_eq_zero, ← Finset.sum_sub_distrib]
  have : dt * (0 : K) + dt * 0 = 0 := by ring
  rw [← this]
  nth_rewrite 1 [← dl]
  rw [← du, Finset.mul_sum, Finset.mul_sum, ← Finset.sum_add_distrib]
  refine Finset.sum_congr rfl fun i _ => ?_
  rw [Finset.mul_sum, Finset.mul_sum, ← Finset.sum_add_distrib, ← Finset.sum_sub_distrib]
  refine Finset.sum_congr rfl fun j _ => ?_
  obtain ⟨e1, e2⟩ := C20_forward_transport periodic dt kvf a F fz S0 A of.s_track_lower of.s_track_upper h0 ha i j
  obtain ⟨e3, e4⟩ := C20_backward_transport periodic dt kvf a F fz S1 B ob.s_track_lower ob.s_track_upper h1 ha i j
  have v := downward_dual (fz i j) kvf (rl i j) (ru i j) (bl i j) (bu i j)
  have kl : of.s_track_lower i j = rl i j * S0.s_lower i j := by
    simp only [rl]; rw [fraction_inside (h0 i j).2 (hl i j), div_mul_cancel₀ _ (h0 i j).2.ne']
  have ku : of.s_track_upper i j = ru i j * S0.s_upper i j := by
    simp only [ru]; rw [fraction_inside (h0 i j).1 (hu i j), div_mul_cancel₀ _ (h0 i j).1.ne']
  have ml : ob.s_track_lower i j = bl i j * S1.s_lower i j := by
    simp only [bl]; rw [fraction_inside (h1 i j).2 (hl' i j), div_mul_cancel₀ _ (h1 i j).2.ne']
  have mu : ob.s_track_upper i j = bu i j * S1.s_upper i j := by
    simp only [bu]; rw [fraction_inside (h1 i j).1 (hu' i j), div_mul_cancel₀ _ (h1 i j).1.ne']
  simp only [t, t']
  rw [e1, e2, e3, e4]
  change a i * (bl i j * (of.s_track_lower i j + dt * (inflow periodic rl F.fx_lower F.fy_lower i j / a i +
    downward (fz i j) kvf (ru i j) (rl i j) + A i j * F.evap i j -
      share (F.precip i j) (S0.s_lower i j) (S0.s_upper i j) * rl i j)) +
    bu i j * (of.s_track_upper i j + dt * (inflow periodic ru F.fx_upper F.fy_upper i j / a i -
      downward (fz i j) kvf (ru i j) (rl i j) - share (F.precip i j) (S0.s_upper i j) (S0.s_lower i j) * ru i j)) -
    rl i j * (ob.s_track_lower i j + dt * (inflow periodic bl (fun i j => -F.fx_lower i j)
      (fun i j => -F.fy_lower i j) i j / a i + downward (-fz i j) kvf (bu i j) (bl i j) +
      share (B i j * F.precip i j) (S1.s_lower i j) (S1.s_upper i j) - F.evap i j * bl i j)) -
    ru i j * (ob.s_track_upper i j + dt * (inflow periodic bu (fun i j => -F.fx_upper i j)
      (fun i j => -F.fy_upper i j) i j / a i - downward (-fz i j) kvf (bu i j) (bl i j) +
      share (B i j * F.precip i j) (S1.s_upper i j) (S1.s_lower i j)))) - _ = _
  rw [kl, ku, ml, mu]
  have hai := (ha i).ne'
  unfold imbalanceLower imbalanceUpper
  field_simp
  linear_combination (a i * dt) * v

theorem weighted_le {w x X : K} (h0 : 0 ≤ w) (h1 : w ≤ 1) (hx : |x| ≤ X) : |w * x| ≤ X := by
  rw [abs_mul, abs_of_nonneg h0]
  have := abs_nonneg x
  nlinarith

theorem cell_bound {bl bu rl ru w x1 x2 y1 y2 ρl ρu D X Y : K} (hbl : 0 ≤ bl ∧ bl ≤ 1) (hbu : 0 ≤ bu ∧ bu ≤ 1)
    (hrl : 0 ≤ rl ∧ rl ≤ 1) (hru : 0 ≤ ru ∧ ru ≤ 1) (hw : 0 ≤ w ∧ w ≤ 1) (h1 : |x1| ≤ X) (h2 : |x2| ≤ X)
    (h3 : |y1| ≤ Y) (h4 : |y2| ≤ Y) :
    |bl * x1 + bu * x2 - rl * y1 - ru * y2 + rl * bl * ρl + ru * bu * ρu - w * (rl - ru) * D| ≤
      2 * X + 2 * Y + |ρl| + |ρu| + |D| := by
  have k1 := abs_le.1 (weighted_le hbl.1 hbl.2 h1)
  have k2 := abs_le.1 (weighted_le hbu.1 hbu.2 h2)
  have k3 := abs_le.1 (weighted_le hrl.1 hrl.2 h3)
  have k4 := abs_le.1 (weighted_le hru.1 hru.2 h4)
  have k5 := abs_le.1 (weighted_le (mul_nonneg hrl.1 hbl.1) (mul_le_one₀ hrl.2 hbl.1 hbl.2) (le_refl |ρl|))
  have k6 := abs_le.1 (weighted_le (mul_nonneg hru.1 hbu.1) (mul_le_one₀ hru.2 hbu.1 hbu.2) (le_refl |ρu|))
  have e : |(rl - ru) * D| ≤ |D| := by
    rw [abs_mul]
    have : |rl - ru| ≤ 1 := abs_le.2 ⟨by linarith [hrl.1, hru.2], by linarith [hrl.2, hru.1]⟩
    have := abs_nonneg D
    nlinarith
  have k7 := abs_le.1 (weighted_le hw.1 hw.2 e)
  rw [abs_le]
  constructor <;> linarith [k1.1, k1.2, k2.1, k2.2, k3.1, k3.2, k4.1, k4.2, k5.1, k5.2, k6.1, k6.2, k7.1, k7.2]

/-- a state a step can start from -/
structure Ready (periodic : Bool) (S : States (m + 2) (n + 2) K) (l u : Arr (m + 2) (n + 2) K) : Prop where
  lower : ∀ i j, 0 ≤ l i j ∧ l i j ≤ S.s_lower i j
  upper : ∀ i j, 0 ≤ u i j ∧ u i j ≤ S.s_upper i j
  boundary : ∀ i j, isBoundary periodic i j → l i j = 0 ∧ u i j = 0

theorem fraction_range {t s : K} (hs : 0 < s) (h : 0 ≤ t ∧ t ≤ s) : 0 ≤ fraction t s ∧ fraction t s ≤ 1 :=
  ⟨fraction_nonneg h.1 hs.le, fraction_le_one _ _⟩

theorem dual_step (of : FwdOutput (m + 2) (n + 2) K) (ob : BwdOutput (m + 2) (n + 2) K) (h0 : Wet S0) (h1 : Wet S1)
    (ha : ∀ i, 0 < a i) (hdt : 0 ≤ dt) (hk : 0 ≤ kvf) (he : ∀ i j, 0 ≤ F.evap i j) (hp : ∀ i j, 0 ≤ F.precip i j)
    (hA : ∀ i j, 0 ≤ A i j ∧ A i j ≤ 1) (hB : ∀ i j, 0 ≤ B i j ∧ B i j ≤ 1)
    (hM : Moderate periodic dt kvf a F fz S0 S1)
    (hf : Ready periodic S0 of.s_track_lower of.s_track_upper)
    (hb : Ready periodic S1 ob.s_track_lower ob.s_track_upper) :
    let f' := forwardtrack periodic dt kvf a F fz S1 S0 A of
    let b' := backtrack periodic dt kvf a F fz S1 S0 B ob
    |pairing a S1 f'.s_track_lower f'.s_track_upper ob.s_track_lower ob.s_track_upper -
      pairing a S0 of.s_track_lower of.s_track_upper b'.s_track_lower b'.s_track_upper -
      (amountOver a A (fun i j => b'.e_track i j - ob.e_track i j) -
       amountOver a B (fun i j => f'.p_track_lower i j - of.p_track_lower i j +
         (f'.p_track_upper i j - of.p_track_upper i j)))| ≤ 5 * misfit periodic dt a F fz S0 S1 := by
  intro f' b'
  have main := transport_dual periodic dt kvf a F fz S0 S1 A B of ob h0 h1 ha (fun i j => (hf.lower i j).2)
    (fun i j => (hf.upper i j).2) (fun i j => (hb.lower i j).2) (fun i j => (hb.upper i j).2)
  simp only at main
  let rl := fun i j => fraction (of.s_track_lower i j) (S0.s_lower i j)
  let ru := fun i j => fraction (of.s_track_upper i j) (S0.s_upper i j)
  let bl := fun i j => fraction (ob.s_track_lower i j) (S1.s_lower i j)
  let bu := fun i j => fraction (ob.s_track_upper i j) (S1.s_upper i j)
  let t := fwdTransport periodic dt kvf a F fz S0 A of.s_track_lower of.s_track_upper
  let t' := bwdTransport periodic dt kvf a F fz S1 B ob.s_track_lower ob.s_track_upper
  let ρl := fun i j => imbalanceLower periodic dt a F fz S0 S1 i j
  let ρu := fun i j => imbalanceUpper periodic dt a F fz S0 S1 i j
  let D := fun i j => dt * (share (F.precip i j) (S1.s_lower i j) (S1.s_upper i j) -
    share (F.precip i j) (S0.s_lower i j) (S0.s_upper i j))
  let err : Arr (m + 2) (n + 2) K := fun i j =>
    bl i j * (f'.s_track_lower i j - t.1 i j) + bu i j * (f'.s_track_upper i j - t.2 i j) -
    rl i j * (b'.s_track_lower i j - t'.1 i j) - ru i j * (b'.s_track_upper i j - t'.2 i j) +
    rl i j * bl i j * ρl i j + ru i j * bu i j * ρu i j - B i j * (rl i j - ru i j) * D i j
  have split : ∀ i j, share (F.precip i j) (S0.s_upper i j) (S0.s_lower i j) =
      F.precip i j - share (F.precip i j) (S0.s_lower i j) (S0.s_upper i j) := fun i j => by
    have := (share_split (F.precip i j) _ _ (hp i j) (h0 i j).1 (h0 i j).2).2.2.1; linarith
  have split' : ∀ i j, share (F.precip i j) (S1.s_upper i j) (S1.s_lower i j) =
      F.precip i j - share (F.precip i j) (S1.s_lower i j) (S1.s_upper i j) := fun i j => by
    have := (share_split (F.precip i j) _ _ (hp i j) (h1 i j).1 (h1 i j).2).2.2.1; linarith
  have shm : ∀ i j (s s' : K), share (B i j * F.precip i j) s s' = B i j * share (F.precip i j) s s' := by
    intro i j s s'; unfold share; ring
  have total : pairing a S1 f'.s_track_lower f'.s_track_upper ob.s_track_lower ob.s_track_upper -
      pairing a S0 of.s_track_lower of.s_track_upper b'.s_track_lower b'.s_track_upper -
      (amountOver a A (fun i j => b'.e_track i j - ob.e_track i j) -
       amountOver a B (fun i j => f'.p_track_lower i j - of.p_track_lower i j +
         (f'.p_track_upper i j - of.p_track_upper i j))) = ∑ i, ∑ j, a i * err i j := by
    rw [← sub_eq_zero, ← sub_eq_zero.2 main]
    unfold pairing amountOver
    simp only [← Finset.sum_sub_distrib]
    refine Finset.sum_congr rfl fun i _ => Finset.sum_congr rfl fun j _ => ?_
    obtain ⟨-, q1, q2⟩ := C17_increments_forward periodic dt kvf a F fz S0 S1 A of h0 i j
    have q3 := (C17_increments_backward periodic dt kvf a F fz S0 S1 B ob h1 i j).2
    simp only [f', b']
    rw [q1, q2, q3]
    have kl : fraction (of.s_track_lower i j) (S0.s_lower i j) = of.s_track_lower i j / S0.s_lower i j :=
      fraction_inside (h0 i j).2 (hf.lower i j).2
    have ku : fraction (of.s_track_upper i j) (S0.s_upper i j) = of.s_track_upper i j / S0.s_upper i j :=
      fraction_inside (h0 i j).1 (hf.upper i j).2
    have ml : fraction (ob.s_track_lower i j) (S1.s_lower i j) = ob.s_track_lower i j / S1.s_lower i j :=
      fraction_inside (h1 i j).2 (hb.lower i j).2
    have mu : fraction (ob.s_track_upper i j) (S1.s_upper i j) = ob.s_track_upper i j / S1.s_upper i j :=
      fraction_inside (h1 i j).1 (hb.upper i j).2
    simp only [err, rl, ru, bl, bu, t, t', ρl, ρu, D, f', b', shm, split, split', kl, ku, ml, mu]
    ring
  rw [total]
  refine (Finset.abs_sum_le_sum_abs _ _).trans ?_
  unfold misfit
  rw [Finset.mul_sum]
  refine Finset.sum_le_sum fun i _ => (Finset.abs_sum_le_sum_abs _ _).trans ?_
  rw [Finset.mul_sum]
  refine Finset.sum_le_sum fun j _ => ?_
  rw [abs_mul, abs_of_pos (ha i)]
  by_cases hbd : isBoundary periodic i j
  · rw [if_pos hbd, mul_zero]
    obtain ⟨z1, z2⟩ := hf.boundary i j hbd
    obtain ⟨z3, z4⟩ := hb.boundary i j hbd
    have e1 : rl i j = 0 := by simp [rl, z1, fraction]
    have e2 : ru i j = 0 := by simp [ru, z2, fraction]
    have e3 : bl i j = 0 := by simp [bl, z3, fraction]
    have e4 : bu i j = 0 := by simp [bu, z4, fraction]
    have : err i j = 0 := by simp only [err, e1, e2, e3, e4]; ring
    rw [this]; simp
  · rw [if_neg hbd]
    have nb : getBoundary periodic i j = false := by
      rw [← getBoundary_iff] at hbd; simpa using hbd
    obtain ⟨⟨u1, u2⟩, u3, u4⟩ := fwd_transport_bounds periodic dt kvf a F fz S0 S1 A of h0 ha hdt hk he hA hf.lower
      hf.upper h1 hM i j
    obtain ⟨⟨v1, v2⟩, v3, v4⟩ := bwd_transport_bounds periodic dt kvf a F fz S0 S1 B ob h1 ha hdt hk hp hB hb.lower
      hb.upper h0 hM i j
    have nf := settle_near (t.1 i j) (t.2 i j) (S1.s_lower i j) (S1.s_upper i j) |ρl i j| |ρu i j| u1 u3 (h1 i j).2.le
      (h1 i j).1.le (abs_nonneg _) (abs_nonneg _) (u2.trans (by gcongr; exact le_abs_self _))
      (u4.trans (by gcongr; exact le_abs_self _))
    have D' : dt * (share (F.precip i j) (S1.s_upper i j) (S1.s_lower i j) -
        share (F.precip i j) (S0.s_upper i j) (S0.s_lower i j)) = - D i j := by
      simp only [D, split, split']; ring
    have ng := settle_near (t'.1 i j) (t'.2 i j) (S0.s_lower i j) (S0.s_upper i j) (|ρl i j| + |D i j|)
      (|ρu i j| + |D i j|) v1 v3 (h0 i j).2.le (h0 i j).1.le (by positivity) (by positivity)
      (v2.trans (by
        have := neg_abs_le (ρl i j)
        have := le_abs_self (D i j)
        simp only [ρl, D] at *; linarith))
      (v4.trans (by
        rw [D']
        have := neg_abs_le (ρu i j)
        have := neg_abs_le (D i j)
        simp only [ρu] at *; linarith))
    have g1 : f'.s_track_lower i j = (settle false (t.1 i j) (t.2 i j) (S1.s_lower i j) (S1.s_upper i j)).lower := by
      simp only [f', forwardtrack, nb]; rfl
    have g2 : f'.s_track_upper i j = (settle false (t.1 i j) (t.2 i j) (S1.s_lower i j) (S1.s_upper i j)).upper := by
      simp only [f', forwardtrack, nb]; rfl
    have g3 : b'.s_track_lower i j = (settle false (t'.1 i j) (t'.2 i j) (S0.s_lower i j) (S0.s_upper i j)).lower := by
      simp only [b', backtrack, nb]; rfl
    have g4 : b'.s_track_upper i j = (settle false (t'.1 i j) (t'.2 i j) (S0.s_lower i j) (S0.s_upper i j)).upper := by
      simp only [b', backtrack, nb]; rfl
    rw [← g1, ← g2] at nf
    rw [← g3, ← g4] at ng
    have := cell_bound (bl := bl i j) (bu := bu i j) (rl := rl i j) (ru := ru i j) (w := B i j) (ρl := ρl i j)
      (ρu := ρu i j) (D := D i j) (fraction_range (h1 i j).2 (hb.lower i j)) (fraction_range (h1 i j).1 (hb.upper i j))
      (fraction_range (h0 i j).2 (hf.lower i j)) (fraction_range (h0 i j).1 (hf.upper i j)) (hB i j) nf.1 nf.2 ng.1 ng.2
    have dr : shareDrift dt F S0 S1 i j = |D i j| := by
      simp only [D]; rw [abs_mul, abs_of_nonneg hdt]; rfl
    calc a i * |err i j| ≤ a i * (2 * (|ρl i j| + |ρu i j|) + 2 * (|ρl i j| + |D i j| + (|ρu i j| + |D i j|)) +
          |ρl i j| + |ρu i j| + |D i j|) := mul_le_mul_of_nonneg_left this (ha i).le
      _ = 5 * (a i * (|ρl i j| + |ρu i j| + |D i j|)) := by ring
      _ = _ := by rw [dr]

end

end Wam
