import Verif.Spec.Contract
import Verif.Props.Superposition

/-!
# C90: differences between two runs do not grow

One step, seen as a map of tracked storages, tracked precipitation (evaporation) and losses, is monotone
(C77) and conserves the total (C16).  Hence it does not expand distances (an argument of Crandall and
Tartar): compare both states with their maximum.
-/
set_option linter.unusedSectionVars false
set_option linter.unusedVariables false

namespace Wam
open Spec
variable {K : Type*} [Field K] [LinearOrder K] [IsStrictOrderedRing K] {m n : ℕ} {P : Type*}

/-! ### totals -/

theorem total_add (a : Fin (m + 2) → K) (f g : Arr (m + 2) (n + 2) K) :
    total a (fun i j => f i j + g i j) = total a f + total a g := by
  simp only [total, mul_add, Finset.sum_add_distrib]

theorem total_sub (a : Fin (m + 2) → K) (f g : Arr (m + 2) (n + 2) K) :
    total a (fun i j => f i j - g i j) = total a f - total a g := by
  simp only [total, mul_sub, Finset.sum_sub_distrib]

theorem total_le (a : Fin (m + 2) → K) (ha : ∀ i, 0 < a i) {f g : Arr (m + 2) (n + 2) K}
    (h : ∀ i j, f i j ≤ g i j) : total a f ≤ total a g :=
  Finset.sum_le_sum fun i _ => Finset.sum_le_sum fun j _ => mul_le_mul_of_nonneg_left (h i j) (ha i).le

theorem total_congr (a : Fin (m + 2) → K) {f g : Arr (m + 2) (n + 2) K}
    (h : ∀ i j, f i j = g i j) : total a f = total a g := by
  rw [show f = g from funext fun i => funext fun j => h i j]

theorem total_nonneg (a : Fin (m + 2) → K) (ha : ∀ i, 0 < a i) {f : Arr (m + 2) (n + 2) K}
    (h : ∀ i j, 0 ≤ f i j) : 0 ≤ total a f :=
  Finset.sum_nonneg fun i _ => Finset.sum_nonneg fun j _ => mul_nonneg (ha i).le (h i j)

theorem gap_nonneg (a : Fin (m + 2) → K) (ha : ∀ i, 0 < a i) (f g : Arr (m + 2) (n + 2) K) :
    0 ≤ gap a f g := total_nonneg a ha fun _ _ => abs_nonneg _

/-- the distance of two fields below a third -/
theorem gap_le_of_le (a : Fin (m + 2) → K) (ha : ∀ i, 0 < a i) {f f' g : Arr (m + 2) (n + 2) K}
    (h : ∀ i j, f i j ≤ g i j) (h' : ∀ i j, f' i j ≤ g i j) :
    gap a f f' ≤ 2 * total a g - total a f - total a f' := by
  have : gap a f f' ≤ total a fun i j => (g i j - f i j) + (g i j - f' i j) := by
    refine total_le a ha fun i j => abs_le.2 ⟨?_, ?_⟩ <;> have := h i j <;> have := h' i j <;> linarith
  rw [total_add, total_sub, total_sub] at this
  linarith

/-- the distance of two fields and their maximum -/
theorem gap_eq_max (a : Fin (m + 2) → K) (f f' : Arr (m + 2) (n + 2) K) :
    gap a f f' = 2 * total a (fun i j => max (f i j) (f' i j)) - total a f - total a f' := by
  have : gap a f f' = total a fun i j =>
      (max (f i j) (f' i j) - f i j) + (max (f i j) (f' i j) - f' i j) := by
    refine total_congr a fun i j => ?_
    rcases le_total (f i j) (f' i j) with h | h
    · rw [max_eq_right h, abs_of_nonpos (by linarith)]; ring
    · rw [max_eq_left h, abs_of_nonneg (by linarith)]; ring
  rw [this, total_add, total_sub, total_sub]
  ring

theorem gap_self_zero (a : Fin (m + 2) → K) (f : Arr (m + 2) (n + 2) K) : gap a f f = 0 := by
  simp [gap, total]

/-! ### one step -/

section step
variable (periodic : Bool) (dt kvf : K) (a : Fin (m + 2) → K) (F : Fluxes (m + 2) (n + 2) K)
  (fz : Arr (m + 2) (n + 2) K) (S0 S1 : States (m + 2) (n + 2) K)

/-- total of the tracked water, wherever it is -/
private def fwdAll (o : FwdOutput (m + 2) (n + 2) K) : K :=
  total a o.s_track_lower + total a o.s_track_upper + total a o.p_track_lower +
    total a o.p_track_upper + total a o.losses

private def bwdAll (o : BwdOutput (m + 2) (n + 2) K) : K :=
  total a o.s_track_lower + total a o.s_track_upper + total a o.e_track + total a o.losses

private theorem fwdAll_step (mask : Arr (m + 2) (n + 2) K) (o : FwdOutput (m + 2) (n + 2) K)
    (h0 : Wet S0) (h1 : Wet S1) (ha : ∀ i, 0 < a i) (hdt : 0 ≤ dt) (hk : 0 ≤ kvf)
    (hl : ∀ i j, 0 ≤ o.s_track_lower i j) (hu : ∀ i j, 0 ≤ o.s_track_upper i j)
    (hm : ∀ i j, 0 ≤ mask i j * F.evap i j) (calm : NoOverdrawFwd periodic dt kvf a F fz S0) :
    fwdAll a (forwardtrack periodic dt kvf a F fz S1 S0 mask o) =
      fwdAll a o + total a fun i j => dt * (mask i j * F.evap i j) := by
  have b := C16_global_budget_forward periodic dt kvf a F fz S0 S1 mask o h0 ha
  have g : (forwardtrack periodic dt kvf a F fz S1 S0 mask o).gains = o.gains := by
    funext i j
    exact (C22_no_gains_forward periodic dt kvf a F fz S0 S1 mask o h0 h1 ha hdt hk hl hu hm i j
      (calm.lower i j) (calm.upper i j)).2.2.1
  have t : total a (forwardtrack periodic dt kvf a F fz S1 S0 mask o).tagged_evap =
      total a o.tagged_evap + total a fun i j => dt * (mask i j * F.evap i j) := by
    rw [← total_add]
    exact total_congr a fun i j =>
      (C17_increments_forward periodic dt kvf a F fz S0 S1 mask o h0 i j).1
  simp only [g] at b
  unfold total at t
  unfold fwdAll total
  linarith

private theorem bwdAll_step (mask : Arr (m + 2) (n + 2) K) (o : BwdOutput (m + 2) (n + 2) K)
    (h0 : Wet S0) (h1 : Wet S1) (ha : ∀ i, 0 < a i) (hdt : 0 ≤ dt) (hk : 0 ≤ kvf)
    (hl : ∀ i j, 0 ≤ o.s_track_lower i j) (hu : ∀ i j, 0 ≤ o.s_track_upper i j)
    (hm : ∀ i j, 0 ≤ mask i j * F.precip i j) (calm : NoOverdrawBwd periodic dt kvf a F fz S1) :
    bwdAll a (backtrack periodic dt kvf a F fz S1 S0 mask o) =
      bwdAll a o + total a fun i j => dt * (mask i j * F.precip i j) := by
  have b := C16_global_budget_backward periodic dt kvf a F fz S0 S1 mask o h1 ha
  have g : (backtrack periodic dt kvf a F fz S1 S0 mask o).gains = o.gains := by
    funext i j
    exact (C22_no_gains_backward periodic dt kvf a F fz S0 S1 mask o h0 h1 ha hdt hk hl hu hm i j
      (calm.lower i j) (calm.upper i j)).2.2.1
  have t : total a (backtrack periodic dt kvf a F fz S1 S0 mask o).tagged_precip =
      total a o.tagged_precip + total a fun i j => dt * (mask i j * F.precip i j) := by
    rw [← total_add]
    exact total_congr a fun i j =>
      (C17_increments_backward periodic dt kvf a F fz S0 S1 mask o h1 i j).1
  simp only [g] at b
  unfold total at t
  unfold bwdAll total
  linarith

/-- **C90** (forward step): two states with different tracked water (and masks) differ after the step by at
most the water by which they differed before, plus the water that is tagged differently.  Differences in
the storages, the tracked precipitation and the losses are all counted. -/
theorem C90_step_forward (mask mask' : Arr (m + 2) (n + 2) K) (o o' : FwdOutput (m + 2) (n + 2) K)
    (h0 : Wet S0) (h1 : Wet S1) (ha : ∀ i, 0 < a i) (hdt : 0 ≤ dt) (hk : 0 ≤ kvf)
    (hp : ∀ i j, 0 ≤ F.precip i j) (he : ∀ i j, 0 ≤ F.evap i j)
    (hm : ∀ i j, 0 ≤ mask i j) (hm' : ∀ i j, 0 ≤ mask' i j)
    (ho : ∀ i j, 0 ≤ o.s_track_lower i j ∧ 0 ≤ o.s_track_upper i j)
    (ho' : ∀ i j, 0 ≤ o'.s_track_lower i j ∧ 0 ≤ o'.s_track_upper i j)
    (calm : NoOverdrawFwd periodic dt kvf a F fz S0) :
    let x := forwardtrack periodic dt kvf a F fz S1 S0 mask o
    let x' := forwardtrack periodic dt kvf a F fz S1 S0 mask' o'
    fwdStorageGap a x x' + fwdFateGap a x x' ≤ fwdStorageGap a o o' + fwdFateGap a o o' +
      total a fun i j => dt * (|mask i j - mask' i j| * F.evap i j) := by
  intro x x'
  let top : FwdOutput (m + 2) (n + 2) K :=
    { s_track_lower := fun i j => max (o.s_track_lower i j) (o'.s_track_lower i j)
      s_track_upper := fun i j => max (o.s_track_upper i j) (o'.s_track_upper i j)
      p_track_lower := fun i j => max (o.p_track_lower i j) (o'.p_track_lower i j)
      p_track_upper := fun i j => max (o.p_track_upper i j) (o'.p_track_upper i j)
      tagged_evap := fun i j => max (o.tagged_evap i j) (o'.tagged_evap i j)
      losses := fun i j => max (o.losses i j) (o'.losses i j)
      gains := o.gains }
  let M : Arr (m + 2) (n + 2) K := fun i j => max (mask i j) (mask' i j)
  let X := forwardtrack periodic dt kvf a F fz S1 S0 M top
  have t1 : FwdLE o top := ⟨fun _ _ => le_max_left _ _, fun _ _ => le_max_left _ _,
    fun _ _ => le_max_left _ _, fun _ _ => le_max_left _ _, fun _ _ => le_max_left _ _,
    fun _ _ => le_max_left _ _⟩
  have t2 : FwdLE o' top := ⟨fun _ _ => le_max_right _ _, fun _ _ => le_max_right _ _,
    fun _ _ => le_max_right _ _, fun _ _ => le_max_right _ _, fun _ _ => le_max_right _ _,
    fun _ _ => le_max_right _ _⟩
  have l1 : FwdLE x X := C77_step_forward periodic dt kvf a F fz S0 S1 mask M o top h0 h1 ha hdt hk hp
    calm (fun i j => mul_le_mul_of_nonneg_right (le_max_left _ _) (he i j)) t1
  have l2 : FwdLE x' X := C77_step_forward periodic dt kvf a F fz S0 S1 mask' M o' top h0 h1 ha hdt hk
    hp calm (fun i j => mul_le_mul_of_nonneg_right (le_max_right _ _) (he i j)) t2
  have e1 := fwdAll_step periodic dt kvf a F fz S0 S1 mask o h0 h1 ha hdt hk (fun i j => (ho i j).1)
    (fun i j => (ho i j).2) (fun i j => mul_nonneg (hm i j) (he i j)) calm
  have e2 := fwdAll_step periodic dt kvf a F fz S0 S1 mask' o' h0 h1 ha hdt hk
    (fun i j => (ho' i j).1) (fun i j => (ho' i j).2)
    (fun i j => mul_nonneg (hm' i j) (he i j)) calm
  have e3 := fwdAll_step periodic dt kvf a F fz S0 S1 M top h0 h1 ha hdt hk
    (fun i j => (ho i j).1.trans (le_max_left _ _)) (fun i j => (ho i j).2.trans (le_max_left _ _))
    (fun i j => mul_nonneg ((hm i j).trans (le_max_left _ _)) (he i j)) calm
  have tag : (total a fun i j => dt * (|mask i j - mask' i j| * F.evap i j)) =
      2 * (total a fun i j => dt * (M i j * F.evap i j)) -
        (total a fun i j => dt * (mask i j * F.evap i j)) -
        total a fun i j => dt * (mask' i j * F.evap i j) := by
    have : (total a fun i j => dt * (|mask i j - mask' i j| * F.evap i j)) = total a fun i j =>
        (dt * (M i j * F.evap i j) - dt * (mask i j * F.evap i j)) +
        (dt * (M i j * F.evap i j) - dt * (mask' i j * F.evap i j)) := by
      refine total_congr a fun i j => ?_
      simp only [M]
      rcases le_total (mask i j) (mask' i j) with h | h
      · rw [max_eq_right h, abs_of_nonpos (by linarith)]; ring
      · rw [max_eq_left h, abs_of_nonneg (by linarith)]; ring
    rw [this, total_add, total_sub, total_sub]
    ring
  have g1 := gap_le_of_le a ha l1.s_track_lower l2.s_track_lower
  have g2 := gap_le_of_le a ha l1.s_track_upper l2.s_track_upper
  have g3 := gap_le_of_le a ha l1.p_track_lower l2.p_track_lower
  have g4 := gap_le_of_le a ha l1.p_track_upper l2.p_track_upper
  have g5 := gap_le_of_le a ha l1.losses l2.losses
  have f1 := gap_eq_max a o.s_track_lower o'.s_track_lower
  have f2 := gap_eq_max a o.s_track_upper o'.s_track_upper
  have f3 := gap_eq_max a o.p_track_lower o'.p_track_lower
  have f4 := gap_eq_max a o.p_track_upper o'.p_track_upper
  have f5 := gap_eq_max a o.losses o'.losses
  unfold fwdAll at e1 e2 e3
  simp only [fwdStorageGap, fwdFateGap]
  simp only [top] at e3
  simp only [x, x', X] at *
  linarith

/-- **C90** (backward step) -/
theorem C90_step_backward (mask mask' : Arr (m + 2) (n + 2) K) (o o' : BwdOutput (m + 2) (n + 2) K)
    (h0 : Wet S0) (h1 : Wet S1) (ha : ∀ i, 0 < a i) (hdt : 0 ≤ dt) (hk : 0 ≤ kvf)
    (hp : ∀ i j, 0 ≤ F.precip i j) (he : ∀ i j, 0 ≤ F.evap i j)
    (hm : ∀ i j, 0 ≤ mask i j) (hm' : ∀ i j, 0 ≤ mask' i j)
    (ho : ∀ i j, 0 ≤ o.s_track_lower i j ∧ 0 ≤ o.s_track_upper i j)
    (ho' : ∀ i j, 0 ≤ o'.s_track_lower i j ∧ 0 ≤ o'.s_track_upper i j)
    (calm : NoOverdrawBwd periodic dt kvf a F fz S1) :
    let x := backtrack periodic dt kvf a F fz S1 S0 mask o
    let x' := backtrack periodic dt kvf a F fz S1 S0 mask' o'
    bwdStorageGap a x x' + bwdFateGap a x x' ≤ bwdStorageGap a o o' + bwdFateGap a o o' +
      total a fun i j => dt * (|mask i j - mask' i j| * F.precip i j) := by
  intro x x'
  let top : BwdOutput (m + 2) (n + 2) K :=
    { s_track_lower := fun i j => max (o.s_track_lower i j) (o'.s_track_lower i j)
      s_track_upper := fun i j => max (o.s_track_upper i j) (o'.s_track_upper i j)
      e_track := fun i j => max (o.e_track i j) (o'.e_track i j)
      tagged_precip := fun i j => max (o.tagged_precip i j) (o'.tagged_precip i j)
      losses := fun i j => max (o.losses i j) (o'.losses i j)
      gains := o.gains }
  let M : Arr (m + 2) (n + 2) K := fun i j => max (mask i j) (mask' i j)
  let X := backtrack periodic dt kvf a F fz S1 S0 M top
  have t1 : BwdLE o top := ⟨fun _ _ => le_max_left _ _, fun _ _ => le_max_left _ _,
    fun _ _ => le_max_left _ _, fun _ _ => le_max_left _ _, fun _ _ => le_max_left _ _⟩
  have t2 : BwdLE o' top := ⟨fun _ _ => le_max_right _ _, fun _ _ => le_max_right _ _,
    fun _ _ => le_max_right _ _, fun _ _ => le_max_right _ _, fun _ _ => le_max_right _ _⟩
  have l1 : BwdLE x X := C77_step_backward periodic dt kvf a F fz S0 S1 mask M o top h0 h1 ha hdt hk he
    calm (fun i j => mul_le_mul_of_nonneg_right (le_max_left _ _) (hp i j)) t1
  have l2 : BwdLE x' X := C77_step_backward periodic dt kvf a F fz S0 S1 mask' M o' top h0 h1 ha hdt
    hk he calm (fun i j => mul_le_mul_of_nonneg_right (le_max_right _ _) (hp i j)) t2
  have e1 := bwdAll_step periodic dt kvf a F fz S0 S1 mask o h0 h1 ha hdt hk (fun i j => (ho i j).1)
    (fun i j => (ho i j).2) (fun i j => mul_nonneg (hm i j) (hp i j)) calm
  have e2 := bwdAll_step periodic dt kvf a F fz S0 S1 mask' o' h0 h1 ha hdt hk
    (fun i j => (ho' i j).1) (fun i j => (ho' i j).2)
    (fun i j => mul_nonneg (hm' i j) (hp i j)) calm
  have e3 := bwdAll_step periodic dt kvf a F fz S0 S1 M top h0 h1 ha hdt hk
    (fun i j => (ho i j).1.trans (le_max_left _ _)) (fun i j => (ho i j).2.trans (le_max_left _ _))
    (fun i j => mul_nonneg ((hm i j).trans (le_max_left _ _)) (hp i j)) calm
  have tag : (total a fun i j => dt * (|mask i j - mask' i j| * F.precip i j)) =
      2 * (total a fun i j => dt * (M i j * F.precip i j)) -
        (total a fun i j => dt * (mask i j * F.precip i j)) -
        total a fun i j => dt * (mask' i j * F.precip i j) := by
    have : (total a fun i j => dt * (|mask i j - mask' i j| * F.precip i j)) = total a fun i j =>
        (dt * (M i j * F.precip i j) - dt * (mask i j * F.precip i j)) +
        (dt * (M i j * F.precip i j) - dt * (mask' i j * F.precip i j)) := by
      refine total_congr a fun i j => ?_
      simp only [M]
      rcases le_total (mask i j) (mask' i j) with h | h
      · rw [max_eq_right h, abs_of_nonpos (by linarith)]; ring
      · rw [max_eq_left h, abs_of_nonneg (by linarith)]; ring
    rw [this, total_add, total_sub, total_sub]
    ring
  have g1 := gap_le_of_le a ha l1.s_track_lower l2.s_track_lower
  have g2 := gap_le_of_le a ha l1.s_track_upper l2.s_track_upper
  have g3 := gap_le_of_le a ha l1.e_track l2.e_track
  have g5 := gap_le_of_le a ha l1.losses l2.losses
  have f1 := gap_eq_max a o.s_track_lower o'.s_track_lower
  have f2 := gap_eq_max a o.s_track_upper o'.s_track_upper
  have f3 := gap_eq_max a o.e_track o'.e_track
  have f5 := gap_eq_max a o.losses o'.losses
  unfold bwdAll at e1 e2 e3
  simp only [bwdStorageGap, bwdFateGap]
  simp only [top] at e3
  simp only [x, x', X] at *
  linarith

end step

/-! ### runs -/

/-- distances of two processes, step by step -/
theorem Proc.gap_files {ω : Type*} {p q : Proc ω} (o o' : ω) (G B : ω → ω → K) (N : ℕ) (δ : ℕ → K)
    (hw : ∀ k, p.write k = q.write k) (hfG : ∀ x y, G (p.flush x) (q.flush y) = G x y)
    (hfB : ∀ x y, B (p.flush x) (q.flush y) = 0)
    (hs : ∀ k < N, G (p.full o k) (q.full o' k) + B (p.full o k) (q.full o' k) ≤
      G (p.out o k) (q.out o' k) + B (p.out o k) (q.out o' k) + δ k) :
    ∀ k ≤ N, (p.files o k).length = (q.files o' k).length ∧
      G (p.out o k) (q.out o' k) + B (p.out o k) (q.out o' k) +
        sumPairs (p.files o k) (q.files o' k) B ≤
      G o o' + B o o' + ∑ j ∈ Finset.range k, δ j := by
  intro k hk
  induction k with
  | zero => simp [Proc.out, Proc.files, sumPairs]
  | succ k ih =>
    obtain ⟨hl, ih⟩ := ih (by omega)
    have h := hs k (by omega)
    rw [Finset.sum_range_succ]
    simp only [Proc.out, Proc.files, ← hw]
    cases hwk : p.write (k + 1) with
    | false =>
      simp only [Bool.false_eq_true, if_false, List.append_nil]
      refine ⟨hl, ?_⟩
      simp only [Proc.full] at h
      linarith
    | true =>
      simp only [if_true]
      refine ⟨by simp [hl], ?_⟩
      have hz : sumPairs (p.files o k ++ [(p.time (k + 1), p.full o k)])
          (q.files o' k ++ [(q.time (k + 1), q.full o' k)]) B =
          sumPairs (p.files o k) (q.files o' k) B + B (p.full o k) (q.full o' k) := by
        unfold sumPairs
        rw [List.zip_append hl]
        simp
      rw [hz, hfG, hfB]
      simp only [Proc.full] at h ⊢
      linarith

section run
variable (cfg : RunConfig K) (src src' : Source m n K) (inp inp' : Input m n K) (path path' : ℤ → P)

/-- one step of two forward runs -/
theorem fwd_gap_step (h : Runnable cfg src inp) (hw : SameWeather inp inp')
    (hp : Physical inp cfg.tracking_start_date cfg.tracking_end_date)
    (hp' : Physical inp' cfg.tracking_start_date cfg.tracking_end_date)
    (ha : ∀ i, 0 < src.grid.a i) (hk : 0 ≤ cfg.kvf) (calm : CalmFwd cfg src.grid inp)
    (k : ℕ) (hk' : k < cfg.steps) (x y : FwdOutput (m + 2) (n + 2) K)
    (hx : ∀ i j, 0 ≤ x.s_track_lower i j ∧ 0 ≤ x.s_track_upper i j)
    (hy : ∀ i j, 0 ≤ y.s_track_lower i j ∧ 0 ≤ y.s_track_upper i j) :
    fwdStorageGap src.grid.a (fwdStepAt cfg src.grid inp (cfg.fwdTime k) x)
        (fwdStepAt cfg src.grid inp' (cfg.fwdTime k) y) +
      fwdFateGap src.grid.a (fwdStepAt cfg src.grid inp (cfg.fwdTime k) x)
        (fwdStepAt cfg src.grid inp' (cfg.fwdTime k) y) ≤
    fwdStorageGap src.grid.a x y + fwdFateGap src.grid.a x y +
      total src.grid.a fun i j => (cfg.timestep : K) *
        (|activeMask cfg inp (cfg.fwdTime k) i j - activeMask cfg inp' (cfg.fwdTime k) i j| *
          (inp.fluxes (cfg.fwdTime k + cfg.halfDt)).evap i j) := by
  have hpos := h.timestep_pos
  have hAB := h.ordered
  have t0 := cfg.fwdTime_mem hpos hAB k hk'.le
  have t1 := cfg.fwdTime_mem hpos hAB (k + 1) hk'
  have th := cfg.fwdHalf_mem hpos hAB k hk'
  have m0 : maskAt cfg inp (cfg.fwdTime k) = activeMask cfg inp (cfg.fwdTime k) := by
    unfold maskAt activeMask; split <;> simp [ofRat_zero]
  have m1 : maskAt cfg inp' (cfg.fwdTime k) = activeMask cfg inp' (cfg.fwdTime k) := by
    unfold maskAt activeMask; split <;> simp [ofRat_zero]
  have mp : ∀ i j, 0 ≤ maskAt cfg inp (cfg.fwdTime k) i j := by
    intro i j; unfold maskAt; split
    · exact hp.region _ t0.1 t0.2 i j
    · simp [ofRat_zero]
  have mp' : ∀ i j, 0 ≤ maskAt cfg inp' (cfg.fwdTime k) i j := by
    intro i j; unfold maskAt; split
    · exact hp'.region _ t0.1 t0.2 i j
    · simp [ofRat_zero]
  have w1 : Wet (inp.states (cfg.fwdTime k + cfg.dt)) := by
    rw [← cfg.fwdTime_succ]; exact hp.wet _ t1.1 t1.2
  have hdt : 0 ≤ (ofRat (cfg.timestep : ℚ) : K) := by rw [ofRat_int]; exact_mod_cast hpos.le
  have key := C90_step_forward cfg.periodic_boundary (ofRat cfg.timestep : K) cfg.kvf src.grid.a
    (stableFluxes cfg src.grid (inp.fluxes (cfg.fwdTime k + cfg.halfDt)) (inp.states (cfg.fwdTime k)))
    (calculateFz src.grid.a (stableFluxes cfg src.grid (inp.fluxes (cfg.fwdTime k + cfg.halfDt)) (inp.states (cfg.fwdTime k)))
      (inp.states (cfg.fwdTime k)) (inp.states (cfg.fwdTime k + cfg.dt)) (ofRat cfg.timestep) cfg.kvf)
    (inp.states (cfg.fwdTime k)) (inp.states (cfg.fwdTime k + cfg.dt))
    (maskAt cfg inp (cfg.fwdTime k)) (maskAt cfg inp' (cfg.fwdTime k)) x y (hp.wet _ t0.1 t0.2) w1 ha hdt hk
    (hp.precip _ th.1 th.2) (hp.evap _ th.1 th.2) mp mp' hx hy
    (fwd_calm_at cfg inp hpos src.grid calm k hk')
  have e : ∀ i j, (ofRat (cfg.timestep : ℚ) : K) *
      (|maskAt cfg inp (cfg.fwdTime k) i j - maskAt cfg inp' (cfg.fwdTime k) i j| *
          (inp.fluxes (cfg.fwdTime k + cfg.halfDt)).evap i j) = (cfg.timestep : K) *
        (|activeMask cfg inp (cfg.fwdTime k) i j - activeMask cfg inp' (cfg.fwdTime k) i j| *
          (inp.fluxes (cfg.fwdTime k + cfg.halfDt)).evap i j) := by
    intro i j; rw [m0, m1, ofRat_int]
  have sx : fwdStepAt cfg src.grid inp' (cfg.fwdTime k) y = forwardtrack cfg.periodic_boundary (ofRat cfg.timestep)
      cfg.kvf src.grid.a (stableFluxes cfg src.grid (inp.fluxes (cfg.fwdTime k + cfg.halfDt)) (inp.states (cfg.fwdTime k)))
      (calculateFz src.grid.a (stableFluxes cfg src.grid (inp.fluxes (cfg.fwdTime k + cfg.halfDt)) (inp.states (cfg.fwdTime k)))
        (inp.states (cfg.fwdTime k)) (inp.states (cfg.fwdTime k + cfg.dt)) (ofRat cfg.timestep) cfg.kvf)
      (inp.states (cfg.fwdTime k + cfg.dt)) (inp.states (cfg.fwdTime k)) (maskAt cfg inp' (cfg.fwdTime k)) y := by
    simp only [fwdStepAt, hw.1, hw.2]
  rw [sx]
  calc _ ≤ _ := key
    _ = _ := by
      congr 1
      exact total_congr _ e

/-- one step of two backward runs -/
theorem bwd_gap_step (h : Runnable cfg src inp) (hw : SameWeather inp inp')
    (hp : Physical inp cfg.tracking_start_date cfg.tracking_end_date)
    (hp' : Physical inp' cfg.tracking_start_date cfg.tracking_end_date)
    (ha : ∀ i, 0 < src.grid.a i) (hk : 0 ≤ cfg.kvf) (calm : CalmBwd cfg src.grid inp)
    (k : ℕ) (hk' : k < cfg.steps) (x y : BwdOutput (m + 2) (n + 2) K)
    (hx : ∀ i j, 0 ≤ x.s_track_lower i j ∧ 0 ≤ x.s_track_upper i j)
    (hy : ∀ i j, 0 ≤ y.s_track_lower i j ∧ 0 ≤ y.s_track_upper i j) :
    bwdStorageGap src.grid.a (bwdStepAt cfg src.grid inp (cfg.bwdTime k) x)
        (bwdStepAt cfg src.grid inp' (cfg.bwdTime k) y) +
      bwdFateGap src.grid.a (bwdStepAt cfg src.grid inp (cfg.bwdTime k) x)
        (bwdStepAt cfg src.grid inp' (cfg.bwdTime k) y) ≤
    bwdStorageGap src.grid.a x y + bwdFateGap src.grid.a x y +
      total src.grid.a fun i j => (cfg.timestep : K) *
        (|activeMask cfg inp (cfg.bwdTime k) i j - activeMask cfg inp' (cfg.bwdTime k) i j| *
          (inp.fluxes (cfg.bwdTime k - cfg.halfDt)).precip i j) := by
  have hpos := h.timestep_pos
  have hAB := h.ordered
  have t0 := cfg.bwdTime_mem hpos hAB k hk'.le
  have t1 := cfg.bwdTime_mem hpos hAB (k + 1) hk'
  have th := cfg.bwdHalf_mem hpos hAB k hk'
  have m0 : maskAt cfg inp (cfg.bwdTime k) = activeMask cfg inp (cfg.bwdTime k) := by
    unfold maskAt activeMask; split <;> simp [ofRat_zero]
  have m1 : maskAt cfg inp' (cfg.bwdTime k) = activeMask cfg inp' (cfg.bwdTime k) := by
    unfold maskAt activeMask; split <;> simp [ofRat_zero]
  have mp : ∀ i j, 0 ≤ maskAt cfg inp (cfg.bwdTime k) i j := by
    intro i j; unfold maskAt; split
    · exact hp.region _ t0.1 t0.2 i j
    · simp [ofRat_zero]
  have mp' : ∀ i j, 0 ≤ maskAt cfg inp' (cfg.bwdTime k) i j := by
    intro i j; unfold maskAt; split
    · exact hp'.region _ t0.1 t0.2 i j
    · simp [ofRat_zero]
  have w1 : Wet (inp.states (cfg.bwdTime k - cfg.dt)) := by
    rw [← cfg.bwdTime_succ]; exact hp.wet _ t1.1 t1.2
  have hdt : 0 ≤ (ofRat (cfg.timestep : ℚ) : K) := by rw [ofRat_int]; exact_mod_cast hpos.le
  have key := C90_step_backward cfg.periodic_boundary (ofRat cfg.timestep : K) cfg.kvf src.grid.a
    (stableFluxes cfg src.grid (inp.fluxes (cfg.bwdTime k - cfg.halfDt)) (inp.states (cfg.bwdTime k)))
    (calculateFz src.grid.a (stableFluxes cfg src.grid (inp.fluxes (cfg.bwdTime k - cfg.halfDt)) (inp.states (cfg.bwdTime k)))
      (inp.states (cfg.bwdTime k - cfg.dt)) (inp.states (cfg.bwdTime k)) (ofRat cfg.timestep) cfg.kvf)
    (inp.states (cfg.bwdTime k - cfg.dt)) (inp.states (cfg.bwdTime k))
    (maskAt cfg inp (cfg.bwdTime k)) (maskAt cfg inp' (cfg.bwdTime k)) x y w1 (hp.wet _ t0.1 t0.2) ha hdt hk
    (hp.precip _ th.1 th.2) (hp.evap _ th.1 th.2) mp mp' hx hy
    (bwd_calm_at cfg inp hpos src.grid calm k hk')
  have e : ∀ i j, (ofRat (cfg.timestep : ℚ) : K) *
      (|maskAt cfg inp (cfg.bwdTime k) i j - maskAt cfg inp' (cfg.bwdTime k) i j| *
          (inp.fluxes (cfg.bwdTime k - cfg.halfDt)).precip i j) = (cfg.timestep : K) *
        (|activeMask cfg inp (cfg.bwdTime k) i j - activeMask cfg inp' (cfg.bwdTime k) i j| *
          (inp.fluxes (cfg.bwdTime k - cfg.halfDt)).precip i j) := by
    intro i j; rw [m0, m1, ofRat_int]
  have sx : bwdStepAt cfg src.grid inp' (cfg.bwdTime k) y = backtrack cfg.periodic_boundary (ofRat cfg.timestep)
      cfg.kvf src.grid.a (stableFluxes cfg src.grid (inp.fluxes (cfg.bwdTime k - cfg.halfDt)) (inp.states (cfg.bwdTime k)))
      (calculateFz src.grid.a (stableFluxes cfg src.grid (inp.fluxes (cfg.bwdTime k - cfg.halfDt)) (inp.states (cfg.bwdTime k)))
        (inp.states (cfg.bwdTime k - cfg.dt)) (inp.states (cfg.bwdTime k)) (ofRat cfg.timestep) cfg.kvf)
      (inp.states (cfg.bwdTime k)) (inp.states (cfg.bwdTime k - cfg.dt)) (maskAt cfg inp' (cfg.bwdTime k)) y := by
    simp only [bwdStepAt, hw.1, hw.2]
  rw [sx]
  calc _ ≤ _ := key
    _ = _ := by
      congr 1
      exact total_congr _ e

/-- **C90** (forward run): two runs with the same weather that start with different tracked water (restart
files) or use different regions.  All the water by which they differ at the end (tracked storages) and in
all files together (tracked precipitation and losses) is at most the water by which they differed at the
start, plus the water that was tagged differently. -/
theorem C90_run_forward (disk disk' : P → Option (FwdOutput (m + 2) (n + 2) K))
    (h : Runnable cfg src inp) (h' : Runnable cfg src' inp') (hg : src'.grid = src.grid)
    (hw : SameWeather inp inp')
    (hp : Physical inp cfg.tracking_start_date cfg.tracking_end_date)
    (hp' : Physical inp' cfg.tracking_start_date cfg.tracking_end_date)
    (ha : ∀ i, 0 < src.grid.a i) (hk : 0 ≤ cfg.kvf) (calm : CalmFwd cfg src.grid inp)
    (hs0 : ∀ i j, 0 ≤ (startFwd cfg path disk).1 i j ∧ 0 ≤ (startFwd cfg path disk).2 i j)
    (hs0' : ∀ i j, 0 ≤ (startFwd cfg path' disk').1 i j ∧ 0 ≤ (startFwd cfg path' disk').2 i j)
    {s s'} (hs : EndsIn (fwdRun cfg src path disk) s)
    (hs' : EndsIn (fwdRun cfg src' path' disk') s') :
    s.files.length = s'.files.length ∧
    fwdStorageGap src.grid.a s.output s'.output +
        sumPairs s.files s'.files (fwdFateGap src.grid.a) ≤
      gap src.grid.a (startFwd cfg path disk).1 (startFwd cfg path' disk').1 +
      gap src.grid.a (startFwd cfg path disk).2 (startFwd cfg path' disk').2 +
      tagGapFwd cfg src.grid.a inp inp' := by
  obtain ⟨o, r, ho, rfl⟩ := fwd_ends cfg src inp path disk h hs
  obtain ⟨o', r', ho', rfl⟩ := fwd_ends cfg src' inp' path' disk' h' hs'
  have eo := fwd_init_eq cfg src path disk o ho
  have eo' := fwd_init_eq cfg src' path' disk' o' ho'
  have hpos := h.timestep_pos
  have hAB := h.ordered
  have n1 := fwd_out_nonneg cfg src inp h hp o (by rw [eo]; exact hs0)
  have n2 := fwd_out_nonneg cfg src' inp' h' hp' o' (by rw [eo']; exact hs0')
  rw [hg] at n2
  have key := Proc.gap_files (p := fwdProc cfg src.grid inp) (q := fwdProc cfg src.grid inp') o o'
    (fwdStorageGap src.grid.a) (fwdFateGap src.grid.a) cfg.steps
    (fun k => total src.grid.a fun i j => (cfg.timestep : K) *
      (|activeMask cfg inp (cfg.fwdTime k) i j - activeMask cfg inp' (cfg.fwdTime k) i j| *
        (inp.fluxes (cfg.fwdTime k + cfg.halfDt)).evap i j)) (fun _ => rfl) (fun _ _ => rfl)
    (fun x y => by
      simp [fwdFateGap, gap, total, FwdOutput.flush, fwdProc]) ?_ cfg.steps le_rfl
  · obtain ⟨k1, k2⟩ := key
    refine ⟨by simpa only [fwdStateAt, hg] using k1, ?_⟩
    have z : fwdFateGap src.grid.a o o' = 0 := by
      rw [eo, eo']
      simp [fwdFateGap, gap, total]
    have z' : 0 ≤ fwdFateGap src.grid.a ((fwdProc cfg src.grid inp).out o cfg.steps)
        ((fwdProc cfg src.grid inp').out o' cfg.steps) := by
      unfold fwdFateGap
      have := fun f g => gap_nonneg (m := m) (n := n) src.grid.a ha f g
      exact add_nonneg (add_nonneg (this _ _) (this _ _)) (this _ _)
    have z2 : fwdStorageGap src.grid.a o o' =
        gap src.grid.a (startFwd cfg path disk).1 (startFwd cfg path' disk').1 +
        gap src.grid.a (startFwd cfg path disk).2 (startFwd cfg path' disk').2 := by
      rw [eo, eo']
      rfl
    have z3 : tagGapFwd cfg src.grid.a inp inp' = ∑ j ∈ Finset.range cfg.steps,
        total src.grid.a fun i j' => (cfg.timestep : K) *
      (|activeMask cfg inp (cfg.fwdTime j) i j' - activeMask cfg inp' (cfg.fwdTime j) i j'| *
        (inp.fluxes (cfg.fwdTime j + cfg.halfDt)).evap i j') := rfl
    rw [z3]
    simp only [fwdStateAt, hg]
    rw [z, z2] at k2
    linarith
  · intro k hk'
    exact fwd_gap_step cfg src inp inp' h hw hp hp' ha hk calm k hk' _ _ (n1 k hk'.le) (n2 k hk'.le)

/-- **C90** (backward run) -/
theorem C90_run_backward (disk disk' : P → Option (BwdOutput (m + 2) (n + 2) K))
    (h : Runnable cfg src inp) (h' : Runnable cfg src' inp') (hg : src'.grid = src.grid)
    (hw : SameWeather inp inp')
    (hp : Physical inp cfg.tracking_start_date cfg.tracking_end_date)
    (hp' : Physical inp' cfg.tracking_start_date cfg.tracking_end_date)
    (ha : ∀ i, 0 < src.grid.a i) (hk : 0 ≤ cfg.kvf) (calm : CalmBwd cfg src.grid inp)
    (hs0 : ∀ i j, 0 ≤ (startBwd cfg path disk).1 i j ∧ 0 ≤ (startBwd cfg path disk).2 i j)
    (hs0' : ∀ i j, 0 ≤ (startBwd cfg path' disk').1 i j ∧ 0 ≤ (startBwd cfg path' disk').2 i j)
    {s s'} (hs : EndsIn (bwdRun cfg src path disk) s)
    (hs' : EndsIn (bwdRun cfg src' path' disk') s') :
    s.files.length = s'.files.length ∧
    bwdStorageGap src.grid.a s.output s'.output +
        sumPairs s.files s'.files (bwdFateGap src.grid.a) ≤
      gap src.grid.a (startBwd cfg path disk).1 (startBwd cfg path' disk').1 +
      gap src.grid.a (startBwd cfg path disk).2 (startBwd cfg path' disk').2 +
      tagGapBwd cfg src.grid.a inp inp' := by
  obtain ⟨o, r, ho, rfl⟩ := bwd_ends cfg src inp path disk h hs
  obtain ⟨o', r', ho', rfl⟩ := bwd_ends cfg src' inp' path' disk' h' hs'
  have eo := bwd_init_eq cfg src path disk o ho
  have eo' := bwd_init_eq cfg src' path' disk' o' ho'
  have hpos := h.timestep_pos
  have hAB := h.ordered
  have n1 := bwd_out_nonneg cfg src inp h hp o (by rw [eo]; exact hs0)
  have n2 := bwd_out_nonneg cfg src' inp' h' hp' o' (by rw [eo']; exact hs0')
  rw [hg] at n2
  have key := Proc.gap_files (p := bwdProc cfg src.grid inp) (q := bwdProc cfg src.grid inp') o o'
    (bwdStorageGap src.grid.a) (bwdFateGap src.grid.a) cfg.steps
    (fun k => total src.grid.a fun i j => (cfg.timestep : K) *
      (|activeMask cfg inp (cfg.bwdTime k) i j - activeMask cfg inp' (cfg.bwdTime k) i j| *
        (inp.fluxes (cfg.bwdTime k - cfg.halfDt)).precip i j)) (fun _ => rfl) (fun _ _ => rfl)
    (fun x y => by
      simp [bwdFateGap, gap, total, BwdOutput.flush, bwdProc]) ?_ cfg.steps le_rfl
  · obtain ⟨k1, k2⟩ := key
    refine ⟨by simpa only [bwdStateAt, hg] using k1, ?_⟩
    have z : bwdFateGap src.grid.a o o' = 0 := by
      rw [eo, eo']
      simp [bwdFateGap, gap, total]
    have z' : 0 ≤ bwdFateGap src.grid.a ((bwdProc cfg src.grid inp).out o cfg.steps)
        ((bwdProc cfg src.grid inp').out o' cfg.steps) := by
      unfold bwdFateGap
      have := fun f g => gap_nonneg (m := m) (n := n) src.grid.a ha f g
      exact add_nonneg (this _ _) (this _ _)
    have z2 : bwdStorageGap src.grid.a o o' =
        gap src.grid.a (startBwd cfg path disk).1 (startBwd cfg path' disk').1 +
        gap src.grid.a (startBwd cfg path disk).2 (startBwd cfg path' disk').2 := by
      rw [eo, eo']
      rfl
    have z3 : tagGapBwd cfg src.grid.a inp inp' = ∑ j ∈ Finset.range cfg.steps,
        total src.grid.a fun i j' => (cfg.timestep : K) *
      (|activeMask cfg inp (cfg.bwdTime j) i j' - activeMask cfg inp' (cfg.bwdTime j) i j'| *
        (inp.fluxes (cfg.bwdTime j - cfg.halfDt)).precip i j') := rfl
    rw [z3]
    simp only [bwdStateAt, hg]
    rw [z, z2] at k2
    linarith
  · intro k hk'
    exact bwd_gap_step cfg src inp inp' h hw hp hp' ha hk calm k hk' _ _ (n1 k hk'.le) (n2 k hk'.le)

end run

/-! ### A concrete case -/

namespace Demo

/-- C90 is not vacuous: tracking from region A and from region B, forward; the tagged water differs by a
positive amount -/
example : ∃ s s', EndsIn (fwdRun cfg (srcOf maskA) path fun _ => none) s ∧
    EndsIn (fwdRun cfg (srcOf maskB) path fun _ => none) s' ∧
    s.files.length = s'.files.length ∧
    fwdStorageGap src.grid.a s.output s'.output + sumPairs s.files s'.files (fwdFateGap src.grid.a) ≤
      tagGapFwd cfg src.grid.a (inpOf maskA) (inpOf maskB) ∧
    0 < tagGapFwd cfg src.grid.a (inpOf maskA) (inpOf maskB) := by
  obtain ⟨s, hs⟩ := ends_fwd maskA
  obtain ⟨s', hs'⟩ := ends_fwd maskB
  obtain ⟨h1, h2⟩ := C90_run_forward cfg (srcOf maskA) (srcOf maskB) (inpOf maskA)
    (inpOf maskB) path path _ _ (runnableOf _) (runnableOf _)
    rfl ⟨rfl, rfl⟩ (physicalOf _ maskA_nonneg) (physicalOf _ maskB_nonneg) area_pos (by decide)
    (calm_fwd _) (fun _ _ => ⟨le_rfl, le_rfl⟩) (fun _ _ => ⟨le_rfl, le_rfl⟩) hs hs'
  refine ⟨s, s', hs, hs', h1, ?_, by decide +kernel⟩
  have z : gap (K := ℚ) (m := 1) (n := 1) src.grid.a (startFwd cfg path fun _ => none).1
      (startFwd cfg path fun _ => none).1 = 0 := by simp [gap, total]
  have z' : gap (K := ℚ) (m := 1) (n := 1) src.grid.a (startFwd cfg path fun _ => none).2
      (startFwd cfg path fun _ => none).2 = 0 := by simp [gap, total]
  refine h2.trans (le_of_eq ?_)
  change gap src.grid.a _ _ + gap src.grid.a _ _ + _ = _
  rw [z, z', zero_add, zero_add]
  rfl

/-- C90, backward -/
example : ∃ s s', EndsIn (bwdRun cfgB (srcOf maskA) path fun _ => none) s ∧
    EndsIn (bwdRun cfgB (srcOf maskB) path fun _ => none) s' ∧
    s.files.length = s'.files.length ∧
    bwdStorageGap src.grid.a s.output s'.output + sumPairs s.files s'.files (bwdFateGap src.grid.a) ≤
      tagGapBwd cfgB src.grid.a (inpOf maskA) (inpOf maskB) ∧
    0 < tagGapBwd cfgB src.grid.a (inpOf maskA) (inpOf maskB) := by
  obtain ⟨s, hs⟩ := ends_bwd maskA
  obtain ⟨s', hs'⟩ := ends_bwd maskB
  obtain ⟨h1, h2⟩ := C90_run_backward cfgB (srcOf maskA) (srcOf maskB) (inpOf maskA)
    (inpOf maskB) path path _ _ (runnableB _) (runnableB _)
    rfl ⟨rfl, rfl⟩ (physicalOf _ maskA_nonneg) (physicalOf _ maskB_nonneg) area_pos (by decide)
    (calm_bwd _) (fun _ _ => ⟨le_rfl, le_rfl⟩) (fun _ _ => ⟨le_rfl, le_rfl⟩) hs hs'
  refine ⟨s, s', hs, hs', h1, ?_, by decide +kernel⟩
  have z : gap (K := ℚ) (m := 1) (n := 1) src.grid.a (startBwd cfgB path fun _ => none).1
      (startBwd cfgB path fun _ => none).1 = 0 := by simp [gap, total]
  have z' : gap (K := ℚ) (m := 1) (n := 1) src.grid.a (startBwd cfgB path fun _ => none).2
      (startBwd cfgB path fun _ => none).2 = 0 := by simp [gap, total]
  refine h2.trans (le_of_eq ?_)
  change gap src.grid.a _ _ + gap src.grid.a _ _ + _ = _
  rw [z, z', zero_add, zero_add]
  rfl

end Demo

end Wam
