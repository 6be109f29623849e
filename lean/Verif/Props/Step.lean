import Verif.Lemmas.Step

/-!
# C04 (whole step), C13-C22: one tracking step

Hypotheses used below: `Wet S` (both layers hold water in every cell; the code divides by the
storages), positive areas and time step.  Fluxes, masks, and previous outputs are arbitrary unless
stated otherwise.
-/
set_option linter.unusedSectionVars false
set_option linter.unusedVariables false

namespace Wam
open Spec
variable {K : Type*} [Field K] [LinearOrder K] [IsStrictOrderedRing K] {m n : ℕ}

/-- every cell and layer holds water -/
def Spec.Wet (S : States m n K) : Prop := ∀ i j, 0 < S.s_upper i j ∧ 0 < S.s_lower i j

section
variable (periodic : Bool) (dt kvf : K) (a : Fin (m + 2) → K) (F : Fluxes (m + 2) (n + 2) K)
  (fz : Arr (m + 2) (n + 2) K) (S0 S1 : States (m + 2) (n + 2) K) (mask : Arr (m + 2) (n + 2) K)

/-- **C13** (forward): after a step, tracked water lies between 0 and the water of the layer at the new
time, whatever the previous state was. -/
theorem C13_tracked_within_storage_forward (out : FwdOutput (m + 2) (n + 2) K) (h : Wet S1) (i j) :
    let out' := forwardtrack periodic dt kvf a F fz S1 S0 mask out
    (0 ≤ out'.s_track_lower i j ∧ out'.s_track_lower i j ≤ S1.s_lower i j) ∧
    (0 ≤ out'.s_track_upper i j ∧ out'.s_track_upper i j ≤ S1.s_upper i j) := by
  have := settle_bounds (getBoundary periodic i j)
    ((fwdTransport periodic dt kvf a F fz S0 mask out.s_track_lower out.s_track_upper).1 i j)
    ((fwdTransport periodic dt kvf a F fz S0 mask out.s_track_lower out.s_track_upper).2 i j)
    _ _ (h i j).2.le (h i j).1.le
  exact ⟨⟨this.1, this.2.1⟩, this.2.2⟩

/-- **C13** (backward): the new time is `t0`. -/
theorem C13_tracked_within_storage_backward (out : BwdOutput (m + 2) (n + 2) K) (h : Wet S0) (i j) :
    let out' := backtrack periodic dt kvf a F fz S1 S0 mask out
    (0 ≤ out'.s_track_lower i j ∧ out'.s_track_lower i j ≤ S0.s_lower i j) ∧
    (0 ≤ out'.s_track_upper i j ∧ out'.s_track_upper i j ≤ S0.s_upper i j) := by
  have := settle_bounds (getBoundary periodic i j)
    ((bwdTransport periodic dt kvf a F fz S1 mask out.s_track_lower out.s_track_upper).1 i j)
    ((bwdTransport periodic dt kvf a F fz S1 mask out.s_track_lower out.s_track_upper).2 i j)
    _ _ (h i j).2.le (h i j).1.le
  exact ⟨⟨this.1, this.2.1⟩, this.2.2⟩

/-! ### What the transport is, in terms of the specification -/

/-- **C20** (forward): the tracked water of both layers after transport. -/
theorem C20_forward_transport (tl tu : Arr (m + 2) (n + 2) K) (hS : Wet S0)
    (ha : ∀ i, 0 < a i) (i j) :
    let rl := fun i j => fraction (tl i j) (S0.s_lower i j)
    let ru := fun i j => fraction (tu i j) (S0.s_upper i j)
    let t := fwdTransport periodic dt kvf a F fz S0 mask tl tu
    t.1 i j = tl i j + dt * (inflow periodic rl F.fx_lower F.fy_lower i j / a i
      + downward (fz i j) kvf (ru i j) (rl i j) + mask i j * F.evap i j
      - share (F.precip i j) (S0.s_lower i j) (S0.s_upper i j) * rl i j) ∧
    t.2 i j = tu i j + dt * (inflow periodic ru F.fx_upper F.fy_upper i j / a i
      - downward (fz i j) kvf (ru i j) (rl i j)
      - share (F.precip i j) (S0.s_upper i j) (S0.s_lower i j) * ru i j) := by
  intro rl ru t
  simp only [t, fwdTransport, relStorage_eq, advect_eq_inflow]
  rw [← vertical_eq]
  unfold share
  rw [add_comm (S0.s_lower i j) (S0.s_upper i j)]
  constructor
  · simp only [rl, ru]; ring
  · simp only [rl, ru]; ring

/-- **C20** (backward): the same transport with all fluxes (also the vertical one) reversed; the source
is the tagged precipitation, split over the layers by their water; the sink is evaporation from
the lower layer. -/
theorem C20_backward_transport (tl tu : Arr (m + 2) (n + 2) K) (hS : Wet S1)
    (ha : ∀ i, 0 < a i) (i j) :
    let rl := fun i j => fraction (tl i j) (S1.s_lower i j)
    let ru := fun i j => fraction (tu i j) (S1.s_upper i j)
    let rev := fun (f : Arr (m + 2) (n + 2) K) i j => -f i j
    let t := bwdTransport periodic dt kvf a F fz S1 mask tl tu
    t.1 i j = tl i j + dt * (inflow periodic rl (rev F.fx_lower) (rev F.fy_lower) i j / a i
      + downward (-fz i j) kvf (ru i j) (rl i j)
      + share (mask i j * F.precip i j) (S1.s_lower i j) (S1.s_upper i j)
      - F.evap i j * rl i j) ∧
    t.2 i j = tu i j + dt * (inflow periodic ru (rev F.fx_upper) (rev F.fy_upper) i j / a i
      - downward (-fz i j) kvf (ru i j) (rl i j)
      + share (mask i j * F.precip i j) (S1.s_upper i j) (S1.s_lower i j)) := by
  intro rl ru rev t
  simp only [t, bwdTransport, relStorage_eq, advect_eq_inflow_neg]
  rw [← vertical_eq]
  unfold share
  rw [add_comm (S1.s_lower i j) (S1.s_upper i j)]
  constructor
  · simp only [rl, ru, rev]; ring
  · simp only [rl, ru, rev]; ring

/-- **C20**: without tagging and without precipitation and evaporation, backtracking from `t1` to
`t0` is forward tracking with reversed fluxes and exchanged roles of the two times. -/
theorem C20_backtrack_is_reversed_forward (o : FwdOutput (m + 2) (n + 2) K)
    (out : BwdOutput (m + 2) (n + 2) K)
    (hl : o.s_track_lower = out.s_track_lower) (hu : o.s_track_upper = out.s_track_upper)
    (hlo : o.losses = out.losses) (hg : o.gains = out.gains) :
    let rev := fun (f : Arr (m + 2) (n + 2) K) i j => -f i j
    let b := backtrack periodic dt kvf a { F with evap := fun _ _ => 0, precip := fun _ _ => 0 }
      fz S1 S0 mask out
    let f := forwardtrack periodic dt kvf a
      { fx_upper := rev F.fx_upper, fy_upper := rev F.fy_upper, fx_lower := rev F.fx_lower,
        fy_lower := rev F.fy_lower, evap := fun _ _ => 0, precip := fun _ _ => 0 }
      (rev fz) S0 S1 mask o
    b.s_track_lower = f.s_track_lower ∧ b.s_track_upper = f.s_track_upper ∧
      b.losses = f.losses ∧ b.gains = f.gains := by
  intro rev b f
  have ht : bwdTransport periodic dt kvf a { F with evap := fun _ _ => 0, precip := fun _ _ => 0 }
        fz S1 mask out.s_track_lower out.s_track_upper =
      fwdTransport periodic dt kvf a
        { fx_upper := rev F.fx_upper, fy_upper := rev F.fy_upper, fx_lower := rev F.fx_lower,
          fy_lower := rev F.fy_lower, evap := fun _ _ => 0, precip := fun _ _ => 0 }
        (rev fz) S1 mask o.s_track_lower o.s_track_upper := by
    rw [hl, hu]
    refine Prod.ext ?_ ?_ <;> funext i j <;>
      simp only [bwdTransport, fwdTransport, advect_eq_inflow_neg, advect_eq_inflow, mul_zero,
        zero_mul, zero_div, sub_zero, add_zero] <;> rfl
  refine ⟨?_, ?_, ?_, ?_⟩ <;> funext i j <;>
    simp only [b, f, backtrack, forwardtrack, ht, hlo, hg]

/-! ### Boundary -/

/-- **C14** (forward): boundary cells hold no tracked water after a step, and everything that was
transported into them (by the transport of C20) is booked as loss, nothing as gain. -/
theorem C14_boundary_forward (out : FwdOutput (m + 2) (n + 2) K) (h : Wet S1) (i j)
    (hb : isBoundary periodic i j) :
    let out' := forwardtrack periodic dt kvf a F fz S1 S0 mask out
    let t := fwdTransport periodic dt kvf a F fz S0 mask out.s_track_lower out.s_track_upper
    out'.s_track_lower i j = 0 ∧ out'.s_track_upper i j = 0 ∧
      out'.losses i j = out.losses i j + (t.1 i j + t.2 i j) ∧
      out'.gains i j = out.gains i j := by
  simp only [forwardtrack]
  rw [(getBoundary_iff periodic i j).2 hb, settle_boundary _ _ _ _ (h i j).2.le (h i j).1.le]
  simp [add_comm]

/-- **C14** (backward) -/
theorem C14_boundary_backward (out : BwdOutput (m + 2) (n + 2) K) (h : Wet S0) (i j)
    (hb : isBoundary periodic i j) :
    let out' := backtrack periodic dt kvf a F fz S1 S0 mask out
    let t := bwdTransport periodic dt kvf a F fz S1 mask out.s_track_lower out.s_track_upper
    out'.s_track_lower i j = 0 ∧ out'.s_track_upper i j = 0 ∧
      out'.losses i j = out.losses i j + (t.1 i j + t.2 i j) ∧
      out'.gains i j = out.gains i j := by
  simp only [backtrack]
  rw [(getBoundary_iff periodic i j).2 hb, settle_boundary _ _ _ _ (h i j).2.le (h i j).1.le]
  simp [add_comm]

/-! ### Sources and sinks -/

/-- **C17** (forward): what a step adds to the tagged and tracked fields. -/
theorem C17_increments_forward (out : FwdOutput (m + 2) (n + 2) K) (hS : Wet S0) (i j) :
    let out' := forwardtrack periodic dt kvf a F fz S1 S0 mask out
    out'.tagged_evap i j = out.tagged_evap i j + dt * (mask i j * F.evap i j) ∧
    out'.p_track_lower i j = out.p_track_lower i j +
      dt * (share (F.precip i j) (S0.s_lower i j) (S0.s_upper i j) *
        fraction (out.s_track_lower i j) (S0.s_lower i j)) ∧
    out'.p_track_upper i j = out.p_track_upper i j +
      dt * (share (F.precip i j) (S0.s_upper i j) (S0.s_lower i j) *
        fraction (out.s_track_upper i j) (S0.s_upper i j)) := by
  simp only [forwardtrack, relStorage_eq, share]
  rw [add_comm (S0.s_lower i j) (S0.s_upper i j)]
  refine ⟨?_, ?_, ?_⟩ <;> ring

/-- **C17** (backward) -/
theorem C17_increments_backward (out : BwdOutput (m + 2) (n + 2) K) (hS : Wet S1) (i j) :
    let out' := backtrack periodic dt kvf a F fz S1 S0 mask out
    out'.tagged_precip i j = out.tagged_precip i j + dt * (mask i j * F.precip i j) ∧
    out'.e_track i j = out.e_track i j +
      dt * (F.evap i j * fraction (out.s_track_lower i j) (S1.s_lower i j)) := by
  simp only [backtrack, relStorage_eq]
  refine ⟨?_, ?_⟩ <;> ring

/-- the shares of the layers are non-negative, add up to the whole and have the ratio of the storages -/
theorem share_split (p su sl : K) (hp : 0 ≤ p) (hu : 0 < su) (hl : 0 < sl) :
    0 ≤ share p sl su ∧ 0 ≤ share p su sl ∧ share p sl su + share p su sl = p ∧
      share p sl su * su = share p su sl * sl := by
  unfold share
  have : su + sl ≠ 0 := (add_pos hu hl).ne'
  have : sl + su ≠ 0 := (add_pos hl hu).ne'
  refine ⟨by positivity, by positivity, ?_, ?_⟩
  · rw [add_comm su sl]; field_simp
  · rw [add_comm su sl]; field_simp

/-- **C17** (forward): tracked precipitation of a step is between zero and the precipitation. -/
theorem C17_tracked_precipitation_bounded (out : FwdOutput (m + 2) (n + 2) K) (hS : Wet S0)
    (hdt : 0 ≤ dt) (i j) (hP : 0 ≤ F.precip i j)
    (htl : 0 ≤ out.s_track_lower i j) (htu : 0 ≤ out.s_track_upper i j) :
    let out' := forwardtrack periodic dt kvf a F fz S1 S0 mask out
    let dl := out'.p_track_lower i j - out.p_track_lower i j
    let du := out'.p_track_upper i j - out.p_track_upper i j
    0 ≤ dl ∧ 0 ≤ du ∧ dl + du ≤ dt * F.precip i j := by
  intro out' dl du
  obtain ⟨_, e1, e2⟩ := C17_increments_forward periodic dt kvf a F fz S0 S1 mask out hS i j
  obtain ⟨s1, s2, s3, _⟩ := share_split (F.precip i j) _ _ hP (hS i j).1 (hS i j).2
  have f1 := fraction_nonneg htl (hS i j).2.le
  have f2 := fraction_nonneg htu (hS i j).1.le
  have g1 := fraction_le_one (out.s_track_lower i j) (S0.s_lower i j)
  have g2 := fraction_le_one (out.s_track_upper i j) (S0.s_upper i j)
  have el : dl = _ := sub_eq_of_eq_add' e1
  have eu : du = _ := sub_eq_of_eq_add' e2
  rw [el, eu]
  refine ⟨by positivity, by positivity, ?_⟩
  rw [← mul_add]
  refine mul_le_mul_of_nonneg_left ?_ hdt
  have := mul_le_of_le_one_right s1 g1
  have := mul_le_of_le_one_right s2 g2
  linarith

/-- **C17** (backward): tracked evaporation of a step is between zero and the evaporation. -/
theorem C17_tracked_evaporation_bounded (out : BwdOutput (m + 2) (n + 2) K) (hS : Wet S1)
    (hdt : 0 ≤ dt) (i j) (hE : 0 ≤ F.evap i j) (htl : 0 ≤ out.s_track_lower i j) :
    let out' := backtrack periodic dt kvf a F fz S1 S0 mask out
    let d := out'.e_track i j - out.e_track i j
    0 ≤ d ∧ d ≤ dt * F.evap i j := by
  intro out' d
  obtain ⟨_, e1⟩ := C17_increments_backward periodic dt kvf a F fz S0 S1 mask out hS i j
  have f1 := fraction_nonneg htl (hS i j).2.le
  have g1 := fraction_le_one (out.s_track_lower i j) (S1.s_lower i j)
  have ed : d = _ := sub_eq_of_eq_add' e1
  rw [ed]
  exact ⟨by positivity, mul_le_mul_of_nonneg_left (mul_le_of_le_one_right hE g1) hdt⟩

/-! ### Budgets -/

/-- **C15** (forward): budget of a single cell, from the fields before and after the step. -/
theorem C15_cell_budget_forward (out : FwdOutput (m + 2) (n + 2) K) (hS : Wet S0)
    (ha : ∀ i, 0 < a i) (i j) :
    let out' := forwardtrack periodic dt kvf a F fz S1 S0 mask out
    let rl := fun i j => fraction (out.s_track_lower i j) (S0.s_lower i j)
    let ru := fun i j => fraction (out.s_track_upper i j) (S0.s_upper i j)
    let total := fun o : FwdOutput (m + 2) (n + 2) K => o.s_track_lower i j + o.s_track_upper i j
    let tracked := fun o : FwdOutput (m + 2) (n + 2) K => o.p_track_lower i j + o.p_track_upper i j
    total out' - total out =
      dt * ((inflow periodic rl F.fx_lower F.fy_lower i j +
        inflow periodic ru F.fx_upper F.fy_upper i j) / a i)
      + (out'.tagged_evap i j - out.tagged_evap i j) - (tracked out' - tracked out)
      - (out'.losses i j - out.losses i j) + (out'.gains i j - out.gains i j) := by
  intro out' rl ru total tracked
  obtain ⟨e1, e2⟩ := C20_forward_transport periodic dt kvf a F fz S0 mask
    out.s_track_lower out.s_track_upper hS ha i j
  obtain ⟨g1, g2, g3⟩ := C17_increments_forward periodic dt kvf a F fz S0 S1 mask out hS i j
  have hb := settle_budget (getBoundary periodic i j)
    ((fwdTransport periodic dt kvf a F fz S0 mask out.s_track_lower out.s_track_upper).1 i j)
    ((fwdTransport periodic dt kvf a F fz S0 mask out.s_track_lower out.s_track_upper).2 i j)
    (S1.s_lower i j) (S1.s_upper i j)
  have hl : out'.losses i j - out.losses i j = _ := add_sub_cancel_left _ _
  have hg : out'.gains i j - out.gains i j = _ := add_sub_cancel_left _ _
  simp only [total, tracked]
  rw [show out'.tagged_evap i j = _ from g1, show out'.p_track_lower i j = _ from g2,
    show out'.p_track_upper i j = _ from g3, hl, hg]
  simp only [out', forwardtrack, rl, ru]
  linear_combination hb + e1 + e2

/-- **C15** (backward) -/
theorem C15_cell_budget_backward (out : BwdOutput (m + 2) (n + 2) K) (hS : Wet S1)
    (ha : ∀ i, 0 < a i) (i j) :
    let out' := backtrack periodic dt kvf a F fz S1 S0 mask out
    let rl := fun i j => fraction (out.s_track_lower i j) (S1.s_lower i j)
    let ru := fun i j => fraction (out.s_track_upper i j) (S1.s_upper i j)
    let rev := fun (f : Arr (m + 2) (n + 2) K) i j => -f i j
    let total := fun o : BwdOutput (m + 2) (n + 2) K => o.s_track_lower i j + o.s_track_upper i j
    total out' - total out =
      dt * ((inflow periodic rl (rev F.fx_lower) (rev F.fy_lower) i j +
        inflow periodic ru (rev F.fx_upper) (rev F.fy_upper) i j) / a i)
      + (out'.tagged_precip i j - out.tagged_precip i j) - (out'.e_track i j - out.e_track i j)
      - (out'.losses i j - out.losses i j) + (out'.gains i j - out.gains i j) := by
  intro out' rl ru rev total
  obtain ⟨e1, e2⟩ := C20_backward_transport periodic dt kvf a F fz S1 mask
    out.s_track_lower out.s_track_upper hS ha i j
  obtain ⟨g1, g2⟩ := C17_increments_backward periodic dt kvf a F fz S0 S1 mask out hS i j
  have hb := settle_budget (getBoundary periodic i j)
    ((bwdTransport periodic dt kvf a F fz S1 mask out.s_track_lower out.s_track_upper).1 i j)
    ((bwdTransport periodic dt kvf a F fz S1 mask out.s_track_lower out.s_track_upper).2 i j)
    (S0.s_lower i j) (S0.s_upper i j)
  have hl : out'.losses i j - out.losses i j = _ := add_sub_cancel_left _ _
  have hg : out'.gains i j - out.gains i j = _ := add_sub_cancel_left _ _
  have hsh : share (mask i j * F.precip i j) (S1.s_lower i j) (S1.s_upper i j) +
      share (mask i j * F.precip i j) (S1.s_upper i j) (S1.s_lower i j) =
      mask i j * F.precip i j := by
    have := (add_pos (hS i j).1 (hS i j).2).ne'
    unfold share
    rw [add_comm (S1.s_lower i j)]; field_simp; ring
  simp only [total]
  rw [show out'.tagged_precip i j = _ from g1, show out'.e_track i j = _ from g2, hl, hg]
  simp only [out', backtrack, rl, ru, rev]
  linear_combination hb + e1 + e2 + dt * hsh

theorem sum_inflow (r fx fy : Arr (m + 2) (n + 2) K) :
    ∑ i, ∑ j, inflow periodic r fx fy i j = 0 := by
  simp only [← advect_eq_inflow]
  exact C01_advection_conserves periodic false r fx fy

/-- **C16** (forward): area-weighted water budget of the whole grid, from the fields before and after
the step only. -/
theorem C16_global_budget_forward (out : FwdOutput (m + 2) (n + 2) K) (hS : Wet S0)
    (ha : ∀ i, 0 < a i) :
    let out' := forwardtrack periodic dt kvf a F fz S1 S0 mask out
    let tot := fun f : Arr (m + 2) (n + 2) K => ∑ i, ∑ j, a i * f i j
    tot out'.s_track_lower + tot out'.s_track_upper -
        (tot out.s_track_lower + tot out.s_track_upper) =
      (tot out'.tagged_evap - tot out.tagged_evap)
      - (tot out'.p_track_lower + tot out'.p_track_upper
          - (tot out.p_track_lower + tot out.p_track_upper))
      - (tot out'.losses - tot out.losses) + (tot out'.gains - tot out.gains) := by
  intro out' tot
  have key : ∀ i j, a i * out'.s_track_lower i j + a i * out'.s_track_upper i j -
      (a i * out.s_track_lower i j + a i * out.s_track_upper i j) =
      dt * inflow periodic (fun i j => fraction (out.s_track_lower i j) (S0.s_lower i j))
        F.fx_lower F.fy_lower i j +
      dt * inflow periodic (fun i j => fraction (out.s_track_upper i j) (S0.s_upper i j))
        F.fx_upper F.fy_upper i j +
      (a i * out'.tagged_evap i j - a i * out.tagged_evap i j) -
      (a i * out'.p_track_lower i j + a i * out'.p_track_upper i j -
        (a i * out.p_track_lower i j + a i * out.p_track_upper i j)) -
      (a i * out'.losses i j - a i * out.losses i j) +
      (a i * out'.gains i j - a i * out.gains i j) := by
    intro i j
    have h := C15_cell_budget_forward periodic dt kvf a F fz S0 S1 mask out hS ha i j
    simp only at h
    have hd : ∀ x y : K, a i * (dt * ((x + y) / a i)) = dt * x + dt * y := by
      intro x y; have := (ha i).ne'; field_simp
    have := congrArg (fun z => a i * z) h
    simp only [mul_add, mul_sub, hd] at this
    linear_combination this
  have hsum := Finset.sum_congr (rfl : (Finset.univ : Finset (Fin (m + 2))) = Finset.univ)
    (fun i _ => Finset.sum_congr (rfl : (Finset.univ : Finset (Fin (n + 2))) = Finset.univ)
      (fun j _ => key i j))
  simp only [Finset.sum_add_distrib, Finset.sum_sub_distrib, ← Finset.mul_sum,
    sum_inflow, mul_zero, zero_add] at hsum
  simp only [tot, ← Finset.mul_sum]
  linear_combination hsum

/-- **C16** (backward) -/
theorem C16_global_budget_backward (out : BwdOutput (m + 2) (n + 2) K) (hS : Wet S1)
    (ha : ∀ i, 0 < a i) :
    let out' := backtrack periodic dt kvf a F fz S1 S0 mask out
    let tot := fun f : Arr (m + 2) (n + 2) K => ∑ i, ∑ j, a i * f i j
    tot out'.s_track_lower + tot out'.s_track_upper -
        (tot out.s_track_lower + tot out.s_track_upper) =
      (tot out'.tagged_precip - tot out.tagged_precip) - (tot out'.e_track - tot out.e_track)
      - (tot out'.losses - tot out.losses) + (tot out'.gains - tot out.gains) := by
  intro out' tot
  have key : ∀ i j, a i * out'.s_track_lower i j + a i * out'.s_track_upper i j -
      (a i * out.s_track_lower i j + a i * out.s_track_upper i j) =
      dt * inflow periodic (fun i j => fraction (out.s_track_lower i j) (S1.s_lower i j))
        (fun i j => -F.fx_lower i j) (fun i j => -F.fy_lower i j) i j +
      dt * inflow periodic (fun i j => fraction (out.s_track_upper i j) (S1.s_upper i j))
        (fun i j => -F.fx_upper i j) (fun i j => -F.fy_upper i j) i j +
      (a i * out'.tagged_precip i j - a i * out.tagged_precip i j) -
      (a i * out'.e_track i j - a i * out.e_track i j) -
      (a i * out'.losses i j - a i * out.losses i j) +
      (a i * out'.gains i j - a i * out.gains i j) := by
    intro i j
    have h := C15_cell_budget_backward periodic dt kvf a F fz S0 S1 mask out hS ha i j
    simp only at h
    have hd : ∀ x y : K, a i * (dt * ((x + y) / a i)) = dt * x + dt * y := by
      intro x y; have := (ha i).ne'; field_simp
    have := congrArg (fun z => a i * z) h
    simp only [mul_add, mul_sub, hd] at this
    linear_combination this
  have hsum := Finset.sum_congr (rfl : (Finset.univ : Finset (Fin (m + 2))) = Finset.univ)
    (fun i _ => Finset.sum_congr (rfl : (Finset.univ : Finset (Fin (n + 2))) = Finset.univ)
      (fun j _ => key i j))
  simp only [Finset.sum_add_distrib, Finset.sum_sub_distrib, ← Finset.mul_sum,
    sum_inflow, mul_zero, zero_add] at hsum
  simp only [tot, ← Finset.mul_sum]
  linear_combination hsum

/-! ### Losses and gains -/

/-- **C18** (forward): a step never books negative gains, nor negative losses in interior cells;
and gains are booked only if the transport overdrew one of the layers. -/
theorem C18_losses_gains_forward (out : FwdOutput (m + 2) (n + 2) K) (h1 : Wet S1) (i j) :
    let out' := forwardtrack periodic dt kvf a F fz S1 S0 mask out
    let t := fwdTransport periodic dt kvf a F fz S0 mask out.s_track_lower out.s_track_upper
    out.gains i j ≤ out'.gains i j ∧
    (¬ isBoundary periodic i j → out.losses i j ≤ out'.losses i j) ∧
    (out'.gains i j ≠ out.gains i j → t.1 i j < 0 ∨ t.2 i j < 0) := by
  intro out' t
  refine ⟨le_add_of_nonneg_right (settle_gains_nonneg _ _ _ _ _), ?_, ?_⟩
  · intro hb
    have : getBoundary periodic i j = false := by
      rw [← getBoundary_iff] at hb; simpa using hb
    simp only [out', forwardtrack, this]
    exact le_add_of_nonneg_right (settle_losses_nonneg _ _ _ _)
  · intro h
    by_contra hc
    push Not at hc
    apply h
    simp only [out', forwardtrack]
    rw [settle_no_gain _ _ _ _ _ (h1 i j).2.le (h1 i j).1.le hc.1 hc.2, add_zero]

/-- **C18** (backward) -/
theorem C18_losses_gains_backward (out : BwdOutput (m + 2) (n + 2) K) (h0 : Wet S0) (i j) :
    let out' := backtrack periodic dt kvf a F fz S1 S0 mask out
    let t := bwdTransport periodic dt kvf a F fz S1 mask out.s_track_lower out.s_track_upper
    out.gains i j ≤ out'.gains i j ∧
    (¬ isBoundary periodic i j → out.losses i j ≤ out'.losses i j) ∧
    (out'.gains i j ≠ out.gains i j → t.1 i j < 0 ∨ t.2 i j < 0) := by
  intro out' t
  refine ⟨le_add_of_nonneg_right (settle_gains_nonneg _ _ _ _ _), ?_, ?_⟩
  · intro hb
    have : getBoundary periodic i j = false := by
      rw [← getBoundary_iff] at hb; simpa using hb
    simp only [out', backtrack, this]
    exact le_add_of_nonneg_right (settle_losses_nonneg _ _ _ _)
  · intro h
    by_contra hc
    push Not at hc
    apply h
    simp only [out', backtrack]
    rw [settle_no_gain _ _ _ _ _ (h0 i j).2.le (h0 i j).1.le hc.1 hc.2, add_zero]

/-- **C22** (forward): if no cell and layer can lose more water in one step than it holds, the
transport keeps the tracked water non-negative, and the step books no gains and no negative losses,
also at the boundary. -/
theorem C22_no_gains_forward (out : FwdOutput (m + 2) (n + 2) K) (h0 : Wet S0) (h1 : Wet S1)
    (ha : ∀ i, 0 < a i) (hdt : 0 ≤ dt) (hk : 0 ≤ kvf)
    (htl : ∀ i j, 0 ≤ out.s_track_lower i j) (htu : ∀ i j, 0 ≤ out.s_track_upper i j)
    (hsrc : ∀ i j, 0 ≤ mask i j * F.evap i j) (i : Fin (m + 2)) (j : Fin (n + 2))
    (cfl_l : dt * (outflow periodic F.fx_lower F.fy_lower i j / a i + max (-fz i j) 0
        + kvf * |fz i j| + share (F.precip i j) (S0.s_lower i j) (S0.s_upper i j))
      ≤ S0.s_lower i j)
    (cfl_u : dt * (outflow periodic F.fx_upper F.fy_upper i j / a i + max (fz i j) 0
        + kvf * |fz i j| + share (F.precip i j) (S0.s_upper i j) (S0.s_lower i j))
      ≤ S0.s_upper i j) :
    let out' := forwardtrack periodic dt kvf a F fz S1 S0 mask out
    let t := fwdTransport periodic dt kvf a F fz S0 mask out.s_track_lower out.s_track_upper
    0 ≤ t.1 i j ∧ 0 ≤ t.2 i j ∧ out'.gains i j = out.gains i j ∧
      out.losses i j ≤ out'.losses i j := by
  intro out' t
  obtain ⟨e1, e2⟩ := C20_forward_transport periodic dt kvf a F fz S0 mask
    out.s_track_lower out.s_track_upper h0 ha i j
  set rl := fun i j => fraction (out.s_track_lower i j) (S0.s_lower i j) with hrl
  set ru := fun i j => fraction (out.s_track_upper i j) (S0.s_upper i j) with hru
  have rl0 : ∀ i j, 0 ≤ rl i j := fun i j => fraction_nonneg (htl i j) (h0 i j).2.le
  have ru0 : ∀ i j, 0 ≤ ru i j := fun i j => fraction_nonneg (htu i j) (h0 i j).1.le
  have ml : rl i j * S0.s_lower i j ≤ out.s_track_lower i j := fraction_mul_le (h0 i j).2
  have mu : ru i j * S0.s_upper i j ≤ out.s_track_upper i j := fraction_mul_le (h0 i j).1
  have il := inflow_lower periodic rl F.fx_lower F.fy_lower rl0 i j
  have iu := inflow_lower periodic ru F.fx_upper F.fy_upper ru0 i j
  have dl : - (rl i j * (max (-fz i j) 0 + kvf * |fz i j|)) ≤
      downward (fz i j) kvf (ru i j) (rl i j) := by
    unfold downward carried
    have := mul_nonneg (le_max_right (fz i j) 0) (ru0 i j)
    have := mul_nonneg (mul_nonneg hk (abs_nonneg (fz i j))) (ru0 i j)
    nlinarith
  have du : - (ru i j * (max (fz i j) 0 + kvf * |fz i j|)) ≤
      - downward (fz i j) kvf (ru i j) (rl i j) := by
    unfold downward carried
    have := mul_nonneg (le_max_right (-fz i j) 0) (rl0 i j)
    have := mul_nonneg (mul_nonneg hk (abs_nonneg (fz i j))) (rl0 i j)
    nlinarith
  have t1 : 0 ≤ t.1 i j := by
    show 0 ≤ (fwdTransport periodic dt kvf a F fz S0 mask out.s_track_lower out.s_track_upper).1 i j
    rw [e1]
    have q1 : - (rl i j * outflow periodic F.fx_lower F.fy_lower i j) / a i ≤
        inflow periodic rl F.fx_lower F.fy_lower i j / a i :=
      div_le_div_of_nonneg_right il (ha i).le
    have q2 : - (rl i j * (outflow periodic F.fx_lower F.fy_lower i j / a i + max (-fz i j) 0
        + kvf * |fz i j| + share (F.precip i j) (S0.s_lower i j) (S0.s_upper i j))) ≤
        inflow periodic rl F.fx_lower F.fy_lower i j / a i
      + downward (fz i j) kvf (ru i j) (rl i j) + mask i j * F.evap i j
      - share (F.precip i j) (S0.s_lower i j) (S0.s_upper i j) * rl i j := by
      have := hsrc i j
      have e : - (rl i j * outflow periodic F.fx_lower F.fy_lower i j) / a i =
        - (rl i j * (outflow periodic F.fx_lower F.fy_lower i j / a i)) := by ring
      rw [e] at q1
      nlinarith
    have q3 := mul_le_mul_of_nonneg_left q2 hdt
    have q4 := mul_le_mul_of_nonneg_left cfl_l (rl0 i j)
    nlinarith
  have t2 : 0 ≤ t.2 i j := by
    show 0 ≤ (fwdTransport periodic dt kvf a F fz S0 mask out.s_track_lower out.s_track_upper).2 i j
    rw [e2]
    have q1 : - (ru i j * outflow periodic F.fx_upper F.fy_upper i j) / a i ≤
        inflow periodic ru F.fx_upper F.fy_upper i j / a i :=
      div_le_div_of_nonneg_right iu (ha i).le
    have q2 : - (ru i j * (outflow periodic F.fx_upper F.fy_upper i j / a i + max (fz i j) 0
        + kvf * |fz i j| + share (F.precip i j) (S0.s_upper i j) (S0.s_lower i j))) ≤
        inflow periodic ru F.fx_upper F.fy_upper i j / a i
      - downward (fz i j) kvf (ru i j) (rl i j)
      - share (F.precip i j) (S0.s_upper i j) (S0.s_lower i j) * ru i j := by
      have e : - (ru i j * outflow periodic F.fx_upper F.fy_upper i j) / a i =
        - (ru i j * (outflow periodic F.fx_upper F.fy_upper i j / a i)) := by ring
      rw [e] at q1
      nlinarith
    have q3 := mul_le_mul_of_nonneg_left q2 hdt
    have q4 := mul_le_mul_of_nonneg_left cfl_u (ru0 i j)
    nlinarith
  refine ⟨t1, t2, ?_, ?_⟩
  · by_contra h
    rcases (C18_losses_gains_forward periodic dt kvf a F fz S0 S1 mask out h1 i j).2.2 h with h | h
    · exact absurd t1 (not_le.2 h)
    · exact absurd t2 (not_le.2 h)
  · by_cases hb : isBoundary periodic i j
    · have := (C14_boundary_forward periodic dt kvf a F fz S0 S1 mask out h1 i j hb).2.2.1
      simp only [out']
      rw [this]
      exact le_add_of_nonneg_right (add_nonneg t1 t2)
    · exact (C18_losses_gains_forward periodic dt kvf a F fz S0 S1 mask out h1 i j).2.1 hb

/-- **C22** (backward): the same, with the water leaving against the flow. -/
theorem C22_no_gains_backward (out : BwdOutput (m + 2) (n + 2) K) (h0 : Wet S0) (h1 : Wet S1)
    (ha : ∀ i, 0 < a i) (hdt : 0 ≤ dt) (hk : 0 ≤ kvf)
    (htl : ∀ i j, 0 ≤ out.s_track_lower i j) (htu : ∀ i j, 0 ≤ out.s_track_upper i j)
    (hsrc : ∀ i j, 0 ≤ mask i j * F.precip i j) (i : Fin (m + 2)) (j : Fin (n + 2))
    (cfl_l : dt * (outflow periodic (fun i j => -F.fx_lower i j) (fun i j => -F.fy_lower i j) i j
        / a i + max (fz i j) 0 + kvf * |fz i j| + F.evap i j) ≤ S1.s_lower i j)
    (cfl_u : dt * (outflow periodic (fun i j => -F.fx_upper i j) (fun i j => -F.fy_upper i j) i j
        / a i + max (-fz i j) 0 + kvf * |fz i j|) ≤ S1.s_upper i j) :
    let out' := backtrack periodic dt kvf a F fz S1 S0 mask out
    let t := bwdTransport periodic dt kvf a F fz S1 mask out.s_track_lower out.s_track_upper
    0 ≤ t.1 i j ∧ 0 ≤ t.2 i j ∧ out'.gains i j = out.gains i j ∧
      out.losses i j ≤ out'.losses i j := by
  intro out' t
  obtain ⟨e1, e2⟩ := C20_backward_transport periodic dt kvf a F fz S1 mask
    out.s_track_lower out.s_track_upper h1 ha i j
  set rl := fun i j => fraction (out.s_track_lower i j) (S1.s_lower i j) with hrl
  set ru := fun i j => fraction (out.s_track_upper i j) (S1.s_upper i j) with hru
  have rl0 : ∀ i j, 0 ≤ rl i j := fun i j => fraction_nonneg (htl i j) (h1 i j).2.le
  have ru0 : ∀ i j, 0 ≤ ru i j := fun i j => fraction_nonneg (htu i j) (h1 i j).1.le
  have ml : rl i j * S1.s_lower i j ≤ out.s_track_lower i j := fraction_mul_le (h1 i j).2
  have mu : ru i j * S1.s_upper i j ≤ out.s_track_upper i j := fraction_mul_le (h1 i j).1
  have il := inflow_lower periodic rl (fun i j => -F.fx_lower i j) (fun i j => -F.fy_lower i j)
    rl0 i j
  have iu := inflow_lower periodic ru (fun i j => -F.fx_upper i j) (fun i j => -F.fy_upper i j)
    ru0 i j
  have habs : |(-fz i j)| = |fz i j| := abs_neg _
  have dl : - (rl i j * (max (fz i j) 0 + kvf * |fz i j|)) ≤
      downward (-fz i j) kvf (ru i j) (rl i j) := by
    unfold downward carried
    rw [habs, neg_neg]
    have := mul_nonneg (le_max_right (-fz i j) 0) (ru0 i j)
    have := mul_nonneg (mul_nonneg hk (abs_nonneg (fz i j))) (ru0 i j)
    nlinarith
  have du : - (ru i j * (max (-fz i j) 0 + kvf * |fz i j|)) ≤
      - downward (-fz i j) kvf (ru i j) (rl i j) := by
    unfold downward carried
    rw [habs, neg_neg]
    have := mul_nonneg (le_max_right (fz i j) 0) (rl0 i j)
    have := mul_nonneg (mul_nonneg hk (abs_nonneg (fz i j))) (rl0 i j)
    nlinarith
  have hshare : ∀ s s' : K, 0 < s → 0 < s' → 0 ≤ share (mask i j * F.precip i j) s s' :=
    fun s s' h h' => by have := hsrc i j; unfold share; positivity
  have t1 : 0 ≤ t.1 i j := by
    show 0 ≤ (bwdTransport periodic dt kvf a F fz S1 mask out.s_track_lower out.s_track_upper).1 i j
    rw [e1]
    set O := outflow periodic (fun i j => -F.fx_lower i j) (fun i j => -F.fy_lower i j) i j
    set I := inflow periodic rl (fun i j => -F.fx_lower i j) (fun i j => -F.fy_lower i j) i j
    have q1 : - (rl i j * O) / a i ≤ I / a i := div_le_div_of_nonneg_right il (ha i).le
    have hs := hshare _ _ (h1 i j).2 (h1 i j).1
    have q2 : - (rl i j * (O / a i + max (fz i j) 0 + kvf * |fz i j| + F.evap i j)) ≤
        I / a i + downward (-fz i j) kvf (ru i j) (rl i j) +
        share (mask i j * F.precip i j) (S1.s_lower i j) (S1.s_upper i j) - F.evap i j * rl i j := by
      have e : - (rl i j * O) / a i = - (rl i j * (O / a i)) := by ring
      rw [e] at q1
      nlinarith
    have q3 := mul_le_mul_of_nonneg_left q2 hdt
    have q4 := mul_le_mul_of_nonneg_left cfl_l (rl0 i j)
    nlinarith
  have t2 : 0 ≤ t.2 i j := by
    show 0 ≤ (bwdTransport periodic dt kvf a F fz S1 mask out.s_track_lower out.s_track_upper).2 i j
    rw [e2]
    set O := outflow periodic (fun i j => -F.fx_upper i j) (fun i j => -F.fy_upper i j) i j
    set I := inflow periodic ru (fun i j => -F.fx_upper i j) (fun i j => -F.fy_upper i j) i j
    have q1 : - (ru i j * O) / a i ≤ I / a i := div_le_div_of_nonneg_right iu (ha i).le
    have hs := hshare _ _ (h1 i j).1 (h1 i j).2
    have q2 : - (ru i j * (O / a i + max (-fz i j) 0 + kvf * |fz i j|)) ≤
        I / a i - downward (-fz i j) kvf (ru i j) (rl i j) +
        share (mask i j * F.precip i j) (S1.s_upper i j) (S1.s_lower i j) := by
      have e : - (ru i j * O) / a i = - (ru i j * (O / a i)) := by ring
      rw [e] at q1
      nlinarith
    have q3 := mul_le_mul_of_nonneg_left q2 hdt
    have q4 := mul_le_mul_of_nonneg_left cfl_u (ru0 i j)
    nlinarith
  refine ⟨t1, t2, ?_, ?_⟩
  · by_contra h
    rcases (C18_losses_gains_backward periodic dt kvf a F fz S0 S1 mask out h0 i j).2.2 h with h | h
    · exact absurd t1 (not_le.2 h)
    · exact absurd t2 (not_le.2 h)
  · by_cases hb : isBoundary periodic i j
    · have := (C14_boundary_backward periodic dt kvf a F fz S0 S1 mask out h0 i j hb).2.2.1
      simp only [out']
      rw [this]
      exact le_add_of_nonneg_right (add_nonneg t1 t2)
    · exact (C18_losses_gains_backward periodic dt kvf a F fz S0 S1 mask out h0 i j).2.1 hb

/-! ### No tagging -/

/-- **C19** (forward, one step): without tagging and without tracked water nothing happens. -/
theorem C19_nothing_from_nothing_forward (out : FwdOutput (m + 2) (n + 2) K) (h0 : Wet S0)
    (h1 : Wet S1) (hm : ∀ i j, mask i j = 0) (hl : ∀ i j, out.s_track_lower i j = 0)
    (hu : ∀ i j, out.s_track_upper i j = 0) :
    forwardtrack periodic dt kvf a F fz S1 S0 mask out = out := by
  have f0 : ∀ s : K, fraction 0 s = 0 := fun s => by simp [fraction]
  have ht : fwdTransport periodic dt kvf a F fz S0 mask out.s_track_lower out.s_track_upper =
      (fun _ _ => 0, fun _ _ => 0) := by
    refine Prod.ext ?_ ?_ <;> funext i j
    · simp only [fwdTransport, relStorage_eq, hl, hu, f0, advect_eq_inflow, inflow_zero, hm,
        verticalAdvection, verticalDispersion]
      simp
    · simp only [fwdTransport, relStorage_eq, hl, hu, f0, advect_eq_inflow, inflow_zero,
        verticalAdvection, verticalDispersion]
      simp
  unfold forwardtrack
  simp only [ht, settle_zero _ _ _ (h1 _ _).2.le (h1 _ _).1.le, hm, hl, hu, relStorage_eq, f0,
    zero_mul, mul_zero, add_zero]
  cases out
  simp only at hl hu
  simp only [FwdOutput.mk.injEq, and_true]
  exact ⟨(funext fun i => funext fun j => (hu i j).symm),
    (funext fun i => funext fun j => (hl i j).symm)⟩

/-- **C19** (backward, one step) -/
theorem C19_nothing_from_nothing_backward (out : BwdOutput (m + 2) (n + 2) K) (h0 : Wet S0)
    (h1 : Wet S1) (hm : ∀ i j, mask i j = 0) (hl : ∀ i j, out.s_track_lower i j = 0)
    (hu : ∀ i j, out.s_track_upper i j = 0) :
    backtrack periodic dt kvf a F fz S1 S0 mask out = out := by
  have f0 : ∀ s : K, fraction 0 s = 0 := fun s => by simp [fraction]
  have ht : bwdTransport periodic dt kvf a F fz S1 mask out.s_track_lower out.s_track_upper =
      (fun _ _ => 0, fun _ _ => 0) := by
    refine Prod.ext ?_ ?_ <;> funext i j
    · simp only [bwdTransport, relStorage_eq, hl, hu, f0, advect_eq_inflow_neg, inflow_zero, hm,
        verticalAdvection, verticalDispersion]
      simp
    · simp only [bwdTransport, relStorage_eq, hl, hu, f0, advect_eq_inflow_neg, inflow_zero, hm,
        verticalAdvection, verticalDispersion]
      simp
  unfold backtrack
  simp only [ht, settle_zero _ _ _ (h0 _ _).2.le (h0 _ _).1.le, hm, hl, hu, relStorage_eq, f0,
    zero_mul, mul_zero, add_zero]
  cases out
  simp only at hl hu
  simp only [BwdOutput.mk.injEq, and_true]
  exact ⟨(funext fun i => funext fun j => (hu i j).symm),
    (funext fun i => funext fun j => (hl i j).symm)⟩

end

end Wam
