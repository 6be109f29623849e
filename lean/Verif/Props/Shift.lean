import Verif.Spec.Shift
import Verif.Lemmas.Equivariant
import Verif.Lemmas.Demo

/-!
# C103: another time
-/
set_option linter.unusedSectionVars false
set_option linter.unusedVariables false

namespace Wam
open Spec

theorem floorTime_shift {u δ : ℤ} (h : u ∣ δ) (t : ℤ) : floorTime (t + δ) u = floorTime t u + δ := by
  unfold floorTime
  rw [Int.add_emod, Int.emod_eq_zero_of_dvd h, add_zero, Int.emod_emod]
  omega

private theorem sub_shift (a b c : ℤ) : a + b - c = a - c + b := by omega

section
variable {m n : ℕ} {α : Type*} [Add α] [Sub α] [Mul α] [Div α] [Neg α] [NpOps α] {P P' : Type*}

theorem taggingMask_shift (δ : ℤ) (cfg : RunConfig α) (r : Region (m + 2) (n + 2) α) (t : ℤ) :
    taggingMask (shiftConfig δ cfg) (shiftRegion δ r) (t + δ) =
      (taggingMask cfg r t).map fun x => (x.1, x.2.map (shiftLoad δ)) := by
  unfold taggingMask
  have hc : ((shiftConfig δ cfg).tagging_start_date ≤ t + δ ∧ t + δ ≤ (shiftConfig δ cfg).tagging_end_date) ↔
      (cfg.tagging_start_date ≤ t ∧ t ≤ cfg.tagging_end_date) := by
    show (cfg.tagging_start_date + δ ≤ t + δ ∧ t + δ ≤ cfg.tagging_end_date + δ) ↔ _
    omega
  by_cases h : cfg.tagging_start_date ≤ t ∧ t ≤ cfg.tagging_end_date
  · rw [if_pos (hc.mpr h), if_pos h]
    cases r with
    | stationary mask => rfl
    | moving maskAt =>
      simp only [shiftRegion, add_sub_cancel_right]
      cases maskAt t <;> rfl
  · rw [if_neg (fun x => h (hc.mp x)), if_neg h]
    rfl

theorem fwdAdvance_shift (δ : ℤ) (cfg : RunConfig α) (src : Source m n α) (r : Region (m + 2) (n + 2) α) (t0 th t1 : ℤ)
    (o : FwdOutput (m + 2) (n + 2) α) :
    fwdAdvance (shiftConfig δ cfg) (shiftSource δ src) (shiftRegion δ r) (t0 + δ) (th + δ) (t1 + δ) o =
      (fwdAdvance cfg src r t0 th t1 o).map fun x => (x.1, x.2.map (shiftLoad δ)) := by
  have e1 : ∀ t, (shiftSource δ src).states (t + δ) = src.states t := fun t => by
    show src.states (t + δ - δ) = _; rw [add_sub_cancel_right]
  have e2 : ∀ t, (shiftSource δ src).fluxes (t + δ) = src.fluxes t := fun t => by
    show src.fluxes (t + δ - δ) = _; rw [add_sub_cancel_right]
  unfold fwdAdvance
  rw [e1, e1, e2, taggingMask_shift]
  rcases src.states t0 with e | S0
  · rfl
  rcases src.fluxes th with e | F
  · rfl
  rcases src.states t1 with e | S1
  · rfl
  rcases taggingMask cfg r t0 with e | ⟨mask, l⟩ <;> rfl

/-- **C103** (forward).  If all dates of the configuration, all data and a moving tagging region are moved by an amount of time
that is a multiple of the output interval, then the run does the same with all times moved: the same data are loaded, the same
errors raised, the same files written and the same progress reported, at times moved by that amount.  For every kind of numbers
(exact, rounded, with NaN). -/
theorem C103_shift_forward (δ : ℤ) (cfg : RunConfig α) (src : Source m n α) (hδ : cfg.output_frequency ∣ δ)
    (path : ℤ → P) (path' : ℤ → P')
    (disk : P → Option (FwdOutput (m + 2) (n + 2) α)) (disk' : P' → Option (FwdOutput (m + 2) (n + 2) α))
    (hd : cfg.restart = true → disk' (path' (cfg.tracking_start_date + δ)) = disk (path cfg.tracking_start_date)) (fuel : ℕ) :
    Corresponds (ShiftedBy δ) (fwdRun cfg src path disk fuel) (fwdRun (shiftConfig δ cfg) (shiftSource δ src) path' disk' fuel) := by
  have hst : ∀ o, ShiftedBy δ (fwdStart cfg src o) (fwdStart (shiftConfig δ cfg) (shiftSource δ src) o) := fun o =>
    ⟨rfl, by show _ + δ + _ = _ + _ + δ; exact add_right_comm _ _ _, by show _ + δ + _ = _ + _ + δ; exact add_right_comm _ _ _,
      rfl, rfl, rfl, rfl, rfl⟩
  have hinit : fwdInitialize (shiftConfig δ cfg) (shiftSource δ src) path' disk' = fwdInitialize cfg src path disk := by
    have e1 : (shiftSource δ src).states (cfg.tracking_start_date + δ) = src.states cfg.tracking_start_date := by
      show src.states (_ + δ - δ) = _; rw [add_sub_cancel_right]
    unfold fwdInitialize
    show (match (shiftSource δ src).states (cfg.tracking_start_date + δ) with | .error e => _ | .ok _ => _) = _
    rw [e1]
    rcases src.states cfg.tracking_start_date with e | S
    · rfl
    · show (if cfg.restart = true then _ else _) = if cfg.restart = true then _ else _
      by_cases hr : cfg.restart = true
      · rw [if_pos hr, if_pos hr]
        show (match disk' (path' (cfg.tracking_start_date + δ)) with | none => _ | some ds => _) = _
        rw [hd hr]
        rcases disk (path cfg.tracking_start_date) with _ | ds <;> rfl
      · rw [if_neg hr, if_neg hr]
  unfold fwdRun
  rw [hinit]
  rcases fwdInitialize cfg src path disk with e | o
  · have h := hst FwdOutput.zeros
    exact .raised ⟨h.t0, h.th, h.t1, h.output, h.tracker, rfl, h.files, h.reports⟩
  · show Corresponds _ _ (match src.region.map (shiftRegion δ) with | .error e => _ | .ok region => _)
    rcases hreg : src.region with e | r
    · exact .raised (hst o)
    · refine whileLoop_corresponds (ShiftedBy δ) _ _ _ _ (fun s t h => ?_) (fun s t h => ?_) fuel _ _ (hst o)
      · unfold fwdGuard
        rw [h.t1]
        exact decide_eq_decide.mpr (by show s.t1 + δ ≤ cfg.tracking_end_date + δ ↔ _; omega)
      · unfold fwdBody
        rw [h.t0, h.th, h.t1, h.output, h.tracker, fwdAdvance_shift]
        rcases fwdAdvance cfg src r s.t0 s.th s.t1 s.output with e | ⟨o', l⟩
        · exact .inl ⟨e, rfl, rfl⟩
        · right
          have hc : (decide (s.t0 + δ + cfg.dt = floorTime (s.t0 + δ + cfg.dt) cfg.output_frequency) ||
              decide (cfg.tracking_end_date + δ < s.t1 + δ + cfg.dt)) =
              (decide (s.t0 + cfg.dt = floorTime (s.t0 + cfg.dt) cfg.output_frequency) ||
              decide (cfg.tracking_end_date < s.t1 + cfg.dt)) := by
            rw [show s.t0 + δ + cfg.dt = s.t0 + cfg.dt + δ by omega, floorTime_shift hδ]
            congr 1
            · exact decide_eq_decide.mpr (by omega)
            · exact decide_eq_decide.mpr (by omega)
          simp only [Except.map]
          show (∃ s' t', (if (decide (s.t0 + cfg.dt = floorTime (s.t0 + cfg.dt) cfg.output_frequency) ||
              decide (cfg.tracking_end_date < s.t1 + cfg.dt)) = true then _ else _) = _ ∧
            (if (decide (s.t0 + δ + cfg.dt = floorTime (s.t0 + δ + cfg.dt) cfg.output_frequency) ||
              decide (cfg.tracking_end_date + δ < s.t1 + δ + cfg.dt)) = true then _ else _) = _ ∧ _)
          rw [hc]
          by_cases hw : (decide (s.t0 + cfg.dt = floorTime (s.t0 + cfg.dt) cfg.output_frequency) ||
              decide (cfg.tracking_end_date < s.t1 + cfg.dt)) = true
          · rw [if_pos hw, if_pos hw]
            exact ⟨_, _, rfl, rfl, add_right_comm _ _ _, add_right_comm _ _ _, add_right_comm _ _ _, rfl, rfl,
              by simp only [h.loads, List.map_append],
              by simp only [h.files, List.map_append, List.map_cons, List.map_nil]; rw [add_right_comm]; rfl,
              by simp only [h.reports, List.map_append, List.map_cons, List.map_nil]; rw [add_right_comm]; rfl⟩
          · rw [if_neg hw, if_neg hw]
            exact ⟨_, _, rfl, rfl, add_right_comm _ _ _, add_right_comm _ _ _, add_right_comm _ _ _, rfl, rfl,
              by simp only [h.loads, List.map_append], h.files, h.reports⟩

theorem bwdAdvance_shift (δ : ℤ) (cfg : RunConfig α) (src : Source m n α) (r : Region (m + 2) (n + 2) α) (t0 th t1 : ℤ)
    (o : BwdOutput (m + 2) (n + 2) α) :
    bwdAdvance (shiftConfig δ cfg) (shiftSource δ src) (shiftRegion δ r) (t0 + δ) (th + δ) (t1 + δ) o =
      (bwdAdvance cfg src r t0 th t1 o).map fun x => (x.1, x.2.map (shiftLoad δ)) := by
  have e1 : ∀ t, (shiftSource δ src).states (t + δ) = src.states t := fun t => by
    show src.states (t + δ - δ) = _; rw [add_sub_cancel_right]
  have e2 : ∀ t, (shiftSource δ src).fluxes (t + δ) = src.fluxes t := fun t => by
    show src.fluxes (t + δ - δ) = _; rw [add_sub_cancel_right]
  unfold bwdAdvance
  rw [e1, e1, e2, taggingMask_shift]
  rcases src.states t0 with e | S0
  · rfl
  rcases src.fluxes th with e | F
  · rfl
  rcases src.states t1 with e | S1
  · rfl
  rcases taggingMask cfg r t1 with e | ⟨mask, l⟩ <;> rfl

/-- **C103** (backward) -/
theorem C103_shift_backward (δ : ℤ) (cfg : RunConfig α) (src : Source m n α) (hδ : cfg.output_frequency ∣ δ)
    (path : ℤ → P) (path' : ℤ → P')
    (disk : P → Option (BwdOutput (m + 2) (n + 2) α)) (disk' : P' → Option (BwdOutput (m + 2) (n + 2) α))
    (hd : cfg.restart = true → disk' (path' (cfg.tracking_end_date + δ)) = disk (path cfg.tracking_end_date)) (fuel : ℕ) :
    Corresponds (ShiftedBy δ) (bwdRun cfg src path disk fuel) (bwdRun (shiftConfig δ cfg) (shiftSource δ src) path' disk' fuel) := by
  have hst : ∀ o, ShiftedBy δ (bwdStart cfg src o) (bwdStart (shiftConfig δ cfg) (shiftSource δ src) o) := fun o =>
    ⟨sub_shift _ _ _, sub_shift _ _ _, rfl,
      rfl, rfl, rfl, rfl, rfl⟩
  have hinit : bwdInitialize (shiftConfig δ cfg) (shiftSource δ src) path' disk' = bwdInitialize cfg src path disk := by
    have e1 : (shiftSource δ src).states (cfg.tracking_end_date + δ) = src.states cfg.tracking_end_date := by
      show src.states (_ + δ - δ) = _; rw [add_sub_cancel_right]
    unfold bwdInitialize
    show (match (shiftSource δ src).states (cfg.tracking_end_date + δ) with | .error e => _ | .ok _ => _) = _
    rw [e1]
    rcases src.states cfg.tracking_end_date with e | S
    · rfl
    · show (if cfg.restart = true then _ else _) = if cfg.restart = true then _ else _
      by_cases hr : cfg.restart = true
      · rw [if_pos hr, if_pos hr]
        show (match disk' (path' (cfg.tracking_end_date + δ)) with | none => _ | some ds => _) = _
        rw [hd hr]
        rcases disk (path cfg.tracking_end_date) with _ | ds <;> rfl
      · rw [if_neg hr, if_neg hr]
  unfold bwdRun
  rw [hinit]
  rcases bwdInitialize cfg src path disk with e | o
  · have h := hst BwdOutput.zeros
    exact .raised ⟨h.t0, h.th, h.t1, h.output, h.tracker, rfl, h.files, h.reports⟩
  · show Corresponds _ _ (match src.region.map (shiftRegion δ) with | .error e => _ | .ok region => _)
    rcases hreg : src.region with e | r
    · exact .raised (hst o)
    · refine whileLoop_corresponds (ShiftedBy δ) _ _ _ _ (fun s t h => ?_) (fun s t h => ?_) fuel _ _ (hst o)
      · unfold bwdGuard
        rw [h.t0]
        exact decide_eq_decide.mpr (by show cfg.tracking_start_date + δ ≤ s.t0 + δ ↔ _; omega)
      · unfold bwdBody
        rw [h.t0, h.th, h.t1, h.output, h.tracker, bwdAdvance_shift]
        rcases bwdAdvance cfg src r s.t0 s.th s.t1 s.output with e | ⟨o', l⟩
        · exact .inl ⟨e, rfl, rfl⟩
        · right
          have hc : (decide (s.t1 + δ - cfg.dt = floorTime (s.t1 + δ - cfg.dt) cfg.output_frequency) ||
              decide (s.t0 + δ - cfg.dt < cfg.tracking_start_date + δ)) =
              (decide (s.t1 - cfg.dt = floorTime (s.t1 - cfg.dt) cfg.output_frequency) ||
              decide (s.t0 - cfg.dt < cfg.tracking_start_date)) := by
            rw [show s.t1 + δ - cfg.dt = s.t1 - cfg.dt + δ by omega, floorTime_shift hδ]
            congr 1
            · exact decide_eq_decide.mpr (by omega)
            · exact decide_eq_decide.mpr (by omega)
          simp only [Except.map]
          show (∃ s' t', (if (decide (s.t1 - cfg.dt = floorTime (s.t1 - cfg.dt) cfg.output_frequency) ||
              decide (s.t0 - cfg.dt < cfg.tracking_start_date)) = true then _ else _) = _ ∧
            (if (decide (s.t1 + δ - cfg.dt = floorTime (s.t1 + δ - cfg.dt) cfg.output_frequency) ||
              decide (s.t0 + δ - cfg.dt < cfg.tracking_start_date + δ)) = true then _ else _) = _ ∧ _)
          rw [hc]
          by_cases hw : (decide (s.t1 - cfg.dt = floorTime (s.t1 - cfg.dt) cfg.output_frequency) ||
              decide (s.t0 - cfg.dt < cfg.tracking_start_date)) = true
          · rw [if_pos hw, if_pos hw]
            exact ⟨_, _, rfl, rfl, sub_shift _ _ _, sub_shift _ _ _, sub_shift _ _ _, rfl, rfl,
              by simp only [h.loads, List.map_append],
              by simp only [h.files, List.map_append, List.map_cons, List.map_nil]; rw [sub_shift]; rfl,
              by simp only [h.reports, List.map_append, List.map_cons, List.map_nil]; rw [sub_shift]; rfl⟩
          · rw [if_neg hw, if_neg hw]
            exact ⟨_, _, rfl, rfl, sub_shift _ _ _, sub_shift _ _ _, sub_shift _ _ _, rfl, rfl,
              by simp only [h.loads, List.map_append], h.files, h.reports⟩

end

/-- the demo run of `Lemmas/Demo` a day later -/
example : ∃ s s', fwdRun Demo.cfg Demo.src Demo.path (fun _ => none) 4 = .finished s ∧
    fwdRun (shiftConfig (72 * (2 * Demo.step)) Demo.cfg) (shiftSource (72 * (2 * Demo.step)) Demo.src) Demo.path (fun _ => none) 4 =
      .finished s' ∧ s'.files = s.files.map fun x => (x.1 + 86400000000, x.2) := by
  have h := C103_shift_forward (72 * (2 * Demo.step)) Demo.cfg Demo.src (Dvd.intro_left 72 rfl) Demo.path Demo.path (fun _ => none)
    (fun _ => none) (fun _ => rfl) 4
  obtain ⟨o, ho⟩ := fwd_init_ok Demo.cfg Demo.src Demo.inp Demo.path (fun _ => none) Demo.runnable (by decide)
  obtain ⟨r, _, _, hrun⟩ := fwd_run_eq Demo.cfg Demo.src Demo.inp Demo.path _ Demo.runnable o ho
  rw [hrun, if_neg (by decide)] at h ⊢
  generalize hq : fwdRun (shiftConfig (72 * (2 * Demo.step)) Demo.cfg) (shiftSource (72 * (2 * Demo.step)) Demo.src) Demo.path
    (fun _ => none) 4 = q at h ⊢
  cases h with
  | finished h => exact ⟨_, _, rfl, rfl, h.files⟩

end Wam
