import Verif.Props.Superposition

/-! # C31: what the tagging window does to a run -/
set_option linter.unusedSectionVars false
set_option linter.unusedVariables false

namespace Wam
open Spec

variable {m n : ℕ} {K : Type*} [Field K] [LinearOrder K] [IsStrictOrderedRing K] {P : Type*}

section
variable (cfg : RunConfig K) (src src' : Source m n K) (inp inp' : Input m n K) (path : ℤ → P)

theorem maskAt_window (hr : ∀ t, cfg.tagging_start_date ≤ t → t ≤ cfg.tagging_end_date →
    inp'.region t = inp.region t) (t : ℤ) : maskAt cfg inp' t = maskAt cfg inp t := by
  unfold maskAt
  by_cases h : inWindow cfg t
  · rw [if_pos h, if_pos h, hr t h.1 h.2]
  · rw [if_neg h, if_neg h]

theorem fwdStepAt_window (g : GridInfo (m + 2) K) (hw : SameWeather inp inp')
    (hr : ∀ t, cfg.tagging_start_date ≤ t → t ≤ cfg.tagging_end_date → inp'.region t = inp.region t)
    (t : ℤ) (o : FwdOutput (m + 2) (n + 2) K) :
    fwdStepAt cfg g inp' t o = fwdStepAt cfg g inp t o := by
  unfold fwdStepAt
  rw [maskAt_window cfg inp inp' hr, hw.1, hw.2]

theorem bwdStepAt_window (g : GridInfo (m + 2) K) (hw : SameWeather inp inp')
    (hr : ∀ t, cfg.tagging_start_date ≤ t → t ≤ cfg.tagging_end_date → inp'.region t = inp.region t)
    (t : ℤ) (o : BwdOutput (m + 2) (n + 2) K) :
    bwdStepAt cfg g inp' t o = bwdStepAt cfg g inp t o := by
  unfold bwdStepAt
  rw [maskAt_window cfg inp inp' hr, hw.1, hw.2]

/-- **C31** (forward run): a step whose start time is outside the closed tagging window tags nothing: the
region at times outside the window has no influence on any output. -/
theorem C31_outside_window_forward (disk : P → Option (FwdOutput (m + 2) (n + 2) K))
    (h : Runnable cfg src inp) (h' : Runnable cfg src' inp') (hg : src'.grid = src.grid)
    (hw : SameWeather inp inp')
    (hr : ∀ t, cfg.tagging_start_date ≤ t → t ≤ cfg.tagging_end_date → inp'.region t = inp.region t)
    {s s'} (hs : EndsIn (fwdRun cfg src path disk) s) (hs' : EndsIn (fwdRun cfg src' path disk) s') :
    s'.files = s.files ∧ s'.output = s.output := by
  obtain ⟨o, r, ho, rfl⟩ := fwd_ends cfg src inp path disk h hs
  obtain ⟨o', r', ho', rfl⟩ := fwd_ends cfg src' inp' path disk h' hs'
  have e : o' = o := by
    rw [fwd_init_eq _ _ _ _ _ ho, fwd_init_eq _ _ _ _ _ ho']
  have p : fwdProc cfg src'.grid inp' = fwdProc cfg src.grid inp := by
    rw [hg]
    unfold fwdProc
    have : (fun k => fwdStepAt cfg src.grid inp' (cfg.fwdTime k)) =
        fun k => fwdStepAt cfg src.grid inp (cfg.fwdTime k) :=
      funext fun k => funext fun x => fwdStepAt_window cfg inp inp' src.grid hw hr _ x
    rw [this]
  simp only [fwdStateAt, p, e, and_self]

/-- **C31** (backward run): here the end time of the step decides. -/
theorem C31_outside_window_backward (disk : P → Option (BwdOutput (m + 2) (n + 2) K))
    (h : Runnable cfg src inp) (h' : Runnable cfg src' inp') (hg : src'.grid = src.grid)
    (hw : SameWeather inp inp')
    (hr : ∀ t, cfg.tagging_start_date ≤ t → t ≤ cfg.tagging_end_date → inp'.region t = inp.region t)
    {s s'} (hs : EndsIn (bwdRun cfg src path disk) s) (hs' : EndsIn (bwdRun cfg src' path disk) s') :
    s'.files = s.files ∧ s'.output = s.output := by
  obtain ⟨o, r, ho, rfl⟩ := bwd_ends cfg src inp path disk h hs
  obtain ⟨o', r', ho', rfl⟩ := bwd_ends cfg src' inp' path disk h' hs'
  have e : o' = o := by
    rw [bwd_init_eq _ _ _ _ _ ho, bwd_init_eq _ _ _ _ _ ho']
  have p : bwdProc cfg src'.grid inp' = bwdProc cfg src.grid inp := by
    rw [hg]
    unfold bwdProc
    have : (fun k => bwdStepAt cfg src.grid inp' (cfg.bwdTime k)) =
        fun k => bwdStepAt cfg src.grid inp (cfg.bwdTime k) :=
      funext fun k => funext fun x => bwdStepAt_window cfg inp inp' src.grid hw hr _ x
    rw [this]
  simp only [bwdStateAt, p, e, and_self]

/-- **C31** (forward run): a window that begins `p` steps after the start of the run and ends `w` steps later
tags the steps `p, p + 1, …, p + w` - that is `w + 1` steps - and no others. -/
theorem C31_tagged_steps_forward (disk : P → Option (FwdOutput (m + 2) (n + 2) K))
    (h : Runnable cfg src inp) {s} (hs : EndsIn (fwdRun cfg src path disk) s) (p w : ℕ)
    (h0 : cfg.tagging_start_date = cfg.tracking_start_date + p * (cfg.timestep * 1000000))
    (h1 : cfg.tagging_end_date = cfg.tracking_start_date + (p + w) * (cfg.timestep * 1000000))
    (h2 : cfg.tracking_start_date + (p + w + 1) * (cfg.timestep * 1000000) ≤ cfg.tracking_end_date)
    (i j) :
    sumFiles s.files (·.tagged_evap i j) = ∑ k ∈ Finset.Icc p (p + w),
      let t := cfg.tracking_start_date + k * (cfg.timestep * 1000000)
      inp.region t i j * (inp.fluxes (t + cfg.timestep * 1000000 / 2)).evap i j * cfg.timestep := by
  rw [C32_tagged_total_forward cfg src inp path disk h hs i j]
  have hdt : 0 < cfg.timestep * 1000000 := by have := h.timestep_pos; omega
  have hN : p + w < stepCount cfg.tracking_start_date cfg.tracking_end_date (cfg.timestep * 1000000) := by
    rw [lt_stepCount hdt]; push_cast; exact h2
  refine Finset.sum_congr ?_ fun _ _ => rfl
  ext k
  rw [Finset.mem_filter, Finset.mem_range, Finset.mem_Icc, h0, h1, add_le_add_iff_left,
    mul_le_mul_iff_left₀ hdt, add_le_add_iff_left, mul_le_mul_iff_left₀ hdt]
  change (k < stepCount _ _ _ ∧ _) ↔ _
  omega

/-- **C31** (backward run): a window that ends `p` steps before the end of the run and began `w` steps earlier
tags `w + 1` steps. -/
theorem C31_tagged_steps_backward (disk : P → Option (BwdOutput (m + 2) (n + 2) K))
    (h : Runnable cfg src inp) {s} (hs : EndsIn (bwdRun cfg src path disk) s) (p w : ℕ)
    (h0 : cfg.tagging_end_date = cfg.tracking_end_date - p * (cfg.timestep * 1000000))
    (h1 : cfg.tagging_start_date = cfg.tracking_end_date - (p + w) * (cfg.timestep * 1000000))
    (h2 : cfg.tracking_start_date ≤ cfg.tracking_end_date - (p + w + 1) * (cfg.timestep * 1000000))
    (i j) :
    sumFiles s.files (·.tagged_precip i j) = ∑ k ∈ Finset.Icc p (p + w),
      let t := cfg.tracking_end_date - k * (cfg.timestep * 1000000)
      inp.region t i j * (inp.fluxes (t - cfg.timestep * 1000000 / 2)).precip i j * cfg.timestep := by
  rw [C32_tagged_total_backward cfg src inp path disk h hs i j]
  have hdt : 0 < cfg.timestep * 1000000 := by have := h.timestep_pos; omega
  have hN : p + w < stepCount cfg.tracking_start_date cfg.tracking_end_date (cfg.timestep * 1000000) := by
    rw [lt_stepCount hdt]; push_cast; linarith
  refine Finset.sum_congr ?_ fun _ _ => rfl
  ext k
  rw [Finset.mem_filter, Finset.mem_range, Finset.mem_Icc, h0, h1, sub_le_sub_iff_left,
    mul_le_mul_iff_left₀ hdt, sub_le_sub_iff_left, mul_le_mul_iff_left₀ hdt]
  change (k < stepCount _ _ _ ∧ _) ↔ _
  omega

end

/-! ### Concrete cases -/

namespace Demo

/-- tagging in steps 1 and 2 of the four steps of the demo run -/
def cfgW : RunConfig ℚ :=
  { cfg with tagging_start_date := cfg.tracking_start_date + 1 * (cfg.timestep * 1000000)
             tagging_end_date := cfg.tracking_start_date + 2 * (cfg.timestep * 1000000) }

theorem runnableW (mask) : Runnable cfgW (srcOf mask) (inpOf mask) where
  timestep_pos := by decide
  ordered := by decide
  serves := (runnableOf mask).serves

/-- C31, forward: two steps are tagged by a window of one step; something is tagged -/
example : ∃ s, EndsIn (fwdRun cfgW (srcOf maskA) path fun _ => none) s ∧
    sumFiles s.files (·.tagged_evap 1 1) = ∑ k ∈ Finset.Icc 1 (1 + 1),
      (inp.fluxes (cfg.tracking_start_date + (k : ℕ) * (cfg.timestep * 1000000) +
        cfg.timestep * 1000000 / 2)).evap 1 1 * cfg.timestep ∧
    0 < sumFiles s.files (·.tagged_evap 1 1) := by
  obtain ⟨r, _, _, hrun⟩ := fwd_run_eq cfgW (srcOf maskA) (inpOf maskA) path (fun _ => none) (runnableW maskA)
    FwdOutput.zeros rfl
  have he : EndsIn (fwdRun cfgW (srcOf maskA) path fun _ => none) _ :=
    ⟨cfgW.steps, fun fuel hf => (hrun fuel).trans (if_neg (not_lt.mpr hf))⟩
  have key := C31_tagged_steps_forward cfgW (srcOf maskA) (inpOf maskA) path (fun _ => none) (runnableW maskA)
    he 1 1 (by decide +kernel) (by decide +kernel) (by decide +kernel) 1 1
  refine ⟨_, he, key.trans ?_, ?_⟩
  · refine Finset.sum_congr rfl fun k _ => ?_
    change (1 : ℚ) * _ * _ = _
    rw [one_mul]
    rfl
  · rw [key]
    decide +kernel

/-- C31, backward -/
example : ∃ s, EndsIn (bwdRun cfgW (srcOf maskA) path fun _ => none) s ∧
    sumFiles s.files (·.tagged_precip 1 1) = ∑ k ∈ Finset.Icc 2 (2 + 1),
      (inp.fluxes (cfg.tracking_end_date - (k : ℕ) * (cfg.timestep * 1000000) -
        cfg.timestep * 1000000 / 2)).precip 1 1 * cfg.timestep ∧
    0 < sumFiles s.files (·.tagged_precip 1 1) := by
  obtain ⟨r, _, _, hrun⟩ := bwd_run_eq cfgW (srcOf maskA) (inpOf maskA) path (fun _ => none) (runnableW maskA)
    BwdOutput.zeros rfl
  have he : EndsIn (bwdRun cfgW (srcOf maskA) path fun _ => none) _ :=
    ⟨cfgW.steps, fun fuel hf => (hrun fuel).trans (if_neg (not_lt.mpr hf))⟩
  have key := C31_tagged_steps_backward cfgW (srcOf maskA) (inpOf maskA) path (fun _ => none) (runnableW maskA)
    he 2 1 (by decide +kernel) (by decide +kernel) (by decide +kernel) 1 1
  refine ⟨_, he, key.trans ?_, ?_⟩
  · refine Finset.sum_congr rfl fun k _ => ?_
    change (1 : ℚ) * _ * _ = _
    rw [one_mul]
    rfl
  · rw [key]
    decide +kernel

/-- a moving region that is `maskA` in the window of `cfgW` and something else before and after -/
def inpM : Input 1 1 ℚ :=
  { inp with region := fun t => if inWindow cfgW t then maskA else fun _ _ => 7 }
/-- its source -/
def srcM : Source 1 1 ℚ := { src with region := .ok (.moving fun t => .ok (inpM.region t)) }

/-- C31: what the region is outside of the window does not matter -/
example : ∃ s s', EndsIn (fwdRun cfgW (srcOf maskA) path fun _ => none) s ∧
    EndsIn (fwdRun cfgW srcM path fun _ => none) s' ∧ s'.files = s.files ∧ s'.output = s.output := by
  have rM : Runnable cfgW srcM inpM :=
    { timestep_pos := by decide
      ordered := by decide
      serves :=
        { states := fun t h0 h1 => if_pos ⟨h0, h1⟩
          fluxes := fun t h0 h1 => if_pos ⟨h0, h1⟩
          region := ⟨_, rfl, fun t _ _ => rfl⟩ } }
  obtain ⟨r, _, _, hrun⟩ := fwd_run_eq cfgW (srcOf maskA) (inpOf maskA) path (fun _ => none) (runnableW maskA)
    FwdOutput.zeros rfl
  obtain ⟨r', _, _, hrun'⟩ := fwd_run_eq cfgW srcM inpM path (fun _ => none) rM FwdOutput.zeros rfl
  have he : EndsIn (fwdRun cfgW (srcOf maskA) path fun _ => none) _ :=
    ⟨cfgW.steps, fun fuel hf => (hrun fuel).trans (if_neg (not_lt.mpr hf))⟩
  have he' : EndsIn (fwdRun cfgW srcM path fun _ => none) _ :=
    ⟨cfgW.steps, fun fuel hf => (hrun' fuel).trans (if_neg (not_lt.mpr hf))⟩
  refine ⟨_, _, he, he', ?_⟩
  exact C31_outside_window_forward cfgW (srcOf maskA) srcM (inpOf maskA) inpM path _ (runnableW maskA) rM rfl
    ⟨rfl, rfl⟩ (fun t h0 h1 => if_pos ⟨h0, h1⟩) he he'

end Demo

end Wam
