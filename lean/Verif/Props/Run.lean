import Verif.Lemmas.Demo
import Mathlib.Data.List.Sort
import Mathlib.Data.List.Perm.Basic

/-!
# C23-C25: the course of a run

These theorems hold for every carrier of numbers, also with NaN and infinities: they are about the
control flow of `run_experiment`.
-/
set_option linter.unusedSectionVars false
set_option linter.unusedVariables false

namespace Wam
open Spec

section
variable {m n : ℕ} {α : Type*} [Add α] [Sub α] [Mul α] [Div α] [Neg α] [NpOps α] {P : Type*}

theorem maskLoads_weather (cfg : RunConfig α) (r : Region (m + 2) (n + 2) α) (t : ℤ) :
    (maskLoads cfg r t).filter isWeather = [] := by
  unfold maskLoads
  cases r with
  | stationary _ => rfl
  | moving _ => simp only; split <;> simp [isWeather]

theorem fwdLoads_weather (cfg : RunConfig α) (r : Region (m + 2) (n + 2) α) (N : ℕ) :
    (fwdLoads cfg r N).filter isWeather = .states cfg.tracking_start_date ::
      (List.range N).flatMap fun k =>
        [.states (cfg.fwdTime k), .fluxes (cfg.fwdTime k + cfg.halfDt),
         .states (cfg.fwdTime (k + 1))] := by
  induction N with
  | zero => simp [fwdLoads, isWeather]
  | succ k ih =>
    rw [fwdLoads, List.range_succ, List.filter_append, List.filter_append, ih, maskLoads_weather]
    simp [isWeather]

theorem bwdLoads_weather (cfg : RunConfig α) (r : Region (m + 2) (n + 2) α) (N : ℕ) :
    (bwdLoads cfg r N).filter isWeather = .states cfg.tracking_end_date ::
      (List.range N).flatMap fun k =>
        [.states (cfg.bwdTime (k + 1)), .fluxes (cfg.bwdTime k - cfg.halfDt),
         .states (cfg.bwdTime k)] := by
  induction N with
  | zero => simp [bwdLoads, isWeather]
  | succ k ih =>
    rw [bwdLoads, List.range_succ, List.filter_append, List.filter_append, ih, maskLoads_weather]
    simp [isWeather]

/-- **C23** (forward): a run with positive time step `dt` over `[A, B]` takes exactly
`N = floor((B-A)/dt)` iterations, whatever the data: fewer iterations leave it running, and it is
finished after `N`.  It loads, in this order, the states at `A` (for the grid) and for every
`k < N` the states at `A + k dt`, the fluxes half a step later and the states a step later. -/
theorem C23_step_count_forward (cfg : RunConfig α) (src : Source m n α) (inp : Input m n α)
    (path : ℤ → P) (disk : P → Option (FwdOutput (m + 2) (n + 2) α)) (h : Runnable cfg src inp)
    (hr : cfg.restart = true → (disk (path cfg.tracking_start_date)).isSome) :
    let A := cfg.tracking_start_date
    let dt := cfg.timestep * 1000000
    let N := ((cfg.tracking_end_date - A) / dt).toNat
    (∀ fuel < N, ∃ s, fwdRun cfg src path disk fuel = .stillRunning s) ∧
    ∃ s, (∀ fuel, N ≤ fuel → fwdRun cfg src path disk fuel = .finished s) ∧ s.t0 = A + N * dt ∧
      s.loads.filter isWeather = .states A :: (List.range N).flatMap fun k =>
        [.states (A + k * dt), .fluxes (A + k * dt + dt / 2), .states (A + (k + 1) * dt)] := by
  intro A dt N
  obtain ⟨o, ho⟩ := fwd_init_ok cfg src inp path disk h hr
  obtain ⟨r, _, _, hrun⟩ := fwd_run_eq cfg src inp path disk h o ho
  have hN : N = cfg.steps := rfl
  refine ⟨fun fuel hf => ⟨_, (hrun fuel).trans (if_pos (hN ▸ hf))⟩,
    fwdStateAt cfg src inp r o cfg.steps, fun fuel hf => ?_, ?_, ?_⟩
  · exact (hrun fuel).trans (if_neg (not_lt.mpr (hN ▸ hf)))
  · rfl
  · have hh : dt / 2 = cfg.halfDt := by
      have := cfg.dt_eq
      change dt = 2 * cfg.halfDt at this
      omega
    rw [hh]
    simp only [fwdStateAt, fwdLoads_weather]
    simp only [RunConfig.fwdTime]
    push_cast
    rfl

/-- **C23** (backward): the mirror image, starting at the end date. -/
theorem C23_step_count_backward (cfg : RunConfig α) (src : Source m n α) (inp : Input m n α)
    (path : ℤ → P) (disk : P → Option (BwdOutput (m + 2) (n + 2) α)) (h : Runnable cfg src inp)
    (hr : cfg.restart = true → (disk (path cfg.tracking_end_date)).isSome) :
    let B := cfg.tracking_end_date
    let dt := cfg.timestep * 1000000
    let N := ((B - cfg.tracking_start_date) / dt).toNat
    (∀ fuel < N, ∃ s, bwdRun cfg src path disk fuel = .stillRunning s) ∧
    ∃ s, (∀ fuel, N ≤ fuel → bwdRun cfg src path disk fuel = .finished s) ∧ s.t1 = B - N * dt ∧
      s.loads.filter isWeather = .states B :: (List.range N).flatMap fun k =>
        [.states (B - (k + 1) * dt), .fluxes (B - k * dt - dt / 2), .states (B - k * dt)] := by
  intro B dt N
  obtain ⟨o, ho⟩ := bwd_init_ok cfg src inp path disk h hr
  obtain ⟨r, _, _, hrun⟩ := bwd_run_eq cfg src inp path disk h o ho
  have hN : N = cfg.steps := rfl
  refine ⟨fun fuel hf => ⟨_, (hrun fuel).trans (if_pos (hN ▸ hf))⟩,
    bwdStateAt cfg src inp r o cfg.steps, fun fuel hf => ?_, ?_, ?_⟩
  · exact (hrun fuel).trans (if_neg (not_lt.mpr (hN ▸ hf)))
  · rfl
  · have hh : dt / 2 = cfg.halfDt := by
      have := cfg.dt_eq
      change dt = 2 * cfg.halfDt at this
      omega
    rw [hh]
    simp only [bwdStateAt, bwdLoads_weather]
    simp only [RunConfig.bwdTime]
    push_cast
    rfl

/-! ### C24: non-positive time steps -/

theorem whileLoop_forever {σ : Type*} (guard : σ → Bool) (body : σ → Except Err σ) (I : σ → Prop)
    (hg : ∀ s, I s → guard s = true) (hb : ∀ s, I s → ∃ s', body s = .ok s' ∧ I s') (s : σ)
    (hs : I s) (fuel : ℕ) : ∃ s', whileLoop guard body fuel s = .stillRunning s' := by
  induction fuel generalizing s with
  | zero => exact ⟨s, by simp [whileLoop, hg s hs]⟩
  | succ f ih =>
    obtain ⟨s', h', i'⟩ := hb s hs
    obtain ⟨s'', h''⟩ := ih s' i'
    exact ⟨s'', by simp [whileLoop, hg s hs, h', h'']⟩

theorem fwdBody_ok (cfg : RunConfig α) (src : Source m n α) (inp : Input m n α)
    (r : Region (m + 2) (n + 2) α) (s : LoopState (FwdOutput (m + 2) (n + 2) α) α)
    (h0 : src.states s.t0 = .ok (inp.states s.t0)) (hh : src.fluxes s.th = .ok (inp.fluxes s.th))
    (h1 : src.states s.t1 = .ok (inp.states s.t1))
    (hr : regionAt r s.t0 = .ok (inp.region s.t0)) :
    ∃ s', fwdBody cfg src r s = .ok s' ∧ s'.t0 = s.t0 + cfg.dt ∧ s'.th = s.th + cfg.dt ∧
      s'.t1 = s.t1 + cfg.dt := by
  unfold fwdBody fwdAdvance
  rw [h0, hh, h1, taggingMask_ok cfg inp r _ hr]
  simp only
  split <;> exact ⟨_, rfl, rfl, rfl, rfl⟩

theorem bwdBody_ok (cfg : RunConfig α) (src : Source m n α) (inp : Input m n α)
    (r : Region (m + 2) (n + 2) α) (s : LoopState (BwdOutput (m + 2) (n + 2) α) α)
    (h0 : src.states s.t0 = .ok (inp.states s.t0)) (hh : src.fluxes s.th = .ok (inp.fluxes s.th))
    (h1 : src.states s.t1 = .ok (inp.states s.t1))
    (hr : regionAt r s.t1 = .ok (inp.region s.t1)) :
    ∃ s', bwdBody cfg src r s = .ok s' ∧ s'.t0 = s.t0 - cfg.dt ∧ s'.th = s.th - cfg.dt ∧
      s'.t1 = s.t1 - cfg.dt := by
  unfold bwdBody bwdAdvance
  rw [h0, hh, h1, taggingMask_ok cfg inp r _ hr]
  simp only
  split <;> exact ⟨_, rfl, rfl, rfl, rfl⟩

/-- **C24** (forward, zero step): a run with `timestep = 0` never ends, however complete the data. -/
theorem C24_zero_timestep_forward (cfg : RunConfig α) (src : Source m n α) (inp : Input m n α)
    (path : ℤ → P) (disk : P → Option (FwdOutput (m + 2) (n + 2) α)) (h0 : cfg.timestep = 0)
    (hAB : cfg.tracking_start_date ≤ cfg.tracking_end_date) (hr : cfg.restart = false)
    (hS : Serves src inp cfg.tracking_start_date cfg.tracking_end_date) :
    NeverEnds (fwdRun cfg src path disk) := by
  intro fuel
  obtain ⟨r, hr1, hr2⟩ := hS.region
  have hd : cfg.dt = 0 := by simp [RunConfig.dt, h0]
  have hd2 : cfg.halfDt = 0 := by simp [RunConfig.halfDt, h0]
  simp only [fwdRun, fwdInitialize, hS.states _ le_rfl hAB, hr, hr1]
  let A := cfg.tracking_start_date
  apply whileLoop_forever _ _ (fun s => s.t0 = A ∧ s.th = A ∧ s.t1 = A)
  · rintro s ⟨_, _, h⟩
    simp [fwdGuard, h, A, hAB]
  · rintro s ⟨e0, e1, e2⟩
    obtain ⟨s', hb, f0, f1, f2⟩ := fwdBody_ok cfg src inp r s
      (by rw [e0]; exact hS.states _ le_rfl hAB) (by rw [e1]; exact hS.fluxes _ le_rfl hAB)
      (by rw [e2]; exact hS.states _ le_rfl hAB) (by rw [e0]; exact hr2 _ le_rfl hAB)
    exact ⟨s', hb, by simp [f0, e0, hd], by simp [f1, e1, hd], by simp [f2, e2, hd]⟩
  · simp [fwdStart, hd, hd2, A]

/-- **C24** (backward, zero step) -/
theorem C24_zero_timestep_backward (cfg : RunConfig α) (src : Source m n α) (inp : Input m n α)
    (path : ℤ → P) (disk : P → Option (BwdOutput (m + 2) (n + 2) α)) (h0 : cfg.timestep = 0)
    (hAB : cfg.tracking_start_date ≤ cfg.tracking_end_date) (hr : cfg.restart = false)
    (hS : Serves src inp cfg.tracking_start_date cfg.tracking_end_date) :
    NeverEnds (bwdRun cfg src path disk) := by
  intro fuel
  obtain ⟨r, hr1, hr2⟩ := hS.region
  have hd : cfg.dt = 0 := by simp [RunConfig.dt, h0]
  have hd2 : cfg.halfDt = 0 := by simp [RunConfig.halfDt, h0]
  simp only [bwdRun, bwdInitialize, hS.states _ hAB le_rfl, hr, hr1]
  let B := cfg.tracking_end_date
  apply whileLoop_forever _ _ (fun s => s.t0 = B ∧ s.th = B ∧ s.t1 = B)
  · rintro s ⟨h, _, _⟩
    simp [bwdGuard, h, B, hAB]
  · rintro s ⟨e0, e1, e2⟩
    obtain ⟨s', hb, f0, f1, f2⟩ := bwdBody_ok cfg src inp r s
      (by rw [e0]; exact hS.states _ hAB le_rfl) (by rw [e1]; exact hS.fluxes _ hAB le_rfl)
      (by rw [e2]; exact hS.states _ hAB le_rfl) (by rw [e2]; exact hr2 _ hAB le_rfl)
    exact ⟨s', hb, by simp [f0, e0, hd], by simp [f1, e1, hd], by simp [f2, e2, hd]⟩
  · simp [bwdStart, hd, hd2, B]

/-- **C24** (forward): with a non-positive time step the run goes away from the end date and never
ends as long as there are data. -/
theorem C24_nonpositive_timestep_forward (cfg : RunConfig α) (src : Source m n α) (inp : Input m n α)
    (path : ℤ → P) (disk : P → Option (FwdOutput (m + 2) (n + 2) α)) (h0 : cfg.timestep ≤ 0)
    (hAB : cfg.tracking_start_date ≤ cfg.tracking_end_date) (hr : cfg.restart = false)
    (hS : ∀ A B, Serves src inp A B) :
    NeverEnds (fwdRun cfg src path disk) := by
  intro fuel
  obtain ⟨r, hr1, _⟩ := (hS 0 0).region
  have hr2 : ∀ t, regionAt r t = .ok (inp.region t) := by
    intro t
    obtain ⟨r', h1, h2⟩ := (hS t t).region
    rw [hr1] at h1
    cases h1
    exact h2 t le_rfl le_rfl
  have st : ∀ t, src.states t = .ok (inp.states t) := fun t => (hS t t).states t le_rfl le_rfl
  have fl : ∀ t, src.fluxes t = .ok (inp.fluxes t) := fun t => (hS t t).fluxes t le_rfl le_rfl
  have hd : cfg.dt ≤ 0 := by unfold RunConfig.dt usPerSecond; linarith
  simp only [fwdRun, fwdInitialize, st, hr, hr1]
  apply whileLoop_forever _ _ (fun s => s.t1 ≤ cfg.tracking_end_date)
  · intro s h
    simpa [fwdGuard] using h
  · intro s h
    obtain ⟨s', hb, f0, f1, f2⟩ := fwdBody_ok cfg src inp r s (st _) (fl _) (st _) (hr2 _)
    exact ⟨s', hb, by rw [f2]; linarith⟩
  · simp only [fwdStart]; linarith

/-- **C24** (backward) -/
theorem C24_nonpositive_timestep_backward (cfg : RunConfig α) (src : Source m n α)
    (inp : Input m n α) (path : ℤ → P) (disk : P → Option (BwdOutput (m + 2) (n + 2) α))
    (h0 : cfg.timestep ≤ 0) (hAB : cfg.tracking_start_date ≤ cfg.tracking_end_date)
    (hr : cfg.restart = false) (hS : ∀ A B, Serves src inp A B) :
    NeverEnds (bwdRun cfg src path disk) := by
  intro fuel
  obtain ⟨r, hr1, _⟩ := (hS 0 0).region
  have hr2 : ∀ t, regionAt r t = .ok (inp.region t) := by
    intro t
    obtain ⟨r', h1, h2⟩ := (hS t t).region
    rw [hr1] at h1
    cases h1
    exact h2 t le_rfl le_rfl
  have st : ∀ t, src.states t = .ok (inp.states t) := fun t => (hS t t).states t le_rfl le_rfl
  have fl : ∀ t, src.fluxes t = .ok (inp.fluxes t) := fun t => (hS t t).fluxes t le_rfl le_rfl
  have hd : cfg.dt ≤ 0 := by unfold RunConfig.dt usPerSecond; linarith
  simp only [bwdRun, bwdInitialize, st, hr, hr1]
  apply whileLoop_forever _ _ (fun s => cfg.tracking_start_date ≤ s.t0)
  · intro s h
    simpa [bwdGuard] using h
  · intro s h
    obtain ⟨s', hb, f0, f1, f2⟩ := bwdBody_ok cfg src inp r s (st _) (fl _) (st _) (hr2 _)
    exact ⟨s', hb, by rw [f0]; linarith⟩
  · simp only [bwdStart]; linarith

/-! ### C25: output times -/

theorem filter_times (time : ℕ → ℤ) (hinj : Function.Injective time) (u : ℤ) (N : ℕ) :
    ((List.range N).filter fun i => decide (writes time u N (i + 1))).map (fun i => time (i + 1)) =
      ((List.range N).map fun k => time (k + 1)).filter fun t => decide (u ∣ t ∨ t = time N) := by
  rw [List.filter_map]
  congr 1
  apply List.filter_congr
  intro i _
  simp only [Function.comp_apply]
  exact decide_eq_decide.mpr (by simp [writes, hinj.eq_iff])

/-- **C25** (forward): the files of a run are written, in order, at exactly those step times
`A + k dt` (`1 ≤ k ≤ N`) that are multiples of the output frequency or the last step time. -/
theorem C25_output_times_forward (cfg : RunConfig α) (src : Source m n α) (inp : Input m n α)
    (path : ℤ → P) (disk : P → Option (FwdOutput (m + 2) (n + 2) α)) (h : Runnable cfg src inp)
    {s} (hs : EndsIn (fwdRun cfg src path disk) s) :
    let A := cfg.tracking_start_date
    let dt := cfg.timestep * 1000000
    let N := ((cfg.tracking_end_date - A) / dt).toNat
    s.files.map Prod.fst = ((List.range N).map fun k : ℕ => A + (k + 1) * dt).filter
      fun t => decide (cfg.output_frequency ∣ t ∨ t = A + N * dt) := by
  intro A dt N
  obtain ⟨o, r, _, rfl⟩ := fwd_ends cfg src inp path disk h hs
  have hd : dt ≠ 0 := (cfg.dt_pos h.timestep_pos).ne'
  have hinj : Function.Injective cfg.fwdTime := by
    intro a b hab
    have : ((a : ℤ) : ℤ) * dt = b * dt := by
      simpa [RunConfig.fwdTime, RunConfig.dt, usPerSecond, dt] using hab
    exact_mod_cast mul_right_cancel₀ hd this
  have := filter_times cfg.fwdTime hinj cfg.output_frequency cfg.steps
  simp only [fwdStateAt, Proc.files_time]
  refine (Eq.trans ?_ this).trans ?_
  · rfl
  · simp only [RunConfig.fwdTime]
    push_cast
    rfl

/-- **C25** (backward): the files are written at `B - k dt`, latest first. -/
theorem C25_output_times_backward (cfg : RunConfig α) (src : Source m n α) (inp : Input m n α)
    (path : ℤ → P) (disk : P → Option (BwdOutput (m + 2) (n + 2) α)) (h : Runnable cfg src inp)
    {s} (hs : EndsIn (bwdRun cfg src path disk) s) :
    let B := cfg.tracking_end_date
    let dt := cfg.timestep * 1000000
    let N := ((B - cfg.tracking_start_date) / dt).toNat
    s.files.map Prod.fst = ((List.range N).map fun k : ℕ => B - (k + 1) * dt).filter
      fun t => decide (cfg.output_frequency ∣ t ∨ t = B - N * dt) := by
  intro B dt N
  obtain ⟨o, r, _, rfl⟩ := bwd_ends cfg src inp path disk h hs
  have hd : dt ≠ 0 := (cfg.dt_pos h.timestep_pos).ne'
  have hinj : Function.Injective cfg.bwdTime := by
    intro a b hab
    have : ((a : ℤ) : ℤ) * dt = b * dt := by
      simpa [RunConfig.bwdTime, RunConfig.dt, usPerSecond, dt] using hab
    exact_mod_cast mul_right_cancel₀ hd this
  have := filter_times cfg.bwdTime hinj cfg.output_frequency cfg.steps
  simp only [bwdStateAt, Proc.files_time]
  refine (Eq.trans ?_ this).trans ?_
  · rfl
  · simp only [RunConfig.bwdTime]
    push_cast
    rfl

/-- **C25** (forward): output times strictly increase, are never before the start nor after the end,
and a run with at least one step ends with a file at its last step time. -/
theorem C25_output_order_forward (cfg : RunConfig α) (src : Source m n α) (inp : Input m n α)
    (path : ℤ → P) (disk : P → Option (FwdOutput (m + 2) (n + 2) α)) (h : Runnable cfg src inp)
    {s} (hs : EndsIn (fwdRun cfg src path disk) s) :
    (s.files.map Prod.fst).Pairwise (· < ·) ∧
    (∀ x ∈ s.files, cfg.tracking_start_date < x.1 ∧ x.1 ≤ cfg.tracking_end_date) ∧
    (cfg.tracking_start_date + cfg.timestep * 1000000 ≤ cfg.tracking_end_date →
      (s.files.map Prod.fst).getLast? = some s.t0 ∧
      cfg.tracking_end_date < s.t0 + cfg.timestep * 1000000) := by
  have key := C25_output_times_forward cfg src inp path disk h hs
  obtain ⟨o, r, _, e⟩ := fwd_ends cfg src inp path disk h hs
  have hd : 0 < cfg.timestep * 1000000 := cfg.dt_pos h.timestep_pos
  set A := cfg.tracking_start_date with hA
  set dt := cfg.timestep * 1000000 with hdt
  have hlt : ∀ k : ℕ, k < cfg.steps ↔ A + (k + 1) * dt ≤ cfg.tracking_end_date := fun k =>
    lt_stepCount hd k
  refine ⟨?_, ?_, ?_⟩
  · rw [key]
    apply List.Pairwise.filter
    rw [List.pairwise_map]
    refine List.pairwise_lt_range.imp ?_
    intro a b hab
    have : (a : ℤ) < b := by exact_mod_cast hab
    have := mul_lt_mul_of_pos_right this hd
    linarith
  · intro x hx
    have : x.1 ∈ s.files.map Prod.fst := List.mem_map_of_mem hx
    rw [key, List.mem_filter, List.mem_map] at this
    obtain ⟨⟨k, hk, hx1⟩, _⟩ := this
    rw [List.mem_range] at hk
    rw [← hx1]
    refine ⟨?_, (hlt k).mp hk⟩
    have : 0 < ((k : ℤ) + 1) * dt := by positivity
    linarith
  · intro h1
    have hN : 0 < cfg.steps := (hlt 0).mpr (by push_cast; linarith)
    obtain ⟨N', hN'⟩ : ∃ N', cfg.steps = N' + 1 := ⟨cfg.steps - 1, by omega⟩
    have ht0 : s.t0 = A + cfg.steps * dt := by rw [e]; rfl
    constructor
    · rw [key, ht0]
      change (List.filter _ (List.map _ (List.range cfg.steps))).getLast? = _
      have hst : ((cfg.tracking_end_date - A) / dt).toNat = cfg.steps := rfl
      rw [hst, hN', List.range_succ, List.map_append, List.filter_append]
      simp
    · have := (hlt cfg.steps).not.mp (lt_irrefl _)
      rw [ht0]
      linarith

/-- **C25** (backward): output times strictly decrease, are within the tracking period, and a run
with at least one step ends with a file at its last step time. -/
theorem C25_output_order_backward (cfg : RunConfig α) (src : Source m n α) (inp : Input m n α)
    (path : ℤ → P) (disk : P → Option (BwdOutput (m + 2) (n + 2) α)) (h : Runnable cfg src inp)
    {s} (hs : EndsIn (bwdRun cfg src path disk) s) :
    (s.files.map Prod.fst).Pairwise (· > ·) ∧
    (∀ x ∈ s.files, cfg.tracking_start_date ≤ x.1 ∧ x.1 < cfg.tracking_end_date) ∧
    (cfg.tracking_start_date ≤ cfg.tracking_end_date - cfg.timestep * 1000000 →
      (s.files.map Prod.fst).getLast? = some s.t1 ∧
      s.t1 - cfg.timestep * 1000000 < cfg.tracking_start_date) := by
  have key := C25_output_times_backward cfg src inp path disk h hs
  obtain ⟨o, r, _, e⟩ := bwd_ends cfg src inp path disk h hs
  have hd : 0 < cfg.timestep * 1000000 := cfg.dt_pos h.timestep_pos
  set A := cfg.tracking_start_date with hA
  set B := cfg.tracking_end_date with hB
  set dt := cfg.timestep * 1000000 with hdt
  have hlt : ∀ k : ℕ, k < cfg.steps ↔ A + (k + 1) * dt ≤ B := fun k =>
    lt_stepCount hd k
  refine ⟨?_, ?_, ?_⟩
  · rw [key]
    apply List.Pairwise.filter
    rw [List.pairwise_map]
    refine List.pairwise_lt_range.imp ?_
    intro a b hab
    have : (a : ℤ) < b := by exact_mod_cast hab
    have := mul_lt_mul_of_pos_right this hd
    show _ < _
    linarith
  · intro x hx
    have : x.1 ∈ s.files.map Prod.fst := List.mem_map_of_mem hx
    rw [key, List.mem_filter, List.mem_map] at this
    obtain ⟨⟨k, hk, hx1⟩, _⟩ := this
    rw [List.mem_range] at hk
    have := (hlt k).mp hk
    rw [← hx1]
    have h2 : 0 < ((k : ℤ) + 1) * dt := by positivity
    constructor <;> linarith
  · intro h1
    have hN : 0 < cfg.steps := (hlt 0).mpr (by push_cast; linarith)
    obtain ⟨N', hN'⟩ : ∃ N', cfg.steps = N' + 1 := ⟨cfg.steps - 1, by omega⟩
    have ht0 : s.t1 = B - cfg.steps * dt := by rw [e]; rfl
    constructor
    · rw [key, ht0]
      have hst : ((B - A) / dt).toNat = cfg.steps := rfl
      rw [hst, hN', List.range_succ, List.map_append, List.filter_append]
      simp
    · have := (hlt cfg.steps).not.mp (lt_irrefl _)
      rw [ht0]
      linarith

end

end Wam
