import Verif.Props.RunMore
import Verif.Spec.Complete

/-!
# C94: exactly when a run completes, and what it leaves when it does not

For every kind of numbers.  The data a run needs are listed in `Spec/Complete` from the configuration
alone.
-/
set_option linter.unusedSectionVars false
set_option linter.unusedVariables false

namespace Wam
open Spec

/-- The fate of a loop whose `k`-th iteration (`k < N`) succeeds exactly if `ok k` -/
theorem whileLoop_fate {σ : Type*} (guard : σ → Bool) (body : σ → Except Err σ) (I : ℕ → σ → Prop)
    (ok : ℕ → Prop) (N : ℕ)
    (hg : ∀ k s, I k s → (guard s = true ↔ k < N))
    (hok : ∀ k < N, ∀ s, I k s → ok k → ∃ s', body s = .ok s' ∧ I (k + 1) s')
    (hno : ∀ k < N, ∀ s, I k s → ¬ ok k → ∃ e, body s = .error e) :
    ∀ d k s, N = k + d → I k s →
      ((∀ i < N, k ≤ i → ok i) → ∃ s', I N s' ∧ ∀ fuel, d ≤ fuel → whileLoop guard body fuel s = .finished s') ∧
      (∀ j < N, k ≤ j → (∀ i < j, k ≤ i → ok i) → ¬ ok j → ∃ e s', I j s' ∧ ∀ fuel, d ≤ fuel →
        whileLoop guard body fuel s = .raised e s') := by
  intro d
  induction d with
  | zero =>
    intro k s hN hI
    have hgf : guard s = false := by
      rcases hb : guard s with _ | _
      · rfl
      · have := (hg k s hI).mp hb; omega
    refine ⟨fun _ => ⟨s, by rw [hN]; exact hI, fun fuel _ => ?_⟩, fun j hj hkj => by omega⟩
    cases fuel <;> simp [whileLoop, hgf]
  | succ d ih =>
    intro k s hN hI
    have hgt : guard s = true := (hg k s hI).mpr (by omega)
    by_cases hk : ok k
    · obtain ⟨s1, hb, hI1⟩ := hok k (by omega) s hI hk
      have step : ∀ fuel, d + 1 ≤ fuel → ∃ f, d ≤ f ∧
          whileLoop guard body fuel s = whileLoop guard body f s1 := by
        intro fuel hf
        obtain ⟨f, rfl⟩ : ∃ f, fuel = f + 1 := ⟨fuel - 1, by omega⟩
        exact ⟨f, by omega, by simp [whileLoop, hgt, hb]⟩
      obtain ⟨h1, h2⟩ := ih (k + 1) s1 (by omega) hI1
      refine ⟨fun hall => ?_, fun j hj hkj hpre hnj => ?_⟩
      · obtain ⟨s', hs', hrun⟩ := h1 fun i hi hki => hall i hi (by omega)
        refine ⟨s', hs', fun fuel hf => ?_⟩
        obtain ⟨f, hf, e⟩ := step fuel hf
        rw [e]; exact hrun f hf
      · have hne : j ≠ k := fun e => hnj (e ▸ hk)
        obtain ⟨e', s', hs', hrun⟩ := h2 j hj (by omega) (fun i hi hki => hpre i hi (by omega)) hnj
        refine ⟨e', s', hs', fun fuel hf => ?_⟩
        obtain ⟨f, hf, e⟩ := step fuel hf
        rw [e]; exact hrun f hf
    · obtain ⟨e, he⟩ := hno k (by omega) s hI hk
      refine ⟨fun hall => absurd (hall k (by omega) le_rfl) hk, fun j hj hkj hpre hnj => ?_⟩
      have hjk : j = k := by
        by_contra hne
        exact hk (hpre k (by omega) le_rfl)
      refine ⟨e, s, hjk ▸ hI, fun fuel hf => ?_⟩
      obtain ⟨f, rfl⟩ : ∃ f, fuel = f + 1 := ⟨fuel - 1, by omega⟩
      simp [whileLoop, hgt, he]

section
variable {m n : ℕ} {α : Type} [Add α] [Sub α] [Mul α] [Div α] [Neg α] [NpOps α] {P : Type*}

theorem readable_or {β : Type*} (x : Except Err β) : Readable x ∨ ∃ e, x = .error e := by
  cases x with
  | ok v => exact Or.inl ⟨v, rfl⟩
  | error e => exact Or.inr ⟨e, rfl⟩

theorem not_readable {β : Type*} {x : Except Err β} (h : ¬ Readable x) : ∃ e, x = .error e :=
  (readable_or x).resolve_left h

theorem taggingMask_readable (cfg : RunConfig α) (r : Region (m + 2) (n + 2) α) (t : ℤ) :
    Readable (taggingMask cfg r t) ↔ RegionData cfg r t := by
  unfold taggingMask RegionData inWindow regionAt
  by_cases hw : cfg.tagging_start_date ≤ t ∧ t ≤ cfg.tagging_end_date
  · rw [if_pos hw]
    cases r with
    | stationary mask => exact ⟨fun _ _ => ⟨_, rfl⟩, fun _ => ⟨_, rfl⟩⟩
    | moving f =>
      simp only
      cases hf : f t with
      | ok v => exact ⟨fun _ _ => ⟨_, rfl⟩, fun _ => ⟨_, rfl⟩⟩
      | error e =>
        refine ⟨fun ⟨v, hv⟩ => (by cases hv), fun h => ?_⟩
        obtain ⟨v, hv⟩ := h hw
        cases hv
  · rw [if_neg hw]
    exact ⟨fun _ h => absurd h hw, fun _ => ⟨_, rfl⟩⟩

theorem outputTimes_succ (cfg : RunConfig α) (time : ℕ → ℤ) (j : ℕ) :
    outputTimes cfg time (j + 1) = outputTimes cfg time j ++
      (if writes time cfg.output_frequency (runSteps cfg) (j + 1) then [time (j + 1)] else []) := by
  unfold outputTimes
  rw [List.range_succ, List.filter_append, List.map_append]
  by_cases h : writes time cfg.output_frequency (runSteps cfg) (j + 1)
  · rw [if_pos h]; simp [h]
  · rw [if_neg h]; simp [h]


/-! ### Forward -/

/-- invariant of the forward loop: the clock and the times of the files written -/
def FwdAt (cfg : RunConfig α) (k : ℕ) (s : LoopState (FwdOutput (m + 2) (n + 2) α) α) : Prop :=
  s.t0 = timeFwd cfg k ∧ s.th = timeFwd cfg k + cfg.halfDt ∧ s.t1 = timeFwd cfg k + cfg.dt ∧
    s.files.map Prod.fst = outputTimes cfg (timeFwd cfg) k

theorem fwdAdvance_ok (cfg : RunConfig α) (src : Source m n α) (r : Region (m + 2) (n + 2) α)
    (t : ℤ) (o : FwdOutput (m + 2) (n + 2) α) :
    Readable (fwdAdvance cfg src r t (t + cfg.halfDt) (t + cfg.dt) o) ↔ StepDataFwd cfg src r t := by
  unfold fwdAdvance
  constructor
  · rintro ⟨v, hv⟩
    split at hv
    · rename_i S0 F S1 mask loaded h1 h2 h3 h4
      exact ⟨⟨_, h1⟩, ⟨_, h3⟩, ⟨_, h2⟩, (taggingMask_readable cfg r t).mp ⟨_, h4⟩⟩
    all_goals cases hv
  · rintro ⟨⟨S0, h1⟩, ⟨S1, h3⟩, ⟨F, h2⟩, hr⟩
    obtain ⟨⟨mask, loaded⟩, h4⟩ := (taggingMask_readable cfg r t).mpr hr
    have h3' : src.states (t + cfg.dt) = .ok S1 := h3
    have h2' : src.fluxes (t + cfg.halfDt) = .ok F := h2
    rw [h1, h2', h3', h4]
    exact ⟨_, rfl⟩

theorem runSteps_lt (cfg : RunConfig α) (hpos : 0 < cfg.timestep) (k : ℕ) :
    k < runSteps cfg ↔ cfg.tracking_start_date + (k + 1) * (cfg.timestep * 1000000) ≤ cfg.tracking_end_date := by
  have hdt : 0 < cfg.timestep * 1000000 := by positivity
  have := lt_stepCount (A := cfg.tracking_start_date) (B := cfg.tracking_end_date) hdt k
  exact this

theorem fwd_final (cfg : RunConfig α) (hpos : 0 < cfg.timestep) (k : ℕ) (hk : k < runSteps cfg) :
    cfg.tracking_end_date < timeFwd cfg k + cfg.dt + cfg.dt ↔ k + 1 = runSteps cfg := by
  have h := runSteps_lt cfg hpos (k + 1)
  unfold timeFwd RunConfig.dt usPerSecond
  push_cast at h
  constructor
  · intro hlt
    have : ¬ k + 1 < runSteps cfg := by rw [h]; linarith
    omega
  · intro heq
    have : ¬ k + 1 < runSteps cfg := by omega
    rw [h] at this
    linarith

theorem fwdBody_fate (cfg : RunConfig α) (hpos : 0 < cfg.timestep) (src : Source m n α)
    (r : Region (m + 2) (n + 2) α) (k : ℕ) (hk : k < runSteps cfg) (s) (hI : FwdAt cfg k s) :
    (StepDataFwd cfg src r (timeFwd cfg k) → ∃ s', fwdBody cfg src r s = .ok s' ∧ FwdAt cfg (k + 1) s') ∧
    (¬ StepDataFwd cfg src r (timeFwd cfg k) → ∃ e, fwdBody cfg src r s = .error e) := by
  obtain ⟨h0, hh, h1, hf⟩ := hI
  have hsucc : timeFwd cfg (k + 1) = timeFwd cfg k + cfg.dt := by
    unfold timeFwd RunConfig.dt usPerSecond; push_cast; ring
  unfold fwdBody
  rw [h0, hh, h1]
  constructor
  · intro hd
    obtain ⟨⟨o, loaded⟩, ho⟩ := (fwdAdvance_ok cfg src r (timeFwd cfg k) s.output).mpr hd
    rw [ho]
    simp only
    have hw : (decide (timeFwd cfg k + cfg.dt = floorTime (timeFwd cfg k + cfg.dt) cfg.output_frequency) ||
        decide (cfg.tracking_end_date < timeFwd cfg k + cfg.dt + cfg.dt)) = true ↔
        writes (timeFwd cfg) cfg.output_frequency (runSteps cfg) (k + 1) := by
      unfold writes
      rw [Bool.or_eq_true, decide_eq_true_iff, decide_eq_true_iff, floorTime_eq_iff, hsucc,
        fwd_final cfg hpos k hk]
    by_cases hwr : writes (timeFwd cfg) cfg.output_frequency (runSteps cfg) (k + 1)
    · rw [if_pos (hw.mpr hwr)]
      refine ⟨_, rfl, hsucc.symm, ?_, ?_, ?_⟩
      · simp only [hsucc]; ring
      · simp only [hsucc]
      · simp only [outputTimes_succ, if_pos hwr, List.map_append, hf, List.map_cons, List.map_nil, hsucc]
    · rw [if_neg (fun h => hwr (hw.mp h))]
      refine ⟨_, rfl, hsucc.symm, ?_, ?_, ?_⟩
      · simp only [hsucc]; ring
      · simp only [hsucc]
      · simp only [outputTimes_succ, if_neg hwr, hf, List.append_nil]
  · intro hd
    obtain ⟨e, he⟩ := not_readable (mt (fwdAdvance_ok cfg src r (timeFwd cfg k) s.output).mp hd)
    exact ⟨e, by rw [he]⟩

theorem fwd_fate (cfg : RunConfig α) (hpos : 0 < cfg.timestep) (src : Source m n α)
    (r : Region (m + 2) (n + 2) α) (o : FwdOutput (m + 2) (n + 2) α) :
    ((∀ k < runSteps cfg, StepDataFwd cfg src r (timeFwd cfg k)) →
      ∃ s', FwdAt cfg (runSteps cfg) s' ∧ ∀ fuel, runSteps cfg ≤ fuel →
        whileLoop (fwdGuard cfg) (fwdBody cfg src r) fuel (fwdStart cfg src o) = .finished s') ∧
    (∀ j < runSteps cfg, (∀ i < j, StepDataFwd cfg src r (timeFwd cfg i)) →
      ¬ StepDataFwd cfg src r (timeFwd cfg j) → ∃ e s', FwdAt cfg j s' ∧ ∀ fuel, runSteps cfg ≤ fuel →
        whileLoop (fwdGuard cfg) (fwdBody cfg src r) fuel (fwdStart cfg src o) = .raised e s') := by
  have hstart : FwdAt cfg 0 (fwdStart cfg src o) := by
    refine ⟨?_, ?_, ?_, rfl⟩ <;> simp [fwdStart, timeFwd]
  have hguard : ∀ k (s : LoopState (FwdOutput (m + 2) (n + 2) α) α), FwdAt cfg k s →
      (fwdGuard cfg s = true ↔ k < runSteps cfg) := by
    rintro k s ⟨h0, hh, h1, hf⟩
    unfold fwdGuard
    rw [decide_eq_true_iff, h1, runSteps_lt cfg hpos]
    unfold timeFwd RunConfig.dt usPerSecond
    constructor <;> intro h <;> linarith
  have key := whileLoop_fate (fwdGuard cfg) (fwdBody cfg src r) (FwdAt cfg)
    (fun k => StepDataFwd cfg src r (timeFwd cfg k)) (runSteps cfg) hguard
    (fun k hk s hI => (fwdBody_fate cfg hpos src r k hk s hI).1)
    (fun k hk s hI => (fwdBody_fate cfg hpos src r k hk s hI).2)
    (runSteps cfg) 0 (fwdStart cfg src o) (by omega) hstart
  exact ⟨fun h => key.1 fun i hi _ => h i hi, fun j hj hpre hnj =>
    key.2 j hj (Nat.zero_le _) (fun i hi _ => hpre i hi) hnj⟩

theorem fwdInit_readable (cfg : RunConfig α) (src : Source m n α) (path : ℤ → P)
    (disk : P → Option (FwdOutput (m + 2) (n + 2) α)) :
    Readable (fwdInitialize cfg src path disk) ↔ InitData cfg src path disk cfg.tracking_start_date := by
  unfold fwdInitialize InitData
  cases hs : src.states cfg.tracking_start_date with
  | error e => exact ⟨fun ⟨v, hv⟩ => (by cases hv), fun ⟨⟨v, hv⟩, _⟩ => (by cases hv)⟩
  | ok S =>
    simp only
    cases hr : cfg.restart with
    | false => exact ⟨fun _ => ⟨⟨_, rfl⟩, fun h => (by cases h)⟩, fun _ => ⟨_, rfl⟩⟩
    | true =>
      cases hd : disk (path cfg.tracking_start_date) with
      | none =>
        refine ⟨fun ⟨v, hv⟩ => (by cases hv), fun ⟨_, h⟩ => ?_⟩
        have := h rfl
        cases this
      | some f => exact ⟨fun _ => ⟨⟨_, rfl⟩, fun _ => rfl⟩, fun _ => ⟨_, rfl⟩⟩

/-- the first step (before `N`) for which some data are missing -/
theorem first_failing (ok : ℕ → Prop) (N : ℕ) (h : ¬ ∀ k < N, ok k) :
    ∃ j < N, (∀ i < j, ok i) ∧ ¬ ok j := by
  classical
  have hex : ∃ k, k < N ∧ ¬ ok k := by
    by_contra hc
    exact h fun k hk => by
      by_contra hn
      exact hc ⟨k, hk, hn⟩
  refine ⟨Nat.find hex, (Nat.find_spec hex).1, fun i hi => ?_, (Nat.find_spec hex).2⟩
  by_contra hn
  exact Nat.find_min hex hi ⟨hi.trans (Nat.find_spec hex).1, hn⟩

/-- **C94** (forward): a run whose input is complete ends normally, and the files it has written are
those of all output times, in order.  Nothing is assumed about the data themselves, nor about data the
run does not need. -/
theorem C94_completes_forward (cfg : RunConfig α) (hpos : 0 < cfg.timestep) (src : Source m n α)
    (path : ℤ → P) (disk : P → Option (FwdOutput (m + 2) (n + 2) α))
    (h : CompleteFwd cfg src path disk) :
    ∃ s, EndsIn (fwdRun cfg src path disk) s ∧
      s.files.map Prod.fst = outputTimes cfg (timeFwd cfg) (runSteps cfg) := by
  obtain ⟨hi, r, hr, hsteps⟩ := h
  obtain ⟨o, ho⟩ := (fwdInit_readable cfg src path disk).mpr hi
  obtain ⟨s, hs, hrun⟩ := (fwd_fate cfg hpos src r o).1 hsteps
  refine ⟨s, ⟨runSteps cfg, fun fuel hf => ?_⟩, hs.2.2.2⟩
  unfold fwdRun
  rw [ho, hr]
  exact hrun fuel hf

/-- **C94** (forward): a run whose input is not complete ends with an exception.  If the data it needs
before the first step (the states of its first date, the restart file, the tagging region) are missing it
has written nothing; otherwise it has written exactly the files of the output times before the first step
with missing data. -/
theorem C94_fails_forward (cfg : RunConfig α) (hpos : 0 < cfg.timestep) (src : Source m n α)
    (path : ℤ → P) (disk : P → Option (FwdOutput (m + 2) (n + 2) α))
    (h : ¬ CompleteFwd cfg src path disk) :
    ∃ e s, FailsWith (fwdRun cfg src path disk) e s ∧
      (((¬ InitData cfg src path disk cfg.tracking_start_date ∨ ¬ Readable src.region) ∧ s.files = []) ∨
      ∃ r j, src.region = .ok r ∧ j < runSteps cfg ∧
        (∀ i < j, StepDataFwd cfg src r (timeFwd cfg i)) ∧ ¬ StepDataFwd cfg src r (timeFwd cfg j) ∧
        s.files.map Prod.fst = outputTimes cfg (timeFwd cfg) j) := by
  by_cases hi : InitData cfg src path disk cfg.tracking_start_date
  · obtain ⟨o, ho⟩ := (fwdInit_readable cfg src path disk).mpr hi
    cases hr : src.region with
    | error e =>
      refine ⟨e, fwdStart cfg src o, ⟨0, fun fuel _ => ?_⟩, Or.inl ⟨Or.inr ?_, rfl⟩⟩
      · unfold fwdRun; rw [ho, hr]
      · rintro ⟨v, hv⟩; cases hv
    | ok r =>
      have hn : ¬ ∀ k < runSteps cfg, StepDataFwd cfg src r (timeFwd cfg k) := fun hall =>
        h ⟨hi, r, hr, hall⟩
      obtain ⟨j, hj, hpre, hnj⟩ := first_failing _ _ hn
      obtain ⟨e, s, hs, hrun⟩ := (fwd_fate cfg hpos src r o).2 j hj hpre hnj
      refine ⟨e, s, ⟨runSteps cfg, fun fuel hf => ?_⟩, Or.inr ⟨r, j, rfl, hj, hpre, hnj, hs.2.2.2⟩⟩
      unfold fwdRun
      rw [ho, hr]
      exact hrun fuel hf
  · obtain ⟨e, he⟩ := not_readable (mt (fwdInit_readable cfg src path disk).mp hi)
    refine ⟨e, { fwdStart cfg src FwdOutput.zeros with loads := [] }, ⟨0, fun fuel _ => ?_⟩,
      Or.inl ⟨Or.inl hi, rfl⟩⟩
    unfold fwdRun; rw [he]

theorem EndsIn.not_fails {σ : Type*} {run : ℕ → Outcome σ} {s s' : σ} {e : Err} (h : EndsIn run s)
    (h' : FailsWith run e s') : False := by
  obtain ⟨N, hN⟩ := h
  obtain ⟨M, hM⟩ := h'
  have h1 := hN (max N M) (le_max_left _ _)
  rw [hM (max N M) (le_max_right _ _)] at h1
  cases h1

/-- **C94** (forward): a run ends normally exactly if its input is complete. -/
theorem C94_iff_forward (cfg : RunConfig α) (hpos : 0 < cfg.timestep) (src : Source m n α)
    (path : ℤ → P) (disk : P → Option (FwdOutput (m + 2) (n + 2) α)) :
    (∃ s, EndsIn (fwdRun cfg src path disk) s) ↔ CompleteFwd cfg src path disk := by
  refine ⟨fun ⟨s, hs⟩ => ?_, fun h => ?_⟩
  · by_contra hn
    obtain ⟨e, s', hf, _⟩ := C94_fails_forward cfg hpos src path disk hn
    exact EndsIn.not_fails hs hf
  · obtain ⟨s, hs, _⟩ := C94_completes_forward cfg hpos src path disk h
    exact ⟨s, hs⟩

/-- **C94** (forward): a restart without the output file of its first date always stops with an
exception before writing anything (it never starts from zero instead). -/
theorem C94_restart_forward (cfg : RunConfig α) (src : Source m n α)
    (path : ℤ → P) (disk : P → Option (FwdOutput (m + 2) (n + 2) α)) (hr : cfg.restart = true)
    (hd : disk (path cfg.tracking_start_date) = none) :
    ∃ e s, (∀ fuel, fwdRun cfg src path disk fuel = .raised e s) ∧ s.files = [] := by
  have hi : ¬ Readable (fwdInitialize cfg src path disk) := by
    rw [fwdInit_readable]
    rintro ⟨_, h⟩
    have := h hr
    rw [hd] at this
    cases this
  obtain ⟨e, he⟩ := not_readable hi
  refine ⟨e, { fwdStart cfg src FwdOutput.zeros with loads := [] }, fun fuel => ?_, rfl⟩
  unfold fwdRun; rw [he]

/-- **C94** (forward): apart from the restart file nothing in the output folder influences a run: with
the same restart file (or without restart) two folders give the same run. -/
theorem C94_folder_forward (cfg : RunConfig α) (src : Source m n α)
    (path : ℤ → P) (disk disk' : P → Option (FwdOutput (m + 2) (n + 2) α))
    (h : cfg.restart = true → disk (path cfg.tracking_start_date) = disk' (path cfg.tracking_start_date))
    (fuel : ℕ) : fwdRun cfg src path disk fuel = fwdRun cfg src path disk' fuel := by
  have hi : fwdInitialize cfg src path disk = fwdInitialize cfg src path disk' := by
    unfold fwdInitialize
    cases hr : cfg.restart with
    | true => rw [h hr]
    | false => rfl
  unfold fwdRun
  rw [hi]

/-! ### Backward -/

/-- invariant of the backward loop: the clock and the times of the files written -/
def BwdAt (cfg : RunConfig α) (k : ℕ) (s : LoopState (BwdOutput (m + 2) (n + 2) α) α) : Prop :=
  s.t1 = timeBwd cfg k ∧ s.th = timeBwd cfg k - cfg.halfDt ∧ s.t0 = timeBwd cfg k - cfg.dt ∧
    s.files.map Prod.fst = outputTimes cfg (timeBwd cfg) k

theorem bwdAdvance_ok (cfg : RunConfig α) (src : Source m n α) (r : Region (m + 2) (n + 2) α)
    (t : ℤ) (o : BwdOutput (m + 2) (n + 2) α) :
    Readable (bwdAdvance cfg src r (t - cfg.dt) (t - cfg.halfDt) t o) ↔ StepDataBwd cfg src r t := by
  unfold bwdAdvance
  constructor
  · rintro ⟨v, hv⟩
    split at hv
    · rename_i S0 F S1 mask loaded h1 h2 h3 h4
      exact ⟨⟨_, h3⟩, ⟨_, h1⟩, ⟨_, h2⟩, (taggingMask_readable cfg r t).mp ⟨_, h4⟩⟩
    all_goals cases hv
  · rintro ⟨⟨S1, h3⟩, ⟨S0, h1⟩, ⟨F, h2⟩, hr⟩
    obtain ⟨⟨mask, loaded⟩, h4⟩ := (taggingMask_readable cfg r t).mpr hr
    have h1' : src.states (t - cfg.dt) = .ok S0 := h1
    have h2' : src.fluxes (t - cfg.halfDt) = .ok F := h2
    rw [h1', h2', h3, h4]
    exact ⟨_, rfl⟩

theorem bwd_final (cfg : RunConfig α) (hpos : 0 < cfg.timestep) (k : ℕ) (hk : k < runSteps cfg) :
    timeBwd cfg k - cfg.dt - cfg.dt < cfg.tracking_start_date ↔ k + 1 = runSteps cfg := by
  have h := runSteps_lt cfg hpos (k + 1)
  unfold timeBwd RunConfig.dt usPerSecond
  push_cast at h
  constructor
  · intro hlt
    have : ¬ k + 1 < runSteps cfg := by rw [h]; linarith
    omega
  · intro heq
    have : ¬ k + 1 < runSteps cfg := by omega
    rw [h] at this
    linarith

theorem bwdBody_fate (cfg : RunConfig α) (hpos : 0 < cfg.timestep) (src : Source m n α)
    (r : Region (m + 2) (n + 2) α) (k : ℕ) (hk : k < runSteps cfg) (s) (hI : BwdAt cfg k s) :
    (StepDataBwd cfg src r (timeBwd cfg k) → ∃ s', bwdBody cfg src r s = .ok s' ∧ BwdAt cfg (k + 1) s') ∧
    (¬ StepDataBwd cfg src r (timeBwd cfg k) → ∃ e, bwdBody cfg src r s = .error e) := by
  obtain ⟨h0, hh, h1, hf⟩ := hI
  have hsucc : timeBwd cfg (k + 1) = timeBwd cfg k - cfg.dt := by
    unfold timeBwd RunConfig.dt usPerSecond; push_cast; ring
  unfold bwdBody
  rw [h0, hh, h1]
  constructor
  · intro hd
    obtain ⟨⟨o, loaded⟩, ho⟩ := (bwdAdvance_ok cfg src r (timeBwd cfg k) s.output).mpr hd
    rw [ho]
    simp only
    have hw : (decide (timeBwd cfg k - cfg.dt = floorTime (timeBwd cfg k - cfg.dt) cfg.output_frequency) ||
        decide (timeBwd cfg k - cfg.dt - cfg.dt < cfg.tracking_start_date)) = true ↔
        writes (timeBwd cfg) cfg.output_frequency (runSteps cfg) (k + 1) := by
      unfold writes
      rw [Bool.or_eq_true, decide_eq_true_iff, decide_eq_true_iff, floorTime_eq_iff, hsucc,
        bwd_final cfg hpos k hk]
    by_cases hwr : writes (timeBwd cfg) cfg.output_frequency (runSteps cfg) (k + 1)
    · rw [if_pos (hw.mpr hwr)]
      refine ⟨_, rfl, hsucc.symm, ?_, ?_, ?_⟩
      · simp only [hsucc]; ring
      · simp only [hsucc]
      · simp only [outputTimes_succ, if_pos hwr, List.map_append, hf, List.map_cons, List.map_nil, hsucc]
    · rw [if_neg (fun h => hwr (hw.mp h))]
      refine ⟨_, rfl, hsucc.symm, ?_, ?_, ?_⟩
      · simp only [hsucc]; ring
      · simp only [hsucc]
      · simp only [outputTimes_succ, if_neg hwr, hf, List.append_nil]
  · intro hd
    obtain ⟨e, he⟩ := not_readable (mt (bwdAdvance_ok cfg src r (timeBwd cfg k) s.output).mp hd)
    exact ⟨e, by rw [he]⟩

theorem bwd_fate (cfg : RunConfig α) (hpos : 0 < cfg.timestep) (src : Source m n α)
    (r : Region (m + 2) (n + 2) α) (o : BwdOutput (m + 2) (n + 2) α) :
    ((∀ k < runSteps cfg, StepDataBwd cfg src r (timeBwd cfg k)) →
      ∃ s', BwdAt cfg (runSteps cfg) s' ∧ ∀ fuel, runSteps cfg ≤ fuel →
        whileLoop (bwdGuard cfg) (bwdBody cfg src r) fuel (bwdStart cfg src o) = .finished s') ∧
    (∀ j < runSteps cfg, (∀ i < j, StepDataBwd cfg src r (timeBwd cfg i)) →
      ¬ StepDataBwd cfg src r (timeBwd cfg j) → ∃ e s', BwdAt cfg j s' ∧ ∀ fuel, runSteps cfg ≤ fuel →
        whileLoop (bwdGuard cfg) (bwdBody cfg src r) fuel (bwdStart cfg src o) = .raised e s') := by
  have hstart : BwdAt cfg 0 (bwdStart cfg src o) := by
    refine ⟨?_, ?_, ?_, rfl⟩ <;> simp [bwdStart, timeBwd]
  have hguard : ∀ k (s : LoopState (BwdOutput (m + 2) (n + 2) α) α), BwdAt cfg k s →
      (bwdGuard cfg s = true ↔ k < runSteps cfg) := by
    rintro k s ⟨h0, hh, h1, hf⟩
    unfold bwdGuard
    rw [decide_eq_true_iff, h1, runSteps_lt cfg hpos]
    unfold timeBwd RunConfig.dt usPerSecond
    constructor <;> intro h <;> linarith
  have key := whileLoop_fate (bwdGuard cfg) (bwdBody cfg src r) (BwdAt cfg)
    (fun k => StepDataBwd cfg src r (timeBwd cfg k)) (runSteps cfg) hguard
    (fun k hk s hI => (bwdBody_fate cfg hpos src r k hk s hI).1)
    (fun k hk s hI => (bwdBody_fate cfg hpos src r k hk s hI).2)
    (runSteps cfg) 0 (bwdStart cfg src o) (by omega) hstart
  exact ⟨fun h => key.1 fun i hi _ => h i hi, fun j hj hpre hnj =>
    key.2 j hj (Nat.zero_le _) (fun i hi _ => hpre i hi) hnj⟩

theorem bwdInit_readable (cfg : RunConfig α) (src : Source m n α) (path : ℤ → P)
    (disk : P → Option (BwdOutput (m + 2) (n + 2) α)) :
    Readable (bwdInitialize cfg src path disk) ↔ InitData cfg src path disk cfg.tracking_end_date := by
  unfold bwdInitialize InitData
  cases hs : src.states cfg.tracking_end_date with
  | error e => exact ⟨fun ⟨v, hv⟩ => (by cases hv), fun ⟨⟨v, hv⟩, _⟩ => (by cases hv)⟩
  | ok S =>
    simp only
    cases hr : cfg.restart with
    | false => exact ⟨fun _ => ⟨⟨_, rfl⟩, fun h => (by cases h)⟩, fun _ => ⟨_, rfl⟩⟩
    | true =>
      cases hd : disk (path cfg.tracking_end_date) with
      | none =>
        refine ⟨fun ⟨v, hv⟩ => (by cases hv), fun ⟨_, h⟩ => ?_⟩
        have := h rfl
        cases this
      | some f => exact ⟨fun _ => ⟨⟨_, rfl⟩, fun _ => rfl⟩, fun _ => ⟨_, rfl⟩⟩

/-- **C94** (backward): a run whose input is complete ends normally, and the files it has written are
those of all output times, in order.  Nothing is assumed about the data themselves, nor about data the
run does not need. -/
theorem C94_completes_backward (cfg : RunConfig α) (hpos : 0 < cfg.timestep) (src : Source m n α)
    (path : ℤ → P) (disk : P → Option (BwdOutput (m + 2) (n + 2) α))
    (h : CompleteBwd cfg src path disk) :
    ∃ s, EndsIn (bwdRun cfg src path disk) s ∧
      s.files.map Prod.fst = outputTimes cfg (timeBwd cfg) (runSteps cfg) := by
  obtain ⟨hi, r, hr, hsteps⟩ := h
  obtain ⟨o, ho⟩ := (bwdInit_readable cfg src path disk).mpr hi
  obtain ⟨s, hs, hrun⟩ := (bwd_fate cfg hpos src r o).1 hsteps
  refine ⟨s, ⟨runSteps cfg, fun fuel hf => ?_⟩, hs.2.2.2⟩
  unfold bwdRun
  rw [ho, hr]
  exact hrun fuel hf

/-- **C94** (backward): a run whose input is not complete ends with an exception.  If the data it needs
before the first step (the states of its first date, the restart file, the tagging region) are missing it
has written nothing; otherwise it has written exactly the files of the output times before the first step
with missing data. -/
theorem C94_fails_backward (cfg : RunConfig α) (hpos : 0 < cfg.timestep) (src : Source m n α)
    (path : ℤ → P) (disk : P → Option (BwdOutput (m + 2) (n + 2) α))
    (h : ¬ CompleteBwd cfg src path disk) :
    ∃ e s, FailsWith (bwdRun cfg src path disk) e s ∧
      (((¬ InitData cfg src path disk cfg.tracking_end_date ∨ ¬ Readable src.region) ∧ s.files = []) ∨
      ∃ r j, src.region = .ok r ∧ j < runSteps cfg ∧
        (∀ i < j, StepDataBwd cfg src r (timeBwd cfg i)) ∧ ¬ StepDataBwd cfg src r (timeBwd cfg j) ∧
        s.files.map Prod.fst = outputTimes cfg (timeBwd cfg) j) := by
  by_cases hi : InitData cfg src path disk cfg.tracking_end_date
  · obtain ⟨o, ho⟩ := (bwdInit_readable cfg src path disk).mpr hi
    cases hr : src.region with
    | error e =>
      refine ⟨e, bwdStart cfg src o, ⟨0, fun fuel _ => ?_⟩, Or.inl ⟨Or.inr ?_, rfl⟩⟩
      · unfold bwdRun; rw [ho, hr]
      · rintro ⟨v, hv⟩; cases hv
    | ok r =>
      have hn : ¬ ∀ k < runSteps cfg, StepDataBwd cfg src r (timeBwd cfg k) := fun hall =>
        h ⟨hi, r, hr, hall⟩
      obtain ⟨j, hj, hpre, hnj⟩ := first_failing _ _ hn
      obtain ⟨e, s, hs, hrun⟩ := (bwd_fate cfg hpos src r o).2 j hj hpre hnj
      refine ⟨e, s, ⟨runSteps cfg, fun fuel hf => ?_⟩, Or.inr ⟨r, j, rfl, hj, hpre, hnj, hs.2.2.2⟩⟩
      unfold bwdRun
      rw [ho, hr]
      exact hrun fuel hf
  · obtain ⟨e, he⟩ := not_readable (mt (bwdInit_readable cfg src path disk).mp hi)
    refine ⟨e, { bwdStart cfg src BwdOutput.zeros with loads := [] }, ⟨0, fun fuel _ => ?_⟩,
      Or.inl ⟨Or.inl hi, rfl⟩⟩
    unfold bwdRun; rw [he]

/-- **C94** (backward): a run ends normally exactly if its input is complete. -/
theorem C94_iff_backward (cfg : RunConfig α) (hpos : 0 < cfg.timestep) (src : Source m n α)
    (path : ℤ → P) (disk : P → Option (BwdOutput (m + 2) (n + 2) α)) :
    (∃ s, EndsIn (bwdRun cfg src path disk) s) ↔ CompleteBwd cfg src path disk := by
  refine ⟨fun ⟨s, hs⟩ => ?_, fun h => ?_⟩
  · by_contra hn
    obtain ⟨e, s', hf, _⟩ := C94_fails_backward cfg hpos src path disk hn
    exact EndsIn.not_fails hs hf
  · obtain ⟨s, hs, _⟩ := C94_completes_backward cfg hpos src path disk h
    exact ⟨s, hs⟩

/-- **C94** (backward): a restart without the output file of its first date always stops with an
exception before writing anything (it never starts from zero instead). -/
theorem C94_restart_backward (cfg : RunConfig α) (src : Source m n α)
    (path : ℤ → P) (disk : P → Option (BwdOutput (m + 2) (n + 2) α)) (hr : cfg.restart = true)
    (hd : disk (path cfg.tracking_end_date) = none) :
    ∃ e s, (∀ fuel, bwdRun cfg src path disk fuel = .raised e s) ∧ s.files = [] := by
  have hi : ¬ Readable (bwdInitialize cfg src path disk) := by
    rw [bwdInit_readable]
    rintro ⟨_, h⟩
    have := h hr
    rw [hd] at this
    cases this
  obtain ⟨e, he⟩ := not_readable hi
  refine ⟨e, { bwdStart cfg src BwdOutput.zeros with loads := [] }, fun fuel => ?_, rfl⟩
  unfold bwdRun; rw [he]

/-- **C94** (backward): apart from the restart file nothing in the output folder influences a run: with
the same restart file (or without restart) two folders give the same run. -/
theorem C94_folder_backward (cfg : RunConfig α) (src : Source m n α)
    (path : ℤ → P) (disk disk' : P → Option (BwdOutput (m + 2) (n + 2) α))
    (h : cfg.restart = true → disk (path cfg.tracking_end_date) = disk' (path cfg.tracking_end_date))
    (fuel : ℕ) : bwdRun cfg src path disk fuel = bwdRun cfg src path disk' fuel := by
  have hi : bwdInitialize cfg src path disk = bwdInitialize cfg src path disk' := by
    unfold bwdInitialize
    cases hr : cfg.restart with
    | true => rw [h hr]
    | false => rfl
  unfold bwdRun
  rw [hi]

end

/-! ### A concrete case: the demo experiment, and the same with the fluxes of the last step missing -/

section
open Demo

/-- the demo experiment without the fluxes of its last step -/
def C94demo.src' : Source 1 1 ℚ :=
  { src with fluxes := fun t => if t = 7 * step / 2 then .error .keyError else src.fluxes t }

example : CompleteFwd cfg src path (fun _ => (none : Option (FwdOutput 3 3 ℚ))) ∧
    outputTimes cfg (timeFwd cfg) (runSteps cfg) = [2 * step, 4 * step] :=
  ⟨(C94_iff_forward cfg (by decide) src path _).mp
    (let ⟨s, hs, _⟩ := Demo.fwd_ends; ⟨s, hs⟩), by decide +kernel⟩

example : CompleteBwd cfg src path (fun _ => (none : Option (BwdOutput 3 3 ℚ))) ∧
    outputTimes cfg (timeBwd cfg) (runSteps cfg) = [2 * step, 0] :=
  ⟨(C94_iff_backward cfg (by decide) src path _).mp
    (let ⟨s, hs, _⟩ := Demo.bwd_ends; ⟨s, hs⟩), by decide +kernel⟩

example : ¬ CompleteFwd cfg C94demo.src' path (fun _ => (none : Option (FwdOutput 3 3 ℚ))) := by
  rintro ⟨_, r, _, h⟩
  obtain ⟨v, hv⟩ := (h 3 (by decide +kernel)).fluxes
  have : C94demo.src'.fluxes (timeFwd cfg 3 + cfg.timestep * 500000) = .error .keyError :=
    by
      have e : timeFwd cfg 3 + cfg.timestep * 500000 = 7 * step / 2 := by decide +kernel
      simp only [C94demo.src', e, if_true]
  rw [this] at hv
  cases hv

example : ¬ CompleteBwd cfg C94demo.src' path (fun _ => (none : Option (BwdOutput 3 3 ℚ))) := by
  rintro ⟨_, r, _, h⟩
  obtain ⟨v, hv⟩ := (h 0 (by decide +kernel)).fluxes
  have : C94demo.src'.fluxes (timeBwd cfg 0 - cfg.timestep * 500000) = .error .keyError :=
    by
      have e : timeBwd cfg 0 - cfg.timestep * 500000 = 7 * step / 2 := by decide +kernel
      simp only [C94demo.src', e, if_true]
  rw [this] at hv
  cases hv

/-- a restart into an empty folder -/
example : ∃ e s, (∀ fuel, fwdRun { cfg with restart := true } src path (fun _ => none) fuel =
    .raised e s) ∧ s.files = [] := C94_restart_forward _ src path _ rfl rfl

end

end Wam
