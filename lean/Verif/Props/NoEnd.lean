import Verif.Props.Config
import Verif.Props.CommandDemo

/-!
# C24: a time step that is not positive — what is accepted, and how such a run ends, whatever the data

`Props/Run` treats data that are there at all times.  Here nothing is assumed about the data.
-/

set_option linter.unusedSectionVars false
set_option linter.unusedVariables false

namespace Wam
open Spec

/-! ### Accepted -/

section
variable {ρ : Type}

/-- The other settings have no say in whether a configuration is accepted: with `r'` in place of `r` it is accepted too,
and differs in nothing else. -/
theorem C24_rest_is_not_looked_at (s : Settings ρ) (cfg : Config ρ) (h : makeConfig s = .ok cfg) (r' : ρ) :
    makeConfig { s with rest := .ok r' } = .ok { cfg with rest := r' } := by
  unfold makeConfig at h ⊢
  simp only [bind, Except.bind, pure, Except.pure] at h ⊢
  have e : convertDates { s with rest := .ok r' } = convertDates s := rfl
  rw [e]
  split at h
  · simp at h
  next r hr =>
  split at h
  · simp at h
  next rest hrest =>
  split at h
  · next hchk =>
    rw [Except.ok.injEq] at h
    subst h
    have hchk' : checkDateOrder (⟨r.1, r.2, r'⟩ : Config ρ) = true := hchk
    rw [if_pos hchk']
  · simp at h

end

/-- Every accepted configuration is also accepted with any other time step: zero, or a negative one. -/
theorem C24_accepted {α : Type} (s : Settings (TrackSettings α)) (cfg : Config (TrackSettings α))
    (h : makeConfig s = .ok cfg) (step : ℤ) :
    ∃ cfg', makeConfig { s with rest := .ok { cfg.rest with timestep := step } } = .ok cfg' ∧
      cfg'.rest.timestep = step ∧ cfg'.dates = cfg.dates ∧ cfg'.calendar = cfg.calendar :=
  ⟨_, C24_rest_is_not_looked_at s cfg h _, rfl, rfl, rfl⟩

/-- It may also be assigned later. -/
theorem C24_assigned {α : Type} (cfg : Config (TrackSettings α)) (ho : Ordered cfg) (step : ℤ) :
    (assign cfg (.rest (.ok { cfg.rest with timestep := step }))).1 = none ∧
    (assign cfg (.rest (.ok { cfg.rest with timestep := step }))).2.rest.timestep = step := by
  refine ⟨?_, rfl⟩
  simp only [assign]
  rw [if_pos]
  exact (checkDateOrder_iff _).2 ⟨ho.1, ho.2, ho.3⟩

/-! ### The run -/

private theorem loop_not_finished {σ : Type*} (guard : σ → Bool) (body : σ → Except Err σ)
    (hb : ∀ s s', guard s = true → body s = .ok s' → guard s' = true) (fuel : ℕ) :
    ∀ s, guard s = true → ∀ s', whileLoop guard body fuel s ≠ .finished s' := by
  induction fuel with
  | zero => intro s h s'; simp [whileLoop, h]
  | succ f ih =>
    intro s h s'
    simp only [whileLoop, h, if_true]
    cases e : body s with
    | ok s1 => exact ih s1 (hb s s1 h e) s'
    | error e => simp

private theorem loop_raises {σ : Type*} (guard : σ → Bool) (body : σ → Except Err σ) (μ : σ → ℤ) (D : ℤ)
    (hb : ∀ s s', guard s = true → body s = .ok s' → guard s' = true ∧ D ≤ μ s ∧ μ s' < μ s) (N : ℕ) :
    ∀ s, guard s = true → μ s < D + N → ∃ e s', ∀ fuel, N < fuel → whileLoop guard body fuel s = .raised e s' := by
  induction N with
  | zero =>
    intro s h hμ
    cases e : body s with
    | ok s1 => have := (hb s s1 h e).2.1; simp only [Nat.cast_zero, add_zero] at hμ; omega
    | error er =>
      refine ⟨er, s, fun fuel hf => ?_⟩
      obtain ⟨f, rfl⟩ : ∃ f, fuel = f + 1 := ⟨fuel - 1, by omega⟩
      simp [whileLoop, h, e]
  | succ N ih =>
    intro s h hμ
    cases e : body s with
    | ok s1 =>
      obtain ⟨h1, h2, h3⟩ := hb s s1 h e
      obtain ⟨er, s', hs'⟩ := ih s1 h1 (by push_cast at hμ; omega)
      refine ⟨er, s', fun fuel hf => ?_⟩
      obtain ⟨f, rfl⟩ : ∃ f, fuel = f + 1 := ⟨fuel - 1, by omega⟩
      simp only [whileLoop, h, if_true, e]
      exact hs' f (by omega)
    | error er =>
      refine ⟨er, s, fun fuel hf => ?_⟩
      obtain ⟨f, rfl⟩ : ∃ f, fuel = f + 1 := ⟨fuel - 1, by omega⟩
      simp [whileLoop, h, e]

section
variable {m n : ℕ} {α : Type*} [Add α] [Sub α] [Mul α] [Div α] [Neg α] [NpOps α] {P : Type*}

private theorem fwdBody_times (cfg : RunConfig α) (src : Source m n α) (r : Region (m + 2) (n + 2) α)
    (s s' : LoopState (FwdOutput (m + 2) (n + 2) α) α) (h : fwdBody cfg src r s = .ok s') :
    s'.t0 = s.t0 + cfg.dt ∧ s'.t1 = s.t1 + cfg.dt ∧ ∃ S, src.states s.t0 = .ok S := by
  unfold fwdBody at h
  split at h
  · simp at h
  next o loaded ho =>
  have hS : ∃ S, src.states s.t0 = .ok S := by
    unfold fwdAdvance at ho
    split at ho
    · next S0 F S1 mask l h0 h1 h2 h3 => exact ⟨_, h0⟩
    all_goals simp at ho
  simp only at h
  split at h <;> (injection h with h; subst h; exact ⟨rfl, rfl, hS⟩)

private theorem bwdBody_times (cfg : RunConfig α) (src : Source m n α) (r : Region (m + 2) (n + 2) α)
    (s s' : LoopState (BwdOutput (m + 2) (n + 2) α) α) (h : bwdBody cfg src r s = .ok s') :
    s'.t0 = s.t0 - cfg.dt ∧ s'.t1 = s.t1 - cfg.dt ∧ ∃ S, src.states s.t1 = .ok S := by
  unfold bwdBody at h
  split at h
  · simp at h
  next o loaded ho =>
  have hS : ∃ S, src.states s.t1 = .ok S := by
    unfold bwdAdvance at ho
    split at ho
    · next S0 F S1 mask l h0 h1 h2 h3 => exact ⟨_, h2⟩
    all_goals simp at ho
  simp only at h
  split at h <;> (injection h with h; subst h; exact ⟨rfl, rfl, hS⟩)

/-- **C24** (forward): a run with a time step that is not positive never ends normally, whatever the data. -/
theorem C24_never_finishes_forward (cfg : RunConfig α) (src : Source m n α) (path : ℤ → P)
    (disk : P → Option (FwdOutput (m + 2) (n + 2) α)) (h0 : cfg.timestep ≤ 0)
    (hAB : cfg.tracking_start_date ≤ cfg.tracking_end_date) (fuel : ℕ) (s) :
    fwdRun cfg src path disk fuel ≠ .finished s := by
  have hd : cfg.dt ≤ 0 := by unfold RunConfig.dt usPerSecond; linarith
  unfold fwdRun
  split
  · simp
  split
  · simp
  apply loop_not_finished
  · intro s s' h hb
    obtain ⟨-, h1, -⟩ := fwdBody_times cfg src _ s s' hb
    simp only [fwdGuard, decide_eq_true_eq] at h ⊢
    omega
  · exact decide_eq_true (show cfg.tracking_start_date + cfg.dt ≤ cfg.tracking_end_date by omega)

/-- **C24** (backward) -/
theorem C24_never_finishes_backward (cfg : RunConfig α) (src : Source m n α) (path : ℤ → P)
    (disk : P → Option (BwdOutput (m + 2) (n + 2) α)) (h0 : cfg.timestep ≤ 0)
    (hAB : cfg.tracking_start_date ≤ cfg.tracking_end_date) (fuel : ℕ) (s) :
    bwdRun cfg src path disk fuel ≠ .finished s := by
  have hd : cfg.dt ≤ 0 := by unfold RunConfig.dt usPerSecond; linarith
  unfold bwdRun
  split
  · simp
  split
  · simp
  apply loop_not_finished
  · intro s s' h hb
    obtain ⟨h1, -, -⟩ := bwdBody_times cfg src _ s s' hb
    simp only [bwdGuard, decide_eq_true_eq] at h ⊢
    omega
  · exact decide_eq_true (show cfg.tracking_start_date ≤ cfg.tracking_end_date - cfg.dt by omega)

/-- **C24** (forward): with a negative time step and data from a date on only, the run ends with an exception: it goes
back in time until there are no more data. -/
theorem C24_runs_out_of_data_forward (cfg : RunConfig α) (src : Source m n α) (path : ℤ → P)
    (disk : P → Option (FwdOutput (m + 2) (n + 2) α)) (h0 : cfg.timestep < 0)
    (hAB : cfg.tracking_start_date ≤ cfg.tracking_end_date) (first : ℤ)
    (hD : ∀ t, t < first → ∃ e, src.states t = .error e) :
    ∃ e s N, ∀ fuel, N ≤ fuel → fwdRun cfg src path disk fuel = .raised e s := by
  have hd : cfg.dt < 0 := by unfold RunConfig.dt usPerSecond; linarith
  unfold fwdRun
  cases e1 : fwdInitialize cfg src path disk with
  | error e => exact ⟨_, _, 0, fun _ _ => rfl⟩
  | ok o =>
    cases e2 : src.region with
    | error e => exact ⟨_, _, 0, fun _ _ => rfl⟩
    | ok r =>
      obtain ⟨e, s, h⟩ := loop_raises (fwdGuard cfg) (fwdBody cfg src r) (fun s => s.t0) first
        (fun s s' h hb => by
          obtain ⟨h1, h2, S, hS⟩ := fwdBody_times cfg src _ s s' hb
          simp only [fwdGuard, decide_eq_true_eq] at h ⊢
          refine ⟨by omega, ?_, by omega⟩
          by_contra hlt
          obtain ⟨er, her⟩ := hD s.t0 (by omega)
          rw [hS] at her; simp at her)
        (cfg.tracking_start_date - first + 1).toNat (fwdStart cfg src o)
        (decide_eq_true (show cfg.tracking_start_date + cfg.dt ≤ cfg.tracking_end_date by omega))
        (by simp only [fwdStart]; omega)
      exact ⟨e, s, _, fun fuel hf => h fuel (Nat.lt_of_succ_le hf)⟩

/-- **C24** (backward): it goes forward in time. -/
theorem C24_runs_out_of_data_backward (cfg : RunConfig α) (src : Source m n α) (path : ℤ → P)
    (disk : P → Option (BwdOutput (m + 2) (n + 2) α)) (h0 : cfg.timestep < 0)
    (hAB : cfg.tracking_start_date ≤ cfg.tracking_end_date) (last : ℤ)
    (hD : ∀ t, last < t → ∃ e, src.states t = .error e) :
    ∃ e s N, ∀ fuel, N ≤ fuel → bwdRun cfg src path disk fuel = .raised e s := by
  have hd : cfg.dt < 0 := by unfold RunConfig.dt usPerSecond; linarith
  unfold bwdRun
  cases e1 : bwdInitialize cfg src path disk with
  | error e => exact ⟨_, _, 0, fun _ _ => rfl⟩
  | ok o =>
    cases e2 : src.region with
    | error e => exact ⟨_, _, 0, fun _ _ => rfl⟩
    | ok r =>
      obtain ⟨e, s, h⟩ := loop_raises (bwdGuard cfg) (bwdBody cfg src r) (fun s => -s.t1) (-last)
        (fun s s' h hb => by
          obtain ⟨h1, h2, S, hS⟩ := bwdBody_times cfg src _ s s' hb
          simp only [bwdGuard, decide_eq_true_eq] at h ⊢
          refine ⟨by omega, ?_, by omega⟩
          by_contra hlt
          obtain ⟨er, her⟩ := hD s.t1 (by omega)
          rw [hS] at her; simp at her)
        (last - cfg.tracking_end_date + 1).toNat (bwdStart cfg src o)
        (decide_eq_true (show cfg.tracking_start_date ≤ cfg.tracking_end_date - cfg.dt by omega))
        (by simp only [bwdStart]; omega)
      exact ⟨e, s, _, fun fuel hf => h fuel (Nat.lt_of_succ_le hf)⟩

end

/-! ### The command -/

section
variable {m n : ℕ} {α : Type} [LinearOrder α] [Add α] [Sub α] [Mul α] [Div α] [Neg α] [NpOps α] [NpTrig α]

/-- `track` with an accepted configuration whose time step is not positive does not end normally, whatever files there
are. -/
theorem C24_command (lib : Library m n α) (s : Settings (TrackSettings α)) (cfg : Loaded (TrackSettings α))
    (hc : makeConfig s = .ok cfg.config) (h0 : cfg.config.rest.timestep ≤ 0) (fs : FileSystem) :
    (trackExperiment lib cfg fs).2 ≠ none := by
  have hAB : cfg.runConfig.tracking_start_date ≤ cfg.runConfig.tracking_end_date :=
    (C45_accepted_is_ordered s cfg.config hc).1.1
  rcases hb : cfg.config.rest.backward with _ | _
  · obtain ⟨-, h, -⟩ := C109_forward lib cfg fs hb
    have h1 := C24_never_finishes_forward cfg.runConfig (fwdSource lib cfg fs)
      (fun t => cfg.output ++ [outputName cfg.calendar false t]) (restartFile lib.readFwd fs) h0 hAB cfg.fuel
    revert h h1
    cases fwdRun cfg.runConfig (fwdSource lib cfg fs) (fun t => cfg.output ++ [outputName cfg.calendar false t])
      (restartFile lib.readFwd fs) cfg.fuel with
    | finished s => intro _ h1; exact absurd rfl (h1 s)
    | raised e s => intro h _; rw [h.2]; simp
    | stillRunning s => intro h _; exact h.2
  · obtain ⟨-, h, -⟩ := C109_backward lib cfg fs hb
    have h1 := C24_never_finishes_backward cfg.runConfig (bwdSource lib cfg fs)
      (fun t => cfg.output ++ [outputName cfg.calendar true t]) (restartFile lib.readBwd fs) h0 hAB cfg.fuel
    revert h h1
    cases bwdRun cfg.runConfig (bwdSource lib cfg fs) (fun t => cfg.output ++ [outputName cfg.calendar true t])
      (restartFile lib.readBwd fs) cfg.fuel with
    | finished s => intro _ h1; exact absurd rfl (h1 s)
    | raised e s => intro h _; rw [h.2]; simp
    | stillRunning s => intro h _; exact h.2

end

/-! ### Examples -/

section
open TrackDemo

local instance : NpTrig ℚ := DomainDemo.trig

/-- the configuration of `TrackDemo` with a time step of minus one hour -/
private def back (b : Bool) : Loaded (TrackSettings ℚ) :=
  { cfg b with config := { (cfg b).config with rest := { settings b with timestep := -3600 } } }

/-- it is accepted -/
private theorem back_accepted (b : Bool) :
    makeConfig { (file b).settings with rest := .ok { settings b with timestep := -3600 } } = .ok (back b).config :=
  C24_rest_is_not_looked_at (file b).settings (cfg b).config (loaded b).1 _

/-- it does not end normally, in either direction, but with the positive time step it does -/
example (b : Bool) : (trackExperiment lib (back b) fs).2 ≠ none ∧ (trackExperiment lib (cfg b) fs).2 = none :=
  ⟨C24_command lib _ (back b) (back_accepted b) (show (-3600 : ℤ) ≤ 0 by decide) fs, by cases b <;> decide +kernel⟩

example (b : Bool) := C24_accepted (file b).settings (cfg b).config (loaded b).1 0

example (b : Bool) := C24_assigned (cfg b).config (C45_accepted_is_ordered _ _ (loaded b).1).1 (-3600)

end

/-- the runs of `Lemmas/Demo`, begun in the middle of the data and with a negative time step -/
private def middle : RunConfig ℚ :=
  { Demo.cfg with timestep := -600, tracking_start_date := 2 * Demo.step, tracking_end_date := 2 * Demo.step }

private theorem no_data (t : ℤ) (h : t < 0 ∨ 4 * Demo.step < t) : ∃ e, Demo.src.states t = .error e :=
  ⟨.keyError, if_neg (by rintro ⟨h1, h2⟩; omega)⟩

example := C24_runs_out_of_data_forward middle Demo.src Demo.path (fun _ => none) (by decide) (by decide) 0
  fun t h => no_data t (.inl h)
example := C24_runs_out_of_data_backward middle Demo.src Demo.path (fun _ => none) (by decide) (by decide) (4 * Demo.step)
  fun t h => no_data t (.inr h)
/-- two steps can be made -/
example : ∃ s, fwdRun middle Demo.src Demo.path (fun _ => none) 2 = .stillRunning s ∧ s.t0 = 0 := ⟨_, rfl, rfl⟩
example := C24_never_finishes_forward middle Demo.src Demo.path (fun _ => none) (by decide) (by decide)
example := C24_never_finishes_backward middle Demo.src Demo.path (fun _ => none) (by decide) (by decide)

end Wam
