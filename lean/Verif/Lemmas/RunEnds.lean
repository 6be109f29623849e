import Verif.Lemmas.Run
import Mathlib.Data.List.Sort
import Mathlib.Data.List.Perm.Basic

/-!
# A finished run is the closed form
-/
set_option linter.unusedSectionVars false
set_option linter.unusedVariables false

namespace Wam
open Spec

/-- Arithmetic in which `x * 0 = 0` for every number, as used by `output[...] *= 0` (forwardtrack.py:222-224, backtrack.py:213):
exact numbers and rounded numbers (not NaN). -/
class MulZeroNum (α : Type*) [Mul α] [NpOps α] : Prop where
  mul_zero : ∀ x : α, x * ofRat 0 = ofRat 0

instance {K : Type*} [Field K] [LinearOrder K] : MulZeroNum K := ⟨fun x => by simp [ofRat]⟩

section
variable {m n : ℕ} {α : Type*} [Add α] [Sub α] [Mul α] [Div α] [Neg α] [NpOps α] {P : Type*}

/-- a finished run has one final state -/
theorem Spec.EndsIn.unique {σ : Type*} {run : ℕ → Outcome σ} {s s' : σ} (h : EndsIn run s)
    (h' : EndsIn run s') : s = s' := by
  obtain ⟨N, hN⟩ := h
  obtain ⟨N', hN'⟩ := h'
  have := (hN (max N N') (le_max_left _ _)).symm.trans (hN' (max N N') (le_max_right _ _))
  simpa using this

theorem fwd_run_eq (cfg : RunConfig α) (src : Source m n α) (inp : Input m n α) (path : ℤ → P)
    (disk : P → Option (FwdOutput (m + 2) (n + 2) α)) (h : Runnable cfg src inp)
    (o) (ho : fwdInitialize cfg src path disk = .ok o) :
    ∃ r, src.region = .ok r ∧ (∀ t, cfg.tracking_start_date ≤ t → t ≤ cfg.tracking_end_date →
      regionAt r t = .ok (inp.region t)) ∧ ∀ fuel, fwdRun cfg src path disk fuel =
      if fuel < cfg.steps then .stillRunning (fwdStateAt cfg src inp r o fuel)
      else .finished (fwdStateAt cfg src inp r o cfg.steps) := by
  obtain ⟨r, hr, hr'⟩ := h.serves.region
  refine ⟨r, hr, hr', fun fuel => ?_⟩
  simp only [fwdRun, ho, hr]
  exact fwd_loop cfg src inp r o h.timestep_pos h.serves hr' fuel

theorem bwd_run_eq (cfg : RunConfig α) (src : Source m n α) (inp : Input m n α) (path : ℤ → P)
    (disk : P → Option (BwdOutput (m + 2) (n + 2) α)) (h : Runnable cfg src inp)
    (o) (ho : bwdInitialize cfg src path disk = .ok o) :
    ∃ r, src.region = .ok r ∧ (∀ t, cfg.tracking_start_date ≤ t → t ≤ cfg.tracking_end_date →
      regionAt r t = .ok (inp.region t)) ∧ ∀ fuel, bwdRun cfg src path disk fuel =
      if fuel < cfg.steps then .stillRunning (bwdStateAt cfg src inp r o fuel)
      else .finished (bwdStateAt cfg src inp r o cfg.steps) := by
  obtain ⟨r, hr, hr'⟩ := h.serves.region
  refine ⟨r, hr, hr', fun fuel => ?_⟩
  simp only [bwdRun, ho, hr]
  exact bwd_loop cfg src inp r o h.timestep_pos h.serves hr' fuel

/-- initialisation succeeds unless a restart file is missing -/
theorem fwd_init_ok (cfg : RunConfig α) (src : Source m n α) (inp : Input m n α) (path : ℤ → P)
    (disk : P → Option (FwdOutput (m + 2) (n + 2) α)) (h : Runnable cfg src inp)
    (hr : cfg.restart = true → (disk (path cfg.tracking_start_date)).isSome) :
    ∃ o, fwdInitialize cfg src path disk = .ok o := by
  unfold fwdInitialize
  rw [h.serves.states _ le_rfl h.ordered]
  simp only
  by_cases hc : cfg.restart = true
  · obtain ⟨f, hf⟩ := Option.isSome_iff_exists.mp (hr hc)
    rw [if_pos hc, hf]; exact ⟨_, rfl⟩
  · rw [if_neg hc]; exact ⟨_, rfl⟩

/-- initialisation succeeds unless a restart file is missing -/
theorem bwd_init_ok (cfg : RunConfig α) (src : Source m n α) (inp : Input m n α) (path : ℤ → P)
    (disk : P → Option (BwdOutput (m + 2) (n + 2) α)) (h : Runnable cfg src inp)
    (hr : cfg.restart = true → (disk (path cfg.tracking_end_date)).isSome) :
    ∃ o, bwdInitialize cfg src path disk = .ok o := by
  unfold bwdInitialize
  rw [h.serves.states _ h.ordered le_rfl]
  simp only
  by_cases hc : cfg.restart = true
  · obtain ⟨f, hf⟩ := Option.isSome_iff_exists.mp (hr hc)
    rw [if_pos hc, hf]; exact ⟨_, rfl⟩
  · rw [if_neg hc]; exact ⟨_, rfl⟩

/-- a finished forward run is the closed form -/
theorem fwd_ends (cfg : RunConfig α) (src : Source m n α) (inp : Input m n α) (path : ℤ → P)
    (disk : P → Option (FwdOutput (m + 2) (n + 2) α)) (h : Runnable cfg src inp) {s}
    (hs : EndsIn (fwdRun cfg src path disk) s) :
    ∃ o r, fwdInitialize cfg src path disk = .ok o ∧ s = fwdStateAt cfg src inp r o cfg.steps := by
  obtain ⟨N, hN⟩ := hs
  rcases ho : fwdInitialize cfg src path disk with e | o
  · have := hN N le_rfl
    simp [fwdRun, ho] at this
  · obtain ⟨r, hr, _, hrun⟩ := fwd_run_eq cfg src inp path disk h o ho
    have := hN (max N cfg.steps) (le_max_left _ _)
    rw [hrun, if_neg (by omega)] at this
    exact ⟨o, r, rfl, by simpa using this.symm⟩

/-- a finished backward run is the closed form -/
theorem bwd_ends (cfg : RunConfig α) (src : Source m n α) (inp : Input m n α) (path : ℤ → P)
    (disk : P → Option (BwdOutput (m + 2) (n + 2) α)) (h : Runnable cfg src inp) {s}
    (hs : EndsIn (bwdRun cfg src path disk) s) :
    ∃ o r, bwdInitialize cfg src path disk = .ok o ∧ s = bwdStateAt cfg src inp r o cfg.steps := by
  obtain ⟨N, hN⟩ := hs
  rcases ho : bwdInitialize cfg src path disk with e | o
  · have := hN N le_rfl
    simp [bwdRun, ho] at this
  · obtain ⟨r, hr, _, hrun⟩ := bwd_run_eq cfg src inp path disk h o ho
    have := hN (max N cfg.steps) (le_max_left _ _)
    rw [hrun, if_neg (by omega)] at this
    exact ⟨o, r, rfl, by simpa using this.symm⟩


theorem fwd_init_eq' (cfg : RunConfig α) (src : Source m n α) [Zero α] (hz : (ofRat 0 : α) = 0) (path : ℤ → P)
    (disk : P → Option (FwdOutput (m + 2) (n + 2) α)) (o)
    (ho : fwdInitialize cfg src path disk = .ok o) :
    o = { FwdOutput.zeros with s_track_lower := (startFwd cfg path disk).1,
                               s_track_upper := (startFwd cfg path disk).2 } := by
  unfold fwdInitialize at ho
  unfold startFwd
  rcases hs : src.states cfg.tracking_start_date with e | S
  · rw [hs] at ho; simp at ho
  · rw [hs] at ho
    simp only at ho
    by_cases hr : cfg.restart = true
    · rw [if_pos hr] at ho
      rcases hd : disk (path cfg.tracking_start_date) with _ | f
      · rw [hd] at ho; simp at ho
      · rw [hd] at ho
        simp only [Except.ok.injEq] at ho
        rw [hr]; exact ho.symm
    · rw [if_neg hr] at ho
      simp only [Except.ok.injEq] at ho
      have : cfg.restart = false := by simpa using hr
      rw [this, ← ho]
      simp [FwdOutput.zeros, hz]

theorem bwd_init_eq' (cfg : RunConfig α) (src : Source m n α) [Zero α] (hz : (ofRat 0 : α) = 0) (path : ℤ → P)
    (disk : P → Option (BwdOutput (m + 2) (n + 2) α)) (o)
    (ho : bwdInitialize cfg src path disk = .ok o) :
    o = { BwdOutput.zeros with s_track_lower := (startBwd cfg path disk).1,
                               s_track_upper := (startBwd cfg path disk).2 } := by
  unfold bwdInitialize at ho
  unfold startBwd
  rcases hs : src.states cfg.tracking_end_date with e | S
  · rw [hs] at ho; simp at ho
  · rw [hs] at ho
    simp only at ho
    by_cases hr : cfg.restart = true
    · rw [if_pos hr] at ho
      rcases hd : disk (path cfg.tracking_end_date) with _ | f
      · rw [hd] at ho; simp at ho
      · rw [hd] at ho
        simp only [Except.ok.injEq] at ho
        rw [hr]; exact ho.symm
    · rw [if_neg hr] at ho
      simp only [Except.ok.injEq] at ho
      have : cfg.restart = false := by simpa using hr
      rw [this, ← ho]
      simp [BwdOutput.zeros, hz]

theorem RunConfig.fwdTime_mem (cfg : RunConfig α) (hdt : 0 < cfg.timestep)
    (hAB : cfg.tracking_start_date ≤ cfg.tracking_end_date) (k : ℕ) (hk : k ≤ cfg.steps) :
    cfg.tracking_start_date ≤ cfg.fwdTime k ∧ cfg.fwdTime k ≤ cfg.tracking_end_date := by
  have hd := cfg.dt_pos hdt
  refine ⟨?_, (le_stepCount hd hAB k).mp hk⟩
  have : 0 ≤ (k : ℤ) * cfg.dt := by positivity
  unfold RunConfig.fwdTime; linarith

theorem RunConfig.bwdTime_mem (cfg : RunConfig α) (hdt : 0 < cfg.timestep)
    (hAB : cfg.tracking_start_date ≤ cfg.tracking_end_date) (k : ℕ) (hk : k ≤ cfg.steps) :
    cfg.tracking_start_date ≤ cfg.bwdTime k ∧ cfg.bwdTime k ≤ cfg.tracking_end_date := by
  have hd := cfg.dt_pos hdt
  have h1 := (le_stepCount hd hAB k).mp hk
  have : 0 ≤ (k : ℤ) * cfg.dt := by positivity
  unfold RunConfig.bwdTime; constructor <;> linarith

theorem RunConfig.halfDt_pos (cfg : RunConfig α) (h : 0 < cfg.timestep) : 0 < cfg.halfDt := by
  unfold RunConfig.halfDt; positivity

theorem RunConfig.fwdHalf_mem (cfg : RunConfig α) (hdt : 0 < cfg.timestep)
    (hAB : cfg.tracking_start_date ≤ cfg.tracking_end_date) (k : ℕ) (hk : k < cfg.steps) :
    cfg.tracking_start_date ≤ cfg.fwdTime k + cfg.halfDt ∧
      cfg.fwdTime k + cfg.halfDt ≤ cfg.tracking_end_date := by
  have h1 := cfg.fwdTime_mem hdt hAB k hk.le
  have h2 := cfg.fwdTime_mem hdt hAB (k + 1) hk
  have h3 := cfg.fwdTime_succ k
  have h4 := cfg.dt_eq
  have h5 := cfg.halfDt_pos hdt
  constructor <;> linarith [h1.1, h2.2]

theorem RunConfig.bwdHalf_mem (cfg : RunConfig α) (hdt : 0 < cfg.timestep)
    (hAB : cfg.tracking_start_date ≤ cfg.tracking_end_date) (k : ℕ) (hk : k < cfg.steps) :
    cfg.tracking_start_date ≤ cfg.bwdTime k - cfg.halfDt ∧
      cfg.bwdTime k - cfg.halfDt ≤ cfg.tracking_end_date := by
  have h1 := cfg.bwdTime_mem hdt hAB k hk.le
  have h2 := cfg.bwdTime_mem hdt hAB (k + 1) hk
  have h3 := cfg.bwdTime_succ k
  have h4 := cfg.dt_eq
  have h5 := cfg.halfDt_pos hdt
  constructor <;> linarith [h1.2, h2.1]

end

end Wam
