import Verif.Spec.Run
import Verif.Lemmas.NumK
import Mathlib.Tactic.Ring
import Mathlib.Tactic.Linarith
import Mathlib.Tactic.Positivity
import Mathlib.Algebra.BigOperators.Fin
import Mathlib.Algebra.Order.BigOperators.Group.Finset
import Mathlib.Data.List.Range

/-! # The loop of a run in closed form -/

set_option linter.unusedSectionVars false

namespace Wam

open Spec

/-! ### Generic iteration with output and flush -/

/-- an iteration with a step, an output rule and a flush -/
structure Proc (ω : Type*) where
  step : ℕ → ω → ω
  write : ℕ → Bool
  time : ℕ → ℤ
  flush : ω → ω

namespace Proc
variable {ω : Type*} (p : Proc ω) (o : ω)

/-- output dataset after `k` iterations -/
def out : ℕ → ω
  | 0 => o
  | k + 1 => if p.write (k + 1) then p.flush (p.step k (out k)) else p.step k (out k)

/-- dataset at the end of iteration `k`, before writing and flushing -/
def full (k : ℕ) : ω := p.step k (p.out o k)

/-- files after `k` iterations -/
def files : ℕ → List (ℤ × ω)
  | 0 => []
  | k + 1 => files k ++ if p.write (k + 1) then [(p.time (k + 1), p.full o k)] else []

/-- tracker after `k` iterations -/
def track {τ : Type*} (store : τ → ω → τ) (tr : τ) : ℕ → τ
  | 0 => tr
  | k + 1 => if p.write (k + 1) then store (track store tr k) (p.full o k) else track store tr k

/-- reports after `k` iterations -/
def reports {τ ρ : Type*} (store : τ → ω → τ) (report : τ → ω → ρ) (tr : τ) : ℕ → List (ℤ × ρ)
  | 0 => []
  | k + 1 => reports store report tr k ++
      if p.write (k + 1) then [(p.time (k + 1), report (p.track o store tr k) (p.full o k))] else []

theorem track_eq_foldl {τ : Type*} (store : τ → ω → τ) (tr : τ) (k : ℕ) :
    p.track o store tr k = ((p.files o k).map Prod.snd).foldl store tr := by
  induction k with
  | zero => rfl
  | succ k ih =>
    simp only [track, files]
    split <;> simp [ih, List.foldl_append]

theorem mem_files {k : ℕ} {x : ℤ × ω} :
    x ∈ p.files o k ↔ ∃ i < k, p.write (i + 1) = true ∧ x = (p.time (i + 1), p.full o i) := by
  induction k with
  | zero => simp [files]
  | succ k ih =>
    simp only [files, List.mem_append, ih]
    constructor
    · rintro (⟨i, hi, hw, rfl⟩ | h)
      · exact ⟨i, by omega, hw, rfl⟩
      · split at h
        · rename_i hw
          simp only [List.mem_singleton] at h
          exact ⟨k, by omega, hw, h⟩
        · simp at h
    · rintro ⟨i, hi, hw, rfl⟩
      rcases Nat.lt_succ_iff_lt_or_eq.mp hi with h | rfl
      · exact Or.inl ⟨i, h, hw, rfl⟩
      · right; rw [if_pos hw]; simp

/-- a property of the dataset that every step establishes or keeps and the flush keeps -/
theorem out_inv (I : ℕ → ω → Prop) (h0 : I 0 o) (N : ℕ)
    (hs : ∀ k < N, ∀ x, I k x → I (k + 1) (p.step k x)) (hf : ∀ k x, I k x → I k (p.flush x)) :
    ∀ k ≤ N, I k (p.out o k) := by
  intro k hk
  induction k with
  | zero => exact h0
  | succ k ih =>
    have := hs k (by omega) _ (ih (by omega))
    simp only [out]
    split
    · exact hf _ _ this
    · exact this

/-- a conserved sum: stock plus accumulation is changed only by `inc` -/
theorem budget {M : Type*} [AddCommMonoid M] (acc : ω → M) (N : ℕ) (inc : ℕ → M)
    (hs : ∀ k < N, acc (p.full o k) = acc (p.out o k) + inc k)
    (hf : ∀ x, acc (p.flush x) = 0) :
    ∀ k ≤ N, ((p.files o k).map fun x => acc x.2).sum + acc (p.out o k) =
      acc o + ∑ i ∈ Finset.range k, inc i := by
  intro k hk
  induction k with
  | zero => simp [files, out]
  | succ k ih =>
    have ih := ih (by omega)
    have hk' := hs k (by omega)
    have e : p.step k (p.out o k) = p.full o k := rfl
    rw [Finset.sum_range_succ, ← add_assoc, ← ih]
    simp only [files, out]
    split
    · simp [hf, e, hk', add_assoc]
    · simp [e, hk', add_assoc]

theorem files_time (k : ℕ) : (p.files o k).map Prod.fst =
    ((List.range k).filter fun i => p.write (i + 1)).map fun i => p.time (i + 1) := by
  induction k with
  | zero => rfl
  | succ k ih =>
    rw [List.range_succ]
    simp only [files, List.map_append, ih, List.filter_append, List.filter_cons, List.filter_nil]
    split <;> simp

/-- the process from iteration `B` on -/
def shift (B : ℕ) : Proc ω :=
  { step := fun k => p.step (B + k), write := fun k => p.write (B + k),
    time := fun k => p.time (B + k), flush := p.flush }

theorem shift_out (B k : ℕ) : (p.shift B).out (p.out o B) k = p.out o (B + k) := by
  induction k with
  | zero => rfl
  | succ k ih => simp only [out, ih]; rfl

theorem shift_files (B k : ℕ) :
    p.files o (B + k) = p.files o B ++ (p.shift B).files (p.out o B) k := by
  induction k with
  | zero => simp [files]
  | succ k ih =>
    rw [← add_assoc]
    simp only [files, ih, List.append_assoc, full, shift_out]
    rfl

theorem out_congr {p q : Proc ω} (N : ℕ) (hs : ∀ k < N, p.step k = q.step k)
    (hw : ∀ k ≤ N, 0 < k → p.write k = q.write k) (hf : p.flush = q.flush) :
    ∀ k ≤ N, p.out o k = q.out o k := by
  intro k hk
  induction k with
  | zero => rfl
  | succ k ih => simp only [out, ih (by omega), hs k (by omega), hw (k + 1) hk (by omega), hf]

theorem files_congr {p q : Proc ω} (N : ℕ) (hs : ∀ k < N, p.step k = q.step k)
    (hw : ∀ k ≤ N, 0 < k → p.write k = q.write k) (hf : p.flush = q.flush)
    (ht : ∀ k ≤ N, 0 < k → p.time k = q.time k) :
    ∀ k ≤ N, p.files o k = q.files o k := by
  intro k hk
  induction k with
  | zero => rfl
  | succ k ih =>
    simp only [files, ih (by omega), full, out_congr o N hs hw hf k (by omega), hs k (by omega),
      hw (k + 1) hk (by omega), ht (k + 1) hk (by omega)]

end Proc

/-! ### `while` -/

theorem whileLoop_steps {σ : Type*} (guard : σ → Bool) (body : σ → Except Err σ) (st : ℕ → σ)
    (N : ℕ) (hg : ∀ k < N, guard (st k) = true) (hb : ∀ k < N, body (st k) = .ok (st (k + 1)))
    (fuel : ℕ) (hf : N ≤ fuel) :
    whileLoop guard body fuel (st 0) = whileLoop guard body (fuel - N) (st N) := by
  induction N with
  | zero => rfl
  | succ N ih =>
    rw [ih (fun k hk => hg k (by omega)) (fun k hk => hb k (by omega)) (by omega)]
    obtain ⟨f, hf'⟩ : ∃ f, fuel - N = f + 1 := ⟨fuel - N - 1, by omega⟩
    have hf2 : fuel - (N + 1) = f := by omega
    rw [hf', hf2, whileLoop, if_pos (hg N (by omega)), hb N (by omega)]

theorem whileLoop_finished {σ : Type*} (guard : σ → Bool) (body : σ → Except Err σ) (s : σ)
    (h : guard s = false) (fuel : ℕ) : whileLoop guard body fuel s = .finished s := by
  cases fuel <;> simp [whileLoop, h]

theorem whileLoop_running {σ : Type*} (guard : σ → Bool) (body : σ → Except Err σ) (s : σ)
    (h : guard s = true) : whileLoop guard body 0 s = .stillRunning s := by
  simp [whileLoop, h]

/-! ### Arithmetic of step counts -/

theorem lt_stepCount {A B dt : ℤ} (hdt : 0 < dt) (k : ℕ) :
    k < stepCount A B dt ↔ A + (k + 1) * dt ≤ B := by
  unfold stepCount
  rw [Int.lt_toNat, Int.lt_iff_add_one_le, Int.le_ediv_iff_mul_le hdt]
  constructor <;> intro h <;> linarith

theorem le_stepCount {A B dt : ℤ} (hdt : 0 < dt) (hAB : A ≤ B) (k : ℕ) :
    k ≤ stepCount A B dt ↔ A + k * dt ≤ B := by
  rcases k with _ | k
  · simp [hAB]
  · rw [Nat.succ_le_iff, lt_stepCount hdt]; push_cast; rfl

theorem floorTime_eq_iff (t u : ℤ) : t = floorTime t u ↔ u ∣ t := by
  rw [floorTime, Int.dvd_iff_emod_eq_zero]; omega

/-! ### The forward run -/

section
variable {m n : ℕ} {α : Type*} [Add α] [Sub α] [Mul α] [Div α] [Neg α] [NpOps α]

/-- mask applied at time `t` -/
def maskAt (cfg : RunConfig α) (inp : Input m n α) (t : ℤ) : Arr (m + 2) (n + 2) α :=
  if inWindow cfg t then inp.region t else fun _ _ => ofRat 0

/-- fluxes of a step after scaling and stabilisation with the storages `S` -/
def stableFluxes (cfg : RunConfig α) (g : GridInfo (m + 2) α) (F : Fluxes (m + 2) (n + 2) α)
    (S : States (m + 2) (n + 2) α) : Fluxes (m + 2) (n + 2) α :=
  stabilizeFluxes (ofRat cfg.timestep) g.a (scaleFluxes g F) S

/-- forward step starting at `t` -/
def fwdStepAt (cfg : RunConfig α) (g : GridInfo (m + 2) α) (inp : Input m n α) (t : ℤ)
    (o : FwdOutput (m + 2) (n + 2) α) : FwdOutput (m + 2) (n + 2) α :=
  let S0 := inp.states t
  let S1 := inp.states (t + cfg.dt)
  let F := stableFluxes cfg g (inp.fluxes (t + cfg.halfDt)) S0
  forwardtrack cfg.periodic_boundary (ofRat cfg.timestep) cfg.kvf g.a F
    (calculateFz g.a F S0 S1 (ofRat cfg.timestep) cfg.kvf) S1 S0 (maskAt cfg inp t) o

/-- backward step starting at `t` (going to `t - dt`) -/
def bwdStepAt (cfg : RunConfig α) (g : GridInfo (m + 2) α) (inp : Input m n α) (t : ℤ)
    (o : BwdOutput (m + 2) (n + 2) α) : BwdOutput (m + 2) (n + 2) α :=
  let S0 := inp.states (t - cfg.dt)
  let S1 := inp.states t
  let F := stableFluxes cfg g (inp.fluxes (t - cfg.halfDt)) S1
  backtrack cfg.periodic_boundary (ofRat cfg.timestep) cfg.kvf g.a F
    (calculateFz g.a F S0 S1 (ofRat cfg.timestep) cfg.kvf) S1 S0 (maskAt cfg inp t) o

/-- number of steps -/
def RunConfig.steps (cfg : RunConfig α) : ℕ :=
  stepCount cfg.tracking_start_date cfg.tracking_end_date cfg.dt

/-- time after `k` forward steps -/
def RunConfig.fwdTime (cfg : RunConfig α) (k : ℕ) : ℤ := cfg.tracking_start_date + k * cfg.dt
/-- time after `k` backward steps -/
def RunConfig.bwdTime (cfg : RunConfig α) (k : ℕ) : ℤ := cfg.tracking_end_date - k * cfg.dt

/-- the forward run as a process -/
def fwdProc (cfg : RunConfig α) (g : GridInfo (m + 2) α) (inp : Input m n α) :
    Proc (FwdOutput (m + 2) (n + 2) α) :=
  { step := fun k => fwdStepAt cfg g inp (cfg.fwdTime k)
    write := fun k => decide (writes cfg.fwdTime cfg.output_frequency cfg.steps k)
    time := cfg.fwdTime
    flush := FwdOutput.flush }

/-- the backward run as a process -/
def bwdProc (cfg : RunConfig α) (g : GridInfo (m + 2) α) (inp : Input m n α) :
    Proc (BwdOutput (m + 2) (n + 2) α) :=
  { step := fun k => bwdStepAt cfg g inp (cfg.bwdTime k)
    write := fun k => decide (writes cfg.bwdTime cfg.output_frequency cfg.steps k)
    time := cfg.bwdTime
    flush := BwdOutput.flush }

/-- what the mask loads at time `t` -/
def maskLoads (cfg : RunConfig α) (r : Region (m + 2) (n + 2) α) (t : ℤ) : List Load :=
  match r with
  | .stationary _ => []
  | .moving _ => if inWindow cfg t then [.region t] else []

theorem taggingMask_ok (cfg : RunConfig α) (inp : Input m n α) (r : Region (m + 2) (n + 2) α) (t : ℤ)
    (h : regionAt r t = .ok (inp.region t)) :
    taggingMask cfg r t = .ok (maskAt cfg inp t, maskLoads cfg r t) := by
  unfold taggingMask
  by_cases hw : inWindow cfg t
  · rw [if_pos (show _ ∧ _ from hw)]
    cases r with
    | stationary mask =>
      simp only [regionAt, Except.ok.injEq] at h
      simp [maskAt, maskLoads, hw, h]
    | moving f =>
      simp only [regionAt] at h
      simp [maskAt, maskLoads, hw, h]
  · rw [if_neg (show ¬ (_ ∧ _) from hw)]
    cases r <;> simp [maskAt, maskLoads, hw]

/-- data loaded in the first `k` forward steps -/
def fwdLoads (cfg : RunConfig α) (r : Region (m + 2) (n + 2) α) : ℕ → List Load
  | 0 => [.states cfg.tracking_start_date]
  | k + 1 => fwdLoads cfg r k ++ ([.states (cfg.fwdTime k), .fluxes (cfg.fwdTime k + cfg.halfDt),
      .states (cfg.fwdTime (k + 1))] ++ maskLoads cfg r (cfg.fwdTime k))

/-- data loaded in the first `k` backward steps -/
def bwdLoads (cfg : RunConfig α) (r : Region (m + 2) (n + 2) α) : ℕ → List Load
  | 0 => [.states cfg.tracking_end_date]
  | k + 1 => bwdLoads cfg r k ++ ([.states (cfg.bwdTime (k + 1)),
      .fluxes (cfg.bwdTime k - cfg.halfDt), .states (cfg.bwdTime k)] ++
      maskLoads cfg r (cfg.bwdTime k))

/-- state of the forward loop after `k` iterations -/
def fwdStateAt (cfg : RunConfig α) (src : Source m n α) (inp : Input m n α)
    (r : Region (m + 2) (n + 2) α) (o : FwdOutput (m + 2) (n + 2) α) (k : ℕ) :
    LoopState (FwdOutput (m + 2) (n + 2) α) α :=
  let p := fwdProc cfg src.grid inp
  let store := fun tr x => Tracker.storeFwd cfg.periodic_boundary src.weight tr x
  let report := fun tr x => Tracker.reportFwd cfg.periodic_boundary src.weight tr x
  { t0 := cfg.fwdTime k, th := cfg.fwdTime k + cfg.halfDt, t1 := cfg.fwdTime (k + 1)
    output := p.out o k
    tracker := p.track o store (store Tracker.zero o) k
    loads := fwdLoads cfg r k
    files := p.files o k
    reports := p.reports o store report (store Tracker.zero o) k }

/-- state of the backward loop after `k` iterations -/
def bwdStateAt (cfg : RunConfig α) (src : Source m n α) (inp : Input m n α)
    (r : Region (m + 2) (n + 2) α) (o : BwdOutput (m + 2) (n + 2) α) (k : ℕ) :
    LoopState (BwdOutput (m + 2) (n + 2) α) α :=
  let p := bwdProc cfg src.grid inp
  let store := fun tr x => Tracker.storeBwd cfg.periodic_boundary src.weight tr x
  let report := fun tr x => Tracker.reportBwd cfg.periodic_boundary src.weight tr x
  { t0 := cfg.bwdTime (k + 1), th := cfg.bwdTime k - cfg.halfDt, t1 := cfg.bwdTime k
    output := p.out o k
    tracker := p.track o store (store Tracker.zero o) k
    loads := bwdLoads cfg r k
    files := p.files o k
    reports := p.reports o store report (store Tracker.zero o) k }

theorem RunConfig.fwdTime_succ (cfg : RunConfig α) (k : ℕ) :
    cfg.fwdTime (k + 1) = cfg.fwdTime k + cfg.dt := by
  unfold RunConfig.fwdTime; push_cast; ring

theorem RunConfig.bwdTime_succ (cfg : RunConfig α) (k : ℕ) :
    cfg.bwdTime (k + 1) = cfg.bwdTime k - cfg.dt := by
  unfold RunConfig.bwdTime; push_cast; ring

theorem RunConfig.dt_eq (cfg : RunConfig α) : cfg.dt = 2 * cfg.halfDt := by
  unfold RunConfig.dt RunConfig.halfDt usPerSecond; ring

theorem RunConfig.dt_pos (cfg : RunConfig α) (h : 0 < cfg.timestep) : 0 < cfg.dt := by
  unfold RunConfig.dt usPerSecond; positivity

theorem fwd_body_at (cfg : RunConfig α) (src : Source m n α) (inp : Input m n α)
    (r : Region (m + 2) (n + 2) α) (o : FwdOutput (m + 2) (n + 2) α) (hdt : 0 < cfg.timestep)
    (hS : Serves src inp cfg.tracking_start_date cfg.tracking_end_date)
    (hr : ∀ t, cfg.tracking_start_date ≤ t → t ≤ cfg.tracking_end_date →
      regionAt r t = .ok (inp.region t)) (k : ℕ) (hk : k < cfg.steps) :
    fwdBody cfg src r (fwdStateAt cfg src inp r o k) = .ok (fwdStateAt cfg src inp r o (k + 1)) := by
  have hd := cfg.dt_pos hdt
  have hh : cfg.dt = 2 * cfg.halfDt := cfg.dt_eq
  have hk' := (lt_stepCount hd k).mp hk
  have hk0 : 0 ≤ (k : ℤ) * cfg.dt := by positivity
  have e1 : cfg.fwdTime (k + 1) = cfg.fwdTime k + cfg.dt := cfg.fwdTime_succ k
  have e2 : cfg.fwdTime (k + 1 + 1) = cfg.fwdTime (k + 1) + cfg.dt := cfg.fwdTime_succ (k + 1)
  have b0 : cfg.tracking_start_date ≤ cfg.fwdTime k := by unfold RunConfig.fwdTime; linarith
  have b1 : cfg.fwdTime (k + 1) ≤ cfg.tracking_end_date := by
    unfold RunConfig.fwdTime; push_cast; linarith
  have w : (decide (cfg.fwdTime (k + 1) = floorTime (cfg.fwdTime (k + 1)) cfg.output_frequency) ||
      decide (cfg.tracking_end_date < cfg.fwdTime (k + 1 + 1))) =
      (fwdProc cfg src.grid inp).write (k + 1) := by
    rw [Bool.eq_iff_iff]
    simp only [fwdProc, Bool.or_eq_true, decide_eq_true_eq, floorTime_eq_iff]
    apply or_congr Iff.rfl
    have := lt_stepCount (A := cfg.tracking_start_date) (B := cfg.tracking_end_date) hd (k + 1)
    change _ < cfg.steps ↔ _ at this
    have e : cfg.tracking_start_date + (((k + 1 : ℕ) : ℤ) + 1) * cfg.dt = cfg.fwdTime (k + 1 + 1) := by
      unfold RunConfig.fwdTime; push_cast; ring
    rw [e] at this
    constructor
    · intro h
      have : ¬ (k + 1 < cfg.steps) := fun h' => absurd (this.mp h') (not_le.mpr h)
      omega
    · intro h
      by_contra h'
      have := this.mpr (not_lt.mp h')
      omega
  unfold fwdBody
  have hadv : fwdAdvance cfg src r (fwdStateAt cfg src inp r o k).t0
      (fwdStateAt cfg src inp r o k).th (fwdStateAt cfg src inp r o k).t1
      (fwdStateAt cfg src inp r o k).output =
      .ok ((fwdProc cfg src.grid inp).full o k, [.states (cfg.fwdTime k),
        .fluxes (cfg.fwdTime k + cfg.halfDt), .states (cfg.fwdTime (k + 1))] ++
        maskLoads cfg r (cfg.fwdTime k)) := by
    simp only [fwdAdvance, fwdStateAt]
    rw [hS.states _ b0 (by linarith), hS.fluxes _ (by linarith) (by linarith),
      hS.states _ (by linarith) b1, taggingMask_ok cfg inp r _ (hr _ b0 (by linarith))]
    simp only [Proc.full, fwdProc, fwdStepAt, stableFluxes, e1]
  rw [hadv]
  simp only
  have f0 : (fwdStateAt cfg src inp r o k).t0 + cfg.dt = cfg.fwdTime (k + 1) := e1.symm
  have f1 : (fwdStateAt cfg src inp r o k).t1 + cfg.dt = cfg.fwdTime (k + 1 + 1) := e2.symm
  have fh : (fwdStateAt cfg src inp r o k).th + cfg.dt = cfg.fwdTime (k + 1) + cfg.halfDt := by
    rw [e1]; show cfg.fwdTime k + cfg.halfDt + cfg.dt = _; ring
  rw [f0, f1, fh]
  rw [w]
  by_cases hw : (fwdProc cfg src.grid inp).write (k + 1) = true
  · rw [if_pos hw]
    simp only [fwdStateAt, Proc.out, Proc.track, Proc.files, Proc.reports, hw, if_true, fwdLoads]
    rfl
  · rw [if_neg hw]
    simp only [fwdStateAt, Proc.out, Proc.track, Proc.files, Proc.reports, hw, if_false, fwdLoads,
      List.append_nil, Proc.full, Bool.false_eq_true]

theorem bwd_body_at (cfg : RunConfig α) (src : Source m n α) (inp : Input m n α)
    (r : Region (m + 2) (n + 2) α) (o : BwdOutput (m + 2) (n + 2) α) (hdt : 0 < cfg.timestep)
    (hS : Serves src inp cfg.tracking_start_date cfg.tracking_end_date)
    (hr : ∀ t, cfg.tracking_start_date ≤ t → t ≤ cfg.tracking_end_date →
      regionAt r t = .ok (inp.region t)) (k : ℕ) (hk : k < cfg.steps) :
    bwdBody cfg src r (bwdStateAt cfg src inp r o k) = .ok (bwdStateAt cfg src inp r o (k + 1)) := by
  have hd := cfg.dt_pos hdt
  have hh : cfg.dt = 2 * cfg.halfDt := cfg.dt_eq
  have hk' := (lt_stepCount hd k).mp hk
  have hk0 : 0 ≤ (k : ℤ) * cfg.dt := by positivity
  have e1 : cfg.bwdTime (k + 1) = cfg.bwdTime k - cfg.dt := cfg.bwdTime_succ k
  have e2 : cfg.bwdTime (k + 1 + 1) = cfg.bwdTime (k + 1) - cfg.dt := cfg.bwdTime_succ (k + 1)
  have b1 : cfg.bwdTime k ≤ cfg.tracking_end_date := by unfold RunConfig.bwdTime; linarith
  have b0 : cfg.tracking_start_date ≤ cfg.bwdTime (k + 1) := by
    unfold RunConfig.bwdTime; push_cast; linarith
  have w : (decide (cfg.bwdTime (k + 1) = floorTime (cfg.bwdTime (k + 1)) cfg.output_frequency) ||
      decide (cfg.bwdTime (k + 1 + 1) < cfg.tracking_start_date)) =
      (bwdProc cfg src.grid inp).write (k + 1) := by
    rw [Bool.eq_iff_iff]
    simp only [bwdProc, Bool.or_eq_true, decide_eq_true_eq, floorTime_eq_iff]
    apply or_congr Iff.rfl
    have := lt_stepCount (A := cfg.tracking_start_date) (B := cfg.tracking_end_date) hd (k + 1)
    change _ < cfg.steps ↔ _ at this
    have e : cfg.tracking_start_date + (((k + 1 : ℕ) : ℤ) + 1) * cfg.dt ≤ cfg.tracking_end_date ↔
        cfg.tracking_start_date ≤ cfg.bwdTime (k + 1 + 1) := by
      unfold RunConfig.bwdTime; push_cast; constructor <;> intro h <;> linarith
    rw [e] at this
    constructor
    · intro h
      have : ¬ (k + 1 < cfg.steps) := fun h' => absurd (this.mp h') (not_le.mpr h)
      omega
    · intro h
      by_contra h'
      have := this.mpr (not_lt.mp h')
      omega
  unfold bwdBody
  have hadv : bwdAdvance cfg src r (bwdStateAt cfg src inp r o k).t0
      (bwdStateAt cfg src inp r o k).th (bwdStateAt cfg src inp r o k).t1
      (bwdStateAt cfg src inp r o k).output =
      .ok ((bwdProc cfg src.grid inp).full o k, [.states (cfg.bwdTime (k + 1)),
        .fluxes (cfg.bwdTime k - cfg.halfDt), .states (cfg.bwdTime k)] ++
        maskLoads cfg r (cfg.bwdTime k)) := by
    simp only [bwdAdvance, bwdStateAt]
    rw [hS.states _ b0 (by linarith), hS.fluxes _ (by linarith) (by linarith),
      hS.states _ (by linarith) b1, taggingMask_ok cfg inp r _ (hr _ (by linarith) b1)]
    simp only [Proc.full, bwdProc, bwdStepAt, stableFluxes, e1]
  rw [hadv]
  simp only
  have f0 : (bwdStateAt cfg src inp r o k).t0 - cfg.dt = cfg.bwdTime (k + 1 + 1) := e2.symm
  have f1 : (bwdStateAt cfg src inp r o k).t1 - cfg.dt = cfg.bwdTime (k + 1) := e1.symm
  have fh : (bwdStateAt cfg src inp r o k).th - cfg.dt = cfg.bwdTime (k + 1) - cfg.halfDt := by
    rw [e1]; show cfg.bwdTime k - cfg.halfDt - cfg.dt = _; ring
  rw [f0, f1, fh]
  rw [w]
  by_cases hw : (bwdProc cfg src.grid inp).write (k + 1) = true
  · rw [if_pos hw]
    simp only [bwdStateAt, Proc.out, Proc.track, Proc.files, Proc.reports, hw, if_true, bwdLoads]
    rfl
  · rw [if_neg hw]
    simp only [bwdStateAt, Proc.out, Proc.track, Proc.files, Proc.reports, hw, if_false, bwdLoads,
      List.append_nil, Proc.full, Bool.false_eq_true]

theorem fwd_start_at (cfg : RunConfig α) (src : Source m n α) (inp : Input m n α)
    (r : Region (m + 2) (n + 2) α) (o : FwdOutput (m + 2) (n + 2) α) :
    fwdStart cfg src o = fwdStateAt cfg src inp r o 0 := by
  simp [fwdStart, fwdStateAt, RunConfig.fwdTime, Proc.out, Proc.track, Proc.files, Proc.reports,
    fwdLoads]

theorem bwd_start_at (cfg : RunConfig α) (src : Source m n α) (inp : Input m n α)
    (r : Region (m + 2) (n + 2) α) (o : BwdOutput (m + 2) (n + 2) α) :
    bwdStart cfg src o = bwdStateAt cfg src inp r o 0 := by
  simp [bwdStart, bwdStateAt, RunConfig.bwdTime, Proc.out, Proc.track, Proc.files, Proc.reports,
    bwdLoads]

theorem fwd_guard_at (cfg : RunConfig α) (src : Source m n α) (inp : Input m n α)
    (r : Region (m + 2) (n + 2) α) (o : FwdOutput (m + 2) (n + 2) α) (hdt : 0 < cfg.timestep)
    (k : ℕ) : fwdGuard cfg (fwdStateAt cfg src inp r o k) = decide (k < cfg.steps) := by
  have := lt_stepCount (A := cfg.tracking_start_date) (B := cfg.tracking_end_date)
    (cfg.dt_pos hdt) k
  simp only [fwdGuard, fwdStateAt, RunConfig.steps, RunConfig.fwdTime, this]
  push_cast; rfl

theorem bwd_guard_at (cfg : RunConfig α) (src : Source m n α) (inp : Input m n α)
    (r : Region (m + 2) (n + 2) α) (o : BwdOutput (m + 2) (n + 2) α) (hdt : 0 < cfg.timestep)
    (k : ℕ) : bwdGuard cfg (bwdStateAt cfg src inp r o k) = decide (k < cfg.steps) := by
  have := lt_stepCount (A := cfg.tracking_start_date) (B := cfg.tracking_end_date)
    (cfg.dt_pos hdt) k
  simp only [bwdGuard, bwdStateAt, RunConfig.steps, RunConfig.bwdTime, this]
  congr 1
  apply propext
  push_cast
  constructor <;> intro h <;> linarith

/-- the loop stops after `steps` iterations -/
theorem fwd_loop (cfg : RunConfig α) (src : Source m n α) (inp : Input m n α)
    (r : Region (m + 2) (n + 2) α) (o : FwdOutput (m + 2) (n + 2) α) (hdt : 0 < cfg.timestep)
    (hS : Serves src inp cfg.tracking_start_date cfg.tracking_end_date)
    (hr : ∀ t, cfg.tracking_start_date ≤ t → t ≤ cfg.tracking_end_date →
      regionAt r t = .ok (inp.region t)) (fuel : ℕ) :
    whileLoop (fwdGuard cfg) (fwdBody cfg src r) fuel (fwdStart cfg src o) =
      if fuel < cfg.steps then .stillRunning (fwdStateAt cfg src inp r o fuel)
      else .finished (fwdStateAt cfg src inp r o cfg.steps) := by
  rw [fwd_start_at cfg src inp r o]
  split
  · rename_i h
    rw [whileLoop_steps _ _ (fwdStateAt cfg src inp r o) fuel
      (fun k hk => by rw [fwd_guard_at cfg src inp r o hdt]; simpa using by omega)
      (fun k hk => fwd_body_at cfg src inp r o hdt hS hr k (by omega)) fuel le_rfl, Nat.sub_self]
    exact whileLoop_running _ _ _ (by rw [fwd_guard_at cfg src inp r o hdt]; simpa using h)
  · rename_i h
    rw [whileLoop_steps _ _ (fwdStateAt cfg src inp r o) cfg.steps
      (fun k hk => by rw [fwd_guard_at cfg src inp r o hdt]; simpa using hk)
      (fun k hk => fwd_body_at cfg src inp r o hdt hS hr k hk) fuel (by omega)]
    exact whileLoop_finished _ _ _ (by rw [fwd_guard_at cfg src inp r o hdt]; simp) _

/-- the loop stops after `steps` iterations -/
theorem bwd_loop (cfg : RunConfig α) (src : Source m n α) (inp : Input m n α)
    (r : Region (m + 2) (n + 2) α) (o : BwdOutput (m + 2) (n + 2) α) (hdt : 0 < cfg.timestep)
    (hS : Serves src inp cfg.tracking_start_date cfg.tracking_end_date)
    (hr : ∀ t, cfg.tracking_start_date ≤ t → t ≤ cfg.tracking_end_date →
      regionAt r t = .ok (inp.region t)) (fuel : ℕ) :
    whileLoop (bwdGuard cfg) (bwdBody cfg src r) fuel (bwdStart cfg src o) =
      if fuel < cfg.steps then .stillRunning (bwdStateAt cfg src inp r o fuel)
      else .finished (bwdStateAt cfg src inp r o cfg.steps) := by
  rw [bwd_start_at cfg src inp r o]
  split
  · rename_i h
    rw [whileLoop_steps _ _ (bwdStateAt cfg src inp r o) fuel
      (fun k hk => by rw [bwd_guard_at cfg src inp r o hdt]; simpa using by omega)
      (fun k hk => bwd_body_at cfg src inp r o hdt hS hr k (by omega)) fuel le_rfl, Nat.sub_self]
    exact whileLoop_running _ _ _ (by rw [bwd_guard_at cfg src inp r o hdt]; simpa using h)
  · rename_i h
    rw [whileLoop_steps _ _ (bwdStateAt cfg src inp r o) cfg.steps
      (fun k hk => by rw [bwd_guard_at cfg src inp r o hdt]; simpa using hk)
      (fun k hk => bwd_body_at cfg src inp r o hdt hS hr k hk) fuel (by omega)]
    exact whileLoop_finished _ _ _ (by rw [bwd_guard_at cfg src inp r o hdt]; simp) _

end

end Wam
