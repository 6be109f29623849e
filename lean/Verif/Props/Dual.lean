import Verif.Lemmas.Dual
import Verif.Props.RunPhysics

/-!
# C107: forward and backward tracking give the same answer
-/
set_option linter.unusedSectionVars false
set_option linter.unusedVariables false

namespace Wam
open Spec

variable {m n : ℕ} {K : Type*} [Field K] [LinearOrder K] [IsStrictOrderedRing K] {P P' : Type*}

/-- **C107** (advection).  The advection that backward tracking uses is the transpose of the one forward tracking uses, up to
the convergence of the flow itself: for any two fields `r`, `b` on any grid. -/
theorem C107_advection_transposed (periodic : Bool) (r b fx fy : Arr (m + 2) (n + 2) K) :
    ∑ i, ∑ j, b i j * advect periodic false r fx fy i j =
      ∑ i, ∑ j, r i j * advect periodic true b fx fy i j +
        ∑ i, ∑ j, r i j * b i j * convergence periodic fx fy i j := by
  have := inflow_dual periodic r b fx fy
  simp only [Finset.sum_sub_distrib] at this
  simp only [advect_eq_inflow, advect_eq_inflow_neg]
  linarith

/-- **C107** (vertical exchange): transposed, too, up to the vertical flux itself. -/
theorem C107_vertical_transposed (fz kvf rl ru bl bu : K) :
    (bl - bu) * (verticalAdvection fz rl ru + verticalDispersion fz rl ru kvf) =
      (rl - ru) * (verticalAdvection (-fz) bl bu + verticalDispersion (-fz) bl bu kvf) + (rl * bl - ru * bu) * fz := by
  rw [vertical_eq, vertical_eq]
  have := downward_dual fz kvf rl ru bl bu
  linarith

theorem unlimited_component (dt a s fx fy : K) (hdt : 0 < dt) (ha : 0 < a) (hs : 0 ≤ s) (hf : fx ≠ 0 ∨ fy ≠ 0)
    (h : halfCell dt a s fx fy) :
    stabilizeComponent dt a s fx fy fx = fx ∧ stabilizeComponent dt a s fx fy fy = fy := by
  obtain ⟨θ, -, -, h1, h2, -, h3, -⟩ := stabilize_factor dt a s fx fy hdt ha hs hf
  rw [h3.2 h, one_mul] at h1 h2
  exact ⟨h1, h2⟩

theorem unlimited_stable (dt : K) (a : Fin m → K) (F : Fluxes m n K) (S : States m n K) (hdt : 0 < dt)
    (ha : ∀ i, 0 < a i) (hS : ∀ i j, 0 < S.s_upper i j ∧ 0 < S.s_lower i j) (h : Unlimited dt a F S) :
    stabilizeFluxes dt a F S = F := by
  have hl := fun i j => unlimited_component dt (a i) (S.s_lower i j) _ _ hdt (ha i) (hS i j).2.le (h i j).1.1 (h i j).1.2
  have hu := fun i j => unlimited_component dt (a i) (S.s_upper i j) _ _ hdt (ha i) (hS i j).1.le (h i j).2.1 (h i j).2.2
  unfold stabilizeFluxes
  cases F
  simp only [Fluxes.mk.injEq, and_true]
  exact ⟨funext fun i => funext fun j => (hu i j).1, funext fun i => funext fun j => (hu i j).2,
    funext fun i => funext fun j => (hl i j).1, funext fun i => funext fun j => (hl i j).2⟩

/-- a step where the stability correction is idle: what the forward run does -/
theorem fwd_step_unlimited (cfg : RunConfig K) (g : GridInfo (m + 2) K) (inp : Input m n K) (A : Arr (m + 2) (n + 2) K)
    (hdt : 0 < cfg.timestep) (ha : ∀ i, 0 < g.a i) (k : ℕ) (hw : Wet (stepStates cfg inp k))
    (hu : Unlimited (cfg.timestep : K) g.a (stepFluxes cfg g inp k) (stepStates cfg inp k))
    (hA : maskAt cfg inp (cfg.fwdTime k) = A) (o) :
    (fwdProc cfg g inp).step k o = forwardtrack cfg.periodic_boundary (cfg.timestep : K) cfg.kvf g.a (stepFluxes cfg g inp k)
      (stepFz cfg g inp k) (stepStates cfg inp (k + 1)) (stepStates cfg inp k) A o := by
  have e := unlimited_stable (cfg.timestep : K) g.a (stepFluxes cfg g inp k) (stepStates cfg inp k)
    (by exact_mod_cast hdt) ha hw hu
  have t : cfg.fwdTime k + cfg.dt = cfg.tracking_start_date + ((k + 1 : ℕ) : ℤ) * cfg.dt := by
    unfold RunConfig.fwdTime; push_cast; ring
  simp only [fwdProc, fwdStepAt, stableFluxes, ofRat_int, hA, t]
  unfold stepFz
  rw [← e]
  rfl

/-- the same step in the backward run; times are counted from the start of the period -/
theorem bwd_step_unlimited (cfg : RunConfig K) (g : GridInfo (m + 2) K) (inp : Input m n K) (B : Arr (m + 2) (n + 2) K)
    (hdt : 0 < cfg.timestep) (ha : ∀ i, 0 < g.a i) (k q : ℕ) (hw : Wet (stepStates cfg inp (k + 1)))
    (hu : Unlimited (cfg.timestep : K) g.a (stepFluxes cfg g inp k) (stepStates cfg inp (k + 1)))
    (hq : cfg.bwdTime q = cfg.fwdTime (k + 1))
    (hB : maskAt cfg inp (cfg.bwdTime q) = B) (o) :
    (bwdProc cfg g inp).step q o = backtrack cfg.periodic_boundary (cfg.timestep : K) cfg.kvf g.a (stepFluxes cfg g inp k)
      (stepFz cfg g inp k) (stepStates cfg inp (k + 1)) (stepStates cfg inp k) B o := by
  have e := unlimited_stable (cfg.timestep : K) g.a (stepFluxes cfg g inp k) (stepStates cfg inp (k + 1))
    (by exact_mod_cast hdt) ha hw hu
  have t0 : cfg.fwdTime (k + 1) - cfg.dt = cfg.fwdTime k := by rw [cfg.fwdTime_succ]; ring
  have th : cfg.fwdTime (k + 1) - cfg.halfDt = cfg.fwdTime k + cfg.halfDt := by
    rw [cfg.fwdTime_succ, cfg.dt_eq]; ring
  rw [hq] at hB
  simp only [bwdProc, bwdStepAt, stableFluxes, ofRat_int, hq, hB, t0, th]
  unfold stepFz
  rw [← e]
  rfl

theorem amountOver_sub (a : Fin m → K) (w x y : Arr m n K) :
    amountOver a w (fun i j => x i j - y i j) = amountOver a w x - amountOver a w y := by
  unfold amountOver
  simp only [← Finset.sum_sub_distrib]
  exact Finset.sum_congr rfl fun i _ => Finset.sum_congr rfl fun j _ => by ring

theorem amountOver_zero (a : Fin m → K) (w x : Arr m n K) (h : ∀ i j, x i j = 0) : amountOver a w x = 0 := by
  unfold amountOver
  simp [h]

theorem maskAt_throughout (cfg : RunConfig K) (inp : Input m n K) (w : Arr (m + 2) (n + 2) K)
    (h : TagsThroughout cfg inp w) (t : ℤ) (h1 : cfg.tracking_start_date ≤ t) (h2 : t ≤ cfg.tracking_end_date) :
    maskAt cfg inp t = w := by
  unfold maskAt
  rw [if_pos ⟨h.opens.trans h1, h2.trans h.closes⟩, h.region t h1 h2]

theorem pairing_zero_left (a : Fin (m + 2) → K) (S : States (m + 2) (n + 2) K) (xl xu yl yu : Arr (m + 2) (n + 2) K)
    (h1 : ∀ i j, xl i j = 0) (h2 : ∀ i j, xu i j = 0) : pairing a S xl xu yl yu = 0 := by
  unfold pairing; simp [h1, h2]

theorem pairing_zero_right (a : Fin (m + 2) → K) (S : States (m + 2) (n + 2) K) (xl xu yl yu : Arr (m + 2) (n + 2) K)
    (h1 : ∀ i j, yl i j = 0) (h2 : ∀ i j, yu i j = 0) : pairing a S xl xu yl yu = 0 := by
  unfold pairing; simp [h1, h2]

section
variable (cfg : RunConfig K) (src : Source m n K) (inp : Input m n K)

theorem fwd_out_ready (h : Runnable cfg src inp) (hp : Physical inp cfg.tracking_start_date cfg.tracking_end_date)
    (o : FwdOutput (m + 2) (n + 2) K) (h1 : ∀ i j, o.s_track_lower i j = 0) (h2 : ∀ i j, o.s_track_upper i j = 0)
    (k : ℕ) (hk : k ≤ cfg.steps) :
    Ready cfg.periodic_boundary (stepStates cfg inp k) ((fwdProc cfg src.grid inp).out o k).s_track_lower
      ((fwdProc cfg src.grid inp).out o k).s_track_upper := by
  refine (fwdProc cfg src.grid inp).out_inv o (fun k x => Ready cfg.periodic_boundary (stepStates cfg inp k)
    x.s_track_lower x.s_track_upper) ?_ cfg.steps ?_ ?_ k hk
  · have w := hp.wet _ le_rfl h.ordered
    refine ⟨fun i j => ?_, fun i j => ?_, fun i j _ => ⟨h1 i j, h2 i j⟩⟩
    · rw [h1]; refine ⟨le_rfl, ?_⟩; have := (w i j).2; simpa [stepStates] using this.le
    · rw [h2]; refine ⟨le_rfl, ?_⟩; have := (w i j).1; simpa [stepStates] using this.le
  · intro k hk x _
    have t1 := cfg.fwdTime_mem h.timestep_pos h.ordered (k + 1) hk
    have w : Wet (inp.states (cfg.fwdTime (k + 1))) := hp.wet _ t1.1 t1.2
    simp only [fwdProc, fwdStepAt, ← cfg.fwdTime_succ]
    exact ⟨fun i j => (C13_tracked_within_storage_forward _ _ _ _ _ _ _ _ _ x w i j).1,
      fun i j => (C13_tracked_within_storage_forward _ _ _ _ _ _ _ _ _ x w i j).2,
      fun i j hb => ⟨(C14_boundary_forward _ _ _ _ _ _ _ _ _ x w i j hb).1,
        (C14_boundary_forward _ _ _ _ _ _ _ _ _ x w i j hb).2.1⟩⟩
  · intro k x hx; exact hx

theorem bwd_out_ready (h : Runnable cfg src inp) (hp : Physical inp cfg.tracking_start_date cfg.tracking_end_date)
    (o : BwdOutput (m + 2) (n + 2) K) (h1 : ∀ i j, o.s_track_lower i j = 0) (h2 : ∀ i j, o.s_track_upper i j = 0)
    (k : ℕ) (hk : k ≤ cfg.steps) :
    Ready cfg.periodic_boundary (inp.states (cfg.bwdTime k)) ((bwdProc cfg src.grid inp).out o k).s_track_lower
      ((bwdProc cfg src.grid inp).out o k).s_track_upper := by
  refine (bwdProc cfg src.grid inp).out_inv o (fun k x => Ready cfg.periodic_boundary (inp.states (cfg.bwdTime k))
    x.s_track_lower x.s_track_upper) ?_ cfg.steps ?_ ?_ k hk
  · have w := hp.wet _ h.ordered le_rfl
    refine ⟨fun i j => ?_, fun i j => ?_, fun i j _ => ⟨h1 i j, h2 i j⟩⟩
    · rw [h1]; refine ⟨le_rfl, ?_⟩; have := (w i j).2; simpa [RunConfig.bwdTime] using this.le
    · rw [h2]; refine ⟨le_rfl, ?_⟩; have := (w i j).1; simpa [RunConfig.bwdTime] using this.le
  · intro k hk x _
    have t1 := cfg.bwdTime_mem h.timestep_pos h.ordered (k + 1) hk
    have w : Wet (inp.states (cfg.bwdTime (k + 1))) := hp.wet _ t1.1 t1.2
    simp only [bwdProc, bwdStepAt, ← cfg.bwdTime_succ]
    exact ⟨fun i j => (C13_tracked_within_storage_backward _ _ _ _ _ _ _ _ _ x w i j).1,
      fun i j => (C13_tracked_within_storage_backward _ _ _ _ _ _ _ _ _ x w i j).2,
      fun i j hb => ⟨(C14_boundary_backward _ _ _ _ _ _ _ _ _ x w i j hb).1,
        (C14_boundary_backward _ _ _ _ _ _ _ _ _ x w i j hb).2.1⟩⟩
  · intro k x hx; exact hx

theorem fwd_out_track (o : FwdOutput (m + 2) (n + 2) K) (k : ℕ) :
    ((fwdProc cfg src.grid inp).out o (k + 1)).s_track_lower = ((fwdProc cfg src.grid inp).full o k).s_track_lower ∧
    ((fwdProc cfg src.grid inp).out o (k + 1)).s_track_upper = ((fwdProc cfg src.grid inp).full o k).s_track_upper := by
  simp only [Proc.out, Proc.full]
  split <;> exact ⟨rfl, rfl⟩

theorem bwd_out_track (o : BwdOutput (m + 2) (n + 2) K) (k : ℕ) :
    ((bwdProc cfg src.grid inp).out o (k + 1)).s_track_lower = ((bwdProc cfg src.grid inp).full o k).s_track_lower ∧
    ((bwdProc cfg src.grid inp).out o (k + 1)).s_track_upper = ((bwdProc cfg src.grid inp).full o k).s_track_upper := by
  simp only [Proc.out, Proc.full]
  split <;> exact ⟨rfl, rfl⟩

/-- what the files of a forward run report over `B` is the sum over the steps -/
theorem fwd_files_sum (o : FwdOutput (m + 2) (n + 2) K) (ho : FwdOutput.acc o = 0) (a : Fin (m + 2) → K)
    (B : Arr (m + 2) (n + 2) K) :
    let p := fwdProc cfg src.grid inp
    sumFiles (p.files o cfg.steps) (fun f => amountOver a B (fun i j => f.p_track_lower i j + f.p_track_upper i j)) =
      ∑ k ∈ Finset.range cfg.steps, amountOver a B (fun i j =>
        (p.full o k).p_track_lower i j - (p.out o k).p_track_lower i j +
          ((p.full o k).p_track_upper i j - (p.out o k).p_track_upper i j)) := by
  intro p
  let acc : FwdOutput (m + 2) (n + 2) K → K := fun f =>
    amountOver a B (fun i j => f.p_track_lower i j + f.p_track_upper i j)
  have z : ∀ x : FwdOutput (m + 2) (n + 2) K, FwdOutput.acc x = 0 → acc x = 0 := by
    intro x hx
    refine amountOver_zero _ _ _ fun i j => ?_
    have e1 := congrFun (congrFun (congrFun hx 0) i) j
    have e2 := congrFun (congrFun (congrFun hx 1) i) j
    have e3 := congrFun (congrFun (congrFun hx 2) i) j
    simp only [FwdOutput.acc_0, FwdOutput.acc_1, FwdOutput.acc_2, Pi.zero_apply] at e1 e2 e3
    first
      | rw [e1, e2, add_zero]
      | rw [e2, e1, add_zero]
      | rw [e2, e3, add_zero]
      | rw [e3, e2, add_zero]
  have b := p.budget o acc cfg.steps (fun k => acc (p.full o k) - acc (p.out o k)) (fun k _ => by ring)
    (fun x => amountOver_zero _ _ _ fun i j => by simp [p, fwdProc, FwdOutput.flush, ofRat_zero]) cfg.steps le_rfl
  rw [z o ho, z _ (acc_out_final_fwd cfg src.grid inp o ho), add_zero, zero_add] at b
  unfold sumFiles
  rw [b]
  refine Finset.sum_congr rfl fun k _ => ?_
  simp only [acc]
  rw [← amountOver_sub]
  congr 1
  funext i j
  ring

/-- what the files of a backward run report over `A` is the sum over the steps -/
theorem bwd_files_sum (o : BwdOutput (m + 2) (n + 2) K) (ho : BwdOutput.acc o = 0) (a : Fin (m + 2) → K)
    (A : Arr (m + 2) (n + 2) K) :
    let p := bwdProc cfg src.grid inp
    sumFiles (p.files o cfg.steps) (fun f => amountOver a A f.e_track) =
      ∑ k ∈ Finset.range cfg.steps, amountOver a A (fun i j =>
        (p.full o k).e_track i j - (p.out o k).e_track i j) := by
  intro p
  let acc : BwdOutput (m + 2) (n + 2) K → K := fun f => amountOver a A f.e_track
  have z : ∀ x : BwdOutput (m + 2) (n + 2) K, BwdOutput.acc x = 0 → acc x = 0 := by
    intro x hx
    refine amountOver_zero _ _ _ fun i j => ?_
    have e1 := congrFun (congrFun (congrFun hx 0) i) j
    have e2 := congrFun (congrFun (congrFun hx 1) i) j
    simp only [BwdOutput.acc_0, BwdOutput.acc_1, Pi.zero_apply] at e1 e2
    first
      | exact e1
      | exact e2
  have b := p.budget o acc cfg.steps (fun k => acc (p.full o k) - acc (p.out o k)) (fun k _ => by ring)
    (fun x => amountOver_zero _ _ _ fun i j => by simp [p, bwdProc, BwdOutput.flush, ofRat_zero]) cfg.steps le_rfl
  rw [z o ho, z _ (acc_out_final_bwd cfg src.grid inp o ho), add_zero, zero_add] at b
  unfold sumFiles
  rw [b]
  refine Finset.sum_congr rfl fun k _ => ?_
  simp only [acc]
  rw [← amountOver_sub]

end

/-- sums of step differences that are small -/
theorem telescope_bound (N : ℕ) (Q d e : ℕ → K) (h : ∀ k < N, |Q (k + 1) - Q k - d k| ≤ e k) (h0 : Q 0 = 0)
    (hN : Q N = 0) : |∑ k ∈ Finset.range N, d k| ≤ ∑ k ∈ Finset.range N, e k := by
  have t := Finset.sum_range_sub Q N
  rw [h0, hN, sub_zero] at t
  have : ∑ k ∈ Finset.range N, d k = -∑ k ∈ Finset.range N, (Q (k + 1) - Q k - d k) := by
    rw [Finset.sum_sub_distrib, t]; ring
  rw [this, abs_neg]
  refine (Finset.abs_sum_le_sum_abs _ _).trans (Finset.sum_le_sum fun k hk => h k (Finset.mem_range.1 hk))

/-- **C107**.  Evaporation over region `A` that a backward run traces to the precipitation over region `B` is the precipitation over
`B` that a forward run traces to the evaporation over `A`: the two amounts of water, added up over all output files, differ by at
most five times what is not closed in the water balance of the data.  (Same data, grid, period and settings; both runs start empty
and tag during the whole period; the period is a whole number of time steps; the time step is small enough.) -/
theorem C107_reciprocity (cfg cfg' : RunConfig K) (src src' : Source m n K) (inp inp' : Input m n K)
    (path : ℤ → P) (path' : ℤ → P') (disk : P → Option (FwdOutput (m + 2) (n + 2) K))
    (disk' : P' → Option (BwdOutput (m + 2) (n + 2) K)) (h : Runnable cfg src inp) (h' : Runnable cfg' src' inp')
    (same : SameExperiment cfg cfg' src src' inp inp')
    (whole : cfg.dt ∣ cfg.tracking_end_date - cfg.tracking_start_date)
    (A B : Arr (m + 2) (n + 2) K) (hA : TagsThroughout cfg inp A) (hB : TagsThroughout cfg' inp' B)
    (hp : Physical inp cfg.tracking_start_date cfg.tracking_end_date) (ha : ∀ i, 0 < src.grid.a i) (hk' : 0 ≤ cfg.kvf)
    (hG : Gentle cfg src.grid inp) {s s'} (hs : EndsIn (fwdRun cfg src path disk) s)
    (hs' : EndsIn (bwdRun cfg' src' path' disk') s') :
    |sumFiles s'.files (fun f => amountOver src.grid.a A f.e_track) -
      sumFiles s.files (fun f => amountOver src.grid.a B (fun i j => f.p_track_lower i j + f.p_track_upper i j))| ≤
    5 * ∑ k ∈ Finset.range (stepCount cfg.tracking_start_date cfg.tracking_end_date cfg.dt),
      stepMisfit cfg src.grid inp k := by
  obtain ⟨of, r, hof, rfl⟩ := fwd_ends cfg src inp path disk h hs
  obtain ⟨ob, r', hob, rfl⟩ := bwd_ends cfg' src' inp' path' disk' h' hs'
  have zf := fwd_init_eq cfg src path disk of hof
  have zb := bwd_init_eq cfg' src' path' disk' ob hob
  have sf : startFwd cfg path disk = (fun _ _ => 0, fun _ _ => 0) := by unfold startFwd; rw [hA.fresh]
  have sb : startBwd cfg' path' disk' = (fun _ _ => 0, fun _ _ => 0) := by unfold startBwd; rw [hB.fresh]
  rw [sf] at zf
  rw [sb] at zb
  have accf : FwdOutput.acc of = 0 := by rw [zf]; exact fwd_acc_zeros _ _
  have accb : BwdOutput.acc ob = 0 := by rw [zb]; exact bwd_acc_zeros _ _
  have hdt := h.timestep_pos
  have edt : cfg'.dt = cfg.dt := by unfold RunConfig.dt; rw [same.timestep]
  have eN : cfg'.steps = cfg.steps := by unfold RunConfig.steps; rw [same.start, same.stop, edt]
  have times : ∀ k ≤ cfg.steps, cfg'.bwdTime (cfg.steps - k) = cfg.fwdTime k := by
    intro k hk
    have dpos : 0 < cfg.dt := by unfold RunConfig.dt usPerSecond; omega
    have e : (cfg.steps : ℤ) * cfg.dt = cfg.tracking_end_date - cfg.tracking_start_date := by
      unfold RunConfig.steps stepCount
      rw [Int.toNat_of_nonneg (Int.ediv_nonneg (by linarith [h.ordered]) dpos.le)]
      exact Int.ediv_mul_cancel whole
    unfold RunConfig.bwdTime RunConfig.fwdTime
    rw [edt, same.stop]
    push_cast [hk]
    linarith
  have ftime : ∀ k, cfg'.fwdTime k = cfg.fwdTime k := by
    intro k; unfold RunConfig.fwdTime; rw [same.start, edt]
  have hp' : Physical inp' cfg'.tracking_start_date cfg'.tracking_end_date := by
    rw [same.start, same.stop]
    refine ⟨fun t h1 h2 => by rw [same.states t h1 h2]; exact hp.wet t h1 h2,
      fun t h1 h2 => by rw [same.fluxes t h1 h2]; exact hp.precip t h1 h2,
      fun t h1 h2 => by rw [same.fluxes t h1 h2]; exact hp.evap t h1 h2, fun t h1 h2 i j => ?_⟩
    rw [hB.region t (by rw [same.start]; exact h1) (by rw [same.stop]; exact h2)]
    exact (hB.weight i j).1
  have st : ∀ k ≤ cfg.steps, stepStates cfg' inp' k = stepStates cfg inp k := by
    intro k hk
    have t := cfg.fwdTime_mem hdt h.ordered k hk
    show inp'.states (cfg'.fwdTime k) = inp.states (cfg.fwdTime k)
    rw [ftime]
    exact same.states _ t.1 t.2
  have fl : ∀ k < cfg.steps, stepFluxes cfg' src.grid inp' k = stepFluxes cfg src.grid inp k := by
    intro k hk
    have t := cfg.fwdHalf_mem hdt h.ordered k hk
    have eh : cfg'.halfDt = cfg.halfDt := by unfold RunConfig.halfDt; rw [same.timestep]
    show scaleFluxes src.grid (inp'.fluxes (cfg'.fwdTime k + cfg'.halfDt)) =
      scaleFluxes src.grid (inp.fluxes (cfg.fwdTime k + cfg.halfDt))
    rw [ftime, eh, same.fluxes _ t.1 t.2]
  have fzz : ∀ k < cfg.steps, stepFz cfg' src.grid inp' k = stepFz cfg src.grid inp k := by
    intro k hk
    unfold stepFz
    rw [fl k hk, st k hk.le, st (k + 1) hk, same.timestep, same.kvf]
  have sumB := bwd_files_sum cfg' src' inp' ob accb src.grid.a A
  have sumF := fwd_files_sum cfg src inp of accf src.grid.a B
  simp only [fwdStateAt, bwdStateAt]
  rw [sumB, sumF, eN]
  rw [← Finset.sum_range_reflect, ← Finset.sum_sub_distrib, Finset.mul_sum]
  let p := fwdProc cfg src.grid inp
  let q := bwdProc cfg' src'.grid inp'
  let Q : ℕ → K := fun k => pairing src.grid.a (stepStates cfg inp k) (p.out of k).s_track_lower (p.out of k).s_track_upper
    (q.out ob (cfg.steps - k)).s_track_lower (q.out ob (cfg.steps - k)).s_track_upper
  refine telescope_bound cfg.steps Q _ _ ?_ ?_ ?_
  · intro k hk
    have hk2 : cfg.steps - k = (cfg.steps - 1 - k) + 1 := by omega
    have hk3 : cfg.steps - (k + 1) = cfg.steps - 1 - k := by omega
    have hk4 : cfg.steps - 1 - k ≤ cfg'.steps := by omega
    have t0 := cfg.fwdTime_mem hdt h.ordered k hk.le
    have t1 := cfg.fwdTime_mem hdt h.ordered (k + 1) hk
    have th := cfg.fwdHalf_mem hdt h.ordered k hk
    have w0 : Wet (stepStates cfg inp k) := hp.wet _ t0.1 t0.2
    have w1 : Wet (stepStates cfg inp (k + 1)) := hp.wet _ t1.1 t1.2
    obtain ⟨g0, g1, g2⟩ := hG k hk
    have rf := fwd_out_ready cfg src inp h hp of (fun i j => by rw [zf]) (fun i j => by rw [zf]) k hk.le
    have rb := bwd_out_ready cfg' src' inp' h' hp' ob (fun i j => by rw [zb]) (fun i j => by rw [zb])
      (cfg.steps - 1 - k) hk4
    have bt : cfg'.bwdTime (cfg.steps - 1 - k) = cfg.fwdTime (k + 1) := by rw [← hk3, times (k + 1) hk]
    have es : inp'.states (cfg'.bwdTime (cfg.steps - 1 - k)) = stepStates cfg inp (k + 1) := by
      rw [bt, same.states _ t1.1 t1.2]; rfl
    rw [es, same.periodic] at rb
    have ef := fwd_step_unlimited cfg src.grid inp A hdt ha k w0 g0 (maskAt_throughout cfg inp A hA _ t0.1 t0.2) (p.out of k)
    have eb := bwd_step_unlimited cfg' src.grid inp' B (by rw [same.timestep]; exact hdt) ha k (cfg.steps - 1 - k)
      (by rw [st (k + 1) hk]; exact w1) (by rw [fl k hk, st (k + 1) hk, same.timestep]; exact g1)
      (by rw [bt, ftime])
      (maskAt_throughout cfg' inp' B hB _ (by rw [bt, same.start]; exact t1.1) (by rw [bt, same.stop]; exact t1.2))
      (q.out ob (cfg.steps - 1 - k))
    rw [fl k hk, fzz k hk, st k hk.le, st (k + 1) hk, same.timestep, same.kvf, same.periodic] at eb
    have D := dual_step cfg.periodic_boundary (cfg.timestep : K) cfg.kvf src.grid.a (stepFluxes cfg src.grid inp k)
      (stepFz cfg src.grid inp k) (stepStates cfg inp k) (stepStates cfg inp (k + 1)) A B (p.out of k)
      (q.out ob (cfg.steps - 1 - k)) w0 w1 ha (by exact_mod_cast hdt.le) hk' (hp.evap _ th.1 th.2) (hp.precip _ th.1 th.2)
      hA.weight hB.weight g2 rf rb
    simp only at D
    rw [← ef, ← eb] at D
    have ff : p.step k (p.out of k) = p.full of k := rfl
    have bb : (bwdProc cfg' src.grid inp').step (cfg.steps - 1 - k) (q.out ob (cfg.steps - 1 - k)) =
        q.full ob (cfg.steps - 1 - k) := by
      show _ = (bwdProc cfg' src'.grid inp').step _ _
      rw [same.grid]
    rw [bb] at D
    have of1 := fwd_out_track cfg src inp of k
    have ob1 := bwd_out_track cfg' src' inp' ob (cfg.steps - 1 - k)
    simp only [Q]
    rw [hk3, hk2]
    rw [show (p.out of (k + 1)).s_track_lower = (p.full of k).s_track_lower from of1.1,
      show (p.out of (k + 1)).s_track_upper = (p.full of k).s_track_upper from of1.2,
      show (q.out ob (cfg.steps - 1 - k + 1)).s_track_lower = (q.full ob (cfg.steps - 1 - k)).s_track_lower from ob1.1,
      show (q.out ob (cfg.steps - 1 - k + 1)).s_track_upper = (q.full ob (cfg.steps - 1 - k)).s_track_upper from ob1.2]
    exact D
  · exact pairing_zero_left _ _ _ _ _ _ (fun i j => by simp only [p, Proc.out]; rw [zf])
      (fun i j => by simp only [p, Proc.out]; rw [zf])
  · refine pairing_zero_right _ _ _ _ _ _ (fun i j => ?_) (fun i j => ?_)
    · simp only [Nat.sub_self, q, Proc.out]; rw [zb]
    · simp only [Nat.sub_self, q, Proc.out]; rw [zb]

/-- **C107** (one step).  What the forward and the backward tracked water have in common changes in one time step by the backward
tracked evaporation over `A` minus the forward tracked precipitation over `B`, up to five times what is not closed. -/
theorem C107_step (periodic : Bool) (dt kvf : K) (a : Fin (m + 2) → K) (F : Fluxes (m + 2) (n + 2) K)
    (fz : Arr (m + 2) (n + 2) K) (S0 S1 : States (m + 2) (n + 2) K) (A B : Arr (m + 2) (n + 2) K)
    (of : FwdOutput (m + 2) (n + 2) K) (ob : BwdOutput (m + 2) (n + 2) K) (h0 : Wet S0) (h1 : Wet S1)
    (ha : ∀ i, 0 < a i) (hdt : 0 ≤ dt) (hk : 0 ≤ kvf) (he : ∀ i j, 0 ≤ F.evap i j) (hp : ∀ i j, 0 ≤ F.precip i j)
    (hA : ∀ i j, 0 ≤ A i j ∧ A i j ≤ 1) (hB : ∀ i j, 0 ≤ B i j ∧ B i j ≤ 1)
    (hM : Moderate periodic dt kvf a F fz S0 S1)
    (hf : Ready periodic S0 of.s_track_lower of.s_track_upper)
    (hb : Ready periodic S1 ob.s_track_lower ob.s_track_upper) :
    let f' := forwardtrack periodic dt kvf a F fz S1 S0 A of
    let b' := backtrack periodic dt kvf a F fz S1 S0 B ob
    |pairing a S1 f'.s_track_lower f'.s_track_upper ob.s_track_lower ob.s_track_upper -
      pairing a S0 of.s_track_lower of.s_track_upper b'.s_track_lower b'.s_track_upper -
      (amountOver a A (fun i j => b'.e_track i j - ob.e_track i j) -
       amountOver a B (fun i j => f'.p_track_lower i j - of.p_track_lower i j +
         (f'.p_track_upper i j - of.p_track_upper i j)))| ≤ 5 * misfit periodic dt a F fz S0 S1 :=
  dual_step periodic dt kvf a F fz S0 S1 A B of ob h0 h1 ha hdt hk he hp hA hB hM hf hb

/-- **C107** (closed water balance).  If the data are balanced in every time step -- storage change, inflow, vertical flux, evaporation
and precipitation add up in both layers of every cell inside the boundary, and the layers' shares of the precipitation do not
change -- the two amounts are equal. -/
theorem C107_reciprocity_exact (cfg cfg' : RunConfig K) (src src' : Source m n K) (inp inp' : Input m n K)
    (path : ℤ → P) (path' : ℤ → P') (disk : P → Option (FwdOutput (m + 2) (n + 2) K))
    (disk' : P' → Option (BwdOutput (m + 2) (n + 2) K)) (h : Runnable cfg src inp) (h' : Runnable cfg' src' inp')
    (same : SameExperiment cfg cfg' src src' inp inp')
    (whole : cfg.dt ∣ cfg.tracking_end_date - cfg.tracking_start_date)
    (A B : Arr (m + 2) (n + 2) K) (hA : TagsThroughout cfg inp A) (hB : TagsThroughout cfg' inp' B)
    (hp : Physical inp cfg.tracking_start_date cfg.tracking_end_date) (ha : ∀ i, 0 < src.grid.a i) (hk : 0 ≤ cfg.kvf)
    (hG : Gentle cfg src.grid inp)
    (closed : ∀ k < stepCount cfg.tracking_start_date cfg.tracking_end_date cfg.dt, ∀ i j,
      ¬ isBoundary cfg.periodic_boundary i j →
      imbalanceLower cfg.periodic_boundary (cfg.timestep : K) src.grid.a (stepFluxes cfg src.grid inp k)
        (stepFz cfg src.grid inp k) (stepStates cfg inp k) (stepStates cfg inp (k + 1)) i j = 0 ∧
      imbalanceUpper cfg.periodic_boundary (cfg.timestep : K) src.grid.a (stepFluxes cfg src.grid inp k)
        (stepFz cfg src.grid inp k) (stepStates cfg inp k) (stepStates cfg inp (k + 1)) i j = 0 ∧
      shareDrift (cfg.timestep : K) (stepFluxes cfg src.grid inp k) (stepStates cfg inp k)
        (stepStates cfg inp (k + 1)) i j = 0)
    {s s'} (hs : EndsIn (fwdRun cfg src path disk) s) (hs' : EndsIn (bwdRun cfg' src' path' disk') s') :
    sumFiles s'.files (fun f => amountOver src.grid.a A f.e_track) =
      sumFiles s.files (fun f => amountOver src.grid.a B (fun i j => f.p_track_lower i j + f.p_track_upper i j)) := by
  have := C107_reciprocity cfg cfg' src src' inp inp' path path' disk disk' h h' same whole A B hA hB hp ha hk hG hs hs'
  rw [Finset.sum_eq_zero, mul_zero] at this
  · exact sub_eq_zero.1 (abs_nonpos_iff.1 this)
  · intro k hk
    unfold stepMisfit misfit
    refine Finset.sum_eq_zero fun i _ => Finset.sum_eq_zero fun j _ => ?_
    split
    · rfl
    · rename_i hb
      obtain ⟨c1, c2, c3⟩ := closed k (Finset.mem_range.1 hk) i j hb
      rw [c1, c2, c3]
      simp

end Wam
