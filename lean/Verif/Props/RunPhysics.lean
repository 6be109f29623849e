import Verif.Lemmas.RunK
import Verif.Props.Run
import Mathlib.Algebra.BigOperators.Pi

/-!
# C19 (runs), C26-C28, C31, C32: physics of a whole run
-/
set_option linter.unusedSectionVars false
set_option linter.unusedVariables false

namespace Wam
open Spec

variable {m n : ℕ} {K : Type*} [Field K] [LinearOrder K] [IsStrictOrderedRing K] {P : Type*}

/-! ### Preparation -/

theorem fwd_init_eq (cfg : RunConfig K) (src : Source m n K) (path : ℤ → P)
    (disk : P → Option (FwdOutput (m + 2) (n + 2) K)) (o)
    (ho : fwdInitialize cfg src path disk = .ok o) :
    o = { FwdOutput.zeros with s_track_lower := (startFwd cfg path disk).1,
                               s_track_upper := (startFwd cfg path disk).2 } :=
  fwd_init_eq' cfg src ofRat_zero path disk o ho

theorem bwd_init_eq (cfg : RunConfig K) (src : Source m n K) (path : ℤ → P)
    (disk : P → Option (BwdOutput (m + 2) (n + 2) K)) (o)
    (ho : bwdInitialize cfg src path disk = .ok o) :
    o = { BwdOutput.zeros with s_track_lower := (startBwd cfg path disk).1,
                               s_track_upper := (startBwd cfg path disk).2 } :=
  bwd_init_eq' cfg src ofRat_zero path disk o ho

theorem ofRat_int (z : ℤ) : (ofRat (z : ℚ) : K) = (z : K) := by simp [NpOps.ofRat]

theorem maskAt_nonneg (cfg : RunConfig K) (inp : Input m n K) (t : ℤ)
    (h : ∀ i j, 0 ≤ inp.region t i j) (i j) : 0 ≤ maskAt cfg inp t i j := by
  unfold maskAt
  split
  · exact h i j
  · simp [ofRat_zero]

theorem acc_out_final_fwd (cfg : RunConfig K) (g : GridInfo (m + 2) K) (inp : Input m n K) (o)
    (ho : FwdOutput.acc o = 0) : FwdOutput.acc ((fwdProc cfg g inp).out o cfg.steps) = 0 := by
  rcases hN : cfg.steps with _ | N
  · exact ho
  · exact (fwd_linear cfg g inp).acc_out_of_write o N (by simp [fwdProc, writes, hN])

theorem acc_out_final_bwd (cfg : RunConfig K) (g : GridInfo (m + 2) K) (inp : Input m n K) (o)
    (ho : BwdOutput.acc o = 0) : BwdOutput.acc ((bwdProc cfg g inp).out o cfg.steps) = 0 := by
  rcases hN : cfg.steps with _ | N
  · exact ho
  · exact (bwd_linear cfg g inp).acc_out_of_write o N (by simp [bwdProc, writes, hN])

theorem fwd_acc_zeros (l u : Arr (m + 2) (n + 2) K) : FwdOutput.acc
    ({ FwdOutput.zeros with s_track_lower := l, s_track_upper := u } :
      FwdOutput (m + 2) (n + 2) K) = 0 := by
  funext f i j
  fin_cases f <;> simp [FwdOutput.acc_0, FwdOutput.acc_1, FwdOutput.acc_2, FwdOutput.acc_3, FwdOutput.acc_4, FwdOutput.zeros]

theorem bwd_acc_zeros (l u : Arr (m + 2) (n + 2) K) : BwdOutput.acc
    ({ BwdOutput.zeros with s_track_lower := l, s_track_upper := u } :
      BwdOutput (m + 2) (n + 2) K) = 0 := by
  funext f i j
  fin_cases f <;> simp [BwdOutput.acc_0, BwdOutput.acc_1, BwdOutput.acc_2, BwdOutput.acc_3, BwdOutput.zeros]

/-! ### C26 -/

/-- non-negative fields -/
def nonnegFwd (periodic : Bool) (f : FwdOutput (m + 2) (n + 2) K) : Prop :=
  ∀ i j, 0 ≤ f.s_track_lower i j ∧ 0 ≤ f.s_track_upper i j ∧ 0 ≤ f.tagged_evap i j ∧
    0 ≤ f.p_track_lower i j ∧ 0 ≤ f.p_track_upper i j ∧ 0 ≤ f.gains i j ∧
    (¬ isBoundary periodic i j → 0 ≤ f.losses i j)

/-- non-negative fields -/
def nonnegBwd (periodic : Bool) (f : BwdOutput (m + 2) (n + 2) K) : Prop :=
  ∀ i j, 0 ≤ f.s_track_lower i j ∧ 0 ≤ f.s_track_upper i j ∧ 0 ≤ f.tagged_precip i j ∧
    0 ≤ f.e_track i j ∧ 0 ≤ f.gains i j ∧ (¬ isBoundary periodic i j → 0 ≤ f.losses i j)

theorem fwd_step_sound (periodic : Bool) (dt kvf : K) (a) (F : Fluxes (m + 2) (n + 2) K) (fz)
    (S0 S1 : States (m + 2) (n + 2) K) (mask) (out : FwdOutput (m + 2) (n + 2) K) (hdt : 0 ≤ dt)
    (h0 : Wet S0) (h1 : Wet S1) (hp : ∀ i j, 0 ≤ F.precip i j) (he : ∀ i j, 0 ≤ F.evap i j)
    (hm : ∀ i j, 0 ≤ mask i j) (ho : nonnegFwd periodic out) :
    SoundFwd periodic S1 (forwardtrack periodic dt kvf a F fz S1 S0 mask out) := by
  refine ⟨fun i j => (C13_tracked_within_storage_forward periodic dt kvf a F fz S0 S1 mask out h1
      i j).1, fun i j => (C13_tracked_within_storage_forward periodic dt kvf a F fz S0 S1 mask out
      h1 i j).2, fun i j hb => ?_, fun i j => ?_, fun i j => ?_, fun i j => ?_, fun i j hb => ?_⟩
  · have := C14_boundary_forward periodic dt kvf a F fz S0 S1 mask out h1 i j hb
    exact ⟨this.1, this.2.1⟩
  · rw [(C17_increments_forward periodic dt kvf a F fz S0 S1 mask out h0 i j).1]
    exact add_nonneg (ho i j).2.2.1 (mul_nonneg hdt (mul_nonneg (hm i j) (he i j)))
  · obtain ⟨_, e1, e2⟩ := C17_increments_forward periodic dt kvf a F fz S0 S1 mask out h0 i j
    rw [e1, e2]
    have hs : ∀ s s' : K, 0 < s → 0 < s' → 0 ≤ share (F.precip i j) s s' := fun s s' h h' =>
      div_nonneg (mul_nonneg (hp i j) h.le) (by positivity)
    obtain ⟨hu, hl⟩ := h0 i j
    exact ⟨add_nonneg (ho i j).2.2.2.1 (mul_nonneg hdt (mul_nonneg (hs _ _ hl hu)
        (fraction_nonneg (ho i j).1 hl.le))),
      add_nonneg (ho i j).2.2.2.2.1 (mul_nonneg hdt (mul_nonneg (hs _ _ hu hl)
        (fraction_nonneg (ho i j).2.1 hu.le)))⟩
  · exact (ho i j).2.2.2.2.2.1.trans
      (C18_losses_gains_forward periodic dt kvf a F fz S0 S1 mask out h1 i j).1
  · exact ((ho i j).2.2.2.2.2.2 hb).trans
      ((C18_losses_gains_forward periodic dt kvf a F fz S0 S1 mask out h1 i j).2.1 hb)

theorem bwd_step_sound (periodic : Bool) (dt kvf : K) (a) (F : Fluxes (m + 2) (n + 2) K) (fz)
    (S0 S1 : States (m + 2) (n + 2) K) (mask) (out : BwdOutput (m + 2) (n + 2) K) (hdt : 0 ≤ dt)
    (h0 : Wet S0) (h1 : Wet S1) (hp : ∀ i j, 0 ≤ F.precip i j) (he : ∀ i j, 0 ≤ F.evap i j)
    (hm : ∀ i j, 0 ≤ mask i j) (ho : nonnegBwd periodic out) :
    SoundBwd periodic S0 (backtrack periodic dt kvf a F fz S1 S0 mask out) := by
  refine ⟨fun i j => (C13_tracked_within_storage_backward periodic dt kvf a F fz S0 S1 mask out h0
      i j).1, fun i j => (C13_tracked_within_storage_backward periodic dt kvf a F fz S0 S1 mask out
      h0 i j).2, fun i j hb => ?_, fun i j => ?_, fun i j => ?_, fun i j => ?_, fun i j hb => ?_⟩
  · have := C14_boundary_backward periodic dt kvf a F fz S0 S1 mask out h0 i j hb
    exact ⟨this.1, this.2.1⟩
  · rw [(C17_increments_backward periodic dt kvf a F fz S0 S1 mask out h1 i j).1]
    exact add_nonneg (ho i j).2.2.1 (mul_nonneg hdt (mul_nonneg (hm i j) (hp i j)))
  · rw [(C17_increments_backward periodic dt kvf a F fz S0 S1 mask out h1 i j).2]
    exact add_nonneg (ho i j).2.2.2.1 (mul_nonneg hdt (mul_nonneg (he i j)
      (fraction_nonneg (ho i j).1 (h1 i j).2.le)))
  · exact (ho i j).2.2.2.2.1.trans
      (C18_losses_gains_backward periodic dt kvf a F fz S0 S1 mask out h0 i j).1
  · exact ((ho i j).2.2.2.2.2 hb).trans
      ((C18_losses_gains_backward periodic dt kvf a F fz S0 S1 mask out h0 i j).2.1 hb)

theorem Spec.SoundFwd.nonneg {periodic : Bool} {S : States (m + 2) (n + 2) K} {f}
    (h : SoundFwd periodic S f) : nonnegFwd periodic f := fun i j =>
  ⟨(h.lower i j).1, (h.upper i j).1, h.tagged i j, (h.tracked i j).1, (h.tracked i j).2,
    h.gains i j, h.losses i j⟩

theorem Spec.SoundBwd.nonneg {periodic : Bool} {S : States (m + 2) (n + 2) K} {f}
    (h : SoundBwd periodic S f) : nonnegBwd periodic f := fun i j =>
  ⟨(h.lower i j).1, (h.upper i j).1, h.tagged i j, h.tracked i j, h.gains i j, h.losses i j⟩

section
variable (cfg : RunConfig K) (src : Source m n K) (inp : Input m n K) (path : ℤ → P)

theorem fwd_full_sound (h : Runnable cfg src inp)
    (hp : Physical inp cfg.tracking_start_date cfg.tracking_end_date) (o)
    (ho : nonnegFwd cfg.periodic_boundary o) (k : ℕ) (hk : k < cfg.steps) :
    SoundFwd cfg.periodic_boundary (inp.states (cfg.fwdTime (k + 1)))
      ((fwdProc cfg src.grid inp).full o k) := by
  have hpos := h.timestep_pos
  have hAB := h.ordered
  have step : ∀ k < cfg.steps, ∀ x, nonnegFwd cfg.periodic_boundary x →
      SoundFwd cfg.periodic_boundary (inp.states (cfg.fwdTime (k + 1)))
        ((fwdProc cfg src.grid inp).step k x) := by
    intro k hk x hx
    have t0 := cfg.fwdTime_mem hpos hAB k hk.le
    have t1 := cfg.fwdTime_mem hpos hAB (k + 1) hk
    have th := cfg.fwdHalf_mem hpos hAB k hk
    simp only [fwdProc, fwdStepAt, ← cfg.fwdTime_succ]
    apply fwd_step_sound
    · rw [ofRat_int]; exact_mod_cast hpos.le
    · exact hp.wet _ t0.1 t0.2
    · exact hp.wet _ t1.1 t1.2
    · exact hp.precip _ th.1 th.2
    · exact hp.evap _ th.1 th.2
    · exact maskAt_nonneg cfg inp _ (hp.region _ t0.1 t0.2)
    · exact hx
  refine step k hk _ ?_
  refine (fwdProc cfg src.grid inp).out_inv o (fun _ x => nonnegFwd cfg.periodic_boundary x) ho
    cfg.steps (fun k hk x hx => (step k hk x hx).nonneg) ?_ k hk.le
  intro _ x hx i j
  obtain ⟨h1, h2, _⟩ := hx i j
  simp [fwdProc, FwdOutput.flush, ofRat_zero, h1, h2]

theorem bwd_full_sound (h : Runnable cfg src inp)
    (hp : Physical inp cfg.tracking_start_date cfg.tracking_end_date) (o)
    (ho : nonnegBwd cfg.periodic_boundary o) (k : ℕ) (hk : k < cfg.steps) :
    SoundBwd cfg.periodic_boundary (inp.states (cfg.bwdTime (k + 1)))
      ((bwdProc cfg src.grid inp).full o k) := by
  have hpos := h.timestep_pos
  have hAB := h.ordered
  have step : ∀ k < cfg.steps, ∀ x, nonnegBwd cfg.periodic_boundary x →
      SoundBwd cfg.periodic_boundary (inp.states (cfg.bwdTime (k + 1)))
        ((bwdProc cfg src.grid inp).step k x) := by
    intro k hk x hx
    have t0 := cfg.bwdTime_mem hpos hAB k hk.le
    have t1 := cfg.bwdTime_mem hpos hAB (k + 1) hk
    have th := cfg.bwdHalf_mem hpos hAB k hk
    simp only [bwdProc, bwdStepAt, ← cfg.bwdTime_succ]
    apply bwd_step_sound
    · rw [ofRat_int]; exact_mod_cast hpos.le
    · exact hp.wet _ t1.1 t1.2
    · exact hp.wet _ t0.1 t0.2
    · exact hp.precip _ th.1 th.2
    · exact hp.evap _ th.1 th.2
    · exact maskAt_nonneg cfg inp _ (hp.region _ t0.1 t0.2)
    · exact hx
  refine step k hk _ ?_
  refine (bwdProc cfg src.grid inp).out_inv o (fun _ x => nonnegBwd cfg.periodic_boundary x) ho
    cfg.steps (fun k hk x hx => (step k hk x hx).nonneg) ?_ k hk.le
  intro _ x hx i j
  obtain ⟨h1, h2, _⟩ := hx i j
  simp [bwdProc, BwdOutput.flush, ofRat_zero, h1, h2]

/-- **C26** (forward): in every file of every run, tracked storage is between 0 and the storage at the
time of the file, it is zero at the boundary, and tagged, tracked and gained water are
non-negative. -/
theorem C26_files_are_sound_forward (disk : P → Option (FwdOutput (m + 2) (n + 2) K))
    (h : Runnable cfg src inp)
    (hp : Physical inp cfg.tracking_start_date cfg.tracking_end_date)
    (hstart : ∀ i j, 0 ≤ (startFwd cfg path disk).1 i j ∧ 0 ≤ (startFwd cfg path disk).2 i j)
    {s} (hs : EndsIn (fwdRun cfg src path disk) s) :
    ∀ x ∈ s.files, SoundFwd cfg.periodic_boundary (inp.states x.1) x.2 := by
  obtain ⟨o, r, ho, rfl⟩ := fwd_ends cfg src inp path disk h hs
  have ho' := fwd_init_eq cfg src path disk o ho
  intro x hx
  obtain ⟨i, hi, _, rfl⟩ := (Proc.mem_files _ _).mp hx
  refine fwd_full_sound cfg src inp h hp o ?_ i hi
  intro i j
  obtain ⟨h1, h2⟩ := hstart i j
  simp [ho', FwdOutput.zeros, ofRat_zero, h1, h2]

/-- **C26** (backward) -/
theorem C26_files_are_sound_backward (disk : P → Option (BwdOutput (m + 2) (n + 2) K))
    (h : Runnable cfg src inp)
    (hp : Physical inp cfg.tracking_start_date cfg.tracking_end_date)
    (hstart : ∀ i j, 0 ≤ (startBwd cfg path disk).1 i j ∧ 0 ≤ (startBwd cfg path disk).2 i j)
    {s} (hs : EndsIn (bwdRun cfg src path disk) s) :
    ∀ x ∈ s.files, SoundBwd cfg.periodic_boundary (inp.states x.1) x.2 := by
  obtain ⟨o, r, ho, rfl⟩ := bwd_ends cfg src inp path disk h hs
  have ho' := bwd_init_eq cfg src path disk o ho
  intro x hx
  obtain ⟨i, hi, _, rfl⟩ := (Proc.mem_files _ _).mp hx
  refine bwd_full_sound cfg src inp h hp o ?_ i hi
  intro i j
  obtain ⟨h1, h2⟩ := hstart i j
  simp [ho', BwdOutput.zeros, ofRat_zero, h1, h2]

/-! ### C27: water budget of a run -/

/-- tracked water in the atmosphere plus everything that left it minus everything that came in -/
def fwdBalance (a : Fin (m + 2) → K) (o : FwdOutput (m + 2) (n + 2) K) : K :=
  total a o.s_track_lower + total a o.s_track_upper

/-- accumulated sinks minus sources -/
def fwdNet (a : Fin (m + 2) → K) (o : FwdOutput (m + 2) (n + 2) K) : K :=
  total a o.p_track_lower + total a o.p_track_upper + total a o.losses - total a o.tagged_evap -
    total a o.gains

/-- tracked water in the atmosphere -/
def bwdBalance (a : Fin (m + 2) → K) (o : BwdOutput (m + 2) (n + 2) K) : K :=
  total a o.s_track_lower + total a o.s_track_upper

/-- accumulated sinks minus sources -/
def bwdNet (a : Fin (m + 2) → K) (o : BwdOutput (m + 2) (n + 2) K) : K :=
  total a o.e_track + total a o.losses - total a o.tagged_precip - total a o.gains

theorem fwd_net_step (periodic : Bool) (dt kvf : K) (a : Fin (m + 2) → K)
    (F : Fluxes (m + 2) (n + 2) K) (fz) (S0 S1 : States (m + 2) (n + 2) K) (mask)
    (out : FwdOutput (m + 2) (n + 2) K) (hS : Wet S0) (ha : ∀ i, 0 < a i) :
    fwdNet a (forwardtrack periodic dt kvf a F fz S1 S0 mask out) +
      fwdBalance a (forwardtrack periodic dt kvf a F fz S1 S0 mask out) =
      fwdNet a out + fwdBalance a out := by
  have := C16_global_budget_forward periodic dt kvf a F fz S0 S1 mask out hS ha
  simp only [fwdNet, fwdBalance, total]
  simp only at this
  linear_combination this

theorem fwd_budget_full (h : Runnable cfg src inp)
    (hw : ∀ t, cfg.tracking_start_date ≤ t → t ≤ cfg.tracking_end_date → Wet (inp.states t))
    (ha : ∀ i, 0 < src.grid.a i) (o) (k : ℕ) (hk : k < cfg.steps) :
    let p := fwdProc cfg src.grid inp
    fwdNet src.grid.a (p.full o k) + fwdBalance src.grid.a (p.full o k) =
      fwdNet src.grid.a (p.out o k) + fwdBalance src.grid.a (p.out o k) := by
  intro p
  have t0 := cfg.fwdTime_mem h.timestep_pos h.ordered k hk.le
  exact fwd_net_step _ _ _ _ _ _ _ _ _ _ (hw _ t0.1 t0.2) ha

theorem bwd_net_step (periodic : Bool) (dt kvf : K) (a : Fin (m + 2) → K)
    (F : Fluxes (m + 2) (n + 2) K) (fz) (S0 S1 : States (m + 2) (n + 2) K) (mask)
    (out : BwdOutput (m + 2) (n + 2) K) (hS : Wet S1) (ha : ∀ i, 0 < a i) :
    bwdNet a (backtrack periodic dt kvf a F fz S1 S0 mask out) +
      bwdBalance a (backtrack periodic dt kvf a F fz S1 S0 mask out) =
      bwdNet a out + bwdBalance a out := by
  have := C16_global_budget_backward periodic dt kvf a F fz S0 S1 mask out hS ha
  simp only [bwdNet, bwdBalance, total]
  simp only at this
  linear_combination this

theorem bwd_budget_full (h : Runnable cfg src inp)
    (hw : ∀ t, cfg.tracking_start_date ≤ t → t ≤ cfg.tracking_end_date → Wet (inp.states t))
    (ha : ∀ i, 0 < src.grid.a i) (o) (k : ℕ) (hk : k < cfg.steps) :
    let p := bwdProc cfg src.grid inp
    bwdNet src.grid.a (p.full o k) + bwdBalance src.grid.a (p.full o k) =
      bwdNet src.grid.a (p.out o k) + bwdBalance src.grid.a (p.out o k) := by
  intro p
  have t0 := cfg.bwdTime_mem h.timestep_pos h.ordered k hk.le
  exact bwd_net_step _ _ _ _ _ _ _ _ _ _ (hw _ t0.1 t0.2) ha

theorem fwdNet_flush (a : Fin (m + 2) → K) (o : FwdOutput (m + 2) (n + 2) K) :
    fwdNet a o.flush = 0 ∧ fwdBalance a o.flush = fwdBalance a o := by
  simp [fwdNet, fwdBalance, total, FwdOutput.flush, ofRat_zero]

theorem bwdNet_flush (a : Fin (m + 2) → K) (o : BwdOutput (m + 2) (n + 2) K) :
    bwdNet a o.flush = 0 ∧ bwdBalance a o.flush = bwdBalance a o := by
  simp [bwdNet, bwdBalance, total, BwdOutput.flush, ofRat_zero]

/-- budget after `k` steps, generic -/
theorem Proc.conserve {ω : Type*} (p : Proc ω) (o : ω) (net bal : ω → K) (N : ℕ)
    (hs : ∀ k < N, net (p.full o k) + bal (p.full o k) = net (p.out o k) + bal (p.out o k))
    (hf : ∀ x, net (p.flush x) = 0 ∧ bal (p.flush x) = bal x) :
    ∀ k ≤ N, sumFiles (p.files o k) net + net (p.out o k) + bal (p.out o k) = net o + bal o := by
  intro k hk
  induction k with
  | zero => simp [sumFiles, files, out]
  | succ k ih =>
    have ih := ih (by omega)
    have hk' := hs k (by omega)
    have e : p.step k (p.out o k) = p.full o k := rfl
    rw [← ih]
    simp only [sumFiles, files, out]
    split
    · simp only [List.map_append, List.sum_append, List.map_cons, List.map_nil, List.sum_cons,
        List.sum_nil, (hf _).1, (hf _).2, e]
      linear_combination hk'
    · simp only [List.append_nil, e]
      linear_combination hk'

theorem fwdNet_of_acc (a : Fin (m + 2) → K) (o : FwdOutput (m + 2) (n + 2) K)
    (h : FwdOutput.acc o = 0) : fwdNet a o = 0 := by
  have h0 := congrFun h 0
  have h1 := congrFun h 1
  have h2 := congrFun h 2
  have h3 := congrFun h 3
  have h4 := congrFun h 4
  simp [FwdOutput.acc] at h0 h1 h2 h3 h4
  simp [fwdNet, total, h0, h1, h2, h3, h4]

theorem bwdNet_of_acc (a : Fin (m + 2) → K) (o : BwdOutput (m + 2) (n + 2) K)
    (h : BwdOutput.acc o = 0) : bwdNet a o = 0 := by
  have h0 := congrFun h 0
  have h1 := congrFun h 1
  have h2 := congrFun h 2
  have h3 := congrFun h 3
  simp [BwdOutput.acc] at h0 h1 h2 h3
  simp [bwdNet, total, h0, h1, h2, h3]

theorem sumFiles_fwdNet (a : Fin (m + 2) → K) (l : List (ℤ × FwdOutput (m + 2) (n + 2) K)) :
    sumFiles l (fwdNet a) = sumFiles l (fun f => total a f.p_track_lower + total a f.p_track_upper)
      + sumFiles l (fun f => total a f.losses) - sumFiles l (fun f => total a f.tagged_evap)
      - sumFiles l (fun f => total a f.gains) := by
  induction l with
  | nil => simp [sumFiles]
  | cons x l ih =>
    simp only [sumFiles, List.map_cons, List.sum_cons] at ih ⊢
    rw [ih, fwdNet]; ring

theorem sumFiles_bwdNet (a : Fin (m + 2) → K) (l : List (ℤ × BwdOutput (m + 2) (n + 2) K)) :
    sumFiles l (bwdNet a) = sumFiles l (fun f => total a f.e_track)
      + sumFiles l (fun f => total a f.losses) - sumFiles l (fun f => total a f.tagged_precip)
      - sumFiles l (fun f => total a f.gains) := by
  induction l with
  | nil => simp [sumFiles]
  | cons x l ih =>
    simp only [sumFiles, List.map_cons, List.sum_cons] at ih ⊢
    rw [ih, bwdNet]; ring

/-- **C27** (forward): area-weighted totals over all files of a run: what was in the atmosphere at the
start plus everything tagged and gained equals everything tracked (rained out) and lost plus
what is in the atmosphere at the end. -/
theorem C27_run_budget_forward (disk : P → Option (FwdOutput (m + 2) (n + 2) K))
    (h : Runnable cfg src inp)
    (hw : ∀ t, cfg.tracking_start_date ≤ t → t ≤ cfg.tracking_end_date → Wet (inp.states t))
    (ha : ∀ i, 0 < src.grid.a i) {s} (hs : EndsIn (fwdRun cfg src path disk) s) :
    let tot := total (n := n) src.grid.a
    tot (startFwd cfg path disk).1 + tot (startFwd cfg path disk).2
        + sumFiles s.files (fun f => tot f.tagged_evap) + sumFiles s.files (fun f => tot f.gains) =
      sumFiles s.files (fun f => tot f.p_track_lower + tot f.p_track_upper)
        + sumFiles s.files (fun f => tot f.losses)
        + tot s.output.s_track_lower + tot s.output.s_track_upper := by
  intro tot
  obtain ⟨o, r, ho, rfl⟩ := fwd_ends cfg src inp path disk h hs
  have ho' := fwd_init_eq cfg src path disk o ho
  have hacc : FwdOutput.acc o = 0 := ho' ▸ fwd_acc_zeros _ _
  have key := (fwdProc cfg src.grid inp).conserve o (fwdNet src.grid.a) (fwdBalance src.grid.a)
    cfg.steps (fun k hk => fwd_budget_full cfg src inp h hw ha o k hk)
    (fun x => fwdNet_flush src.grid.a x) cfg.steps le_rfl
  rw [fwdNet_of_acc _ _ (acc_out_final_fwd cfg src.grid inp o hacc), fwdNet_of_acc _ _ hacc,
    sumFiles_fwdNet] at key
  have e1 : fwdBalance src.grid.a o = tot (startFwd cfg path disk).1 + tot (startFwd cfg path disk).2 := by
    rw [ho']; rfl
  rw [e1] at key
  simp only [fwdStateAt]
  simp only [fwdBalance] at key
  linear_combination -key

/-- **C27** (backward) -/
theorem C27_run_budget_backward (disk : P → Option (BwdOutput (m + 2) (n + 2) K))
    (h : Runnable cfg src inp)
    (hw : ∀ t, cfg.tracking_start_date ≤ t → t ≤ cfg.tracking_end_date → Wet (inp.states t))
    (ha : ∀ i, 0 < src.grid.a i) {s} (hs : EndsIn (bwdRun cfg src path disk) s) :
    let tot := total (n := n) src.grid.a
    tot (startBwd cfg path disk).1 + tot (startBwd cfg path disk).2
        + sumFiles s.files (fun f => tot f.tagged_precip) + sumFiles s.files (fun f => tot f.gains) =
      sumFiles s.files (fun f => tot f.e_track) + sumFiles s.files (fun f => tot f.losses)
        + tot s.output.s_track_lower + tot s.output.s_track_upper := by
  intro tot
  obtain ⟨o, r, ho, rfl⟩ := bwd_ends cfg src inp path disk h hs
  have ho' := bwd_init_eq cfg src path disk o ho
  have hacc : BwdOutput.acc o = 0 := ho' ▸ bwd_acc_zeros _ _
  have key := (bwdProc cfg src.grid inp).conserve o (bwdNet src.grid.a) (bwdBalance src.grid.a)
    cfg.steps (fun k hk => bwd_budget_full cfg src inp h hw ha o k hk)
    (fun x => bwdNet_flush src.grid.a x) cfg.steps le_rfl
  rw [bwdNet_of_acc _ _ (acc_out_final_bwd cfg src.grid inp o hacc), bwdNet_of_acc _ _ hacc,
    sumFiles_bwdNet] at key
  have e1 : bwdBalance src.grid.a o = tot (startBwd cfg path disk).1 + tot (startBwd cfg path disk).2 := by
    rw [ho']; rfl
  rw [e1] at key
  simp only [bwdStateAt]
  simp only [bwdBalance] at key
  linear_combination -key

/-- **C27**: the tracked storage a forward run ends with is that of its last file (the restart
fields), and nothing else is left in memory. -/
theorem C27_final_storage_forward (disk : P → Option (FwdOutput (m + 2) (n + 2) K))
    (h : Runnable cfg src inp) {s} (hs : EndsIn (fwdRun cfg src path disk) s) (x)
    (hx : s.files.getLast? = some x) :
    s.output = { FwdOutput.zeros with s_track_lower := x.2.s_track_lower,
                                      s_track_upper := x.2.s_track_upper } := by
  obtain ⟨o, r, ho, rfl⟩ := fwd_ends cfg src inp path disk h hs
  simp only [fwdStateAt] at hx ⊢
  rcases hN : cfg.steps with _ | N
  · rw [hN] at hx; simp [Proc.files] at hx
  · rw [hN] at hx
    have hwr : (fwdProc cfg src.grid inp).write (N + 1) = true := by simp [fwdProc, writes, hN]
    simp only [Proc.files, hwr, if_true, List.getLast?_append, List.getLast?_singleton,
      Option.some_or, Option.some.injEq] at hx
    subst hx
    simp only [Proc.out, hwr, if_true]
    rw [(fwd_linear cfg src.grid inp).flush_eq]
    rfl

/-- **C27** (backward) -/
theorem C27_final_storage_backward (disk : P → Option (BwdOutput (m + 2) (n + 2) K))
    (h : Runnable cfg src inp) {s} (hs : EndsIn (bwdRun cfg src path disk) s) (x)
    (hx : s.files.getLast? = some x) :
    s.output = { BwdOutput.zeros with s_track_lower := x.2.s_track_lower,
                                      s_track_upper := x.2.s_track_upper } := by
  obtain ⟨o, r, ho, rfl⟩ := bwd_ends cfg src inp path disk h hs
  simp only [bwdStateAt] at hx ⊢
  rcases hN : cfg.steps with _ | N
  · rw [hN] at hx; simp [Proc.files] at hx
  · rw [hN] at hx
    have hwr : (bwdProc cfg src.grid inp).write (N + 1) = true := by simp [bwdProc, writes, hN]
    simp only [Proc.files, hwr, if_true, List.getLast?_append, List.getLast?_singleton,
      Option.some_or, Option.some.injEq] at hx
    subst hx
    simp only [Proc.out, hwr, if_true]
    rw [(bwd_linear cfg src.grid inp).flush_eq]
    rfl

/-! ### C28: the output frequency -/

theorem coreAt_congr {ω : Type*} (p q : Proc ω) (core : ω → ω) (o : ω) (h : p.step = q.step)
    (k : ℕ) : p.coreAt core o k = q.coreAt core o k := by
  induction k with
  | zero => rfl
  | succ k ih => simp [Proc.coreAt, ih, h]

theorem fwd_core_zero_acc (o : FwdOutput (m + 2) (n + 2) K) (h : FwdOutput.acc o = 0) :
    o.core = o := by
  have h0 := congrFun h 0
  have h1 := congrFun h 1
  have h2 := congrFun h 2
  have h3 := congrFun h 3
  have h4 := congrFun h 4
  simp [FwdOutput.acc] at h0 h1 h2 h3 h4
  cases o
  simp only at h0 h1 h2 h3 h4
  subst h0 h1 h2 h3 h4
  simp only [FwdOutput.core, FwdOutput.zeros, ofRat_zero]
  rfl

theorem bwd_core_zero_acc (o : BwdOutput (m + 2) (n + 2) K) (h : BwdOutput.acc o = 0) :
    o.core = o := by
  have h0 := congrFun h 0
  have h1 := congrFun h 1
  have h2 := congrFun h 2
  have h3 := congrFun h 3
  simp [BwdOutput.acc] at h0 h1 h2 h3
  cases o
  simp only at h0 h1 h2 h3
  subst h0 h1 h2 h3
  simp only [BwdOutput.core, BwdOutput.zeros, ofRat_zero]
  rfl

/-- all accumulators of a finished run: sum of the increments -/
theorem fwd_sum_files (o : FwdOutput (m + 2) (n + 2) K) (ho : FwdOutput.acc o = 0) :
    sumFiles ((fwdProc cfg src.grid inp).files o cfg.steps) FwdOutput.acc =
      ∑ k ∈ Finset.range cfg.steps,
        (fwdProc cfg src.grid inp).inc FwdOutput.core FwdOutput.acc o k := by
  have := (fwd_linear cfg src.grid inp).sum_files o cfg.steps
  rw [acc_out_final_fwd cfg src.grid inp o ho, ho, add_zero, zero_add] at this
  exact this

/-- all accumulators of a finished run: sum of the increments -/
theorem bwd_sum_files (o : BwdOutput (m + 2) (n + 2) K) (ho : BwdOutput.acc o = 0) :
    sumFiles ((bwdProc cfg src.grid inp).files o cfg.steps) BwdOutput.acc =
      ∑ k ∈ Finset.range cfg.steps,
        (bwdProc cfg src.grid inp).inc BwdOutput.core BwdOutput.acc o k := by
  have := (bwd_linear cfg src.grid inp).sum_files o cfg.steps
  rw [acc_out_final_bwd cfg src.grid inp o ho, ho, add_zero, zero_add] at this
  exact this

theorem sumFiles_apply {ω : Type*} (l : List (ℤ × ω)) {q : ℕ}
    (acc : ω → Fin q → Arr (m + 2) (n + 2) K) (c i j) :
    sumFiles l acc c i j = sumFiles l (fun f => acc f c i j) := by
  unfold sumFiles
  induction l with
  | nil => rfl
  | cons x l ih => simp [ih]

/-- **C28** (forward): changing only the output frequency changes neither the final state nor, in any
cell, the sum over the files of any accumulated field. -/
theorem C28_output_frequency_forward (disk : P → Option (FwdOutput (m + 2) (n + 2) K)) (freq : ℤ)
    (h : Runnable cfg src inp) {s s'} (hs : EndsIn (fwdRun cfg src path disk) s)
    (hs' : EndsIn (fwdRun { cfg with output_frequency := freq } src path disk) s') :
    s'.output = s.output ∧ ∀ i j,
      sumFiles s'.files (·.tagged_evap i j) = sumFiles s.files (·.tagged_evap i j) ∧
      sumFiles s'.files (·.p_track_lower i j) = sumFiles s.files (·.p_track_lower i j) ∧
      sumFiles s'.files (·.p_track_upper i j) = sumFiles s.files (·.p_track_upper i j) ∧
      sumFiles s'.files (·.losses i j) = sumFiles s.files (·.losses i j) ∧
      sumFiles s'.files (·.gains i j) = sumFiles s.files (·.gains i j) := by
  have h' : Runnable { cfg with output_frequency := freq } src inp :=
    ⟨h.timestep_pos, h.ordered, h.serves⟩
  obtain ⟨o, r, ho, rfl⟩ := fwd_ends cfg src inp path disk h hs
  obtain ⟨o', r', ho', rfl⟩ := fwd_ends _ src inp path disk h' hs'
  have e : o' = o := by
    rw [fwd_init_eq _ _ _ _ _ ho, fwd_init_eq _ _ _ _ _ ho']; rfl
  subst e
  have hacc : FwdOutput.acc o' = 0 := (fwd_init_eq _ _ _ _ _ ho) ▸ fwd_acc_zeros _ _
  have hst : (fwdProc { cfg with output_frequency := freq } src.grid inp).step =
      (fwdProc cfg src.grid inp).step := rfl
  constructor
  · simp only [fwdStateAt]
    rw [← fwd_core_zero_acc _ (acc_out_final_fwd _ src.grid inp o' hacc),
      ← fwd_core_zero_acc _ (acc_out_final_fwd cfg src.grid inp o' hacc),
      (fwd_linear _ src.grid inp).core_out, (fwd_linear cfg src.grid inp).core_out,
      coreAt_congr _ _ _ _ hst]
    rfl
  · intro i j
    have k1 := fwd_sum_files cfg src inp o' hacc
    have k2 := fwd_sum_files { cfg with output_frequency := freq } src inp o' hacc
    have k : sumFiles ((fwdProc { cfg with output_frequency := freq } src.grid inp).files o'
        ({ cfg with output_frequency := freq } : RunConfig K).steps) FwdOutput.acc =
        sumFiles ((fwdProc cfg src.grid inp).files o' cfg.steps) FwdOutput.acc := by
      rw [k1, k2]
      refine Finset.sum_congr rfl fun k _ => ?_
      simp only [Proc.inc, coreAt_congr _ _ _ _ hst]
      rfl
    have kk : ∀ c, _ := fun c => congrFun (congrFun (congrFun k c) i) j
    simp only [sumFiles_apply] at kk
    exact ⟨kk 2, kk 1, kk 0, kk 3, kk 4⟩

/-- **C28** (backward) -/
theorem C28_output_frequency_backward (disk : P → Option (BwdOutput (m + 2) (n + 2) K)) (freq : ℤ)
    (h : Runnable cfg src inp) {s s'} (hs : EndsIn (bwdRun cfg src path disk) s)
    (hs' : EndsIn (bwdRun { cfg with output_frequency := freq } src path disk) s') :
    s'.output = s.output ∧ ∀ i j,
      sumFiles s'.files (·.tagged_precip i j) = sumFiles s.files (·.tagged_precip i j) ∧
      sumFiles s'.files (·.e_track i j) = sumFiles s.files (·.e_track i j) ∧
      sumFiles s'.files (·.losses i j) = sumFiles s.files (·.losses i j) ∧
      sumFiles s'.files (·.gains i j) = sumFiles s.files (·.gains i j) := by
  have h' : Runnable { cfg with output_frequency := freq } src inp :=
    ⟨h.timestep_pos, h.ordered, h.serves⟩
  obtain ⟨o, r, ho, rfl⟩ := bwd_ends cfg src inp path disk h hs
  obtain ⟨o', r', ho', rfl⟩ := bwd_ends _ src inp path disk h' hs'
  have e : o' = o := by
    rw [bwd_init_eq _ _ _ _ _ ho, bwd_init_eq _ _ _ _ _ ho']; rfl
  subst e
  have hacc : BwdOutput.acc o' = 0 := (bwd_init_eq _ _ _ _ _ ho) ▸ bwd_acc_zeros _ _
  have hst : (bwdProc { cfg with output_frequency := freq } src.grid inp).step =
      (bwdProc cfg src.grid inp).step := rfl
  constructor
  · simp only [bwdStateAt]
    rw [← bwd_core_zero_acc _ (acc_out_final_bwd _ src.grid inp o' hacc),
      ← bwd_core_zero_acc _ (acc_out_final_bwd cfg src.grid inp o' hacc),
      (bwd_linear _ src.grid inp).core_out, (bwd_linear cfg src.grid inp).core_out,
      coreAt_congr _ _ _ _ hst]
    rfl
  · intro i j
    have k1 := bwd_sum_files cfg src inp o' hacc
    have k2 := bwd_sum_files { cfg with output_frequency := freq } src inp o' hacc
    have k : sumFiles ((bwdProc { cfg with output_frequency := freq } src.grid inp).files o'
        ({ cfg with output_frequency := freq } : RunConfig K).steps) BwdOutput.acc =
        sumFiles ((bwdProc cfg src.grid inp).files o' cfg.steps) BwdOutput.acc := by
      rw [k1, k2]
      refine Finset.sum_congr rfl fun k _ => ?_
      simp only [Proc.inc, coreAt_congr _ _ _ _ hst]
      rfl
    have kk : ∀ c, _ := fun c => congrFun (congrFun (congrFun k c) i) j
    simp only [sumFiles_apply] at kk
    exact ⟨kk 1, kk 0, kk 2, kk 3⟩

/-! ### C31, C32: tagging -/

/-- **C32** (forward): summed over all files, the tagged evaporation of every cell is the sum over the
steps whose start time lies in the closed tagging window of mask * evaporation * time step,
whatever the transport does. -/
theorem C32_tagged_total_forward (disk : P → Option (FwdOutput (m + 2) (n + 2) K))
    (h : Runnable cfg src inp) {s} (hs : EndsIn (fwdRun cfg src path disk) s) (i j) :
    let A := cfg.tracking_start_date
    let dt := cfg.timestep * 1000000
    let N := ((cfg.tracking_end_date - A) / dt).toNat
    sumFiles s.files (·.tagged_evap i j) =
      ∑ k ∈ (Finset.range N).filter (fun k : ℕ => cfg.tagging_start_date ≤ A + k * dt ∧
          A + k * dt ≤ cfg.tagging_end_date),
        inp.region (A + k * dt) i j * (inp.fluxes (A + k * dt + dt / 2)).evap i j * cfg.timestep := by
  intro A dt N
  obtain ⟨o, r, ho, rfl⟩ := fwd_ends cfg src inp path disk h hs
  have hacc : FwdOutput.acc o = 0 := (fwd_init_eq _ _ _ _ _ ho) ▸ fwd_acc_zeros _ _
  have k1 := congrFun (congrFun (congrFun (fwd_sum_files cfg src inp o hacc) 2) i) j
  rw [sumFiles_apply] at k1
  have hh : dt / 2 = cfg.halfDt := by
    have := cfg.dt_eq
    change dt = 2 * cfg.halfDt at this
    omega
  simp only [fwdStateAt]
  refine Eq.trans k1 ?_
  rw [Finset.sum_filter]
  simp only [Finset.sum_apply]
  refine Finset.sum_congr rfl fun k _ => ?_
  have hz : ∀ k, ((fwdProc cfg src.grid inp).coreAt FwdOutput.core o k).tagged_evap i j = 0 := by
    intro k; cases k <;> simp [Proc.coreAt, FwdOutput.core, FwdOutput.zeros, ofRat_zero]
  have e : (fwdProc cfg src.grid inp).inc FwdOutput.core FwdOutput.acc o k 2 i j =
      maskAt cfg inp (cfg.fwdTime k) i j *
        (inp.fluxes (cfg.fwdTime k + cfg.halfDt)).evap i j * cfg.timestep := by
    show ((fwdProc cfg src.grid inp).coreAt FwdOutput.core o k).tagged_evap i j +
      maskAt cfg inp (cfg.fwdTime k) i j *
        (inp.fluxes (cfg.fwdTime k + cfg.halfDt)).evap i j * ofRat cfg.timestep = _
    rw [hz, zero_add, ofRat_int]
  rw [e, hh]
  unfold maskAt
  by_cases hw : inWindow cfg (cfg.fwdTime k)
  · rw [if_pos hw]
    exact (if_pos (show cfg.tagging_start_date ≤ A + k * dt ∧ A + k * dt ≤ cfg.tagging_end_date
      from hw)).symm
  · rw [if_neg hw, ofRat_zero, zero_mul, zero_mul]
    exact (if_neg (show ¬ (cfg.tagging_start_date ≤ A + k * dt ∧ A + k * dt ≤ cfg.tagging_end_date)
      from hw)).symm

/-- **C32** (backward): here the end time `t1` of the step decides. -/
theorem C32_tagged_total_backward (disk : P → Option (BwdOutput (m + 2) (n + 2) K))
    (h : Runnable cfg src inp) {s} (hs : EndsIn (bwdRun cfg src path disk) s) (i j) :
    let B := cfg.tracking_end_date
    let dt := cfg.timestep * 1000000
    let N := ((B - cfg.tracking_start_date) / dt).toNat
    sumFiles s.files (·.tagged_precip i j) =
      ∑ k ∈ (Finset.range N).filter (fun k : ℕ => cfg.tagging_start_date ≤ B - k * dt ∧
          B - k * dt ≤ cfg.tagging_end_date),
        inp.region (B - k * dt) i j * (inp.fluxes (B - k * dt - dt / 2)).precip i j *
          cfg.timestep := by
  intro B dt N
  obtain ⟨o, r, ho, rfl⟩ := bwd_ends cfg src inp path disk h hs
  have hacc : BwdOutput.acc o = 0 := (bwd_init_eq _ _ _ _ _ ho) ▸ bwd_acc_zeros _ _
  have k1 := congrFun (congrFun (congrFun (bwd_sum_files cfg src inp o hacc) 1) i) j
  rw [sumFiles_apply] at k1
  have hh : dt / 2 = cfg.halfDt := by
    have := cfg.dt_eq
    change dt = 2 * cfg.halfDt at this
    omega
  simp only [bwdStateAt]
  refine Eq.trans k1 ?_
  rw [Finset.sum_filter]
  simp only [Finset.sum_apply]
  refine Finset.sum_congr rfl fun k _ => ?_
  have hz : ∀ k, ((bwdProc cfg src.grid inp).coreAt BwdOutput.core o k).tagged_precip i j = 0 := by
    intro k; cases k <;> simp [Proc.coreAt, BwdOutput.core, BwdOutput.zeros, ofRat_zero]
  have e : (bwdProc cfg src.grid inp).inc BwdOutput.core BwdOutput.acc o k 1 i j =
      maskAt cfg inp (cfg.bwdTime k) i j *
        (inp.fluxes (cfg.bwdTime k - cfg.halfDt)).precip i j * cfg.timestep := by
    show ((bwdProc cfg src.grid inp).coreAt BwdOutput.core o k).tagged_precip i j +
      maskAt cfg inp (cfg.bwdTime k) i j *
        (inp.fluxes (cfg.bwdTime k - cfg.halfDt)).precip i j * ofRat cfg.timestep = _
    rw [hz, zero_add, ofRat_int]
  rw [e, hh]
  unfold maskAt
  by_cases hw : inWindow cfg (cfg.bwdTime k)
  · rw [if_pos hw]
    exact (if_pos (show cfg.tagging_start_date ≤ B - k * dt ∧ B - k * dt ≤ cfg.tagging_end_date
      from hw)).symm
  · rw [if_neg hw, ofRat_zero, zero_mul, zero_mul]
    exact (if_neg (show ¬ (cfg.tagging_start_date ≤ B - k * dt ∧ B - k * dt ≤ cfg.tagging_end_date)
      from hw)).symm

/-- number of tagging steps (arithmetic of C31; the statement about runs is in `Props/Window`): for a tagging window of length `w * dt` that starts at step time
`p` and ends before the last step, `w + 1` steps (not `w`) are tagged, in either direction,
because both ends of the window count. -/
theorem window_is_inclusive (A dt : ℤ) (hdt : 0 < dt) (N p w : ℕ) (hN : p + w < N) (T0 T1 : ℤ)
    (h0 : T0 = A + p * dt) (h1 : T1 = A + (p + w) * dt) :
    ((Finset.range N).filter fun k : ℕ => T0 ≤ A + k * dt ∧ A + k * dt ≤ T1).card = w + 1 ∧
    ((Finset.range N).filter fun k : ℕ => T0 ≤ A + (N - 1) * dt - k * dt ∧
      A + (N - 1) * dt - k * dt ≤ T1).card = w + 1 := by
  constructor
  · have : ((Finset.range N).filter fun k : ℕ => T0 ≤ A + k * dt ∧ A + k * dt ≤ T1) =
        Finset.Icc p (p + w) := by
      ext k
      simp only [Finset.mem_filter, Finset.mem_range, Finset.mem_Icc, h0, h1]
      have e1 : A + p * dt ≤ A + k * dt ↔ p ≤ k := by
        rw [add_le_add_iff_left, mul_le_mul_iff_left₀ hdt]; exact_mod_cast Iff.rfl
      have e2 : A + k * dt ≤ A + (p + w) * dt ↔ k ≤ p + w := by
        rw [add_le_add_iff_left, mul_le_mul_iff_left₀ hdt]; exact_mod_cast Iff.rfl
      rw [e1, e2]
      omega
    rw [this, Nat.card_Icc]; omega
  · have : ((Finset.range N).filter fun k : ℕ => T0 ≤ A + (N - 1) * dt - k * dt ∧
        A + (N - 1) * dt - k * dt ≤ T1) = Finset.Icc (N - 1 - (p + w)) (N - 1 - p) := by
      ext k
      simp only [Finset.mem_filter, Finset.mem_range, Finset.mem_Icc, h0, h1]
      have e1 : A + p * dt ≤ A + (N - 1) * dt - k * dt ↔ (p : ℤ) ≤ N - 1 - k := by
        rw [add_sub_assoc, ← sub_mul, add_le_add_iff_left, mul_le_mul_iff_left₀ hdt]
      have e2 : A + (N - 1) * dt - k * dt ≤ A + (p + w) * dt ↔ (N : ℤ) - 1 - k ≤ p + w := by
        rw [add_sub_assoc, ← sub_mul, add_le_add_iff_left, mul_le_mul_iff_left₀ hdt]
      rw [e1, e2]
      omega
    rw [this, Nat.card_Icc]; omega

end

end Wam
