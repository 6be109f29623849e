import Verif.Spec.Balance
import Verif.Props.Superposition
import Verif.Props.Stability
import Verif.Props.Vertical

/-! # C91: the water balance of every cell, from the input data -/
set_option linter.unusedSectionVars false
set_option linter.unusedVariables false

namespace Wam
open Spec

variable {m n : ℕ} {K : Type*} [Field K] [LinearOrder K] [IsStrictOrderedRing K] {P : Type*}

theorem settle_strict (tl tu Sl Su : K) (h1 : 0 < (settle false tl tu Sl Su).lower)
    (h2 : (settle false tl tu Sl Su).lower < Sl) (h3 : 0 < (settle false tl tu Sl Su).upper)
    (h4 : (settle false tl tu Sl Su).upper < Su) :
    (settle false tl tu Sl Su).lower = tl ∧ (settle false tl tu Sl Su).upper = tu := by
  simp only [settle, np_min, np_max, ofRat_zero, Bool.false_eq_true, if_false] at *
  set ol := max 0 (tl - Sl) with hol
  set ou := max 0 (tu - Su) with hou
  have pl : 0 ≤ ol := le_max_left _ _
  have pu : 0 ≤ ou := le_max_left _ _
  have h2' := (min_lt_iff.1 h2).resolve_right (lt_irrefl _)
  have h4' := (min_lt_iff.1 h4).resolve_right (lt_irrefl _)
  have h1' := (lt_min_iff.1 h1)
  have h3' := (lt_min_iff.1 h3)
  have a1 := (lt_max_iff.1 h1'.1).resolve_right (lt_irrefl _)
  have a3 := (lt_max_iff.1 h3'.1).resolve_right (lt_irrefl _)
  rw [max_eq_left a1.le] at h2' ⊢
  rw [max_eq_left a3.le] at h4' ⊢
  have el : ol = 0 := by
    rcases max_choice 0 (tl - Sl) with h | h
    · rw [hol, h]
    · rw [← hol] at h; linarith
  have eu : ou = 0 := by
    rcases max_choice 0 (tu - Su) with h | h
    · rw [hou, h]
    · rw [← hou] at h; linarith
  rw [el, eu] at h2' h4' ⊢
  rw [min_eq_left h2'.le, min_eq_left h4'.le]
  constructor <;> ring

theorem stabilizeComponent_zero (dt a s fx fy : K) : stabilizeComponent dt a s fx fy 0 = 0 := by
  simp [stabilizeComponent, np_sign]

theorem transport_stabilize (dt a dy dx s fx fy : K) (hdt : 0 < dt) (ha : 0 < a) (hs : 0 ≤ s) :
    Transport dt a dy dx s fx fy (stabilizeComponent dt a s (fx * dy) (fy * dx) (fx * dy))
      (stabilizeComponent dt a s (fx * dy) (fy * dx) (fy * dx)) := by
  by_cases h : fx * dy ≠ 0 ∨ fy * dx ≠ 0
  · obtain ⟨θ, h0, h1, hx, hy, _, he, hm⟩ := stabilize_factor dt a s _ _ hdt ha hs h
    exact ⟨θ, h0, h1, hx, hy, he, by rw [hx, hy]; exact hm⟩
  · rw [not_or, not_not, not_not] at h
    refine ⟨1, zero_le_one, le_rfl, ?_, ?_, ?_, fun h => absurd h (lt_irrefl _)⟩
    · rw [h.1, stabilizeComponent_zero, mul_zero]
    · rw [h.2, stabilizeComponent_zero, mul_zero]
    · refine ⟨fun _ => ?_, fun _ => rfl⟩
      unfold halfCell
      rw [h.1, h.2, abs_zero, add_zero, zero_mul]
      positivity

theorem getBoundary_inner (periodic : Bool) {i : Fin (m + 2)} {j : Fin (n + 2)} (h : inner i j) :
    getBoundary periodic i j = false := by
  rw [Bool.eq_false_iff, ne_eq, getBoundary_iff]
  obtain ⟨h1, h2, h3, h4⟩ := h
  rintro (h | h | ⟨_, h | h⟩) <;> omega

theorem vertical_flux (periodic : Bool) (a : Fin (m + 2) → K) (F : Fluxes (m + 2) (n + 2) K)
    (S0 S1 : States (m + 2) (n + 2) K) (dt kvf : K) (hdt : 0 < dt) (hk : 0 ≤ kvf) (h0 : Wet S0)
    (h1 : Wet S1) (i j) (hi : inner i j) :
    VerticalFlux dt (a i) kvf (S0.s_upper i j) (S0.s_lower i j) (S1.s_upper i j)
      (S1.s_lower i j) (convergence periodic F.fx_upper F.fy_upper i j)
      (convergence periodic F.fx_lower F.fy_lower i j)
      (F.precip i j) (F.evap i j) (calculateFz a F S0 S1 dt kvf i j) := by
  obtain ⟨f₀, hf, hz⟩ := C12_closure a F S0 S1 dt kvf hdt hk i j (h0 i j).1.le (h0 i j).2.le
    (h1 i j).1.le (h1 i j).2.le (add_pos (h1 i j).1 (h1 i j).2).ne'
  rw [C71_divergence_matches_advection periodic F.fx_upper F.fy_upper i j hi.1 hi.2.1 hi.2.2.1 hi.2.2.2,
    C71_divergence_matches_advection periodic F.fx_lower F.fy_lower i j hi.1 hi.2.1 hi.2.2.1 hi.2.2.2]
    at hf
  exact ⟨f₀, hf, hz⟩

section step
variable (periodic : Bool) (dt kvf : K) (gr : GridInfo (m + 2) K) (F : Fluxes (m + 2) (n + 2) K)
  (S0 S1 : States (m + 2) (n + 2) K) (mask : Arr (m + 2) (n + 2) K)

/-- the balance of one forward step that starts with empty accumulators -/
theorem fwd_balance (f : FwdOutput (m + 2) (n + 2) K) (hdt : 0 < dt) (hk : 0 ≤ kvf) (h0 : Wet S0) (h1 : Wet S1)
    (ha : ∀ i, 0 < gr.a i) :
    let F' := stabilizeFluxes dt gr.a (scaleFluxes gr F) S0
    BalanceFwd periodic dt kvf gr F S0 S1 mask f
      (forwardtrack periodic dt kvf gr.a F' (calculateFz gr.a F' S0 S1 dt kvf) S1 S0 mask f.flush) := by
  intro F'
  refine ⟨F'.fx_lower, F'.fy_lower, F'.fx_upper, F'.fy_upper, calculateFz gr.a F' S0 S1 dt kvf,
    fun i j => ⟨transport_stabilize dt (gr.a i) gr.dy (gr.dx i) (S0.s_lower i j) _ _ hdt (ha i) (h0 i j).2.le,
      transport_stabilize dt (gr.a i) gr.dy (gr.dx i) (S0.s_upper i j) _ _ hdt (ha i) (h0 i j).1.le⟩,
    fun i j => ?_, fun i j hi => vertical_flux periodic gr.a F' S0 S1 dt kvf hdt hk h0 h1 i j hi,
    fun i j hi g1 g2 g3 g4 => ?_, fun i j => ?_⟩
  · have c := C15_cell_budget_forward periodic dt kvf gr.a F' (calculateFz gr.a F' S0 S1 dt kvf) S0 S1 mask
      f.flush h0 ha i j
    obtain ⟨g1, g2, g3⟩ := C17_increments_forward periodic dt kvf gr.a F'
      (calculateFz gr.a F' S0 S1 dt kvf) S0 S1 mask f.flush h0 i j
    simp only [] at c
    rw [g1, g2, g3] at c
    simp only [FwdOutput.flush, ofRat_zero, mul_zero] at c ⊢
    have e1 : F'.evap = F.evap := rfl
    have e2 : F'.precip = F.precip := rfl
    rw [e1, e2] at c
    linear_combination c
  · obtain ⟨e1, e2⟩ := C20_forward_transport periodic dt kvf gr.a F' (calculateFz gr.a F' S0 S1 dt kvf) S0 mask
      f.s_track_lower f.s_track_upper h0 ha i j
    have hb := getBoundary_inner periodic hi
    simp only [forwardtrack, FwdOutput.flush, hb] at g1 g2 g3 g4 ⊢
    obtain ⟨k1, k2⟩ := settle_strict _ _ _ _ g1 g2 g3 g4
    exact ⟨k1.trans e1, k2.trans e2⟩
  · obtain ⟨g1, g2, g3⟩ := C17_increments_forward periodic dt kvf gr.a F'
      (calculateFz gr.a F' S0 S1 dt kvf) S0 S1 mask f.flush h0 i j
    rw [g1, g2, g3]
    simp only [FwdOutput.flush, ofRat_zero, mul_zero, zero_add]
    exact ⟨rfl, rfl, rfl⟩

/-- the balance of one backward step that starts with empty accumulators -/
theorem bwd_balance (f : BwdOutput (m + 2) (n + 2) K) (hdt : 0 < dt) (hk : 0 ≤ kvf) (h0 : Wet S0) (h1 : Wet S1)
    (ha : ∀ i, 0 < gr.a i) :
    let F' := stabilizeFluxes dt gr.a (scaleFluxes gr F) S1
    BalanceBwd periodic dt kvf gr F S0 S1 mask f
      (backtrack periodic dt kvf gr.a F' (calculateFz gr.a F' S0 S1 dt kvf) S1 S0 mask f.flush) := by
  intro F'
  refine ⟨F'.fx_lower, F'.fy_lower, F'.fx_upper, F'.fy_upper, calculateFz gr.a F' S0 S1 dt kvf,
    fun i j => ⟨transport_stabilize dt (gr.a i) gr.dy (gr.dx i) (S1.s_lower i j) _ _ hdt (ha i) (h1 i j).2.le,
      transport_stabilize dt (gr.a i) gr.dy (gr.dx i) (S1.s_upper i j) _ _ hdt (ha i) (h1 i j).1.le⟩,
    fun i j => ?_, fun i j hi => vertical_flux periodic gr.a F' S0 S1 dt kvf hdt hk h0 h1 i j hi,
    fun i j hi g1 g2 g3 g4 => ?_, fun i j => ?_⟩
  · have c := C15_cell_budget_backward periodic dt kvf gr.a F' (calculateFz gr.a F' S0 S1 dt kvf) S0 S1 mask
      f.flush h1 ha i j
    obtain ⟨g1, g2⟩ := C17_increments_backward periodic dt kvf gr.a F'
      (calculateFz gr.a F' S0 S1 dt kvf) S0 S1 mask f.flush h1 i j
    simp only [] at c
    rw [g1, g2] at c
    simp only [BwdOutput.flush, ofRat_zero, mul_zero] at c ⊢
    have e1 : F'.evap = F.evap := rfl
    have e2 : F'.precip = F.precip := rfl
    rw [e1, e2] at c
    linear_combination c
  · obtain ⟨e1, e2⟩ := C20_backward_transport periodic dt kvf gr.a F' (calculateFz gr.a F' S0 S1 dt kvf) S1 mask
      f.s_track_lower f.s_track_upper h1 ha i j
    have hb := getBoundary_inner periodic hi
    simp only [backtrack, BwdOutput.flush, hb] at g1 g2 g3 g4 ⊢
    obtain ⟨k1, k2⟩ := settle_strict _ _ _ _ g1 g2 g3 g4
    exact ⟨k1.trans e1, k2.trans e2⟩
  · obtain ⟨g1, g2⟩ := C17_increments_backward periodic dt kvf gr.a F'
      (calculateFz gr.a F' S0 S1 dt kvf) S0 S1 mask f.flush h1 i j
    rw [g1, g2]
    simp only [BwdOutput.flush, ofRat_zero, mul_zero, zero_add]
    exact ⟨rfl, rfl⟩

end step

/-- two files one step apart -/
theorem Proc.next_file {ω : Type*} (p : Proc ω) (o : ω) (N : ℕ) {t t' : ℤ} {f g : ω}
    (hf : (t, f) ∈ p.files o N) (hg : (t', g) ∈ p.files o N)
    (ht : ∀ i k, p.time (i + 1) = t → p.time (k + 1) = t' → k = i + 1) :
    ∃ k < N, p.time k = t ∧ p.time (k + 1) = t' ∧ g = p.step k (p.flush f) := by
  obtain ⟨i, hi, hw, e⟩ := (p.mem_files o).mp hf
  obtain ⟨k, hk, hw', e'⟩ := (p.mem_files o).mp hg
  injection e with e1 e2
  injection e' with e1' e2'
  have := ht i k e1.symm e1'.symm
  subst this
  refine ⟨i + 1, hk, e1.symm, e1'.symm, ?_⟩
  rw [e2', e2]
  simp only [Proc.full, Proc.out, hw, if_true]

section run
variable (cfg : RunConfig K) (src : Source m n K) (inp : Input m n K) (path : ℤ → P)

theorem fwdStepAt_balance (h : Runnable cfg src inp)
    (hp : Physical inp cfg.tracking_start_date cfg.tracking_end_date)
    (ha : ∀ i, 0 < src.grid.a i) (hk : 0 ≤ cfg.kvf) (k : ℕ) (hk' : k < cfg.steps)
    (f : FwdOutput (m + 2) (n + 2) K) :
    BalanceFwd cfg.periodic_boundary (cfg.timestep : K) cfg.kvf src.grid
      (inp.fluxes (cfg.fwdTime k + cfg.halfDt)) (inp.states (cfg.fwdTime k))
      (inp.states (cfg.fwdTime k + cfg.dt)) (activeMask cfg inp (cfg.fwdTime k)) f
      (fwdStepAt cfg src.grid inp (cfg.fwdTime k) f.flush) := by
  have hpos := h.timestep_pos
  have t0 := cfg.fwdTime_mem hpos h.ordered k hk'.le
  have t1 := cfg.fwdTime_mem hpos h.ordered (k + 1) hk'
  have m0 : maskAt cfg inp (cfg.fwdTime k) = activeMask cfg inp (cfg.fwdTime k) := by
    unfold maskAt activeMask; split <;> simp [ofRat_zero]
  have w1 : Wet (inp.states (cfg.fwdTime k + cfg.dt)) := by
    rw [← cfg.fwdTime_succ]; exact hp.wet _ t1.1 t1.2
  have hdt : 0 < (cfg.timestep : K) := by exact_mod_cast hpos
  unfold fwdStepAt stableFluxes
  rw [ofRat_int, m0]
  exact fwd_balance cfg.periodic_boundary (cfg.timestep : K) cfg.kvf src.grid _ _ _ _ f hdt hk
    (hp.wet _ t0.1 t0.2) w1 ha

theorem bwdStepAt_balance (h : Runnable cfg src inp)
    (hp : Physical inp cfg.tracking_start_date cfg.tracking_end_date)
    (ha : ∀ i, 0 < src.grid.a i) (hk : 0 ≤ cfg.kvf) (k : ℕ) (hk' : k < cfg.steps)
    (f : BwdOutput (m + 2) (n + 2) K) :
    BalanceBwd cfg.periodic_boundary (cfg.timestep : K) cfg.kvf src.grid
      (inp.fluxes (cfg.bwdTime k - cfg.halfDt)) (inp.states (cfg.bwdTime k - cfg.dt))
      (inp.states (cfg.bwdTime k)) (activeMask cfg inp (cfg.bwdTime k)) f
      (bwdStepAt cfg src.grid inp (cfg.bwdTime k) f.flush) := by
  have hpos := h.timestep_pos
  have t0 := cfg.bwdTime_mem hpos h.ordered k hk'.le
  have t1 := cfg.bwdTime_mem hpos h.ordered (k + 1) hk'
  have m0 : maskAt cfg inp (cfg.bwdTime k) = activeMask cfg inp (cfg.bwdTime k) := by
    unfold maskAt activeMask; split <;> simp [ofRat_zero]
  have w1 : Wet (inp.states (cfg.bwdTime k - cfg.dt)) := by
    rw [← cfg.bwdTime_succ]; exact hp.wet _ t1.1 t1.2
  have hdt : 0 < (cfg.timestep : K) := by exact_mod_cast hpos
  unfold bwdStepAt stableFluxes
  rw [ofRat_int, m0]
  exact bwd_balance cfg.periodic_boundary (cfg.timestep : K) cfg.kvf src.grid _ _ _ _ f hdt hk
    w1 (hp.wet _ t0.1 t0.2) ha

/-- **C91** (forward run): two files of a run that are one time step apart satisfy the water balance of
every cell, with the input data of that step. -/
theorem C91_balance_forward (disk : P → Option (FwdOutput (m + 2) (n + 2) K))
    (h : Runnable cfg src inp) (hp : Physical inp cfg.tracking_start_date cfg.tracking_end_date)
    (ha : ∀ i, 0 < src.grid.a i) (hk : 0 ≤ cfg.kvf)
    {s} (hs : EndsIn (fwdRun cfg src path disk) s) (t : ℤ) (f g : FwdOutput (m + 2) (n + 2) K)
    (hf : (t, f) ∈ s.files) (hg : (t + cfg.timestep * 1000000, g) ∈ s.files) :
    BalanceFwd cfg.periodic_boundary (cfg.timestep : K) cfg.kvf src.grid
      (inp.fluxes (t + cfg.timestep * 500000)) (inp.states t)
      (inp.states (t + cfg.timestep * 1000000)) (activeMask cfg inp t) f g := by
  obtain ⟨o, r, ho, rfl⟩ := fwd_ends cfg src inp path disk h hs
  have hpos := cfg.dt_pos h.timestep_pos
  obtain ⟨k, hk', e1, e2, e3⟩ := Proc.next_file (fwdProc cfg src.grid inp) o cfg.steps hf hg (by
    intro i k e1 e2
    simp only [fwdProc, RunConfig.fwdTime] at e1 e2
    have e : ((k : ℤ) - (i + 1)) * cfg.dt = 0 := by
      have : cfg.dt = cfg.timestep * 1000000 := rfl
      push_cast at e1 e2
      rw [← this] at e2
      linear_combination e2 - e1
    rcases mul_eq_zero.1 e with e | e <;> omega)
  have key := fwdStepAt_balance cfg src inp h hp ha hk k hk' f
  have e1' : cfg.fwdTime k = t := e1
  rw [e1'] at key
  rw [e3]
  change BalanceFwd _ _ _ _ _ _ _ _ f (fwdStepAt cfg src.grid inp (cfg.fwdTime k) f.flush)
  rw [e1']
  exact key

/-- **C91** (backward run): `f` was written one step before (at the later time) `g`. -/
theorem C91_balance_backward (disk : P → Option (BwdOutput (m + 2) (n + 2) K))
    (h : Runnable cfg src inp) (hp : Physical inp cfg.tracking_start_date cfg.tracking_end_date)
    (ha : ∀ i, 0 < src.grid.a i) (hk : 0 ≤ cfg.kvf)
    {s} (hs : EndsIn (bwdRun cfg src path disk) s) (t : ℤ) (f g : BwdOutput (m + 2) (n + 2) K)
    (hf : (t, f) ∈ s.files) (hg : (t - cfg.timestep * 1000000, g) ∈ s.files) :
    BalanceBwd cfg.periodic_boundary (cfg.timestep : K) cfg.kvf src.grid
      (inp.fluxes (t - cfg.timestep * 500000)) (inp.states (t - cfg.timestep * 1000000))
      (inp.states t) (activeMask cfg inp t) f g := by
  obtain ⟨o, r, ho, rfl⟩ := bwd_ends cfg src inp path disk h hs
  have hpos := cfg.dt_pos h.timestep_pos
  obtain ⟨k, hk', e1, e2, e3⟩ := Proc.next_file (bwdProc cfg src.grid inp) o cfg.steps hf hg (by
    intro i k e1 e2
    simp only [bwdProc, RunConfig.bwdTime] at e1 e2
    have e : ((k : ℤ) - (i + 1)) * cfg.dt = 0 := by
      have : cfg.dt = cfg.timestep * 1000000 := rfl
      push_cast at e1 e2
      rw [← this] at e2
      linear_combination e1 - e2
    rcases mul_eq_zero.1 e with e | e <;> omega)
  have key := bwdStepAt_balance cfg src inp h hp ha hk k hk' f
  have e1' : cfg.bwdTime k = t := e1
  rw [e1'] at key
  rw [e3]
  change BalanceBwd _ _ _ _ _ _ _ _ f (bwdStepAt cfg src.grid inp (cfg.bwdTime k) f.flush)
  rw [e1']
  exact key

end run

/-! ### A concrete case -/

namespace Demo

/-- output after every time step -/
def cfgF : RunConfig ℚ := { cfg with output_frequency := step }

theorem runnableF : Runnable cfgF src inp where
  timestep_pos := by decide
  ordered := by decide
  serves := runnable.serves

/-- C91, forward: files after the second and third step, with tracked water in between the bounds in both
layers of the middle cell -/
example : ∃ s f g, EndsIn (fwdRun cfgF src path fun _ => none) s ∧
    (2 * step, f) ∈ s.files ∧ (3 * step, g) ∈ s.files ∧
    BalanceFwd false 600 3 src.grid (inp.fluxes (2 * step + 300000000)) (inp.states (2 * step))
      (inp.states (3 * step)) (activeMask cfgF inp (2 * step)) f g ∧
    0 < g.s_track_lower 1 1 ∧ g.s_track_lower 1 1 < (inp.states (3 * step)).s_lower 1 1 ∧
    0 < g.s_track_upper 1 1 ∧ g.s_track_upper 1 1 < (inp.states (3 * step)).s_upper 1 1 := by
  obtain ⟨o, ho⟩ := fwd_init_ok cfgF src inp path (fun _ => none) runnableF (by decide)
  have ho' := ho
  injection ho' with e; subst e
  obtain ⟨r, _, _, hrun⟩ := fwd_run_eq cfgF src inp path _ runnableF _ ho
  have he : EndsIn (fwdRun cfgF src path fun _ => none) _ :=
    ⟨cfgF.steps, fun fuel hf => (hrun fuel).trans (if_neg (not_lt.mpr hf))⟩
  refine ⟨_, _, _, he, List.mem_cons_of_mem _ List.mem_cons_self,
    List.mem_cons_of_mem _ (List.mem_cons_of_mem _ List.mem_cons_self), ?_, ?_⟩
  · exact C91_balance_forward cfgF src inp path _ runnableF physical area_pos (by decide) he (2 * step) _ _
      (List.mem_cons_of_mem _ List.mem_cons_self)
      (List.mem_cons_of_mem _ (List.mem_cons_of_mem _ List.mem_cons_self))
  · decide +kernel

/-- C91, backward -/
example : ∃ s f g, EndsIn (bwdRun cfgF src path fun _ => none) s ∧
    (2 * step, f) ∈ s.files ∧ (step, g) ∈ s.files ∧
    BalanceBwd false 600 3 src.grid (inp.fluxes (2 * step - 300000000)) (inp.states step)
      (inp.states (2 * step)) (activeMask cfgF inp (2 * step)) f g ∧
    0 < g.s_track_lower 1 1 ∧ g.s_track_lower 1 1 < (inp.states step).s_lower 1 1 ∧
    0 < g.s_track_upper 1 1 ∧ g.s_track_upper 1 1 < (inp.states step).s_upper 1 1 := by
  obtain ⟨o, ho⟩ := bwd_init_ok cfgF src inp path (fun _ => none) runnableF (by decide)
  have ho' := ho
  injection ho' with e; subst e
  obtain ⟨r, _, _, hrun⟩ := bwd_run_eq cfgF src inp path _ runnableF _ ho
  have he : EndsIn (bwdRun cfgF src path fun _ => none) _ :=
    ⟨cfgF.steps, fun fuel hf => (hrun fuel).trans (if_neg (not_lt.mpr hf))⟩
  refine ⟨_, _, _, he, List.mem_cons_of_mem _ List.mem_cons_self,
    List.mem_cons_of_mem _ (List.mem_cons_of_mem _ List.mem_cons_self), ?_, ?_⟩
  · exact C91_balance_backward cfgF src inp path _ runnableF physical area_pos (by decide) he (2 * step) _ _
      (List.mem_cons_of_mem _ List.mem_cons_self)
      (List.mem_cons_of_mem _ (List.mem_cons_of_mem _ List.mem_cons_self))
  · decide +kernel

end Demo

end Wam
