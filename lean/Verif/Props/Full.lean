import Verif.Lemmas.Full
import Verif.Lemmas.Demo

/-!
# C131: where all water is tagged, all water stays tagged
-/
set_option linter.unusedSectionVars false
set_option linter.unusedVariables false

namespace Wam
open Spec

section
variable {m n : ℕ} {K : Type*} [Field K] [LinearOrder K] [IsStrictOrderedRing K] {P : Type*}

private theorem near_self {N : ℕ} {p : Bool} {W : ℕ → Fin (m + 2) → Fin (n + 2) → Prop}
    (h : ∀ l < N, ∀ i j, W (l + 1) i j → ∀ i' j', cellSteps p i i' j j' ≤ 1 → W l i' j') {i j} (hW : W N i j) :
    ∀ l ≤ N, W l i j := by
  intro l hl
  induction N, hl using Nat.le_induction with
  | base => exact hW
  | succ N hl ih =>
    exact ih (fun l hl => h l (by omega)) (h N (by omega) i j hW i j (by rw [Cone.cellSteps_self]; omega))

variable {cfg : RunConfig K} {src : Source m n K} {inp : Input m n K}

private theorem fwd_core_full (h : Runnable cfg src inp)
    (hp : Physical inp cfg.tracking_start_date cfg.tracking_end_date) (hg : ∀ i, 0 < src.grid.a i)
    {W : ℕ → Fin (m + 2) → Fin (n + 2) → Prop} (hW : AllTaggedFwd cfg src.grid inp cfg.steps W)
    (o : FwdOutput (m + 2) (n + 2) K)
    (h0 : ∀ i j, W 0 i j → o.s_track_lower i j = (inp.states cfg.tracking_start_date).s_lower i j ∧
      o.s_track_upper i j = (inp.states cfg.tracking_start_date).s_upper i j) (k : ℕ) (hk : k ≤ cfg.steps) :
    (∀ i j, W k i j →
      ((fwdProc cfg src.grid inp).coreAt FwdOutput.core o k).s_track_lower i j = (inp.states (cfg.fwdTime k)).s_lower i j ∧
      ((fwdProc cfg src.grid inp).coreAt FwdOutput.core o k).s_track_upper i j = (inp.states (cfg.fwdTime k)).s_upper i j) ∧
    ∀ l < k, ∀ i j, W (l + 1) i j →
      let x := (fwdProc cfg src.grid inp).step l ((fwdProc cfg src.grid inp).coreAt FwdOutput.core o l)
      x.losses i j = suppliedFwd cfg.periodic_boundary (cfg.timestep : K) src.grid
          (inp.fluxes (cfg.fwdTime l + cfg.halfDt)) (inp.states (cfg.fwdTime l)) i j -
        ((inp.states (cfg.fwdTime (l + 1))).s_lower i j + (inp.states (cfg.fwdTime (l + 1))).s_upper i j) ∧
      x.gains i j = 0 ∧
      x.p_track_lower i j + x.p_track_upper i j = (inp.fluxes (cfg.fwdTime l + cfg.halfDt)).precip i j * cfg.timestep := by
  have hts := h.timestep_pos
  have hdt : 0 < (cfg.timestep : K) := by exact_mod_cast hts
  induction k with
  | zero =>
    refine ⟨fun i j hw => ?_, fun l hl => absurd hl (by omega)⟩
    have e : cfg.fwdTime 0 = cfg.tracking_start_date := by simp [RunConfig.fwdTime]
    rw [e]
    exact h0 i j hw
  | succ k ih =>
    obtain ⟨ih, ihl⟩ := ih (by omega)
    have e1 : cfg.fwdTime (k + 1) = cfg.fwdTime k + cfg.dt := cfg.fwdTime_succ k
    have t0 := cfg.fwdTime_mem hts h.ordered k (by omega)
    have t1 := cfg.fwdTime_mem hts h.ordered (k + 1) hk
    have e2 : cfg.tracking_start_date + ((k : ℤ) + 1) * (cfg.timestep * 1000000) = cfg.fwdTime k + cfg.dt := by
      show _ = cfg.tracking_start_date + k * (cfg.timestep * 1000000) + cfg.timestep * 1000000
      ring
    have hm : ∀ i j, W (k + 1) i j → maskAt cfg inp (cfg.fwdTime k) i j = 1 := by
      intro i j hw
      have := hW.tagged k (by omega) i j hw
      unfold activeMask at this
      unfold maskAt
      rw [ofRat_zero]
      exact this
    have key := fun i j (hw : W (k + 1) i j) => Full.fwd_step_full cfg src.grid inp (cfg.fwdTime k)
      ((fwdProc cfg src.grid inp).coreAt FwdOutput.core o k) i j hdt hg (hp.wet _ t0.1 t0.2)
      (hp.wet _ (e1 ▸ t1.1) (e1 ▸ t1.2) i j) (hW.inside k (by omega) i j hw) (hm i j hw)
      (fun i' j' hs => hW.moderate k (by omega) i' j' (hW.near k (by omega) i j hw i' j' hs))
      (fun i' j' hs => ih i' j' (hW.near k (by omega) i j hw i' j' hs))
      (by have := hW.supplied k (by omega) i j hw
          rw [e2] at this
          exact this)
    refine ⟨fun i j hw => ?_, fun l hl i j hw => ?_⟩
    · obtain ⟨k1, k2, -⟩ := key i j hw
      rw [e1]
      exact ⟨k1, k2⟩
    · rcases Nat.lt_succ_iff_lt_or_eq.mp hl with hl | rfl
      · exact ihl l hl i j hw
      · obtain ⟨-, -, k3, k4, k5⟩ := key i j hw
        have z : ∀ l, ((fwdProc cfg src.grid inp).coreAt FwdOutput.core o l).losses i j = 0 ∧
            ((fwdProc cfg src.grid inp).coreAt FwdOutput.core o l).gains i j = 0 ∧
            ((fwdProc cfg src.grid inp).coreAt FwdOutput.core o l).p_track_lower i j = 0 ∧
            ((fwdProc cfg src.grid inp).coreAt FwdOutput.core o l).p_track_upper i j = 0 := by
          intro l; cases l <;> simp [Proc.coreAt, FwdOutput.core, FwdOutput.zeros, ofRat_zero]
        obtain ⟨z1, z2, z3, z4⟩ := z l
        rw [z1, zero_add] at k3
        rw [z2] at k4
        rw [z3, z4, add_zero, zero_add] at k5
        rw [e1]
        exact ⟨k3, k4, k5⟩

/-- **C131** (forward).  A restarted run of which all water is tagged in the cells of `W 0`, and in which afterwards all
evaporation is tagged there, no more than half of a cell moves in a step and the balance of every column supplies the water
that is in it: in every file, in the cells no water can have reached from outside `W 0` (the sets `W l` shrink by one cell per
time step), all water is tagged: tracked storage equals storage, exactly, in both layers. -/
theorem C131_stays_full_forward (path : ℤ → P) (disk : P → Option (FwdOutput (m + 2) (n + 2) K))
    (h : Runnable cfg src inp) (hp : Physical inp cfg.tracking_start_date cfg.tracking_end_date)
    (hg : ∀ i, 0 < src.grid.a i) {W : ℕ → Fin (m + 2) → Fin (n + 2) → Prop}
    (hW : AllTaggedFwd cfg src.grid inp
      (stepCount cfg.tracking_start_date cfg.tracking_end_date (cfg.timestep * 1000000)) W)
    (hstart : ∀ i j, W 0 i j →
      (startFwd cfg path disk).1 i j = (inp.states cfg.tracking_start_date).s_lower i j ∧
      (startFwd cfg path disk).2 i j = (inp.states cfg.tracking_start_date).s_upper i j)
    {s} (hs : EndsIn (fwdRun cfg src path disk) s) (k : ℕ) (o : FwdOutput (m + 2) (n + 2) K)
    (hf : (cfg.tracking_start_date + k * (cfg.timestep * 1000000), o) ∈ s.files) (i j) (hij : W k i j) :
    o.s_track_lower i j = (inp.states (cfg.tracking_start_date + k * (cfg.timestep * 1000000))).s_lower i j ∧
    o.s_track_upper i j = (inp.states (cfg.tracking_start_date + k * (cfg.timestep * 1000000))).s_upper i j := by
  obtain ⟨O, R, hO, rfl⟩ := fwd_ends cfg src inp path disk h hs
  have hO' := fwd_init_eq cfg src path disk O hO
  have hf : (cfg.fwdTime k, o) ∈ (fwdProc cfg src.grid inp).files O cfg.steps := hf
  obtain ⟨l, hl, -, e⟩ := (Proc.mem_files _ _).mp hf
  have e1 : cfg.fwdTime k = cfg.fwdTime (l + 1) := congrArg Prod.fst e
  have hk : k = l + 1 := by
    have hdt := cfg.dt_pos h.timestep_pos
    have : (k : ℤ) * cfg.dt = ((l + 1 : ℕ) : ℤ) * cfg.dt := by unfold RunConfig.fwdTime at e1; linarith
    exact_mod_cast mul_right_cancel₀ hdt.ne' this
  subst hk
  have key := (fwd_core_full h hp hg hW O (fun i j hw => by rw [hO']; exact hstart i j hw) (l + 1) hl).1 i j hij
  have e2 : o = (fwdProc cfg src.grid inp).full O l := congrArg Prod.snd e
  have e3 := (fwd_linear cfg src.grid inp).core_full O l
  rw [← e2] at e3
  rw [← e3] at key
  exact key

/-- **C131** (forward, totals).  In the cells of `W` after the last step, summed over all files: the tracked precipitation is
all precipitation, nothing is gained, and the losses are what the balance of the column supplies in excess of what is there:
nothing at all if the data balance. -/
theorem C131_totals_forward (path : ℤ → P) (disk : P → Option (FwdOutput (m + 2) (n + 2) K))
    (h : Runnable cfg src inp) (hp : Physical inp cfg.tracking_start_date cfg.tracking_end_date)
    (hg : ∀ i, 0 < src.grid.a i) {W : ℕ → Fin (m + 2) → Fin (n + 2) → Prop}
    (hW : AllTaggedFwd cfg src.grid inp
      (stepCount cfg.tracking_start_date cfg.tracking_end_date (cfg.timestep * 1000000)) W)
    (hstart : ∀ i j, W 0 i j →
      (startFwd cfg path disk).1 i j = (inp.states cfg.tracking_start_date).s_lower i j ∧
      (startFwd cfg path disk).2 i j = (inp.states cfg.tracking_start_date).s_upper i j)
    {s} (hs : EndsIn (fwdRun cfg src path disk) s) (i j)
    (hij : W (stepCount cfg.tracking_start_date cfg.tracking_end_date (cfg.timestep * 1000000)) i j) :
    let A := cfg.tracking_start_date
    let dt := cfg.timestep * 1000000
    let N := stepCount A cfg.tracking_end_date dt
    sumFiles s.files (fun o => o.p_track_lower i j + o.p_track_upper i j) =
      ∑ l ∈ Finset.range N, (inp.fluxes (A + l * dt + cfg.timestep * 500000)).precip i j * cfg.timestep ∧
    sumFiles s.files (·.gains i j) = 0 ∧
    sumFiles s.files (·.losses i j) = ∑ l ∈ Finset.range N,
      (suppliedFwd cfg.periodic_boundary (cfg.timestep : K) src.grid (inp.fluxes (A + l * dt + cfg.timestep * 500000))
          (inp.states (A + l * dt)) i j -
        ((inp.states (A + (l + 1) * dt)).s_lower i j + (inp.states (A + (l + 1) * dt)).s_upper i j)) := by
  intro A dt N
  obtain ⟨O, R, hO, rfl⟩ := fwd_ends cfg src inp path disk h hs
  have hO' := fwd_init_eq cfg src path disk O hO
  have hacc : FwdOutput.acc O = 0 := hO' ▸ fwd_acc_zeros _ _
  have key := (fwd_core_full h hp hg hW O (fun i j hw => by rw [hO']; exact hstart i j hw) cfg.steps le_rfl).2
  have hall := near_self hW.near hij
  have sums := fun c => congrFun (congrFun (congrFun (fwd_sum_files cfg src inp O hacc) c) i) j
  simp only [sumFiles_apply, Finset.sum_apply] at sums
  have hadd : sumFiles ((fwdProc cfg src.grid inp).files O cfg.steps) (fun o => o.p_track_lower i j + o.p_track_upper i j) =
      sumFiles ((fwdProc cfg src.grid inp).files O cfg.steps) (fun o => o.p_track_lower i j) +
      sumFiles ((fwdProc cfg src.grid inp).files O cfg.steps) (fun o => o.p_track_upper i j) := List.sum_map_add
  refine ⟨?_, ?_, ?_⟩
  · refine hadd.trans ?_
    have s1 := sums 1
    have s0 := sums 0
    simp only [FwdOutput.acc_0, FwdOutput.acc_1, Proc.inc] at s0 s1
    rw [s0, s1, ← Finset.sum_add_distrib]
    exact Finset.sum_congr rfl fun l hl => (key l (Finset.mem_range.mp hl) i j (hall _ (Finset.mem_range.mp hl))).2.2
  · have s4 := sums 4
    simp only [FwdOutput.acc_4, Proc.inc] at s4
    refine s4.trans (Finset.sum_eq_zero fun l hl => ?_)
    exact (key l (Finset.mem_range.mp hl) i j (hall _ (Finset.mem_range.mp hl))).2.1
  · have s3 := sums 3
    simp only [FwdOutput.acc_3, Proc.inc] at s3
    refine s3.trans (Finset.sum_congr rfl fun l hl => ?_)
    refine ((key l (Finset.mem_range.mp hl) i j (hall _ (Finset.mem_range.mp hl))).1).trans ?_
    have e2 : cfg.fwdTime (l + 1) = A + ((l : ℤ) + 1) * dt := by
      show cfg.tracking_start_date + ((l + 1 : ℕ) : ℤ) * (cfg.timestep * 1000000) = _
      push_cast; rfl
    rw [e2]
    rfl
end

section
variable {m n : ℕ} {K : Type*} [Field K] [LinearOrder K] [IsStrictOrderedRing K] {P : Type*}
variable {cfg : RunConfig K} {src : Source m n K} {inp : Input m n K}

private theorem bwd_core_full (h : Runnable cfg src inp)
    (hp : Physical inp cfg.tracking_start_date cfg.tracking_end_date) (hg : ∀ i, 0 < src.grid.a i)
    {W : ℕ → Fin (m + 2) → Fin (n + 2) → Prop} (hW : AllTaggedBwd cfg src.grid inp cfg.steps W)
    (o : BwdOutput (m + 2) (n + 2) K)
    (h0 : ∀ i j, W 0 i j → o.s_track_lower i j = (inp.states cfg.tracking_end_date).s_lower i j ∧
      o.s_track_upper i j = (inp.states cfg.tracking_end_date).s_upper i j) (k : ℕ) (hk : k ≤ cfg.steps) :
    (∀ i j, W k i j →
      ((bwdProc cfg src.grid inp).coreAt BwdOutput.core o k).s_track_lower i j = (inp.states (cfg.bwdTime k)).s_lower i j ∧
      ((bwdProc cfg src.grid inp).coreAt BwdOutput.core o k).s_track_upper i j = (inp.states (cfg.bwdTime k)).s_upper i j) ∧
    ∀ l < k, ∀ i j, W (l + 1) i j →
      let x := (bwdProc cfg src.grid inp).step l ((bwdProc cfg src.grid inp).coreAt BwdOutput.core o l)
      x.losses i j = suppliedBwd cfg.periodic_boundary (cfg.timestep : K) src.grid
          (inp.fluxes (cfg.bwdTime l - cfg.halfDt)) (inp.states (cfg.bwdTime l)) i j -
        ((inp.states (cfg.bwdTime (l + 1))).s_lower i j + (inp.states (cfg.bwdTime (l + 1))).s_upper i j) ∧
      x.gains i j = 0 ∧
      x.e_track i j = (inp.fluxes (cfg.bwdTime l - cfg.halfDt)).evap i j * cfg.timestep := by
  have hts := h.timestep_pos
  have hdt : 0 < (cfg.timestep : K) := by exact_mod_cast hts
  induction k with
  | zero =>
    refine ⟨fun i j hw => ?_, fun l hl => absurd hl (by omega)⟩
    have e : cfg.bwdTime 0 = cfg.tracking_end_date := by simp [RunConfig.bwdTime]
    rw [e]
    exact h0 i j hw
  | succ k ih =>
    obtain ⟨ih, ihl⟩ := ih (by omega)
    have e1 : cfg.bwdTime (k + 1) = cfg.bwdTime k - cfg.dt := cfg.bwdTime_succ k
    have t0 := cfg.bwdTime_mem hts h.ordered k (by omega)
    have t1 := cfg.bwdTime_mem hts h.ordered (k + 1) hk
    have e2 : cfg.tracking_end_date - ((k : ℤ) + 1) * (cfg.timestep * 1000000) = cfg.bwdTime k - cfg.dt := by
      show _ = cfg.tracking_end_date - k * (cfg.timestep * 1000000) - cfg.timestep * 1000000
      ring
    have hm : ∀ i j, W (k + 1) i j → maskAt cfg inp (cfg.bwdTime k) i j = 1 := by
      intro i j hw
      have := hW.tagged k (by omega) i j hw
      unfold activeMask at this
      unfold maskAt
      rw [ofRat_zero]
      exact this
    have key := fun i j (hw : W (k + 1) i j) => Full.bwd_step_full cfg src.grid inp (cfg.bwdTime k)
      ((bwdProc cfg src.grid inp).coreAt BwdOutput.core o k) i j hdt hg (hp.wet _ t0.1 t0.2)
      (hp.wet _ (e1 ▸ t1.1) (e1 ▸ t1.2) i j) (hW.inside k (by omega) i j hw) (hm i j hw)
      (fun i' j' hs => hW.moderate k (by omega) i' j' (hW.near k (by omega) i j hw i' j' hs))
      (fun i' j' hs => ih i' j' (hW.near k (by omega) i j hw i' j' hs))
      (by have := hW.supplied k (by omega) i j hw
          rw [e2] at this
          exact this)
    refine ⟨fun i j hw => ?_, fun l hl i j hw => ?_⟩
    · obtain ⟨k1, k2, -⟩ := key i j hw
      rw [e1]
      exact ⟨k1, k2⟩
    · rcases Nat.lt_succ_iff_lt_or_eq.mp hl with hl | rfl
      · exact ihl l hl i j hw
      · obtain ⟨-, -, k3, k4, k5⟩ := key i j hw
        have z : ∀ l, ((bwdProc cfg src.grid inp).coreAt BwdOutput.core o l).losses i j = 0 ∧
            ((bwdProc cfg src.grid inp).coreAt BwdOutput.core o l).gains i j = 0 ∧
            ((bwdProc cfg src.grid inp).coreAt BwdOutput.core o l).e_track i j = 0 := by
          intro l; cases l <;> simp [Proc.coreAt, BwdOutput.core, BwdOutput.zeros, ofRat_zero]
        obtain ⟨z1, z2, z3⟩ := z l
        rw [z1, zero_add] at k3
        rw [z2] at k4
        rw [z3, zero_add] at k5
        rw [e1]
        exact ⟨k3, k4, k5⟩

/-- **C131** (backward).  A restarted run of which all water is tagged in the cells of `W 0`, and in which afterwards all
precipitation is tagged there, no more than half of a cell moves in a step and the balance of every column supplies the water
that is in it: in every file, in the cells no water can have reached from outside `W 0` (the sets `W l` shrink by one cell per
time step), all water is tagged: tracked storage equals storage, exactly, in both layers. -/
theorem C131_stays_full_backward (path : ℤ → P) (disk : P → Option (BwdOutput (m + 2) (n + 2) K))
    (h : Runnable cfg src inp) (hp : Physical inp cfg.tracking_start_date cfg.tracking_end_date)
    (hg : ∀ i, 0 < src.grid.a i) {W : ℕ → Fin (m + 2) → Fin (n + 2) → Prop}
    (hW : AllTaggedBwd cfg src.grid inp
      (stepCount cfg.tracking_start_date cfg.tracking_end_date (cfg.timestep * 1000000)) W)
    (hstart : ∀ i j, W 0 i j →
      (startBwd cfg path disk).1 i j = (inp.states cfg.tracking_end_date).s_lower i j ∧
      (startBwd cfg path disk).2 i j = (inp.states cfg.tracking_end_date).s_upper i j)
    {s} (hs : EndsIn (bwdRun cfg src path disk) s) (k : ℕ) (o : BwdOutput (m + 2) (n + 2) K)
    (hf : (cfg.tracking_end_date - k * (cfg.timestep * 1000000), o) ∈ s.files) (i j) (hij : W k i j) :
    o.s_track_lower i j = (inp.states (cfg.tracking_end_date - k * (cfg.timestep * 1000000))).s_lower i j ∧
    o.s_track_upper i j = (inp.states (cfg.tracking_end_date - k * (cfg.timestep * 1000000))).s_upper i j := by
  obtain ⟨O, R, hO, rfl⟩ := bwd_ends cfg src inp path disk h hs
  have hO' := bwd_init_eq cfg src path disk O hO
  have hf : (cfg.bwdTime k, o) ∈ (bwdProc cfg src.grid inp).files O cfg.steps := hf
  obtain ⟨l, hl, -, e⟩ := (Proc.mem_files _ _).mp hf
  have e1 : cfg.bwdTime k = cfg.bwdTime (l + 1) := congrArg Prod.fst e
  have hk : k = l + 1 := by
    have hdt := cfg.dt_pos h.timestep_pos
    have : (k : ℤ) * cfg.dt = ((l + 1 : ℕ) : ℤ) * cfg.dt := by unfold RunConfig.bwdTime at e1; linarith
    exact_mod_cast mul_right_cancel₀ hdt.ne' this
  subst hk
  have key := (bwd_core_full h hp hg hW O (fun i j hw => by rw [hO']; exact hstart i j hw) (l + 1) hl).1 i j hij
  have e2 : o = (bwdProc cfg src.grid inp).full O l := congrArg Prod.snd e
  have e3 := (bwd_linear cfg src.grid inp).core_full O l
  rw [← e2] at e3
  rw [← e3] at key
  exact key

/-- **C131** (backward, totals).  In the cells of `W` after the last step, summed over all files: the tracked evaporation is
all evaporation, nothing is gained, and the losses are what the balance of the column supplies in excess of what is there:
nothing at all if the data balance. -/
theorem C131_totals_backward (path : ℤ → P) (disk : P → Option (BwdOutput (m + 2) (n + 2) K))
    (h : Runnable cfg src inp) (hp : Physical inp cfg.tracking_start_date cfg.tracking_end_date)
    (hg : ∀ i, 0 < src.grid.a i) {W : ℕ → Fin (m + 2) → Fin (n + 2) → Prop}
    (hW : AllTaggedBwd cfg src.grid inp
      (stepCount cfg.tracking_start_date cfg.tracking_end_date (cfg.timestep * 1000000)) W)
    (hstart : ∀ i j, W 0 i j →
      (startBwd cfg path disk).1 i j = (inp.states cfg.tracking_end_date).s_lower i j ∧
      (startBwd cfg path disk).2 i j = (inp.states cfg.tracking_end_date).s_upper i j)
    {s} (hs : EndsIn (bwdRun cfg src path disk) s) (i j)
    (hij : W (stepCount cfg.tracking_start_date cfg.tracking_end_date (cfg.timestep * 1000000)) i j) :
    let B := cfg.tracking_end_date
    let dt := cfg.timestep * 1000000
    let N := stepCount cfg.tracking_start_date B dt
    sumFiles s.files (·.e_track i j) =
      ∑ l ∈ Finset.range N, (inp.fluxes (B - l * dt - cfg.timestep * 500000)).evap i j * cfg.timestep ∧
    sumFiles s.files (·.gains i j) = 0 ∧
    sumFiles s.files (·.losses i j) = ∑ l ∈ Finset.range N,
      (suppliedBwd cfg.periodic_boundary (cfg.timestep : K) src.grid (inp.fluxes (B - l * dt - cfg.timestep * 500000))
          (inp.states (B - l * dt)) i j -
        ((inp.states (B - (l + 1) * dt)).s_lower i j + (inp.states (B - (l + 1) * dt)).s_upper i j)) := by
  intro B dt N
  obtain ⟨O, R, hO, rfl⟩ := bwd_ends cfg src inp path disk h hs
  have hO' := bwd_init_eq cfg src path disk O hO
  have hacc : BwdOutput.acc O = 0 := hO' ▸ bwd_acc_zeros _ _
  have key := (bwd_core_full h hp hg hW O (fun i j hw => by rw [hO']; exact hstart i j hw) cfg.steps le_rfl).2
  have hall := near_self hW.near hij
  have sums := fun c => congrFun (congrFun (congrFun (bwd_sum_files cfg src inp O hacc) c) i) j
  simp only [sumFiles_apply, Finset.sum_apply] at sums
  refine ⟨?_, ?_, ?_⟩
  · have s0 := sums 0
    simp only [BwdOutput.acc_0, Proc.inc] at s0
    refine s0.trans (Finset.sum_congr rfl fun l hl => ?_)
    exact (key l (Finset.mem_range.mp hl) i j (hall _ (Finset.mem_range.mp hl))).2.2
  · have s4 := sums 3
    simp only [BwdOutput.acc_3, Proc.inc] at s4
    refine s4.trans (Finset.sum_eq_zero fun l hl => ?_)
    exact (key l (Finset.mem_range.mp hl) i j (hall _ (Finset.mem_range.mp hl))).2.1
  · have s3 := sums 2
    simp only [BwdOutput.acc_2, Proc.inc] at s3
    refine s3.trans (Finset.sum_congr rfl fun l hl => ?_)
    refine ((key l (Finset.mem_range.mp hl) i j (hall _ (Finset.mem_range.mp hl))).1).trans ?_
    have e2 : cfg.bwdTime (l + 1) = B - ((l : ℤ) + 1) * dt := by
      show cfg.tracking_end_date - ((l + 1 : ℕ) : ℤ) * (cfg.timestep * 1000000) = _
      push_cast; rfl
    rw [e2]
    rfl
end

/-! ### Example

A 5x5 grid, two steps of ten minutes, a file after each; all evaporation and precipitation is tagged, everywhere; the wind is
from the west and slackens towards the east, so that more water flows into every column than out of it.  At the start all water
is tagged.  After the first step it still is in the nine cells of the interior, after the second in the middle. -/

namespace FullDemo

private def cfg : RunConfig ℚ :=
  { tracking_start_date := 0, tracking_end_date := 2 * Demo.step, tagging_start_date := 0, tagging_end_date := 2 * Demo.step,
    timestep := 600, output_frequency := Demo.step, kvf := 3, periodic_boundary := false, restart := true }

private def storages : States 5 5 ℚ := ⟨fun i j => 4 + i + j, fun i _ => 8 + i⟩

private def flow : Fluxes 5 5 ℚ :=
  { fx_upper := fun _ j => (5 - j : ℚ) / 10000, fy_upper := fun _ _ => 0, fx_lower := fun _ j => (5 - j : ℚ) / 20000,
    fy_lower := fun i _ => (i : ℚ) / 20000, evap := fun i j => (1 + i + j) / 1000, precip := fun i j => (1 + i + j) / 1000 }

/-- backward in time water must flow out, and there is more precipitation -/
private def flowBack : Fluxes 5 5 ℚ :=
  { fx_upper := fun _ j => (j : ℚ) / 10000, fy_upper := fun _ _ => 0, fx_lower := fun _ j => (j : ℚ) / 20000,
    fy_lower := fun i _ => (5 - i : ℚ) / 20000, evap := fun i j => (1 + i + j) / 1000, precip := fun i j => (2 + i + j) / 1000 }

private def inp (F : Fluxes 5 5 ℚ) : Input 3 3 ℚ := ⟨fun _ => storages, fun _ => F, fun _ _ _ => 1⟩

private def src (F : Fluxes 5 5 ℚ) : Source 3 3 ℚ :=
  { states := fun _ => .ok storages, fluxes := fun _ => .ok F, grid := ⟨fun i => 2 + i, 1, fun _ => 1⟩
    region := .ok (.stationary fun _ _ => 1), weight := fun i => 2 + i }

private def fullFwd : FwdOutput 5 5 ℚ :=
  { FwdOutput.zeros with s_track_lower := storages.s_lower, s_track_upper := storages.s_upper }

private def fullBwd : BwdOutput 5 5 ℚ :=
  { BwdOutput.zeros with s_track_lower := storages.s_lower, s_track_upper := storages.s_upper }

/-- the cells at least `l` away from the edge -/
private def W (l : ℕ) (i j : Fin 5) : Prop := l ≤ i.val ∧ i.val + l ≤ 4 ∧ l ≤ j.val ∧ j.val + l ≤ 4

private instance (l : ℕ) (i j : Fin 5) : Decidable (W l i j) := by unfold W; infer_instance
private instance (i j : Fin 5) : Decidable (isBoundary (m := 5) (n := 5) false i j) := by unfold isBoundary; infer_instance

private theorem runnable (F) : Runnable cfg (src F) (inp F) :=
  { timestep_pos := by decide, ordered := by decide
    serves := { states := fun _ _ _ => rfl, fluxes := fun _ _ _ => rfl, region := ⟨_, rfl, fun _ _ _ => rfl⟩ } }

private theorem wet (i j : Fin 5) : 0 < storages.s_upper i j ∧ 0 < storages.s_lower i j := by
  constructor <;> simp only [storages] <;> positivity

private theorem physical (A B) : Physical (inp flow) A B where
  wet _ _ _ := wet
  precip _ _ _ i j := by simp only [inp, flow]; positivity
  evap _ _ _ i j := by simp only [inp, flow]; positivity
  region _ _ _ _ _ := zero_le_one

private theorem physicalBack (A B) : Physical (inp flowBack) A B where
  wet _ _ _ := wet
  precip _ _ _ i j := by simp only [inp, flowBack]; positivity
  evap _ _ _ i j := by simp only [inp, flowBack]; positivity
  region _ _ _ _ _ := zero_le_one

private theorem area_pos (F) : ∀ i, 0 < (src F).grid.a i := by intro i; simp only [src]; positivity

private theorem near : ∀ l < 2, ∀ i j, W (l + 1) i j → ∀ i' j' : Fin 5, cellSteps false i i' j j' ≤ 1 → W l i' j' := by
  decide +kernel

private theorem inside : ∀ l < 2, ∀ i j, W (l + 1) i j → ¬ isBoundary (m := 5) (n := 5) false i j := by decide +kernel

private theorem moderate : ∀ i j : Fin 5,
    AtMostHalf (m := 3) (n := 3) 600 (src flow).grid flow storages i j ∧
    AtMostHalf (m := 3) (n := 3) 600 (src flowBack).grid flowBack storages i j := by
  unfold AtMostHalf halfCell; decide +kernel

private theorem supplied : ∀ i j : Fin 5, W 1 i j →
    storages.s_lower i j + storages.s_upper i j < suppliedFwd (m := 3) (n := 3) false 600 (src flow).grid flow storages i j ∧
    storages.s_lower i j + storages.s_upper i j <
      suppliedBwd (m := 3) (n := 3) false 600 (src flowBack).grid flowBack storages i j := by
  decide +kernel

private theorem tagged (l : ℕ) (hl : l < 2) (F) (i j) :
    activeMask cfg (inp F) (cfg.tracking_start_date + l * (cfg.timestep * 1000000)) i j = 1 ∧
    activeMask cfg (inp F) (cfg.tracking_end_date - l * (cfg.timestep * 1000000)) i j = 1 := by
  unfold activeMask
  have hl' : (l : ℤ) < 2 := by exact_mod_cast hl
  rw [if_pos, if_pos]
  · exact ⟨rfl, rfl⟩
  all_goals
    simp only [inWindow, cfg, Demo.step]
    constructor <;> omega

private theorem W_down {l : ℕ} {i j : Fin 5} (h : W (l + 1) i j) : W 1 i j := by unfold W at *; omega

private theorem allFwd : AllTaggedFwd cfg (src flow).grid (inp flow) 2 W where
  near := near
  inside := inside
  tagged l hl i j _ := (tagged l hl flow i j).1
  moderate l hl i j _ := (moderate i j).1
  supplied l hl i j h := (supplied i j (W_down h)).1.le

private theorem allBwd : AllTaggedBwd cfg (src flowBack).grid (inp flowBack) 2 W where
  near := near
  inside := inside
  tagged l hl i j _ := (tagged l hl flowBack i j).2
  moderate l hl i j _ := (moderate i j).2
  supplied l hl i j h := (supplied i j (W_down h)).2.le

private theorem fwd_ends' : ∃ s, EndsIn (fwdRun cfg (src flow) id fun _ => some fullFwd) s ∧
    s.files.map Prod.fst = [Demo.step, 2 * Demo.step] := by
  obtain ⟨o, ho⟩ := fwd_init_ok cfg (src flow) (inp flow) id (fun _ => some fullFwd) (runnable _) fun _ => rfl
  obtain ⟨r, _, _, hrun⟩ := fwd_run_eq cfg (src flow) (inp flow) id _ (runnable _) o ho
  refine ⟨_, ⟨cfg.steps, fun fuel hf => (hrun fuel).trans (if_neg (not_lt.mpr hf))⟩, ?_⟩
  rfl

private theorem bwd_ends' : ∃ s, EndsIn (bwdRun cfg (src flowBack) id fun _ => some fullBwd) s ∧
    s.files.map Prod.fst = [Demo.step, 0] := by
  obtain ⟨o, ho⟩ := bwd_init_ok cfg (src flowBack) (inp flowBack) id (fun _ => some fullBwd) (runnable _) fun _ => rfl
  obtain ⟨r, _, _, hrun⟩ := bwd_run_eq cfg (src flowBack) (inp flowBack) id _ (runnable _) o ho
  refine ⟨_, ⟨cfg.steps, fun fuel hf => (hrun fuel).trans (if_neg (not_lt.mpr hf))⟩, ?_⟩
  rfl

/-- after the last step the middle cell is full -/
example : ∃ s, EndsIn (fwdRun cfg (src flow) id fun _ => some fullFwd) s ∧
    (∃ o, (2 * Demo.step, o) ∈ s.files) ∧
    (∀ o, (2 * Demo.step, o) ∈ s.files → o.s_track_lower 2 2 = 10 ∧ o.s_track_upper 2 2 = 8) ∧
    sumFiles s.files (fun o => o.p_track_lower 2 2 + o.p_track_upper 2 2) = 6 ∧ 0 < sumFiles s.files (·.losses 2 2) := by
  obtain ⟨s, hs, hf⟩ := fwd_ends'
  have k := C131_stays_full_forward id (fun _ => some fullFwd) (runnable flow) (physical _ _) (area_pos flow) allFwd
    (fun _ _ _ => ⟨rfl, rfl⟩) hs 2
  have t := C131_totals_forward id (fun _ => some fullFwd) (runnable flow) (physical _ _) (area_pos flow) allFwd
    (fun _ _ _ => ⟨rfl, rfl⟩) hs 2 2 (by decide)
  refine ⟨s, hs, ?_, fun o ho => ?_, ?_, ?_⟩
  · have : 2 * Demo.step ∈ s.files.map Prod.fst := by rw [hf]; simp
    obtain ⟨⟨a, b⟩, hx, rfl⟩ := List.mem_map.mp this
    exact ⟨_, hx⟩
  · obtain ⟨a, b⟩ := k o ho 2 2 (by decide)
    exact ⟨a.trans (by decide +kernel), b.trans (by decide +kernel)⟩
  · exact t.1.trans (by decide +kernel)
  · rw [t.2.2]; decide +kernel

example : ∃ s, EndsIn (bwdRun cfg (src flowBack) id fun _ => some fullBwd) s ∧
    (∃ o, (0, o) ∈ s.files) ∧
    (∀ o, (0, o) ∈ s.files → o.s_track_lower 2 2 = 10 ∧ o.s_track_upper 2 2 = 8) ∧
    sumFiles s.files (·.e_track 2 2) = 6 ∧ 0 < sumFiles s.files (·.losses 2 2) := by
  obtain ⟨s, hs, hf⟩ := bwd_ends'
  have k := C131_stays_full_backward id (fun _ => some fullBwd) (runnable flowBack) (physicalBack _ _) (area_pos flowBack)
    allBwd (fun _ _ _ => ⟨rfl, rfl⟩) hs 2
  have t := C131_totals_backward id (fun _ => some fullBwd) (runnable flowBack) (physicalBack _ _) (area_pos flowBack)
    allBwd (fun _ _ _ => ⟨rfl, rfl⟩) hs 2 2 (by decide)
  refine ⟨s, hs, ?_, fun o ho => ?_, ?_, ?_⟩
  · have : (0 : ℤ) ∈ s.files.map Prod.fst := by rw [hf]; simp
    obtain ⟨⟨a, b⟩, hx, rfl⟩ := List.mem_map.mp this
    exact ⟨_, hx⟩
  · obtain ⟨a, b⟩ := k o ho 2 2 (by decide)
    exact ⟨a.trans (by decide +kernel), b.trans (by decide +kernel)⟩
  · exact t.1.trans (by decide +kernel)
  · rw [t.2.2]; decide +kernel

end FullDemo

end Wam
