import Verif.Props.Accuracy

/-!
# C93: the error of a run in floats

The state of a run in floats is compared with the run in exact arithmetic from the same data.
-/
set_option linter.unusedSectionVars false
set_option linter.unusedVariables false

namespace Wam
open Spec

variable {K : Type*} [Field K] [LinearOrder K] [IsStrictOrderedRing K] {R : Rounding K} {u η V σ : K} {m n : ℕ}
  {P : Type*}

section run
variable {cfg : RunConfig (Fl R)} {src : Source m n (Fl R)} {inp : Input m n (Fl R)} {path : ℤ → P}

theorem times_eq {α β : Type*} {l : List (ℤ × α)} {l' : List (ℤ × β)} (h : l.length = l'.length)
    (ht : ∀ x ∈ l.zip l', x.1.1 = x.2.1) : l.map Prod.fst = l'.map Prod.fst := by
  induction l generalizing l' with
  | nil => cases l' <;> simp_all
  | cons x l ih =>
    cases l' with
    | nil => simp at h
    | cons y l' =>
      simp only [List.zip_cons_cons, List.mem_cons, forall_eq_or_imp] at ht
      simp only [List.map_cons, ht.1]
      rw [ih (by simpa using h) ht.2]

/-- one exact step does not increase the difference of two states -/
theorem fwd_all_gap_step (cfg : RunConfig K) (src : Source m n K) (inp : Input m n K)
    (h : Runnable cfg src inp) (hp : Physical inp cfg.tracking_start_date cfg.tracking_end_date)
    (ha : ∀ i, 0 < src.grid.a i) (hk : 0 ≤ cfg.kvf) (calm : CalmFwd cfg src.grid inp)
    (k : ℕ) (hk' : k < cfg.steps) (x y : FwdOutput (m + 2) (n + 2) K)
    (hx : ∀ i j, 0 ≤ x.s_track_lower i j ∧ 0 ≤ x.s_track_upper i j)
    (hy : ∀ i j, 0 ≤ y.s_track_lower i j ∧ 0 ≤ y.s_track_upper i j) :
    let x' := fwdStepAt cfg src.grid inp (cfg.fwdTime k) x
    let y' := fwdStepAt cfg src.grid inp (cfg.fwdTime k) y
    fwdStorageGap src.grid.a x' y' + fwdRecordGap src.grid.a x' y' ≤
      fwdStorageGap src.grid.a x y + fwdRecordGap src.grid.a x y := by
  intro x' y'
  have hpos := h.timestep_pos
  have t0 := cfg.fwdTime_mem hpos h.ordered k hk'.le
  have t1 := cfg.fwdTime_mem hpos h.ordered (k + 1) hk'
  have th := cfg.fwdHalf_mem hpos h.ordered k hk'
  have w0 : Wet (inp.states (cfg.fwdTime k)) := hp.wet _ t0.1 t0.2
  have w1 : Wet (inp.states (cfg.fwdTime k + cfg.dt)) := by
    rw [← cfg.fwdTime_succ]; exact hp.wet _ t1.1 t1.2
  have hdt : 0 ≤ (ofRat (cfg.timestep : ℚ) : K) := by rw [ofRat_int]; exact_mod_cast hpos.le
  have mp : ∀ i j, 0 ≤ maskAt cfg inp (cfg.fwdTime k) i j := by
    intro i j; unfold maskAt; split
    · exact hp.region _ t0.1 t0.2 i j
    · simp [ofRat_zero]
  have c := fwd_calm_at cfg inp hpos src.grid calm k hk'
  have base := fwd_gap_step cfg src inp inp h ⟨rfl, rfl⟩ hp hp ha hk calm k hk' x y hx hy
  have z : (total src.grid.a fun i j => (cfg.timestep : K) *
        (|activeMask cfg inp (cfg.fwdTime k) i j - activeMask cfg inp (cfg.fwdTime k) i j| *
          (inp.fluxes (cfg.fwdTime k + cfg.halfDt)).evap i j)) = 0 := by simp [total]
  rw [z, add_zero] at base
  have tag : gap src.grid.a x'.tagged_evap y'.tagged_evap = gap src.grid.a x.tagged_evap y.tagged_evap := by
    refine total_congr _ fun i j => ?_
    have e1 := (C17_increments_forward cfg.periodic_boundary (ofRat cfg.timestep) cfg.kvf src.grid.a
      (stableFluxes cfg src.grid (inp.fluxes (cfg.fwdTime k + cfg.halfDt)) (inp.states (cfg.fwdTime k)))
      (calculateFz src.grid.a (stableFluxes cfg src.grid (inp.fluxes (cfg.fwdTime k + cfg.halfDt))
        (inp.states (cfg.fwdTime k))) (inp.states (cfg.fwdTime k)) (inp.states (cfg.fwdTime k + cfg.dt))
        (ofRat cfg.timestep) cfg.kvf)
      (inp.states (cfg.fwdTime k)) (inp.states (cfg.fwdTime k + cfg.dt)) (maskAt cfg inp (cfg.fwdTime k)) x w0 i j).1
    have e2 := (C17_increments_forward cfg.periodic_boundary (ofRat cfg.timestep) cfg.kvf src.grid.a
      (stableFluxes cfg src.grid (inp.fluxes (cfg.fwdTime k + cfg.halfDt)) (inp.states (cfg.fwdTime k)))
      (calculateFz src.grid.a (stableFluxes cfg src.grid (inp.fluxes (cfg.fwdTime k + cfg.halfDt))
        (inp.states (cfg.fwdTime k))) (inp.states (cfg.fwdTime k)) (inp.states (cfg.fwdTime k + cfg.dt))
        (ofRat cfg.timestep) cfg.kvf)
      (inp.states (cfg.fwdTime k)) (inp.states (cfg.fwdTime k + cfg.dt)) (maskAt cfg inp (cfg.fwdTime k)) y w0 i j).1
    change |(fwdStepAt cfg src.grid inp (cfg.fwdTime k) x).tagged_evap i j -
      (fwdStepAt cfg src.grid inp (cfg.fwdTime k) y).tagged_evap i j| = _
    refine congrArg _ ?_
    refine (congrArg₂ (· - ·) e1 e2).trans ?_
    ring
  have gn : gap src.grid.a x'.gains y'.gains = gap src.grid.a x.gains y.gains := by
    refine total_congr _ fun i j => ?_
    have e1 := (C22_no_gains_forward cfg.periodic_boundary (ofRat cfg.timestep) cfg.kvf src.grid.a
      (stableFluxes cfg src.grid (inp.fluxes (cfg.fwdTime k + cfg.halfDt)) (inp.states (cfg.fwdTime k)))
      (calculateFz src.grid.a (stableFluxes cfg src.grid (inp.fluxes (cfg.fwdTime k + cfg.halfDt))
        (inp.states (cfg.fwdTime k))) (inp.states (cfg.fwdTime k)) (inp.states (cfg.fwdTime k + cfg.dt))
        (ofRat cfg.timestep) cfg.kvf)
      (inp.states (cfg.fwdTime k)) (inp.states (cfg.fwdTime k + cfg.dt)) (maskAt cfg inp (cfg.fwdTime k)) x w0 w1
      ha hdt hk (fun i j => (hx i j).1) (fun i j => (hx i j).2)
      (fun i j => mul_nonneg (mp i j) (hp.evap _ th.1 th.2 i j)) i j (c.lower i j) (c.upper i j)).2.2.1
    have e2 := (C22_no_gains_forward cfg.periodic_boundary (ofRat cfg.timestep) cfg.kvf src.grid.a
      (stableFluxes cfg src.grid (inp.fluxes (cfg.fwdTime k + cfg.halfDt)) (inp.states (cfg.fwdTime k)))
      (calculateFz src.grid.a (stableFluxes cfg src.grid (inp.fluxes (cfg.fwdTime k + cfg.halfDt))
        (inp.states (cfg.fwdTime k))) (inp.states (cfg.fwdTime k)) (inp.states (cfg.fwdTime k + cfg.dt))
        (ofRat cfg.timestep) cfg.kvf)
      (inp.states (cfg.fwdTime k)) (inp.states (cfg.fwdTime k + cfg.dt)) (maskAt cfg inp (cfg.fwdTime k)) y w0 w1
      ha hdt hk (fun i j => (hy i j).1) (fun i j => (hy i j).2)
      (fun i j => mul_nonneg (mp i j) (hp.evap _ th.1 th.2 i j)) i j (c.lower i j) (c.upper i j)).2.2.1
    change |(fwdStepAt cfg src.grid inp (cfg.fwdTime k) x).gains i j -
      (fwdStepAt cfg src.grid inp (cfg.fwdTime k) y).gains i j| = _
    exact congrArg _ (congrArg₂ (· - ·) e1 e2)
  unfold fwdRecordGap
  rw [tag, gn]
  linarith

/-- **C93** (forward run): a run in floats and the run in exact arithmetic from the same data (and the same
restart file), in weather in which no cell is overdrawn.  The tracked storages differ, in all cells together,
at the end and in every file, by at most `(55000 + 720 M) u (1 + kvf) V` per cell and time step; the same holds
for everything that was accumulated in all files together: errors do not grow faster than linearly with time. -/
theorem C93_run_error_forward (A : Accurate R u η) (disk : P → Option (FwdOutput (m + 2) (n + 2) (Fl R)))
    (hdt : R.rnd (cfg.timestep : K) = cfg.timestep) (h : Runnable cfg src inp)
    (src' : Source m n K) (h' : Runnable (exactC cfg) src' (exactI inp)) (hg : src'.grid = exactG src.grid)
    (hp : Physical (exactI inp) cfg.tracking_start_date cfg.tracking_end_date)
    (calm : CalmFwd (exactC cfg) (exactG src.grid) (exactI inp))
    (H : SizedRun u η V σ (exactC cfg) (exactG src.grid).a (exactI inp))
    (M : ℕ) (hM : WritesWithinFwd cfg M) (hMu : (M : K) * u ≤ 1 / 2)
    (hstart : ∀ i j, (0 ≤ ((startFwd cfg path disk).1 i j).val ∧
        ((startFwd cfg path disk).1 i j).val * (src.grid.a i).val ≤ V) ∧
      (0 ≤ ((startFwd cfg path disk).2 i j).val ∧ ((startFwd cfg path disk).2 i j).val * (src.grid.a i).val ≤ V))
    {s s'} (hs : EndsIn (fwdRun cfg src path disk) s)
    (hs' : EndsIn (fwdRun (exactC cfg) src' path fun p => (disk p).map exactFwd) s') :
    let a := fun i => (src.grid.a i).val
    let N := stepCount cfg.tracking_start_date cfg.tracking_end_date (cfg.timestep * 1000000)
    let ε := N * ((m + 2) * (n + 2) * ((55000 + 720 * M) * u * (1 + cfg.kvf.val) * V))
    s.files.map Prod.fst = s'.files.map Prod.fst ∧
    fwdStorageGap a (exactFwd s.output) s'.output +
      sumPairs (s.files.map fun x => (x.1, exactFwd x.2)) s'.files (fwdRecordGap a) ≤ ε ∧
    ∀ x ∈ s.files.zip s'.files, fwdStorageGap a (exactFwd x.1.2) x.2.2 ≤ ε := by
  intro a N ε
  obtain ⟨o, r, ho, rfl⟩ := fwd_ends cfg src inp path disk h hs
  obtain ⟨o', r', ho', rfl⟩ := fwd_ends (exactC cfg) src' (exactI inp) path _ h' hs'
  have eo := fwd_init_eq' cfg src Fl.ofRat_zero path disk o ho
  have eo' := fwd_init_eq (exactC cfg) src' path _ o' ho'
  have ha := SizedRun.area_pos H
  have hu := A.u_nonneg
  have hV := SizedRun.V_nonneg H h.ordered
  have hκ : 0 ≤ cfg.kvf.val := H.kvf_nonneg
  have st : (startFwd (exactC cfg) path fun p => (disk p).map exactFwd) =
      (exactA (startFwd cfg path disk).1, exactA (startFwd cfg path disk).2) := by
    unfold startFwd
    have e : (exactC cfg).restart = cfg.restart := rfl
    have e' : (exactC cfg).tracking_start_date = cfg.tracking_start_date := rfl
    rw [e, e']
    cases cfg.restart
    · rfl
    · beta_reduce
      cases disk (path cfg.tracking_start_date) <;> rfl
  have same : o' = exactFwd o := by
    rw [eo, eo', st]
    have z : (fun _ _ => (0 : K)) = exactA (m := m + 2) (n := n + 2) fun _ _ => (0 : Fl R) := by
      funext i j; simp [exactA]
    simp only [exactFwd, FwdOutput.zeros, exactA, FwdOutput.mk.injEq]
    simp
    try exact z
  subst same
  have p0 : ∀ i j, 0 ≤ (o.s_track_lower i j).val ∧ 0 ≤ (o.s_track_upper i j).val := by
    intro i j; rw [eo]; exact ⟨(hstart i j).1.1, (hstart i j).2.1⟩
  have b0 : BoundedFwd V 0 (exactG src.grid).a (exactFwd o) := by
    intro i j
    rw [eo]
    refine ⟨?_, ?_, ?_⟩
    · simp only [exactFwd, exactA]
      rw [abs_of_nonneg (hstart i j).1.1]; exact (hstart i j).1.2
    · simp only [exactFwd, exactA]
      rw [abs_of_nonneg (hstart i j).2.1]; exact (hstart i j).2.2
    · simp [exactFwd, exactA, FwdOutput.zeros]
  have n2 := fwd_out_nonneg (exactC cfg) src' (exactI inp) h' hp (exactFwd o) p0
  have nn := fun f g => gap_nonneg (m := m) (n := n) (exactG src.grid).a ha f g
  set δ := (m + 2) * (n + 2) * ((55000 + 720 * M) * u * (1 + cfg.kvf.val) * V) with hδ
  have δ0 : 0 ≤ δ := by rw [hδ]; positivity
  have rec0 : ∀ x y : FwdOutput (m + 2) (n + 2) K, 0 ≤ fwdRecordGap (exactG src.grid).a x y := by
    intro x y
    unfold fwdRecordGap fwdFateGap
    have := nn
    exact add_nonneg (add_nonneg (add_nonneg (add_nonneg (nn _ _) (nn _ _)) (nn _ _)) (nn _ _)) (nn _ _)
  have key := Proc.gap_files₂ (p := fwdProc cfg src.grid inp) (q := fwdProc (exactC cfg) src'.grid (exactI inp))
    o (exactFwd o) (fun x y => fwdStorageGap (exactG src.grid).a (exactFwd x) y)
    (fun x y => fwdRecordGap (exactG src.grid).a (exactFwd x) y) cfg.steps δ (fun _ _ => rec0 _ _)
    (fun _ => rfl) (fun _ => rfl) (fun _ _ => rfl)
    (fun x y => by simp [fwdRecordGap, fwdFateGap, gap, total, FwdOutput.flush, fwdProc, exactFwd, exactA]) δ0 (by
      intro k hk
      obtain ⟨t1, t2⟩ := fwd_trace A hdt h H hM hMu o b0 p0 k hk.le
      have d := (fwd_drift_step A hdt h H k hk _ t1 t2).1
      have e := fwd_all_gap_step (exactC cfg) src' (exactI inp) h' hp (by rw [hg]; exact ha) hκ
        (by rw [hg]; exact calm) k hk (exactFwd ((fwdProc cfg src.grid inp).out o k))
        ((fwdProc (exactC cfg) src'.grid (exactI inp)).out (exactFwd o) k) t2 (n2 k hk.le)
      rw [hg] at e ⊢
      set X := (fwdProc cfg src.grid inp).out o k
      set Y := (fwdProc (exactC cfg) (exactG src.grid) (exactI inp)).out (exactFwd o) k
      set Z := fwdStepAt (exactC cfg) (exactG src.grid) (exactI inp) (cfg.fwdTime k) (exactFwd X)
      set W := fwdStepAt (exactC cfg) (exactG src.grid) (exactI inp) (cfg.fwdTime k) Y
      set Q := exactFwd (fwdStepAt cfg src.grid inp (cfg.fwdTime k) X)
      change fwdStorageGap (exactG src.grid).a Q W + fwdRecordGap (exactG src.grid).a Q W ≤ _
      change fwdStorageGap (exactG src.grid).a Z W + fwdRecordGap (exactG src.grid).a Z W ≤ _ at e
      have tri := gap_triangle (m := m) (n := n) (exactG src.grid).a ha
      have g1 := tri Q.s_track_lower Z.s_track_lower W.s_track_lower
      have g2 := tri Q.s_track_upper Z.s_track_upper W.s_track_upper
      have g3 := tri Q.p_track_lower Z.p_track_lower W.p_track_lower
      have g4 := tri Q.p_track_upper Z.p_track_upper W.p_track_upper
      have g5 := tri Q.losses Z.losses W.losses
      have g6 := tri Q.tagged_evap Z.tagged_evap W.tagged_evap
      have g7 := tri Q.gains Z.gains W.gains
      simp only [fwdStorageGap, fwdRecordGap, fwdFateGap] at d e ⊢
      linarith) cfg.steps le_rfl
  obtain ⟨k1, k2, k3⟩ := key
  have z1 : fwdStorageGap (exactG src.grid).a (exactFwd o) (exactFwd o) = 0 := by
    simp [fwdStorageGap, gap_self_zero]
  have z2 : fwdRecordGap (exactG src.grid).a (exactFwd o) (exactFwd o) = 0 := by
    simp [fwdRecordGap, fwdFateGap, gap_self_zero]
  rw [z1, z2] at k2
  simp only [z1, z2] at k3
  have r0 := rec0 (exactFwd ((fwdProc cfg src.grid inp).out o cfg.steps))
    ((fwdProc (exactC cfg) src'.grid (exactI inp)).out (exactFwd o) cfg.steps)
  refine ⟨?_, ?_, fun x hx => ?_⟩
  · exact times_eq k1 fun x hx => (k3 x hx).1
  · have e : sumPairs ((((fwdProc cfg src.grid inp).files o cfg.steps)).map fun x => (x.1, exactFwd x.2))
        ((fwdProc (exactC cfg) src'.grid (exactI inp)).files (exactFwd o) cfg.steps) (fwdRecordGap a) =
        ((((fwdProc cfg src.grid inp).files o cfg.steps).zip
          ((fwdProc (exactC cfg) src'.grid (exactI inp)).files (exactFwd o) cfg.steps)).map
          fun x => fwdRecordGap a (exactFwd x.1.2) x.2.2).sum := by
      unfold sumPairs
      rw [List.zip_map_left, List.map_map]
      rfl
    have k2' := k2
    rw [zero_add, zero_add] at k2'
    have : ∀ p q r d : K, 0 ≤ q → p + q + r ≤ d → p + r ≤ d := fun p q r d h h' => by linarith
    refine le_trans (le_of_eq ?_) (this _ _ _ _ r0 k2')
    exact congrArg₂ (· + ·) rfl e
  · have := (k3 x hx).2
    rw [zero_add, zero_add] at this
    exact this

/-- one exact step does not increase the difference of two states -/
theorem bwd_all_gap_step (cfg : RunConfig K) (src : Source m n K) (inp : Input m n K)
    (h : Runnable cfg src inp) (hp : Physical inp cfg.tracking_start_date cfg.tracking_end_date)
    (ha : ∀ i, 0 < src.grid.a i) (hk : 0 ≤ cfg.kvf) (calm : CalmBwd cfg src.grid inp)
    (k : ℕ) (hk' : k < cfg.steps) (x y : BwdOutput (m + 2) (n + 2) K)
    (hx : ∀ i j, 0 ≤ x.s_track_lower i j ∧ 0 ≤ x.s_track_upper i j)
    (hy : ∀ i j, 0 ≤ y.s_track_lower i j ∧ 0 ≤ y.s_track_upper i j) :
    let x' := bwdStepAt cfg src.grid inp (cfg.bwdTime k) x
    let y' := bwdStepAt cfg src.grid inp (cfg.bwdTime k) y
    bwdStorageGap src.grid.a x' y' + bwdRecordGap src.grid.a x' y' ≤
      bwdStorageGap src.grid.a x y + bwdRecordGap src.grid.a x y := by
  intro x' y'
  have hpos := h.timestep_pos
  have t0 := cfg.bwdTime_mem hpos h.ordered k hk'.le
  have t1 := cfg.bwdTime_mem hpos h.ordered (k + 1) hk'
  have th := cfg.bwdHalf_mem hpos h.ordered k hk'
  have w0 : Wet (inp.states (cfg.bwdTime k)) := hp.wet _ t0.1 t0.2
  have w1 : Wet (inp.states (cfg.bwdTime k - cfg.dt)) := by
    rw [← cfg.bwdTime_succ]; exact hp.wet _ t1.1 t1.2
  have hdt : 0 ≤ (ofRat (cfg.timestep : ℚ) : K) := by rw [ofRat_int]; exact_mod_cast hpos.le
  have mp : ∀ i j, 0 ≤ maskAt cfg inp (cfg.bwdTime k) i j := by
    intro i j; unfold maskAt; split
    · exact hp.region _ t0.1 t0.2 i j
    · simp [ofRat_zero]
  have c := bwd_calm_at cfg inp hpos src.grid calm k hk'
  have base := bwd_gap_step cfg src inp inp h ⟨rfl, rfl⟩ hp hp ha hk calm k hk' x y hx hy
  have z : (total src.grid.a fun i j => (cfg.timestep : K) *
        (|activeMask cfg inp (cfg.bwdTime k) i j - activeMask cfg inp (cfg.bwdTime k) i j| *
          (inp.fluxes (cfg.bwdTime k - cfg.halfDt)).precip i j)) = 0 := by simp [total]
  rw [z, add_zero] at base
  have tag : gap src.grid.a x'.tagged_precip y'.tagged_precip = gap src.grid.a x.tagged_precip y.tagged_precip := by
    refine total_congr _ fun i j => ?_
    have e1 := (C17_increments_backward cfg.periodic_boundary (ofRat cfg.timestep) cfg.kvf src.grid.a
      (stableFluxes cfg src.grid (inp.fluxes (cfg.bwdTime k - cfg.halfDt)) (inp.states (cfg.bwdTime k)))
      (calculateFz src.grid.a (stableFluxes cfg src.grid (inp.fluxes (cfg.bwdTime k - cfg.halfDt))
        (inp.states (cfg.bwdTime k))) (inp.states (cfg.bwdTime k - cfg.dt)) (inp.states (cfg.bwdTime k))
        (ofRat cfg.timestep) cfg.kvf)
      (inp.states (cfg.bwdTime k - cfg.dt)) (inp.states (cfg.bwdTime k)) (maskAt cfg inp (cfg.bwdTime k)) x w0 i j).1
    have e2 := (C17_increments_backward cfg.periodic_boundary (ofRat cfg.timestep) cfg.kvf src.grid.a
      (stableFluxes cfg src.grid (inp.fluxes (cfg.bwdTime k - cfg.halfDt)) (inp.states (cfg.bwdTime k)))
      (calculateFz src.grid.a (stableFluxes cfg src.grid (inp.fluxes (cfg.bwdTime k - cfg.halfDt))
        (inp.states (cfg.bwdTime k))) (inp.states (cfg.bwdTime k - cfg.dt)) (inp.states (cfg.bwdTime k))
        (ofRat cfg.timestep) cfg.kvf)
      (inp.states (cfg.bwdTime k - cfg.dt)) (inp.states (cfg.bwdTime k)) (maskAt cfg inp (cfg.bwdTime k)) y w0 i j).1
    change |(bwdStepAt cfg src.grid inp (cfg.bwdTime k) x).tagged_precip i j -
      (bwdStepAt cfg src.grid inp (cfg.bwdTime k) y).tagged_precip i j| = _
    refine congrArg _ ?_
    refine (congrArg₂ (· - ·) e1 e2).trans ?_
    ring
  have gn : gap src.grid.a x'.gains y'.gains = gap src.grid.a x.gains y.gains := by
    refine total_congr _ fun i j => ?_
    have e1 := (C22_no_gains_backward cfg.periodic_boundary (ofRat cfg.timestep) cfg.kvf src.grid.a
      (stableFluxes cfg src.grid (inp.fluxes (cfg.bwdTime k - cfg.halfDt)) (inp.states (cfg.bwdTime k)))
      (calculateFz src.grid.a (stableFluxes cfg src.grid (inp.fluxes (cfg.bwdTime k - cfg.halfDt))
        (inp.states (cfg.bwdTime k))) (inp.states (cfg.bwdTime k - cfg.dt)) (inp.states (cfg.bwdTime k))
        (ofRat cfg.timestep) cfg.kvf)
      (inp.states (cfg.bwdTime k - cfg.dt)) (inp.states (cfg.bwdTime k)) (maskAt cfg inp (cfg.bwdTime k)) x w1 w0
      ha hdt hk (fun i j => (hx i j).1) (fun i j => (hx i j).2)
      (fun i j => mul_nonneg (mp i j) (hp.precip _ th.1 th.2 i j)) i j (c.lower i j) (c.upper i j)).2.2.1
    have e2 := (C22_no_gains_backward cfg.periodic_boundary (ofRat cfg.timestep) cfg.kvf src.grid.a
      (stableFluxes cfg src.grid (inp.fluxes (cfg.bwdTime k - cfg.halfDt)) (inp.states (cfg.bwdTime k)))
      (calculateFz src.grid.a (stableFluxes cfg src.grid (inp.fluxes (cfg.bwdTime k - cfg.halfDt))
        (inp.states (cfg.bwdTime k))) (inp.states (cfg.bwdTime k - cfg.dt)) (inp.states (cfg.bwdTime k))
        (ofRat cfg.timestep) cfg.kvf)
      (inp.states (cfg.bwdTime k - cfg.dt)) (inp.states (cfg.bwdTime k)) (maskAt cfg inp (cfg.bwdTime k)) y w1 w0
      ha hdt hk (fun i j => (hy i j).1) (fun i j => (hy i j).2)
      (fun i j => mul_nonneg (mp i j) (hp.precip _ th.1 th.2 i j)) i j (c.lower i j) (c.upper i j)).2.2.1
    change |(bwdStepAt cfg src.grid inp (cfg.bwdTime k) x).gains i j -
      (bwdStepAt cfg src.grid inp (cfg.bwdTime k) y).gains i j| = _
    exact congrArg _ (congrArg₂ (· - ·) e1 e2)
  unfold bwdRecordGap
  rw [tag, gn]
  linarith

/-- **C93** (backward run): a run in floats and the run in exact arithmetic from the same data (and the same
restart file), in weather in which no cell is overdrawn.  The tracked storages differ, in all cells together,
at the end and in every file, by at most `(55000 + 720 M) u (1 + kvf) V` per cell and time step; the same holds
for everything that was accumulated in all files together: errors do not grow faster than linearly with time. -/
theorem C93_run_error_backward (A : Accurate R u η) (disk : P → Option (BwdOutput (m + 2) (n + 2) (Fl R)))
    (hdt : R.rnd (cfg.timestep : K) = cfg.timestep) (h : Runnable cfg src inp)
    (src' : Source m n K) (h' : Runnable (exactC cfg) src' (exactI inp)) (hg : src'.grid = exactG src.grid)
    (hp : Physical (exactI inp) cfg.tracking_start_date cfg.tracking_end_date)
    (calm : CalmBwd (exactC cfg) (exactG src.grid) (exactI inp))
    (H : SizedRun u η V σ (exactC cfg) (exactG src.grid).a (exactI inp))
    (M : ℕ) (hM : WritesWithinBwd cfg M) (hMu : (M : K) * u ≤ 1 / 2)
    (hstart : ∀ i j, (0 ≤ ((startBwd cfg path disk).1 i j).val ∧
        ((startBwd cfg path disk).1 i j).val * (src.grid.a i).val ≤ V) ∧
      (0 ≤ ((startBwd cfg path disk).2 i j).val ∧ ((startBwd cfg path disk).2 i j).val * (src.grid.a i).val ≤ V))
    {s s'} (hs : EndsIn (bwdRun cfg src path disk) s)
    (hs' : EndsIn (bwdRun (exactC cfg) src' path fun p => (disk p).map exactBwd) s') :
    let a := fun i => (src.grid.a i).val
    let N := stepCount cfg.tracking_start_date cfg.tracking_end_date (cfg.timestep * 1000000)
    let ε := N * ((m + 2) * (n + 2) * ((55000 + 720 * M) * u * (1 + cfg.kvf.val) * V))
    s.files.map Prod.fst = s'.files.map Prod.fst ∧
    bwdStorageGap a (exactBwd s.output) s'.output +
      sumPairs (s.files.map fun x => (x.1, exactBwd x.2)) s'.files (bwdRecordGap a) ≤ ε ∧
    ∀ x ∈ s.files.zip s'.files, bwdStorageGap a (exactBwd x.1.2) x.2.2 ≤ ε := by
  intro a N ε
  obtain ⟨o, r, ho, rfl⟩ := bwd_ends cfg src inp path disk h hs
  obtain ⟨o', r', ho', rfl⟩ := bwd_ends (exactC cfg) src' (exactI inp) path _ h' hs'
  have eo := bwd_init_eq' cfg src Fl.ofRat_zero path disk o ho
  have eo' := bwd_init_eq (exactC cfg) src' path _ o' ho'
  have ha := SizedRun.area_pos H
  have hu := A.u_nonneg
  have hV := SizedRun.V_nonneg H h.ordered
  have hκ : 0 ≤ cfg.kvf.val := H.kvf_nonneg
  have st : (startBwd (exactC cfg) path fun p => (disk p).map exactBwd) =
      (exactA (startBwd cfg path disk).1, exactA (startBwd cfg path disk).2) := by
    unfold startBwd
    have e : (exactC cfg).restart = cfg.restart := rfl
    have e' : (exactC cfg).tracking_end_date = cfg.tracking_end_date := rfl
    rw [e, e']
    cases cfg.restart
    · rfl
    · beta_reduce
      cases disk (path cfg.tracking_end_date) <;> rfl
  have same : o' = exactBwd o := by
    rw [eo, eo', st]
    have z : (fun _ _ => (0 : K)) = exactA (m := m + 2) (n := n + 2) fun _ _ => (0 : Fl R) := by
      funext i j; simp [exactA]
    simp only [exactBwd, BwdOutput.zeros, exactA, BwdOutput.mk.injEq]
    simp
    try exact z
  subst same
  have p0 : ∀ i j, 0 ≤ (o.s_track_lower i j).val ∧ 0 ≤ (o.s_track_upper i j).val := by
    intro i j; rw [eo]; exact ⟨(hstart i j).1.1, (hstart i j).2.1⟩
  have b0 : BoundedBwd V 0 (exactG src.grid).a (exactBwd o) := by
    intro i j
    rw [eo]
    refine ⟨?_, ?_, ?_⟩
    · simp only [exactBwd, exactA]
      rw [abs_of_nonneg (hstart i j).1.1]; exact (hstart i j).1.2
    · simp only [exactBwd, exactA]
      rw [abs_of_nonneg (hstart i j).2.1]; exact (hstart i j).2.2
    · simp [exactBwd, exactA, BwdOutput.zeros]
  have n2 := bwd_out_nonneg (exactC cfg) src' (exactI inp) h' hp (exactBwd o) p0
  have nn := fun f g => gap_nonneg (m := m) (n := n) (exactG src.grid).a ha f g
  set δ := (m + 2) * (n + 2) * ((55000 + 720 * M) * u * (1 + cfg.kvf.val) * V) with hδ
  have δ0 : 0 ≤ δ := by rw [hδ]; positivity
  have rec0 : ∀ x y : BwdOutput (m + 2) (n + 2) K, 0 ≤ bwdRecordGap (exactG src.grid).a x y := by
    intro x y
    unfold bwdRecordGap bwdFateGap
    have := nn
    exact add_nonneg (add_nonneg (add_nonneg (nn _ _) (nn _ _)) (nn _ _)) (nn _ _)
  have key := Proc.gap_files₂ (p := bwdProc cfg src.grid inp) (q := bwdProc (exactC cfg) src'.grid (exactI inp))
    o (exactBwd o) (fun x y => bwdStorageGap (exactG src.grid).a (exactBwd x) y)
    (fun x y => bwdRecordGap (exactG src.grid).a (exactBwd x) y) cfg.steps δ (fun _ _ => rec0 _ _)
    (fun _ => rfl) (fun _ => rfl) (fun _ _ => rfl)
    (fun x y => by simp [bwdRecordGap, bwdFateGap, gap, total, BwdOutput.flush, bwdProc, exactBwd, exactA]) δ0 (by
      intro k hk
      obtain ⟨t1, t2⟩ := bwd_trace A hdt h H hM hMu o b0 p0 k hk.le
      have d := (bwd_drift_step A hdt h H k hk _ t1 t2).1
      have e := bwd_all_gap_step (exactC cfg) src' (exactI inp) h' hp (by rw [hg]; exact ha) hκ
        (by rw [hg]; exact calm) k hk (exactBwd ((bwdProc cfg src.grid inp).out o k))
        ((bwdProc (exactC cfg) src'.grid (exactI inp)).out (exactBwd o) k) t2 (n2 k hk.le)
      rw [hg] at e ⊢
      set X := (bwdProc cfg src.grid inp).out o k
      set Y := (bwdProc (exactC cfg) (exactG src.grid) (exactI inp)).out (exactBwd o) k
      set Z := bwdStepAt (exactC cfg) (exactG src.grid) (exactI inp) (cfg.bwdTime k) (exactBwd X)
      set W := bwdStepAt (exactC cfg) (exactG src.grid) (exactI inp) (cfg.bwdTime k) Y
      set Q := exactBwd (bwdStepAt cfg src.grid inp (cfg.bwdTime k) X)
      change bwdStorageGap (exactG src.grid).a Q W + bwdRecordGap (exactG src.grid).a Q W ≤ _
      change bwdStorageGap (exactG src.grid).a Z W + bwdRecordGap (exactG src.grid).a Z W ≤ _ at e
      have tri := gap_triangle (m := m) (n := n) (exactG src.grid).a ha
      have g1 := tri Q.s_track_lower Z.s_track_lower W.s_track_lower
      have g2 := tri Q.s_track_upper Z.s_track_upper W.s_track_upper
      have g3 := tri Q.e_track Z.e_track W.e_track
      have g4 := tri Q.losses Z.losses W.losses
      have g6 := tri Q.tagged_precip Z.tagged_precip W.tagged_precip
      have g7 := tri Q.gains Z.gains W.gains
      simp only [bwdStorageGap, bwdRecordGap, bwdFateGap] at d e ⊢
      linarith) cfg.steps le_rfl
  obtain ⟨k1, k2, k3⟩ := key
  have z1 : bwdStorageGap (exactG src.grid).a (exactBwd o) (exactBwd o) = 0 := by
    simp [bwdStorageGap, gap_self_zero]
  have z2 : bwdRecordGap (exactG src.grid).a (exactBwd o) (exactBwd o) = 0 := by
    simp [bwdRecordGap, bwdFateGap, gap_self_zero]
  rw [z1, z2] at k2
  simp only [z1, z2] at k3
  have r0 := rec0 (exactBwd ((bwdProc cfg src.grid inp).out o cfg.steps))
    ((bwdProc (exactC cfg) src'.grid (exactI inp)).out (exactBwd o) cfg.steps)
  refine ⟨?_, ?_, fun x hx => ?_⟩
  · exact times_eq k1 fun x hx => (k3 x hx).1
  · have e : sumPairs ((((bwdProc cfg src.grid inp).files o cfg.steps)).map fun x => (x.1, exactBwd x.2))
        ((bwdProc (exactC cfg) src'.grid (exactI inp)).files (exactBwd o) cfg.steps) (bwdRecordGap a) =
        ((((bwdProc cfg src.grid inp).files o cfg.steps).zip
          ((bwdProc (exactC cfg) src'.grid (exactI inp)).files (exactBwd o) cfg.steps)).map
          fun x => bwdRecordGap a (exactBwd x.1.2) x.2.2).sum := by
      unfold sumPairs
      rw [List.zip_map_left, List.map_map]
      rfl
    have k2' := k2
    rw [zero_add, zero_add] at k2'
    have : ∀ p q r d : K, 0 ≤ q → p + q + r ≤ d → p + r ≤ d := fun p q r d h h' => by linarith
    refine le_trans (le_of_eq ?_) (this _ _ _ _ r0 k2')
    exact congrArg₂ (· + ·) rfl e
  · have := (k3 x hx).2
    rw [zero_add, zero_add] at this
    exact this

end run

end Wam
