import Verif.Props.Compare

/-!
# C78: superposition of runs
-/
set_option linter.unusedSectionVars false
set_option linter.unusedVariables false

namespace Wam
open Spec
variable {K : Type*} [Field K] [LinearOrder K] [IsStrictOrderedRing K] {m n : ℕ} {P : Type*}

/-! ### C78, forward runs -/

section run
variable (cfg : RunConfig K) (src src1 src2 : Source m n K) (inp inp1 inp2 : Input m n K)
  (path path1 path2 : ℤ → P)

theorem fwd_reaches (disk : P → Option (FwdOutput (m + 2) (n + 2) K)) (h : Runnable cfg src inp) (o)
    (ho : fwdInitialize cfg src path disk = .ok o) (k : ℕ) (hk : k ≤ cfg.steps) :
    ∃ r, Reaches (fwdRun cfg src path disk) (fwdStateAt cfg src inp r o k) := by
  obtain ⟨r, _, _, hrun⟩ := fwd_run_eq cfg src inp path disk h o ho
  refine ⟨r, k, ?_⟩
  rw [hrun]
  rcases lt_or_eq_of_le hk with h | rfl
  · rw [if_pos h]; exact Or.inl rfl
  · rw [if_neg (lt_irrefl _)]; exact Or.inr rfl

theorem fwd_not_full (disk : P → Option (FwdOutput (m + 2) (n + 2) K)) (h : Runnable cfg src inp) (o)
    (ho : fwdInitialize cfg src path disk = .ok o)
    (nf : NeverFullFwd inp (fwdRun cfg src path disk)) (k : ℕ) (hk : k ≤ cfg.steps) (i j) :
    ((fwdProc cfg src.grid inp).out o k).s_track_lower i j < (inp.states (cfg.fwdTime k)).s_lower i j ∧
    ((fwdProc cfg src.grid inp).out o k).s_track_upper i j < (inp.states (cfg.fwdTime k)).s_upper i j := by
  obtain ⟨r, hr⟩ := fwd_reaches cfg src inp path disk h o ho k hk
  exact nf _ hr i j

theorem fwd_out_succ (g : GridInfo (m + 2) K) (o : FwdOutput (m + 2) (n + 2) K) (k : ℕ) :
    ((fwdProc cfg g inp).out o (k + 1)).s_track_lower = ((fwdProc cfg g inp).full o k).s_track_lower ∧
    ((fwdProc cfg g inp).out o (k + 1)).s_track_upper = ((fwdProc cfg g inp).full o k).s_track_upper := by
  simp only [Proc.out, Proc.full]
  split
  · exact ⟨rfl, rfl⟩
  · exact ⟨rfl, rfl⟩

theorem fwd_out_nonneg (h : Runnable cfg src inp)
    (hp : Physical inp cfg.tracking_start_date cfg.tracking_end_date)
    (o : FwdOutput (m + 2) (n + 2) K)
    (ho : ∀ i j, 0 ≤ o.s_track_lower i j ∧ 0 ≤ o.s_track_upper i j) (k : ℕ) (hk : k ≤ cfg.steps) (i j) :
    0 ≤ ((fwdProc cfg src.grid inp).out o k).s_track_lower i j ∧
    0 ≤ ((fwdProc cfg src.grid inp).out o k).s_track_upper i j := by
  rcases k with _ | k
  · exact ho i j
  · rw [(fwd_out_succ cfg inp src.grid o k).1, (fwd_out_succ cfg inp src.grid o k).2]
    have t1 := cfg.fwdTime_mem h.timestep_pos h.ordered (k + 1) hk
    have := C13_tracked_within_storage_forward cfg.periodic_boundary (ofRat cfg.timestep) cfg.kvf
      src.grid.a (stableFluxes cfg src.grid (inp.fluxes (cfg.fwdTime k + cfg.halfDt))
        (inp.states (cfg.fwdTime k)))
      (calculateFz src.grid.a (stableFluxes cfg src.grid (inp.fluxes (cfg.fwdTime k + cfg.halfDt))
        (inp.states (cfg.fwdTime k))) (inp.states (cfg.fwdTime k)) (inp.states (cfg.fwdTime k + cfg.dt))
        (ofRat cfg.timestep) cfg.kvf)
      (inp.states (cfg.fwdTime k)) (inp.states (cfg.fwdTime k + cfg.dt))
      (maskAt cfg inp (cfg.fwdTime k)) ((fwdProc cfg src.grid inp).out o k)
      (by rw [← cfg.fwdTime_succ]; exact hp.wet _ t1.1 t1.2) i j
    exact ⟨this.1.1, this.2.1⟩

theorem fwdComb_flush (c1 c2 : K) (x y : FwdOutput (m + 2) (n + 2) K) :
    (fwdComb c1 c2 x y).flush = fwdComb c1 c2 x.flush y.flush := by
  simp [FwdOutput.flush, fwdComb, ofRat_zero]

/-- linear combination of three runs -/
theorem fwd_out_comb (c1 c2 : K) (hc1 : 0 ≤ c1) (hc2 : 0 ≤ c2) (h : Runnable cfg src inp)
    (h1 : Runnable cfg src1 inp1) (h2 : Runnable cfg src2 inp2)
    (hg1 : src1.grid = src.grid) (hg2 : src2.grid = src.grid)
    (hw1 : SameWeather inp inp1) (hw2 : SameWeather inp inp2)
    (hp : Physical inp cfg.tracking_start_date cfg.tracking_end_date)
    (hp1 : Physical inp1 cfg.tracking_start_date cfg.tracking_end_date)
    (hp2 : Physical inp2 cfg.tracking_start_date cfg.tracking_end_date)
    (hr : ∀ t, cfg.tracking_start_date ≤ t → t ≤ cfg.tracking_end_date → ∀ i j,
      inp.region t i j = c1 * inp1.region t i j + c2 * inp2.region t i j)
    (ha : ∀ i, 0 < src.grid.a i) (hk : 0 ≤ cfg.kvf) (calm : CalmFwd cfg src.grid inp)
    (o1 o2) (ho1 : ∀ i j, 0 ≤ o1.s_track_lower i j ∧ 0 ≤ o1.s_track_upper i j)
    (ho2 : ∀ i j, 0 ≤ o2.s_track_lower i j ∧ 0 ≤ o2.s_track_upper i j)
    (n0 : ∀ k ≤ cfg.steps, ∀ i j,
      ((fwdProc cfg src.grid inp).out (fwdComb c1 c2 o1 o2) k).s_track_lower i j
        < (inp.states (cfg.fwdTime k)).s_lower i j ∧
      ((fwdProc cfg src.grid inp).out (fwdComb c1 c2 o1 o2) k).s_track_upper i j
        < (inp.states (cfg.fwdTime k)).s_upper i j)
    (n1 : ∀ k ≤ cfg.steps, ∀ i j,
      ((fwdProc cfg src.grid inp1).out o1 k).s_track_lower i j
        < (inp.states (cfg.fwdTime k)).s_lower i j ∧
      ((fwdProc cfg src.grid inp1).out o1 k).s_track_upper i j
        < (inp.states (cfg.fwdTime k)).s_upper i j)
    (n2 : ∀ k ≤ cfg.steps, ∀ i j,
      ((fwdProc cfg src.grid inp2).out o2 k).s_track_lower i j
        < (inp.states (cfg.fwdTime k)).s_lower i j ∧
      ((fwdProc cfg src.grid inp2).out o2 k).s_track_upper i j
        < (inp.states (cfg.fwdTime k)).s_upper i j) :
    (∀ k ≤ cfg.steps, (fwdProc cfg src.grid inp).out (fwdComb c1 c2 o1 o2) k =
      fwdComb c1 c2 ((fwdProc cfg src.grid inp1).out o1 k) ((fwdProc cfg src.grid inp2).out o2 k)) ∧
    ∀ k < cfg.steps, (fwdProc cfg src.grid inp).full (fwdComb c1 c2 o1 o2) k =
      fwdComb c1 c2 ((fwdProc cfg src.grid inp1).full o1 k) ((fwdProc cfg src.grid inp2).full o2 k) := by
  have hpos := h.timestep_pos
  have hAB := h.ordered
  have step : ∀ k < cfg.steps, (fwdProc cfg src.grid inp).out (fwdComb c1 c2 o1 o2) k =
      fwdComb c1 c2 ((fwdProc cfg src.grid inp1).out o1 k) ((fwdProc cfg src.grid inp2).out o2 k) →
      (fwdProc cfg src.grid inp).full (fwdComb c1 c2 o1 o2) k =
      fwdComb c1 c2 ((fwdProc cfg src.grid inp1).full o1 k) ((fwdProc cfg src.grid inp2).full o2 k) := by
    intro k hk' e
    have t0 := cfg.fwdTime_mem hpos hAB k hk'.le
    have t1 := cfg.fwdTime_mem hpos hAB (k + 1) hk'
    have th := cfg.fwdHalf_mem hpos hAB k hk'
    have a0 := n0 k hk'.le
    have a1 := n1 k hk'.le
    have a2 := n2 k hk'.le
    have b0 := n0 (k + 1) hk'
    have b1 := n1 (k + 1) hk'
    have b2 := n2 (k + 1) hk'
    have p1 := fwd_out_nonneg cfg src1 inp1 h1 hp1 o1 ho1 k hk'.le
    have p2 := fwd_out_nonneg cfg src2 inp2 h2 hp2 o2 ho2 k hk'.le
    rw [hg1] at p1
    rw [hg2] at p2
    rw [(fwd_out_succ cfg inp src.grid _ k).1, (fwd_out_succ cfg inp src.grid _ k).2] at b0
    rw [(fwd_out_succ cfg inp1 src.grid _ k).1, (fwd_out_succ cfg inp1 src.grid _ k).2] at b1
    rw [(fwd_out_succ cfg inp2 src.grid _ k).1, (fwd_out_succ cfg inp2 src.grid _ k).2] at b2
    simp only [Proc.full] at b0 b1 b2 ⊢
    rw [e] at a0 b0 ⊢
    set x1 := (fwdProc cfg src.grid inp1).out o1 k
    set x2 := (fwdProc cfg src.grid inp2).out o2 k
    simp only [fwdProc, fwdStepAt, hw1.1, hw1.2, hw2.1, hw2.2, cfg.fwdTime_succ] at b0 b1 b2 ⊢
    refine C78_step_forward _ _ _ _ _ _ _ _ c1 c2 hc1 hc2 _ _ x1 x2 (hp.wet _ t0.1 t0.2) ?_ ha ?_ hk
      (fwd_calm_at cfg inp hpos src.grid calm k hk') ?_ ?_ (fun i j => ⟨(p1 i j).1, (a1 i j).1.le⟩)
      (fun i j => ⟨(p1 i j).2, (a1 i j).2.le⟩) (fun i j => ⟨(p2 i j).1, (a2 i j).1.le⟩)
      (fun i j => ⟨(p2 i j).2, (a2 i j).2.le⟩) (fun i j => (a0 i j).1.le) (fun i j => (a0 i j).2.le)
      _ ?_ (fun i j _ => b1 i j) (fun i j _ => b2 i j) (fun i j _ => b0 i j)
    · rw [← cfg.fwdTime_succ]; exact hp.wet _ t1.1 t1.2
    · rw [ofRat_int]; exact_mod_cast hpos.le
    · intro i j
      exact mul_nonneg (maskAt_nonneg cfg inp1 _ (hp1.region _ t0.1 t0.2) i j)
        (hp.evap _ th.1 th.2 i j)
    · intro i j
      exact mul_nonneg (maskAt_nonneg cfg inp2 _ (hp2.region _ t0.1 t0.2) i j)
        (hp.evap _ th.1 th.2 i j)
    · intro i j
      unfold maskAt
      split
      · exact hr _ t0.1 t0.2 i j
      · simp [ofRat_zero]
  have out : ∀ k ≤ cfg.steps, (fwdProc cfg src.grid inp).out (fwdComb c1 c2 o1 o2) k =
      fwdComb c1 c2 ((fwdProc cfg src.grid inp1).out o1 k) ((fwdProc cfg src.grid inp2).out o2 k) := by
    intro k hk'
    induction k with
    | zero => rfl
    | succ k ih =>
      have := step k hk' (ih (by omega))
      simp only [Proc.full] at this
      simp only [Proc.out]
      have w1 : (fwdProc cfg src.grid inp1).write (k + 1) = (fwdProc cfg src.grid inp).write (k + 1) := rfl
      have w2 : (fwdProc cfg src.grid inp2).write (k + 1) = (fwdProc cfg src.grid inp).write (k + 1) := rfl
      rw [w1, w2]
      split
      · rw [this]; exact fwdComb_flush _ _ _ _
      · exact this
  exact ⟨out, fun k hk' => step k hk' (out k hk'.le)⟩

theorem fwd_init_comb {disk disk1 disk2 : P → Option (FwdOutput (m + 2) (n + 2) K)} {o o1 o2}
    (c1 c2 : K) (ho : fwdInitialize cfg src path disk = .ok o)
    (ho1 : fwdInitialize cfg src1 path1 disk1 = .ok o1)
    (ho2 : fwdInitialize cfg src2 path2 disk2 = .ok o2)
    (hs : ∀ i j, (startFwd cfg path disk).1 i j =
        c1 * (startFwd cfg path1 disk1).1 i j + c2 * (startFwd cfg path2 disk2).1 i j ∧
      (startFwd cfg path disk).2 i j =
        c1 * (startFwd cfg path1 disk1).2 i j + c2 * (startFwd cfg path2 disk2).2 i j) :
    o = fwdComb c1 c2 o1 o2 := by
  rw [fwd_init_eq cfg src path disk o ho, fwd_init_eq cfg src1 path1 disk1 o1 ho1,
    fwd_init_eq cfg src2 path2 disk2 o2 ho2]
  have e1 : (startFwd cfg path disk).1 = fun i j =>
      c1 * (startFwd cfg path1 disk1).1 i j + c2 * (startFwd cfg path2 disk2).1 i j := by
    funext i j; exact (hs i j).1
  have e2 : (startFwd cfg path disk).2 = fun i j =>
      c1 * (startFwd cfg path1 disk1).2 i j + c2 * (startFwd cfg path2 disk2).2 i j := by
    funext i j; exact (hs i j).2
  rw [e1, e2]
  simp [fwdComb, FwdOutput.zeros, ofRat_zero]

/-- **C78** (superposition, forward runs): with the same weather, as long as in the run for the combined
region no layer is ever completely filled with tracked water, the files for the region `A + B`
are the sums of the files for `A` and for `B`. -/
theorem C78_superposition_forward (disk disk1 disk2 : P → Option (FwdOutput (m + 2) (n + 2) K))
    (h : Runnable cfg src inp) (h1 : Runnable cfg src1 inp1) (h2 : Runnable cfg src2 inp2)
    (hg1 : src1.grid = src.grid) (hg2 : src2.grid = src.grid)
    (hw1 : SameWeather inp inp1) (hw2 : SameWeather inp inp2)
    (hp : Physical inp cfg.tracking_start_date cfg.tracking_end_date)
    (hr1 : ∀ t, cfg.tracking_start_date ≤ t → t ≤ cfg.tracking_end_date → ∀ i j,
      0 ≤ inp1.region t i j)
    (hr2 : ∀ t, cfg.tracking_start_date ≤ t → t ≤ cfg.tracking_end_date → ∀ i j,
      0 ≤ inp2.region t i j)
    (hr : ∀ t, cfg.tracking_start_date ≤ t → t ≤ cfg.tracking_end_date → ∀ i j,
      inp.region t i j = inp1.region t i j + inp2.region t i j)
    (ha : ∀ i, 0 < src.grid.a i) (hk : 0 ≤ cfg.kvf) (calm : CalmFwd cfg src.grid inp)
    (hs1 : ∀ i j, 0 ≤ (startFwd cfg path1 disk1).1 i j ∧ 0 ≤ (startFwd cfg path1 disk1).2 i j)
    (hs2 : ∀ i j, 0 ≤ (startFwd cfg path2 disk2).1 i j ∧ 0 ≤ (startFwd cfg path2 disk2).2 i j)
    (hs0 : ∀ i j, (startFwd cfg path disk).1 i j =
        (startFwd cfg path1 disk1).1 i j + (startFwd cfg path2 disk2).1 i j ∧
      (startFwd cfg path disk).2 i j =
        (startFwd cfg path1 disk1).2 i j + (startFwd cfg path2 disk2).2 i j)
    (nf : NeverFullFwd inp (fwdRun cfg src path disk))
    {s s1 s2} (hs : EndsIn (fwdRun cfg src path disk) s)
    (hss1 : EndsIn (fwdRun cfg src1 path1 disk1) s1)
    (hss2 : EndsIn (fwdRun cfg src2 path2 disk2) s2) :
    s.files = List.zipWith (fun x y => (x.1, fwdComb 1 1 x.2 y.2)) s1.files s2.files ∧
      s1.files.map Prod.fst = s.files.map Prod.fst ∧ s2.files.map Prod.fst = s.files.map Prod.fst := by
  obtain ⟨o, r, ho, rfl⟩ := fwd_ends cfg src inp path disk h hs
  obtain ⟨o1, r1, ho1, rfl⟩ := fwd_ends cfg src1 inp1 path1 disk1 h1 hss1
  obtain ⟨o2, r2, ho2, rfl⟩ := fwd_ends cfg src2 inp2 path2 disk2 h2 hss2
  have oe := fwd_init_comb cfg src src1 src2 path path1 path2 1 1 ho ho1 ho2 (by simpa using hs0)
  have hp1 : Physical inp1 cfg.tracking_start_date cfg.tracking_end_date :=
    ⟨by rw [hw1.1]; exact hp.wet, by rw [hw1.2]; exact hp.precip, by rw [hw1.2]; exact hp.evap, hr1⟩
  have hp2 : Physical inp2 cfg.tracking_start_date cfg.tracking_end_date :=
    ⟨by rw [hw2.1]; exact hp.wet, by rw [hw2.2]; exact hp.precip, by rw [hw2.2]; exact hp.evap, hr2⟩
  have n0 := fwd_not_full cfg src inp path disk h o ho nf
  have o1e := fwd_init_eq cfg src1 path1 disk1 o1 ho1
  have o2e := fwd_init_eq cfg src2 path2 disk2 o2 ho2
  have calm1 : CalmFwd cfg src.grid inp1 := by
    intro k hk'
    have := calm k hk'
    simp only [hw1.1, hw1.2]
    exact this
  have calm2 : CalmFwd cfg src.grid inp2 := by
    intro k hk'
    have := calm k hk'
    simp only [hw2.1, hw2.2]
    exact this
  have le1 := (fwd_out_le cfg src1 inp1 inp h1 ⟨hw1.1.symm, hw1.2.symm⟩ hp1
    (fun t a b i j => by rw [hr t a b]; have := hr2 t a b i j; linarith) (by rw [hg1]; exact ha) hk
    (by rw [hg1]; exact calm1) o1 o
    (fwd_start_le cfg src1 src path1 ho1 ho (fun i j => by
      have := hs0 i j; have := hs2 i j; constructor <;> linarith [(hs0 i j).1, (hs0 i j).2]))).1
  have le2 := (fwd_out_le cfg src2 inp2 inp h2 ⟨hw2.1.symm, hw2.2.symm⟩ hp2
    (fun t a b i j => by rw [hr t a b]; have := hr1 t a b i j; linarith) (by rw [hg2]; exact ha) hk
    (by rw [hg2]; exact calm2) o2 o
    (fwd_start_le cfg src2 src path2 ho2 ho (fun i j => by
      have := hs0 i j; have := hs1 i j; constructor <;> linarith [(hs0 i j).1, (hs0 i j).2]))).1
  rw [hg1] at le1
  rw [hg2] at le2
  have comb := fwd_out_comb cfg src src1 src2 inp inp1 inp2 1 1 zero_le_one zero_le_one h h1 h2 hg1 hg2
    hw1 hw2 hp hp1 hp2 (by simpa using hr) ha hk calm o1 o2
    (fun i j => by rw [o1e]; exact hs1 i j) (fun i j => by rw [o2e]; exact hs2 i j)
    (by rw [← oe]; exact n0)
    (fun k hk' i j => ⟨((le1 k hk').s_track_lower i j).trans_lt (n0 k hk' i j).1,
      ((le1 k hk').s_track_upper i j).trans_lt (n0 k hk' i j).2⟩)
    (fun k hk' i j => ⟨((le2 k hk').s_track_lower i j).trans_lt (n0 k hk' i j).1,
      ((le2 k hk').s_track_upper i j).trans_lt (n0 k hk' i j).2⟩)
  show (fwdProc cfg src.grid inp).files o cfg.steps = List.zipWith _
      ((fwdProc cfg src1.grid inp1).files o1 cfg.steps)
      ((fwdProc cfg src2.grid inp2).files o2 cfg.steps) ∧
    ((fwdProc cfg src1.grid inp1).files o1 cfg.steps).map Prod.fst =
      ((fwdProc cfg src.grid inp).files o cfg.steps).map Prod.fst ∧
    ((fwdProc cfg src2.grid inp2).files o2 cfg.steps).map Prod.fst =
      ((fwdProc cfg src.grid inp).files o cfg.steps).map Prod.fst
  rw [hg1, hg2, oe]
  exact Proc.files_comb (p := fwdProc cfg src.grid inp) (p1 := fwdProc cfg src.grid inp1)
    (p2 := fwdProc cfg src.grid inp2) _ o1 o2 (fwdComb 1 1) cfg.steps (fun _ => rfl) (fun _ => rfl)
    (fun _ => rfl) (fun _ => rfl) comb.2 cfg.steps le_rfl

/-- **C78** (scaling, forward runs): if the run for a region never fills a layer completely with tracked
water, the run for a fraction `c` of that region gives `c` times the same files. -/
theorem C78_scaling_forward (c : K) (hc0 : 0 ≤ c) (hc1 : c ≤ 1)
    (disk disk1 : P → Option (FwdOutput (m + 2) (n + 2) K))
    (h : Runnable cfg src inp) (h1 : Runnable cfg src1 inp1) (hg1 : src1.grid = src.grid)
    (hw1 : SameWeather inp inp1)
    (hp : Physical inp cfg.tracking_start_date cfg.tracking_end_date)
    (hr : ∀ t, cfg.tracking_start_date ≤ t → t ≤ cfg.tracking_end_date → ∀ i j,
      inp1.region t i j = c * inp.region t i j)
    (ha : ∀ i, 0 < src.grid.a i) (hk : 0 ≤ cfg.kvf) (calm : CalmFwd cfg src.grid inp)
    (hs1 : ∀ i j, 0 ≤ (startFwd cfg path disk).1 i j ∧ 0 ≤ (startFwd cfg path disk).2 i j)
    (hs0 : ∀ i j, (startFwd cfg path1 disk1).1 i j = c * (startFwd cfg path disk).1 i j ∧
      (startFwd cfg path1 disk1).2 i j = c * (startFwd cfg path disk).2 i j)
    (nf : NeverFullFwd inp (fwdRun cfg src path disk))
    {s s1} (hs : EndsIn (fwdRun cfg src path disk) s)
    (hss1 : EndsIn (fwdRun cfg src1 path1 disk1) s1) :
    s1.files = s.files.map fun x => (x.1, fwdScale c x.2) := by
  obtain ⟨o, r, ho, rfl⟩ := fwd_ends cfg src inp path disk h hs
  obtain ⟨o1, r1, ho1, rfl⟩ := fwd_ends cfg src1 inp1 path1 disk1 h1 hss1
  have oe := fwd_init_comb cfg src1 src src path1 path path c 0 ho1 ho ho (by simpa using hs0)
  have hw1' : SameWeather inp1 inp := ⟨hw1.1.symm, hw1.2.symm⟩
  have hp1 : Physical inp1 cfg.tracking_start_date cfg.tracking_end_date :=
    ⟨by rw [hw1.1]; exact hp.wet, by rw [hw1.2]; exact hp.precip, by rw [hw1.2]; exact hp.evap,
      fun t a b i j => by rw [hr t a b]; exact mul_nonneg hc0 (hp.region t a b i j)⟩
  have n0 := fwd_not_full cfg src inp path disk h o ho nf
  have oe' := fwd_init_eq cfg src path disk o ho
  have calm1 : CalmFwd cfg src.grid inp1 := by
    intro k hk'
    have := calm k hk'
    simp only [hw1.1, hw1.2]
    exact this
  have le1 := (fwd_out_le cfg src1 inp1 inp h1 hw1' hp1
    (fun t a b i j => by
      rw [hr t a b]; exact mul_le_of_le_one_left (hp.region t a b i j) hc1) (by rw [hg1]; exact ha) hk
    (by rw [hg1]; exact calm1) o1 o
    (fwd_start_le cfg src1 src path1 ho1 ho (fun i j => by
      rw [(hs0 i j).1, (hs0 i j).2]
      exact ⟨mul_le_of_le_one_left (hs1 i j).1 hc1, mul_le_of_le_one_left (hs1 i j).2 hc1⟩))).1
  rw [hg1] at le1
  have comb := fwd_out_comb cfg src1 src src inp1 inp inp c 0 hc0 le_rfl h1 h h hg1.symm hg1.symm
    hw1' hw1' hp1 hp hp (by simpa using hr) (by rw [hg1]; exact ha) hk (by rw [hg1]; exact calm1) o o
    (fun i j => by rw [oe']; exact hs1 i j) (fun i j => by rw [oe']; exact hs1 i j)
    (fun k hk' i j => by
      rw [← oe, hg1, hw1.1]
      exact ⟨((le1 k hk').s_track_lower i j).trans_lt (n0 k hk' i j).1,
        ((le1 k hk').s_track_upper i j).trans_lt (n0 k hk' i j).2⟩)
    (fun k hk' i j => by rw [hg1, hw1.1]; exact n0 k hk' i j)
    (fun k hk' i j => by rw [hg1, hw1.1]; exact n0 k hk' i j)
  rw [hg1] at comb
  show (fwdProc cfg src1.grid inp1).files o1 cfg.steps =
    ((fwdProc cfg src.grid inp).files o cfg.steps).map _
  rw [hg1, oe]
  have sc : ∀ x : FwdOutput (m + 2) (n + 2) K, fwdComb c 0 x x = fwdScale c x := by
    intro x; simp [fwdComb, fwdScale]
  have := (Proc.files_comb (p := fwdProc cfg src.grid inp1) (p1 := fwdProc cfg src.grid inp)
    (p2 := fwdProc cfg src.grid inp) _ o o (fwdComb c 0) cfg.steps (fun _ => rfl) (fun _ => rfl)
    (fun _ => rfl) (fun _ => rfl) comb.2 cfg.steps le_rfl).1
  rw [this, List.zipWith_self]
  simp only [sc]

end run

/-! ### C78, backward runs -/

section run
variable (cfg : RunConfig K) (src src1 src2 : Source m n K) (inp inp1 inp2 : Input m n K)
  (path path1 path2 : ℤ → P)

theorem bwd_reaches (disk : P → Option (BwdOutput (m + 2) (n + 2) K)) (h : Runnable cfg src inp) (o)
    (ho : bwdInitialize cfg src path disk = .ok o) (k : ℕ) (hk : k ≤ cfg.steps) :
    ∃ r, Reaches (bwdRun cfg src path disk) (bwdStateAt cfg src inp r o k) := by
  obtain ⟨r, _, _, hrun⟩ := bwd_run_eq cfg src inp path disk h o ho
  refine ⟨r, k, ?_⟩
  rw [hrun]
  rcases lt_or_eq_of_le hk with h | rfl
  · rw [if_pos h]; exact Or.inl rfl
  · rw [if_neg (lt_irrefl _)]; exact Or.inr rfl

theorem bwd_not_full (disk : P → Option (BwdOutput (m + 2) (n + 2) K)) (h : Runnable cfg src inp) (o)
    (ho : bwdInitialize cfg src path disk = .ok o)
    (nf : NeverFullBwd inp (bwdRun cfg src path disk)) (k : ℕ) (hk : k ≤ cfg.steps) (i j) :
    ((bwdProc cfg src.grid inp).out o k).s_track_lower i j < (inp.states (cfg.bwdTime k)).s_lower i j ∧
    ((bwdProc cfg src.grid inp).out o k).s_track_upper i j < (inp.states (cfg.bwdTime k)).s_upper i j := by
  obtain ⟨r, hr⟩ := bwd_reaches cfg src inp path disk h o ho k hk
  exact nf _ hr i j

theorem bwd_out_succ (g : GridInfo (m + 2) K) (o : BwdOutput (m + 2) (n + 2) K) (k : ℕ) :
    ((bwdProc cfg g inp).out o (k + 1)).s_track_lower = ((bwdProc cfg g inp).full o k).s_track_lower ∧
    ((bwdProc cfg g inp).out o (k + 1)).s_track_upper = ((bwdProc cfg g inp).full o k).s_track_upper := by
  simp only [Proc.out, Proc.full]
  split
  · exact ⟨rfl, rfl⟩
  · exact ⟨rfl, rfl⟩

theorem bwd_out_nonneg (h : Runnable cfg src inp)
    (hp : Physical inp cfg.tracking_start_date cfg.tracking_end_date)
    (o : BwdOutput (m + 2) (n + 2) K)
    (ho : ∀ i j, 0 ≤ o.s_track_lower i j ∧ 0 ≤ o.s_track_upper i j) (k : ℕ) (hk : k ≤ cfg.steps) (i j) :
    0 ≤ ((bwdProc cfg src.grid inp).out o k).s_track_lower i j ∧
    0 ≤ ((bwdProc cfg src.grid inp).out o k).s_track_upper i j := by
  rcases k with _ | k
  · exact ho i j
  · rw [(bwd_out_succ cfg inp src.grid o k).1, (bwd_out_succ cfg inp src.grid o k).2]
    have t1 := cfg.bwdTime_mem h.timestep_pos h.ordered (k + 1) hk
    have := C13_tracked_within_storage_backward cfg.periodic_boundary (ofRat cfg.timestep) cfg.kvf
      src.grid.a (stableFluxes cfg src.grid (inp.fluxes (cfg.bwdTime k - cfg.halfDt))
        (inp.states (cfg.bwdTime k)))
      (calculateFz src.grid.a (stableFluxes cfg src.grid (inp.fluxes (cfg.bwdTime k - cfg.halfDt))
        (inp.states (cfg.bwdTime k))) (inp.states (cfg.bwdTime k - cfg.dt)) (inp.states (cfg.bwdTime k))
        (ofRat cfg.timestep) cfg.kvf)
      (inp.states (cfg.bwdTime k - cfg.dt)) (inp.states (cfg.bwdTime k))
      (maskAt cfg inp (cfg.bwdTime k)) ((bwdProc cfg src.grid inp).out o k)
      (by rw [← cfg.bwdTime_succ]; exact hp.wet _ t1.1 t1.2) i j
    exact ⟨this.1.1, this.2.1⟩

theorem bwdComb_flush (c1 c2 : K) (x y : BwdOutput (m + 2) (n + 2) K) :
    (bwdComb c1 c2 x y).flush = bwdComb c1 c2 x.flush y.flush := by
  simp [BwdOutput.flush, bwdComb, ofRat_zero]

/-- linear combination of three runs -/
theorem bwd_out_comb (c1 c2 : K) (hc1 : 0 ≤ c1) (hc2 : 0 ≤ c2) (h : Runnable cfg src inp)
    (h1 : Runnable cfg src1 inp1) (h2 : Runnable cfg src2 inp2)
    (hg1 : src1.grid = src.grid) (hg2 : src2.grid = src.grid)
    (hw1 : SameWeather inp inp1) (hw2 : SameWeather inp inp2)
    (hp : Physical inp cfg.tracking_start_date cfg.tracking_end_date)
    (hp1 : Physical inp1 cfg.tracking_start_date cfg.tracking_end_date)
    (hp2 : Physical inp2 cfg.tracking_start_date cfg.tracking_end_date)
    (hr : ∀ t, cfg.tracking_start_date ≤ t → t ≤ cfg.tracking_end_date → ∀ i j,
      inp.region t i j = c1 * inp1.region t i j + c2 * inp2.region t i j)
    (ha : ∀ i, 0 < src.grid.a i) (hk : 0 ≤ cfg.kvf) (calm : CalmBwd cfg src.grid inp)
    (o1 o2) (ho1 : ∀ i j, 0 ≤ o1.s_track_lower i j ∧ 0 ≤ o1.s_track_upper i j)
    (ho2 : ∀ i j, 0 ≤ o2.s_track_lower i j ∧ 0 ≤ o2.s_track_upper i j)
    (n0 : ∀ k ≤ cfg.steps, ∀ i j,
      ((bwdProc cfg src.grid inp).out (bwdComb c1 c2 o1 o2) k).s_track_lower i j
        < (inp.states (cfg.bwdTime k)).s_lower i j ∧
      ((bwdProc cfg src.grid inp).out (bwdComb c1 c2 o1 o2) k).s_track_upper i j
        < (inp.states (cfg.bwdTime k)).s_upper i j)
    (n1 : ∀ k ≤ cfg.steps, ∀ i j,
      ((bwdProc cfg src.grid inp1).out o1 k).s_track_lower i j
        < (inp.states (cfg.bwdTime k)).s_lower i j ∧
      ((bwdProc cfg src.grid inp1).out o1 k).s_track_upper i j
        < (inp.states (cfg.bwdTime k)).s_upper i j)
    (n2 : ∀ k ≤ cfg.steps, ∀ i j,
      ((bwdProc cfg src.grid inp2).out o2 k).s_track_lower i j
        < (inp.states (cfg.bwdTime k)).s_lower i j ∧
      ((bwdProc cfg src.grid inp2).out o2 k).s_track_upper i j
        < (inp.states (cfg.bwdTime k)).s_upper i j) :
    (∀ k ≤ cfg.steps, (bwdProc cfg src.grid inp).out (bwdComb c1 c2 o1 o2) k =
      bwdComb c1 c2 ((bwdProc cfg src.grid inp1).out o1 k) ((bwdProc cfg src.grid inp2).out o2 k)) ∧
    ∀ k < cfg.steps, (bwdProc cfg src.grid inp).full (bwdComb c1 c2 o1 o2) k =
      bwdComb c1 c2 ((bwdProc cfg src.grid inp1).full o1 k) ((bwdProc cfg src.grid inp2).full o2 k) := by
  have hpos := h.timestep_pos
  have hAB := h.ordered
  have step : ∀ k < cfg.steps, (bwdProc cfg src.grid inp).out (bwdComb c1 c2 o1 o2) k =
      bwdComb c1 c2 ((bwdProc cfg src.grid inp1).out o1 k) ((bwdProc cfg src.grid inp2).out o2 k) →
      (bwdProc cfg src.grid inp).full (bwdComb c1 c2 o1 o2) k =
      bwdComb c1 c2 ((bwdProc cfg src.grid inp1).full o1 k) ((bwdProc cfg src.grid inp2).full o2 k) := by
    intro k hk' e
    have t0 := cfg.bwdTime_mem hpos hAB k hk'.le
    have t1 := cfg.bwdTime_mem hpos hAB (k + 1) hk'
    have th := cfg.bwdHalf_mem hpos hAB k hk'
    have a0 := n0 k hk'.le
    have a1 := n1 k hk'.le
    have a2 := n2 k hk'.le
    have b0 := n0 (k + 1) hk'
    have b1 := n1 (k + 1) hk'
    have b2 := n2 (k + 1) hk'
    have p1 := bwd_out_nonneg cfg src1 inp1 h1 hp1 o1 ho1 k hk'.le
    have p2 := bwd_out_nonneg cfg src2 inp2 h2 hp2 o2 ho2 k hk'.le
    rw [hg1] at p1
    rw [hg2] at p2
    rw [(bwd_out_succ cfg inp src.grid _ k).1, (bwd_out_succ cfg inp src.grid _ k).2] at b0
    rw [(bwd_out_succ cfg inp1 src.grid _ k).1, (bwd_out_succ cfg inp1 src.grid _ k).2] at b1
    rw [(bwd_out_succ cfg inp2 src.grid _ k).1, (bwd_out_succ cfg inp2 src.grid _ k).2] at b2
    simp only [Proc.full] at b0 b1 b2 ⊢
    rw [e] at a0 b0 ⊢
    set x1 := (bwdProc cfg src.grid inp1).out o1 k
    set x2 := (bwdProc cfg src.grid inp2).out o2 k
    simp only [bwdProc, bwdStepAt, hw1.1, hw1.2, hw2.1, hw2.2, cfg.bwdTime_succ] at b0 b1 b2 ⊢
    refine C78_step_backward _ _ _ _ _ _ _ _ c1 c2 hc1 hc2 _ _ x1 x2 ?_ (hp.wet _ t0.1 t0.2) ha ?_ hk
      (bwd_calm_at cfg inp hpos src.grid calm k hk') ?_ ?_ (fun i j => ⟨(p1 i j).1, (a1 i j).1.le⟩)
      (fun i j => ⟨(p1 i j).2, (a1 i j).2.le⟩) (fun i j => ⟨(p2 i j).1, (a2 i j).1.le⟩)
      (fun i j => ⟨(p2 i j).2, (a2 i j).2.le⟩) (fun i j => (a0 i j).1.le) (fun i j => (a0 i j).2.le)
      _ ?_ (fun i j _ => b1 i j) (fun i j _ => b2 i j) (fun i j _ => b0 i j)
    · rw [← cfg.bwdTime_succ]; exact hp.wet _ t1.1 t1.2
    · rw [ofRat_int]; exact_mod_cast hpos.le
    · intro i j
      exact mul_nonneg (maskAt_nonneg cfg inp1 _ (hp1.region _ t0.1 t0.2) i j)
        (hp.precip _ th.1 th.2 i j)
    · intro i j
      exact mul_nonneg (maskAt_nonneg cfg inp2 _ (hp2.region _ t0.1 t0.2) i j)
        (hp.precip _ th.1 th.2 i j)
    · intro i j
      unfold maskAt
      split
      · exact hr _ t0.1 t0.2 i j
      · simp [ofRat_zero]
  have out : ∀ k ≤ cfg.steps, (bwdProc cfg src.grid inp).out (bwdComb c1 c2 o1 o2) k =
      bwdComb c1 c2 ((bwdProc cfg src.grid inp1).out o1 k) ((bwdProc cfg src.grid inp2).out o2 k) := by
    intro k hk'
    induction k with
    | zero => rfl
    | succ k ih =>
      have := step k hk' (ih (by omega))
      simp only [Proc.full] at this
      simp only [Proc.out]
      have w1 : (bwdProc cfg src.grid inp1).write (k + 1) = (bwdProc cfg src.grid inp).write (k + 1) := rfl
      have w2 : (bwdProc cfg src.grid inp2).write (k + 1) = (bwdProc cfg src.grid inp).write (k + 1) := rfl
      rw [w1, w2]
      split
      · rw [this]; exact bwdComb_flush _ _ _ _
      · exact this
  exact ⟨out, fun k hk' => step k hk' (out k hk'.le)⟩

theorem bwd_init_comb {disk disk1 disk2 : P → Option (BwdOutput (m + 2) (n + 2) K)} {o o1 o2}
    (c1 c2 : K) (ho : bwdInitialize cfg src path disk = .ok o)
    (ho1 : bwdInitialize cfg src1 path1 disk1 = .ok o1)
    (ho2 : bwdInitialize cfg src2 path2 disk2 = .ok o2)
    (hs : ∀ i j, (startBwd cfg path disk).1 i j =
        c1 * (startBwd cfg path1 disk1).1 i j + c2 * (startBwd cfg path2 disk2).1 i j ∧
      (startBwd cfg path disk).2 i j =
        c1 * (startBwd cfg path1 disk1).2 i j + c2 * (startBwd cfg path2 disk2).2 i j) :
    o = bwdComb c1 c2 o1 o2 := by
  rw [bwd_init_eq cfg src path disk o ho, bwd_init_eq cfg src1 path1 disk1 o1 ho1,
    bwd_init_eq cfg src2 path2 disk2 o2 ho2]
  have e1 : (startBwd cfg path disk).1 = fun i j =>
      c1 * (startBwd cfg path1 disk1).1 i j + c2 * (startBwd cfg path2 disk2).1 i j := by
    funext i j; exact (hs i j).1
  have e2 : (startBwd cfg path disk).2 = fun i j =>
      c1 * (startBwd cfg path1 disk1).2 i j + c2 * (startBwd cfg path2 disk2).2 i j := by
    funext i j; exact (hs i j).2
  rw [e1, e2]
  simp [bwdComb, BwdOutput.zeros, ofRat_zero]

/-- **C78** (superposition, backward runs): with the same weather, as long as in the run for the combined
region no layer is ever completely filled with tracked water, the files for the region `A + B`
are the sums of the files for `A` and for `B`. -/
theorem C78_superposition_backward (disk disk1 disk2 : P → Option (BwdOutput (m + 2) (n + 2) K))
    (h : Runnable cfg src inp) (h1 : Runnable cfg src1 inp1) (h2 : Runnable cfg src2 inp2)
    (hg1 : src1.grid = src.grid) (hg2 : src2.grid = src.grid)
    (hw1 : SameWeather inp inp1) (hw2 : SameWeather inp inp2)
    (hp : Physical inp cfg.tracking_start_date cfg.tracking_end_date)
    (hr1 : ∀ t, cfg.tracking_start_date ≤ t → t ≤ cfg.tracking_end_date → ∀ i j,
      0 ≤ inp1.region t i j)
    (hr2 : ∀ t, cfg.tracking_start_date ≤ t → t ≤ cfg.tracking_end_date → ∀ i j,
      0 ≤ inp2.region t i j)
    (hr : ∀ t, cfg.tracking_start_date ≤ t → t ≤ cfg.tracking_end_date → ∀ i j,
      inp.region t i j = inp1.region t i j + inp2.region t i j)
    (ha : ∀ i, 0 < src.grid.a i) (hk : 0 ≤ cfg.kvf) (calm : CalmBwd cfg src.grid inp)
    (hs1 : ∀ i j, 0 ≤ (startBwd cfg path1 disk1).1 i j ∧ 0 ≤ (startBwd cfg path1 disk1).2 i j)
    (hs2 : ∀ i j, 0 ≤ (startBwd cfg path2 disk2).1 i j ∧ 0 ≤ (startBwd cfg path2 disk2).2 i j)
    (hs0 : ∀ i j, (startBwd cfg path disk).1 i j =
        (startBwd cfg path1 disk1).1 i j + (startBwd cfg path2 disk2).1 i j ∧
      (startBwd cfg path disk).2 i j =
        (startBwd cfg path1 disk1).2 i j + (startBwd cfg path2 disk2).2 i j)
    (nf : NeverFullBwd inp (bwdRun cfg src path disk))
    {s s1 s2} (hs : EndsIn (bwdRun cfg src path disk) s)
    (hss1 : EndsIn (bwdRun cfg src1 path1 disk1) s1)
    (hss2 : EndsIn (bwdRun cfg src2 path2 disk2) s2) :
    s.files = List.zipWith (fun x y => (x.1, bwdComb 1 1 x.2 y.2)) s1.files s2.files ∧
      s1.files.map Prod.fst = s.files.map Prod.fst ∧ s2.files.map Prod.fst = s.files.map Prod.fst := by
  obtain ⟨o, r, ho, rfl⟩ := bwd_ends cfg src inp path disk h hs
  obtain ⟨o1, r1, ho1, rfl⟩ := bwd_ends cfg src1 inp1 path1 disk1 h1 hss1
  obtain ⟨o2, r2, ho2, rfl⟩ := bwd_ends cfg src2 inp2 path2 disk2 h2 hss2
  have oe := bwd_init_comb cfg src src1 src2 path path1 path2 1 1 ho ho1 ho2 (by simpa using hs0)
  have hp1 : Physical inp1 cfg.tracking_start_date cfg.tracking_end_date :=
    ⟨by rw [hw1.1]; exact hp.wet, by rw [hw1.2]; exact hp.precip, by rw [hw1.2]; exact hp.evap, hr1⟩
  have hp2 : Physical inp2 cfg.tracking_start_date cfg.tracking_end_date :=
    ⟨by rw [hw2.1]; exact hp.wet, by rw [hw2.2]; exact hp.precip, by rw [hw2.2]; exact hp.evap, hr2⟩
  have n0 := bwd_not_full cfg src inp path disk h o ho nf
  have o1e := bwd_init_eq cfg src1 path1 disk1 o1 ho1
  have o2e := bwd_init_eq cfg src2 path2 disk2 o2 ho2
  have calm1 : CalmBwd cfg src.grid inp1 := by
    intro k hk'
    have := calm k hk'
    simp only [hw1.1, hw1.2]
    exact this
  have calm2 : CalmBwd cfg src.grid inp2 := by
    intro k hk'
    have := calm k hk'
    simp only [hw2.1, hw2.2]
    exact this
  have le1 := (bwd_out_le cfg src1 inp1 inp h1 ⟨hw1.1.symm, hw1.2.symm⟩ hp1
    (fun t a b i j => by rw [hr t a b]; have := hr2 t a b i j; linarith) (by rw [hg1]; exact ha) hk
    (by rw [hg1]; exact calm1) o1 o
    (bwd_start_le cfg src1 src path1 ho1 ho (fun i j => by
      have := hs0 i j; have := hs2 i j; constructor <;> linarith [(hs0 i j).1, (hs0 i j).2]))).1
  have le2 := (bwd_out_le cfg src2 inp2 inp h2 ⟨hw2.1.symm, hw2.2.symm⟩ hp2
    (fun t a b i j => by rw [hr t a b]; have := hr1 t a b i j; linarith) (by rw [hg2]; exact ha) hk
    (by rw [hg2]; exact calm2) o2 o
    (bwd_start_le cfg src2 src path2 ho2 ho (fun i j => by
      have := hs0 i j; have := hs1 i j; constructor <;> linarith [(hs0 i j).1, (hs0 i j).2]))).1
  rw [hg1] at le1
  rw [hg2] at le2
  have comb := bwd_out_comb cfg src src1 src2 inp inp1 inp2 1 1 zero_le_one zero_le_one h h1 h2 hg1 hg2
    hw1 hw2 hp hp1 hp2 (by simpa using hr) ha hk calm o1 o2
    (fun i j => by rw [o1e]; exact hs1 i j) (fun i j => by rw [o2e]; exact hs2 i j)
    (by rw [← oe]; exact n0)
    (fun k hk' i j => ⟨((le1 k hk').s_track_lower i j).trans_lt (n0 k hk' i j).1,
      ((le1 k hk').s_track_upper i j).trans_lt (n0 k hk' i j).2⟩)
    (fun k hk' i j => ⟨((le2 k hk').s_track_lower i j).trans_lt (n0 k hk' i j).1,
      ((le2 k hk').s_track_upper i j).trans_lt (n0 k hk' i j).2⟩)
  show (bwdProc cfg src.grid inp).files o cfg.steps = List.zipWith _
      ((bwdProc cfg src1.grid inp1).files o1 cfg.steps)
      ((bwdProc cfg src2.grid inp2).files o2 cfg.steps) ∧
    ((bwdProc cfg src1.grid inp1).files o1 cfg.steps).map Prod.fst =
      ((bwdProc cfg src.grid inp).files o cfg.steps).map Prod.fst ∧
    ((bwdProc cfg src2.grid inp2).files o2 cfg.steps).map Prod.fst =
      ((bwdProc cfg src.grid inp).files o cfg.steps).map Prod.fst
  rw [hg1, hg2, oe]
  exact Proc.files_comb (p := bwdProc cfg src.grid inp) (p1 := bwdProc cfg src.grid inp1)
    (p2 := bwdProc cfg src.grid inp2) _ o1 o2 (bwdComb 1 1) cfg.steps (fun _ => rfl) (fun _ => rfl)
    (fun _ => rfl) (fun _ => rfl) comb.2 cfg.steps le_rfl

/-- **C78** (scaling, backward runs): if the run for a region never fills a layer completely with tracked
water, the run for a fraction `c` of that region gives `c` times the same files. -/
theorem C78_scaling_backward (c : K) (hc0 : 0 ≤ c) (hc1 : c ≤ 1)
    (disk disk1 : P → Option (BwdOutput (m + 2) (n + 2) K))
    (h : Runnable cfg src inp) (h1 : Runnable cfg src1 inp1) (hg1 : src1.grid = src.grid)
    (hw1 : SameWeather inp inp1)
    (hp : Physical inp cfg.tracking_start_date cfg.tracking_end_date)
    (hr : ∀ t, cfg.tracking_start_date ≤ t → t ≤ cfg.tracking_end_date → ∀ i j,
      inp1.region t i j = c * inp.region t i j)
    (ha : ∀ i, 0 < src.grid.a i) (hk : 0 ≤ cfg.kvf) (calm : CalmBwd cfg src.grid inp)
    (hs1 : ∀ i j, 0 ≤ (startBwd cfg path disk).1 i j ∧ 0 ≤ (startBwd cfg path disk).2 i j)
    (hs0 : ∀ i j, (startBwd cfg path1 disk1).1 i j = c * (startBwd cfg path disk).1 i j ∧
      (startBwd cfg path1 disk1).2 i j = c * (startBwd cfg path disk).2 i j)
    (nf : NeverFullBwd inp (bwdRun cfg src path disk))
    {s s1} (hs : EndsIn (bwdRun cfg src path disk) s)
    (hss1 : EndsIn (bwdRun cfg src1 path1 disk1) s1) :
    s1.files = s.files.map fun x => (x.1, bwdScale c x.2) := by
  obtain ⟨o, r, ho, rfl⟩ := bwd_ends cfg src inp path disk h hs
  obtain ⟨o1, r1, ho1, rfl⟩ := bwd_ends cfg src1 inp1 path1 disk1 h1 hss1
  have oe := bwd_init_comb cfg src1 src src path1 path path c 0 ho1 ho ho (by simpa using hs0)
  have hw1' : SameWeather inp1 inp := ⟨hw1.1.symm, hw1.2.symm⟩
  have hp1 : Physical inp1 cfg.tracking_start_date cfg.tracking_end_date :=
    ⟨by rw [hw1.1]; exact hp.wet, by rw [hw1.2]; exact hp.precip, by rw [hw1.2]; exact hp.evap,
      fun t a b i j => by rw [hr t a b]; exact mul_nonneg hc0 (hp.region t a b i j)⟩
  have n0 := bwd_not_full cfg src inp path disk h o ho nf
  have oe' := bwd_init_eq cfg src path disk o ho
  have calm1 : CalmBwd cfg src.grid inp1 := by
    intro k hk'
    have := calm k hk'
    simp only [hw1.1, hw1.2]
    exact this
  have le1 := (bwd_out_le cfg src1 inp1 inp h1 hw1' hp1
    (fun t a b i j => by
      rw [hr t a b]; exact mul_le_of_le_one_left (hp.region t a b i j) hc1) (by rw [hg1]; exact ha) hk
    (by rw [hg1]; exact calm1) o1 o
    (bwd_start_le cfg src1 src path1 ho1 ho (fun i j => by
      rw [(hs0 i j).1, (hs0 i j).2]
      exact ⟨mul_le_of_le_one_left (hs1 i j).1 hc1, mul_le_of_le_one_left (hs1 i j).2 hc1⟩))).1
  rw [hg1] at le1
  have comb := bwd_out_comb cfg src1 src src inp1 inp inp c 0 hc0 le_rfl h1 h h hg1.symm hg1.symm
    hw1' hw1' hp1 hp hp (by simpa using hr) (by rw [hg1]; exact ha) hk (by rw [hg1]; exact calm1) o o
    (fun i j => by rw [oe']; exact hs1 i j) (fun i j => by rw [oe']; exact hs1 i j)
    (fun k hk' i j => by
      rw [← oe, hg1, hw1.1]
      exact ⟨((le1 k hk').s_track_lower i j).trans_lt (n0 k hk' i j).1,
        ((le1 k hk').s_track_upper i j).trans_lt (n0 k hk' i j).2⟩)
    (fun k hk' i j => by rw [hg1, hw1.1]; exact n0 k hk' i j)
    (fun k hk' i j => by rw [hg1, hw1.1]; exact n0 k hk' i j)
  rw [hg1] at comb
  show (bwdProc cfg src1.grid inp1).files o1 cfg.steps =
    ((bwdProc cfg src.grid inp).files o cfg.steps).map _
  rw [hg1, oe]
  have sc : ∀ x : BwdOutput (m + 2) (n + 2) K, bwdComb c 0 x x = bwdScale c x := by
    intro x; simp [bwdComb, bwdScale]
  have := (Proc.files_comb (p := bwdProc cfg src.grid inp1) (p1 := bwdProc cfg src.grid inp)
    (p2 := bwdProc cfg src.grid inp) _ o o (bwdComb c 0) cfg.steps (fun _ => rfl) (fun _ => rfl)
    (fun _ => rfl) (fun _ => rfl) comb.2 cfg.steps le_rfl).1
  rw [this, List.zipWith_self]
  simp only [sc]

end run


/-! ### A concrete case -/

namespace Demo

/-- the demo input with another region -/
def inpOf (mask : Arr 3 3 ℚ) : Input 1 1 ℚ := { inp with region := fun _ => mask }
/-- the demo source with another region -/
def srcOf (mask : Arr 3 3 ℚ) : Source 1 1 ℚ := { src with region := .ok (.stationary mask) }

/-- region A: the central cell -/
def maskA : Arr 3 3 ℚ := fun i j => if i = 1 ∧ j = 1 then 1 else 0
/-- region B: half of two cells -/
def maskB : Arr 3 3 ℚ := fun i j => if i = 1 ∧ j ≠ 0 then 1 / 2 else 0
/-- both -/
def maskAB : Arr 3 3 ℚ := fun i j => maskA i j + maskB i j

theorem runnableOf (mask) : Runnable cfg (srcOf mask) (inpOf mask) where
  timestep_pos := by decide
  ordered := by decide
  serves :=
    { states := fun t h0 h1 => if_pos ⟨h0, h1⟩
      fluxes := fun t h0 h1 => if_pos ⟨h0, h1⟩
      region := ⟨_, rfl, fun t _ _ => rfl⟩ }

theorem physicalOf (mask) (h : ∀ i j, 0 ≤ mask i j) :
    Physical (inpOf mask) cfg.tracking_start_date cfg.tracking_end_date :=
  ⟨physical.wet, physical.precip, physical.evap, fun _ _ _ => h⟩

theorem few_steps {k : ℕ} (h : cfg.tracking_start_date + (k + 1) * (cfg.timestep * 1000000) ≤
    cfg.tracking_end_date) : k < 4 := by
  simp only [cfg, step] at h; omega

/-- the states of a forward step -/
abbrev fS (k : ℕ) : States 3 3 ℚ := inp.states (cfg.tracking_start_date + k * (cfg.timestep * 1000000))
/-- the fluxes of a forward step -/
abbrev fF (k : ℕ) : Fluxes 3 3 ℚ := stabilizeFluxes (cfg.timestep : ℚ) src.grid.a
  (scaleFluxes src.grid (inp.fluxes
    (cfg.tracking_start_date + k * (cfg.timestep * 1000000) + cfg.timestep * 500000))) (fS k)
/-- the vertical flux of a forward step -/
abbrev fz (k : ℕ) : Arr 3 3 ℚ := calculateFz (m := 1) (n := 1) src.grid.a (fF k) (fS k)
  (inp.states (cfg.tracking_start_date + k * (cfg.timestep * 1000000) + cfg.timestep * 1000000))
  (cfg.timestep : ℚ) cfg.kvf

theorem calm_fwd (mask) : CalmFwd cfg (srcOf mask).grid (inpOf mask) := by
  intro k hk
  have hk4 := few_steps hk
  constructor
  · have : ∀ k : Fin 4, ∀ (i j : Fin 3), (cfg.timestep : ℚ) *
        (outflow false (fF k).fx_lower (fF k).fy_lower i j / src.grid.a i + max (-fz k i j) 0
        + cfg.kvf * |fz k i j| + share ((fF k).precip i j) ((fS k).s_lower i j) ((fS k).s_upper i j))
        ≤ (fS k).s_lower i j := by decide +kernel
    exact this ⟨k, hk4⟩
  · have : ∀ k : Fin 4, ∀ (i j : Fin 3), (cfg.timestep : ℚ) *
        (outflow false (fF k).fx_upper (fF k).fy_upper i j / src.grid.a i + max (fz k i j) 0
        + cfg.kvf * |fz k i j| + share ((fF k).precip i j) ((fS k).s_upper i j) ((fS k).s_lower i j))
        ≤ (fS k).s_upper i j := by decide +kernel
    exact this ⟨k, hk4⟩

theorem fwd_start_zero : ∀ mask, fwdInitialize cfg (srcOf mask) path (fun _ => none) = .ok FwdOutput.zeros := by
  intro mask
  rfl

theorem ends_fwd (mask) : ∃ s, EndsIn (fwdRun cfg (srcOf mask) path fun _ => none) s := by
  obtain ⟨r, _, _, hrun⟩ := fwd_run_eq cfg (srcOf mask) (inpOf mask) path _ (runnableOf mask) _ (fwd_start_zero mask)
  exact ⟨_, cfg.steps, fun fuel hf => (hrun fuel).trans (if_neg (not_lt.mpr hf))⟩

theorem never_full_fwd : NeverFullFwd (inpOf maskAB) (fwdRun cfg (srcOf maskAB) path fun _ => none) := by
  obtain ⟨r, _, _, hrun⟩ := fwd_run_eq cfg (srcOf maskAB) (inpOf maskAB) path _ (runnableOf maskAB) _
    (fwd_start_zero maskAB)
  have key : ∀ k : Fin 5, ∀ i j : Fin 3,
      ((fwdProc cfg (srcOf maskAB).grid (inpOf maskAB)).out FwdOutput.zeros k).s_track_lower i j <
        (inp.states (cfg.fwdTime k)).s_lower i j ∧
      ((fwdProc cfg (srcOf maskAB).grid (inpOf maskAB)).out FwdOutput.zeros k).s_track_upper i j <
        (inp.states (cfg.fwdTime k)).s_upper i j := by decide +kernel
  have hst : cfg.steps = 4 := by decide +kernel
  rintro s ⟨fuel, h⟩
  rw [hrun, hst] at h
  split at h
  · rename_i hf
    rcases h with h | h
    · injection h with h; subst h; exact key ⟨fuel, by omega⟩
    · exact absurd h (by simp)
  · rcases h with h | h
    · exact absurd h (by simp)
    · injection h with h; subst h; exact key 4

/-- weaker vertical exchange, for the backward run -/
def cfgB : RunConfig ℚ := { cfg with kvf := 1 }

theorem runnableB (mask) : Runnable cfgB (srcOf mask) (inpOf mask) where
  timestep_pos := by decide
  ordered := by decide
  serves := (runnableOf mask).serves

/-- the states of a backward step -/
abbrev bS (k : ℕ) : States 3 3 ℚ := inp.states (cfg.tracking_end_date - k * (cfg.timestep * 1000000))
/-- the fluxes of a backward step -/
abbrev bF (k : ℕ) : Fluxes 3 3 ℚ := stabilizeFluxes (cfg.timestep : ℚ) src.grid.a
  (scaleFluxes src.grid (inp.fluxes
    (cfg.tracking_end_date - k * (cfg.timestep * 1000000) - cfg.timestep * 500000))) (bS k)
/-- the vertical flux of a backward step -/
abbrev bz (k : ℕ) : Arr 3 3 ℚ := calculateFz (m := 1) (n := 1) src.grid.a (bF k)
  (inp.states (cfg.tracking_end_date - k * (cfg.timestep * 1000000) - cfg.timestep * 1000000)) (bS k)
  (cfg.timestep : ℚ) cfgB.kvf

theorem calm_bwd (mask) : CalmBwd cfgB (srcOf mask).grid (inpOf mask) := by
  intro k hk
  have hk4 := few_steps hk
  constructor
  · have : ∀ k : Fin 4, ∀ (i j : Fin 3), (cfg.timestep : ℚ) *
        (outflow false (fun i j => -(bF k).fx_lower i j) (fun i j => -(bF k).fy_lower i j) i j
        / src.grid.a i + max (bz k i j) 0
        + cfgB.kvf * |bz k i j| + (bF k).evap i j) ≤ (bS k).s_lower i j := by decide +kernel
    exact this ⟨k, hk4⟩
  · have : ∀ k : Fin 4, ∀ (i j : Fin 3), (cfg.timestep : ℚ) *
        (outflow false (fun i j => -(bF k).fx_upper i j) (fun i j => -(bF k).fy_upper i j) i j
        / src.grid.a i + max (-bz k i j) 0
        + cfgB.kvf * |bz k i j|) ≤ (bS k).s_upper i j := by decide +kernel
    exact this ⟨k, hk4⟩

theorem bwd_start_zero : ∀ mask, bwdInitialize cfgB (srcOf mask) path (fun _ => none) = .ok BwdOutput.zeros := by
  intro mask
  rfl

theorem ends_bwd (mask) : ∃ s, EndsIn (bwdRun cfgB (srcOf mask) path fun _ => none) s := by
  obtain ⟨r, _, _, hrun⟩ := bwd_run_eq cfgB (srcOf mask) (inpOf mask) path _ (runnableB mask) _ (bwd_start_zero mask)
  exact ⟨_, cfgB.steps, fun fuel hf => (hrun fuel).trans (if_neg (not_lt.mpr hf))⟩

theorem never_full_bwd : NeverFullBwd (inpOf maskAB) (bwdRun cfgB (srcOf maskAB) path fun _ => none) := by
  obtain ⟨r, _, _, hrun⟩ := bwd_run_eq cfgB (srcOf maskAB) (inpOf maskAB) path _ (runnableB maskAB) _
    (bwd_start_zero maskAB)
  have key : ∀ k : Fin 5, ∀ i j : Fin 3,
      ((bwdProc cfgB (srcOf maskAB).grid (inpOf maskAB)).out BwdOutput.zeros k).s_track_lower i j <
        (inp.states (cfgB.bwdTime k)).s_lower i j ∧
      ((bwdProc cfgB (srcOf maskAB).grid (inpOf maskAB)).out BwdOutput.zeros k).s_track_upper i j <
        (inp.states (cfgB.bwdTime k)).s_upper i j := by decide +kernel
  have hst : cfgB.steps = 4 := by decide +kernel
  rintro s ⟨fuel, h⟩
  rw [hrun, hst] at h
  split at h
  · rename_i hf
    rcases h with h | h
    · injection h with h; subst h; exact key ⟨fuel, by omega⟩
    · exact absurd h (by simp)
  · rcases h with h | h
    · exact absurd h (by simp)
    · injection h with h; subst h; exact key 4

theorem maskA_nonneg : ∀ i j, 0 ≤ maskA i j := by decide +kernel
theorem maskB_nonneg : ∀ i j, 0 ≤ maskB i j := by decide +kernel
theorem maskAB_nonneg : ∀ i j, 0 ≤ maskAB i j := fun i j =>
  add_nonneg (maskA_nonneg i j) (maskB_nonneg i j)

/-- C78 is not vacuous: tracking from A + B is the sum of tracking from A and from B here -/
example : ∃ s s1 s2, EndsIn (fwdRun cfg (srcOf maskAB) path fun _ => none) s ∧
    EndsIn (fwdRun cfg (srcOf maskA) path fun _ => none) s1 ∧
    EndsIn (fwdRun cfg (srcOf maskB) path fun _ => none) s2 ∧
    s.files = List.zipWith (fun x y => (x.1, fwdComb 1 1 x.2 y.2)) s1.files s2.files := by
  obtain ⟨s, hs⟩ := ends_fwd maskAB
  obtain ⟨s1, hs1⟩ := ends_fwd maskA
  obtain ⟨s2, hs2⟩ := ends_fwd maskB
  refine ⟨s, s1, s2, hs, hs1, hs2, ?_⟩
  exact (C78_superposition_forward cfg (srcOf maskAB) (srcOf maskA) (srcOf maskB) (inpOf maskAB)
    (inpOf maskA) (inpOf maskB) path path path _ _ _ (runnableOf _) (runnableOf _) (runnableOf _)
    rfl rfl ⟨rfl, rfl⟩ ⟨rfl, rfl⟩ (physicalOf _ maskAB_nonneg) (fun _ _ _ => maskA_nonneg)
    (fun _ _ _ => maskB_nonneg) (fun _ _ _ _ _ => rfl) area_pos (by decide) (calm_fwd _)
    (fun _ _ => ⟨le_rfl, le_rfl⟩) (fun _ _ => ⟨le_rfl, le_rfl⟩)
    (fun _ _ => ⟨(add_zero 0).symm, (add_zero 0).symm⟩) never_full_fwd hs hs1 hs2).1

/-- C78, backward -/
example : ∃ s s1 s2, EndsIn (bwdRun cfgB (srcOf maskAB) path fun _ => none) s ∧
    EndsIn (bwdRun cfgB (srcOf maskA) path fun _ => none) s1 ∧
    EndsIn (bwdRun cfgB (srcOf maskB) path fun _ => none) s2 ∧
    s.files = List.zipWith (fun x y => (x.1, bwdComb 1 1 x.2 y.2)) s1.files s2.files := by
  obtain ⟨s, hs⟩ := ends_bwd maskAB
  obtain ⟨s1, hs1⟩ := ends_bwd maskA
  obtain ⟨s2, hs2⟩ := ends_bwd maskB
  refine ⟨s, s1, s2, hs, hs1, hs2, ?_⟩
  exact (C78_superposition_backward cfgB (srcOf maskAB) (srcOf maskA) (srcOf maskB) (inpOf maskAB)
    (inpOf maskA) (inpOf maskB) path path path _ _ _ (runnableB _) (runnableB _) (runnableB _)
    rfl rfl ⟨rfl, rfl⟩ ⟨rfl, rfl⟩ (physicalOf _ maskAB_nonneg) (fun _ _ _ => maskA_nonneg)
    (fun _ _ _ => maskB_nonneg) (fun _ _ _ _ _ => rfl) area_pos (by decide) (calm_bwd _)
    (fun _ _ => ⟨le_rfl, le_rfl⟩) (fun _ _ => ⟨le_rfl, le_rfl⟩)
    (fun _ _ => ⟨(add_zero 0).symm, (add_zero 0).symm⟩) never_full_bwd hs hs1 hs2).1

/-- C78, scaling: half of the region gives half of everything -/
example : ∃ s s1, EndsIn (fwdRun cfg (srcOf maskAB) path fun _ => none) s ∧
    EndsIn (fwdRun cfg (srcOf fun i j => 1 / 2 * maskAB i j) path fun _ => none) s1 ∧
    s1.files = s.files.map fun x => (x.1, fwdScale (1 / 2) x.2) := by
  obtain ⟨s, hs⟩ := ends_fwd maskAB
  obtain ⟨s1, hs1⟩ := ends_fwd fun i j => 1 / 2 * maskAB i j
  refine ⟨s, s1, hs, hs1, ?_⟩
  exact C78_scaling_forward cfg (srcOf maskAB) (srcOf fun i j => 1 / 2 * maskAB i j) (inpOf maskAB)
    (inpOf fun i j => 1 / 2 * maskAB i j) path path (1 / 2)
    (by norm_num) (by norm_num) _ _ (runnableOf _) (runnableOf _) rfl ⟨rfl, rfl⟩
    (physicalOf _ maskAB_nonneg) (fun _ _ _ _ _ => rfl) area_pos (by decide) (calm_fwd _)
    (fun _ _ => ⟨le_rfl, le_rfl⟩) (fun _ _ => ⟨(mul_zero _).symm, (mul_zero _).symm⟩)
    never_full_fwd hs hs1

/-- C77 is not vacuous -/
example : ∃ s s1, EndsIn (fwdRun cfg (srcOf maskAB) path fun _ => none) s ∧
    EndsIn (fwdRun cfg (srcOf maskA) path fun _ => none) s1 ∧
    List.Forall₂ (fun x y => x.1 = y.1 ∧ FwdLE x.2 y.2) s1.files s.files := by
  obtain ⟨s, hs⟩ := ends_fwd maskAB
  obtain ⟨s1, hs1⟩ := ends_fwd maskA
  refine ⟨s, s1, hs, hs1, ?_⟩
  exact C77_run_forward cfg (srcOf maskA) (srcOf maskAB) (inpOf maskA) (inpOf maskAB) path path _ _
    (runnableOf _) (runnableOf _) rfl ⟨rfl, rfl⟩ (physicalOf _ maskA_nonneg)
    (fun _ _ _ i j => le_add_of_nonneg_right (maskB_nonneg i j)) area_pos (by decide) (calm_fwd _)
    (fun _ _ => ⟨le_rfl, le_rfl⟩) hs1 hs

/-- ... and something is tracked: after the third step the central cell holds water from A -/
example : 0 < ((fwdProc cfg (srcOf maskA).grid (inpOf maskA)).out FwdOutput.zeros 3).s_track_lower 1 1 := by
  decide +kernel

/-- without the hypothesis of C78 the claim fails: a full layer of tracked water cannot be doubled (one
step with nothing but the source: 3/4 + 3/4 of the layer) -/
example :
    let F : Fluxes 3 3 ℚ := ⟨fun _ _ => 0, fun _ _ => 0, fun _ _ => 0, fun _ _ => 0,
      fun _ _ => 3 / 4, fun _ _ => 0⟩
    let S : States 3 3 ℚ := ⟨fun _ _ => 1 / 4, fun _ _ => 1⟩
    let z : FwdOutput 3 3 ℚ := FwdOutput.zeros (m := 1) (n := 1)
    (forwardtrack (m := 1) (n := 1) false 1 0 (fun _ => 1) F (fun _ _ => 0) S S (fun _ _ => 2) z).s_track_lower 1 1 ≠
      2 * (forwardtrack (m := 1) (n := 1) false 1 0 (fun _ => 1) F (fun _ _ => 0) S S (fun _ _ => 1) z).s_track_lower 1 1 := by
  decide +kernel

end Demo
end Wam
