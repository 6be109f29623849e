import Verif.Lemmas.Regional

/-!
# C99: a regional run without boundary losses is the global run
-/
set_option linter.unusedSectionVars false
set_option linter.unusedVariables false

namespace Wam
open Spec

section
variable {m n M N : ℕ} {K : Type} [Field K] [LinearOrder K] [IsStrictOrderedRing K] {P P' : Type*}

/-! ### Forward -/

private theorem flush_extendFwd (p : Place m n M N) (o : FwdOutput (m + 2) (n + 2) K) : FwdOutput.flush (p.extendFwd o) = p.extendFwd (FwdOutput.flush o) := by
  have key : ∀ f : Arr (m + 2) (n + 2) K, (fun I J => p.extend f I J * ofRat 0) = p.extend fun i j => f i j * ofRat 0 := by
    intro f
    funext I J
    unfold Place.extend
    split
    · rfl
    · simp
  simp only [FwdOutput.flush, Place.extendFwd, key]

private theorem fwd_regional (p : Place m n M N) (cfg : RunConfig K) (src : Source M N K) (inp : Input M N K) (ps : Bool)
    (hf : p.Fits ps cfg.periodic_boundary) (h : Runnable cfg src inp)
    (hp : Physical inp cfg.tracking_start_date cfg.tracking_end_date) (ha : ∀ I, 0 < src.grid.a I)
    (hmask : ∀ t, cfg.tracking_start_date ≤ t → t ≤ cfg.tracking_end_date → inWindow cfg t →
      ∀ I J, ¬ p.Covers I J → inp.region t I J = 0)
    (o : FwdOutput (m + 2) (n + 2) K) (ho : nonnegFwd ps o) (hacc : FwdOutput.acc o = 0)
    (hb : ∀ i j, isBoundary ps i j → o.s_track_lower i j = 0 ∧ o.s_track_upper i j = 0)
    (hloss : ∀ x ∈ (fwdProc { cfg with periodic_boundary := ps } (p.cutGrid src.grid) (p.cutInput inp)).files o cfg.steps,
      ∀ i j, isBoundary ps i j → x.2.losses i j = 0) :
    ∀ k ≤ cfg.steps, (fwdProc cfg src.grid inp).out (p.extendFwd o) k =
        p.extendFwd ((fwdProc { cfg with periodic_boundary := ps } (p.cutGrid src.grid) (p.cutInput inp)).out o k) ∧
      (fwdProc cfg src.grid inp).files (p.extendFwd o) k =
        ((fwdProc { cfg with periodic_boundary := ps } (p.cutGrid src.grid) (p.cutInput inp)).files o k).map
          fun x => (x.1, p.extendFwd x.2) := by
  set q := fwdProc { cfg with periodic_boundary := ps } (p.cutGrid src.grid) (p.cutInput inp) with hq
  have hrun := Local.runnable_cut p h ps
  have hphys : Physical (p.cutInput inp) cfg.tracking_start_date cfg.tracking_end_date :=
    ⟨fun t h1 h2 i j => hp.wet t h1 h2 _ _, fun t h1 h2 i j => hp.precip t h1 h2 _ _, fun t h1 h2 i j => hp.evap t h1 h2 _ _,
      fun t h1 h2 i j => hp.region t h1 h2 _ _⟩
  have hsound : ∀ k < cfg.steps, SoundFwd ps (p.cutStates (inp.states (cfg.fwdTime (k + 1)))) (q.full o k) := fun k hk =>
    fwd_full_sound { cfg with periodic_boundary := ps } (p.cutSource src) (p.cutInput inp) hrun hphys o ho k hk
  -- storages before every step
  have hbefore : ∀ k ≤ cfg.steps, (∀ i j, 0 ≤ (q.out o k).s_track_lower i j ∧ 0 ≤ (q.out o k).s_track_upper i j) ∧
      ∀ i j, isBoundary ps i j → (q.out o k).s_track_lower i j = 0 ∧ (q.out o k).s_track_upper i j = 0 := by
    intro k hk
    rcases k with _ | k
    · exact ⟨fun i j => ⟨(ho i j).1, (ho i j).2.1⟩, hb⟩
    · have hs := hsound k hk
      have e : (q.out o (k + 1)).s_track_lower = (q.full o k).s_track_lower ∧ (q.out o (k + 1)).s_track_upper = (q.full o k).s_track_upper := by
        simp only [Proc.out]
        split <;> exact ⟨rfl, rfl⟩
      rw [e.1, e.2]
      exact ⟨fun i j => ⟨(hs.lower i j).1, (hs.upper i j).1⟩, hs.boundary⟩
  have hdt : (0 : K) < ofRat cfg.timestep := by rw [ofRat_int]; exact_mod_cast h.timestep_pos
  have he : ∀ k < cfg.steps, ∀ I J, 0 ≤ (stableFluxes cfg src.grid (inp.fluxes (cfg.fwdTime k + cfg.halfDt)) (inp.states (cfg.fwdTime k))).evap I J := by
    intro k hk I J
    have th := cfg.fwdHalf_mem h.timestep_pos h.ordered k hk
    exact hp.evap _ th.1 th.2 I J
  have hpr : ∀ k < cfg.steps, ∀ I J, 0 ≤ (stableFluxes cfg src.grid (inp.fluxes (cfg.fwdTime k + cfg.halfDt)) (inp.states (cfg.fwdTime k))).precip I J := by
    intro k hk I J
    have th := cfg.fwdHalf_mem h.timestep_pos h.ordered k hk
    exact hp.precip _ th.1 th.2 I J
  have hm : ∀ k < cfg.steps, ∀ I J, 0 ≤ maskAt cfg inp (cfg.fwdTime k) I J := by
    intro k hk
    have t0 := cfg.fwdTime_mem h.timestep_pos h.ordered k hk.le
    exact maskAt_nonneg cfg inp _ (hp.region _ t0.1 t0.2)
  have hw : ∀ k ≤ cfg.steps, Wet (inp.states (cfg.fwdTime k)) := fun k hk => by
    have t0 := cfg.fwdTime_mem h.timestep_pos h.ordered k hk
    exact hp.wet _ t0.1 t0.2
  have hfull : ∀ k, q.full o k = forwardtrack ps (ofRat cfg.timestep) cfg.kvf (p.cutGrid src.grid).a
        (p.cutFluxes (stableFluxes cfg src.grid (inp.fluxes (cfg.fwdTime k + cfg.halfDt)) (inp.states (cfg.fwdTime k))))
        (calculateFz (p.cutGrid src.grid).a (p.cutFluxes (stableFluxes cfg src.grid (inp.fluxes (cfg.fwdTime k + cfg.halfDt)) (inp.states (cfg.fwdTime k))))
          (p.cutStates (inp.states (cfg.fwdTime k))) (p.cutStates (inp.states (cfg.fwdTime k + cfg.dt))) (ofRat cfg.timestep) cfg.kvf)
        (p.cutStates (inp.states (cfg.fwdTime k + cfg.dt))) (p.cutStates (inp.states (cfg.fwdTime k))) (p.cut (maskAt cfg inp (cfg.fwdTime k)))
        (q.out o k) := fun k => Local.fwdStepAt_cut p cfg ps src.grid inp (cfg.fwdTime k) (q.out o k)
  -- nothing is lost at the edge in any step
  have hnone : ∀ k < cfg.steps, ∀ i j, isBoundary ps i j → (q.full o k).losses i j = (q.out o k).losses i j := by
    intro k hk i j hbd
    have hbud := q.budget o (fun x => x.losses i j) cfg.steps (fun k => (q.full o k).losses i j - (q.out o k).losses i j)
      (fun k _ => by ring) (fun x => by simp [hq, fwdProc, FwdOutput.flush]) cfg.steps le_rfl
    have hfiles : ((q.files o cfg.steps).map fun x => x.2.losses i j).sum = 0 := by
      apply List.sum_eq_zero
      intro y hy
      obtain ⟨x, hx, rfl⟩ := List.mem_map.mp hy
      exact hloss x hx i j hbd
    have hlast : (q.out o cfg.steps).losses i j = 0 := by
      have := acc_out_final_fwd { cfg with periodic_boundary := ps } (p.cutGrid src.grid) (p.cutInput inp) o hacc
      have := congrFun (congrFun (congrFun this 3) i) j
      exact this
    have hfirst : o.losses i j = 0 := by
      have := congrFun (congrFun (congrFun hacc 3) i) j
      simpa [FwdOutput.acc_3] using this
    rw [hfiles, hlast, hfirst, zero_add, zero_add] at hbud
    have hinc : ∀ l ∈ Finset.range cfg.steps, 0 ≤ (q.full o l).losses i j - (q.out o l).losses i j := by
      intro l hl
      have hl := Finset.mem_range.mp hl
      have e := Local.fwd_edge_nonneg p ps (ofRat cfg.timestep) cfg.kvf src.grid
        (stableFluxes cfg src.grid (inp.fluxes (cfg.fwdTime l + cfg.halfDt)) (inp.states (cfg.fwdTime l))) (inp.states (cfg.fwdTime l))
        (maskAt cfg inp (cfg.fwdTime l))
        (calculateFz (p.cutGrid src.grid).a (p.cutFluxes (stableFluxes cfg src.grid (inp.fluxes (cfg.fwdTime l + cfg.halfDt)) (inp.states (cfg.fwdTime l))))
          (p.cutStates (inp.states (cfg.fwdTime l))) (p.cutStates (inp.states (cfg.fwdTime l + cfg.dt))) (ofRat cfg.timestep) cfg.kvf)
        hdt ha (hw l hl.le) (he l hl) (hm l hl) (q.out o l) (hbefore l hl.le).1 (hbefore l hl.le).2 i j hbd
      have w1 : Wet (p.cutStates (inp.states (cfg.fwdTime l + cfg.dt))) := fun i j => by
        rw [← cfg.fwdTime_succ]; exact hw (l + 1) hl (p.r i) (p.c j)
      have c := (C14_boundary_forward ps (ofRat cfg.timestep) cfg.kvf (p.cutGrid src.grid).a
        (p.cutFluxes (stableFluxes cfg src.grid (inp.fluxes (cfg.fwdTime l + cfg.halfDt)) (inp.states (cfg.fwdTime l))))
        (calculateFz (p.cutGrid src.grid).a (p.cutFluxes (stableFluxes cfg src.grid (inp.fluxes (cfg.fwdTime l + cfg.halfDt)) (inp.states (cfg.fwdTime l))))
          (p.cutStates (inp.states (cfg.fwdTime l))) (p.cutStates (inp.states (cfg.fwdTime l + cfg.dt))) (ofRat cfg.timestep) cfg.kvf)
        (p.cutStates (inp.states (cfg.fwdTime l))) (p.cutStates (inp.states (cfg.fwdTime l + cfg.dt)))
        (p.cut (maskAt cfg inp (cfg.fwdTime l))) (q.out o l) w1 i j hbd).2.2.1
      rw [hfull l, c]
      linarith [e.1, e.2]
    have := (Finset.sum_eq_zero_iff_of_nonneg hinc).mp hbud.symm k (Finset.mem_range.mpr hk)
    linarith
  have hstep : ∀ k < cfg.steps, (fwdProc cfg src.grid inp).step k (p.extendFwd (q.out o k)) = p.extendFwd (q.full o k) := by
    intro k hk
    have hl := hnone k hk
    rw [hfull k] at hl ⊢
    refine Local.forwardtrack_extend p ps cfg.periodic_boundary hf (ofRat cfg.timestep) cfg.kvf src.grid _ _ _ _ _ _ hdt ha (hw k hk.le) (he k hk) (hm k hk)
      (q.out o k) (hbefore k hk.le).1 (hbefore k hk.le).2 ?_ ?_ ?_ hl
    · intro i j hd
      exact Local.calculateFz_cut p ps cfg.periodic_boundary hf src.grid _ _ _ _ _ i j hd
    · rw [← cfg.fwdTime_succ]; exact hw (k + 1) hk
    · intro I J hc
      have t0 := cfg.fwdTime_mem h.timestep_pos h.ordered k hk.le
      unfold maskAt
      by_cases hin : inWindow cfg (cfg.fwdTime k)
      · rw [if_pos hin]; exact hmask _ t0.1 t0.2 hin I J hc
      · rw [if_neg hin]; simp
  intro k
  induction k with
  | zero => exact fun _ => ⟨rfl, rfl⟩
  | succ k ih =>
    intro hk
    obtain ⟨ih1, ih2⟩ := ih (by omega)
    have hs := hstep k (by omega)
    have hwr : (fwdProc cfg src.grid inp).write (k + 1) = q.write (k + 1) := rfl
    constructor
    · simp only [Proc.out]
      rw [hwr, ih1, hs]
      split
      · exact flush_extendFwd p _
      · rfl
    · simp only [Proc.files, Proc.full]
      rw [hwr, ih1, hs, ih2, List.map_append]
      congr 1
      split <;> rfl

/-- **C99** (forward).  If a run on a part of the grid has no losses at the edge of that part, then the run on the whole grid
(with nothing tagged elsewhere) has the same files: the same values in the cells of the part, zero in all other cells. -/
theorem C99_no_boundary_losses_forward (p : Place m n M N) (cfg : RunConfig K) (src : Source M N K) (inp : Input M N K) (ps : Bool)
    (hf : p.Fits ps cfg.periodic_boundary) (path : ℤ → P) (path' : ℤ → P') (D : P → Option (FwdOutput (M + 2) (N + 2) K))
    (d : P' → Option (FwdOutput (m + 2) (n + 2) K)) (h : Runnable cfg src inp)
    (hp : Physical inp cfg.tracking_start_date cfg.tracking_end_date) (ha : ∀ I, 0 < src.grid.a I)
    (hmask : ∀ t, cfg.tracking_start_date ≤ t → t ≤ cfg.tracking_end_date → inWindow cfg t →
      ∀ I J, ¬ p.Covers I J → inp.region t I J = 0)
    (hd : cfg.restart = true → D (path cfg.tracking_start_date) = (d (path' cfg.tracking_start_date)).map p.extendFwd)
    (hstart : ∀ i j, 0 ≤ (startFwd cfg path' d).1 i j ∧ 0 ≤ (startFwd cfg path' d).2 i j)
    (hedge : ∀ i j, isBoundary ps i j → (startFwd cfg path' d).1 i j = 0 ∧ (startFwd cfg path' d).2 i j = 0)
    {s} (hs : EndsIn (fwdRun { cfg with periodic_boundary := ps } (p.cutSource src) path' d) s)
    (hloss : ∀ x ∈ s.files, ∀ i j, isBoundary ps i j → x.2.losses i j = 0) :
    ∃ S, EndsIn (fwdRun cfg src path D) S ∧ S.files = s.files.map (fun x => (x.1, p.extendFwd x.2)) ∧
      S.output = p.extendFwd s.output := by
  obtain ⟨o, r, ho, rfl⟩ := fwd_ends _ _ (p.cutInput inp) path' d (Local.runnable_cut p h ps) hs
  have ho' := fwd_init_eq _ _ path' d o ho
  have hex : ∀ x : Arr (m + 2) (n + 2) K, p.extend (fun _ _ => (0 : K)) = fun _ _ => 0 := by
    intro _
    funext I J
    unfold Place.extend
    split <;> rfl
  have hO : fwdInitialize cfg src path D = .ok (p.extendFwd o) := by
    have ho2 := ho
    unfold fwdInitialize at ho2 ⊢
    rw [h.serves.states _ le_rfl h.ordered]
    rw [Local.cut_states_ok p src _ (h.serves.states _ le_rfl h.ordered)] at ho2
    simp only at ho2 ⊢
    by_cases hr : cfg.restart = true
    · rw [if_pos hr] at ho2 ⊢
      rw [hd hr]
      rcases hD : d (path' cfg.tracking_start_date) with _ | f
      · rw [hD] at ho2; simp at ho2
      · rw [hD] at ho2
        simp only [Option.map_some] at ho2 ⊢
        injection ho2 with ho2
        subst ho2
        simp only [Place.extendFwd, FwdOutput.zeros, ofRat_zero, hex (fun _ _ => 0)]
    · rw [if_neg hr] at ho2 ⊢
      injection ho2 with ho2
      subst ho2
      simp only [Place.extendFwd, FwdOutput.zeros, ofRat_zero, hex (fun _ _ => 0)]
  obtain ⟨R, -, -, hrun⟩ := fwd_run_eq cfg src inp path D h _ hO
  refine ⟨_, ⟨cfg.steps, fun fuel hfuel => by rw [hrun, if_neg (by omega)]⟩, ?_, ?_⟩
  all_goals
    have key := fwd_regional p cfg src inp ps hf h hp ha hmask o
      (by
        intro i j
        obtain ⟨h1, h2⟩ := hstart i j
        change 0 ≤ (startFwd { cfg with periodic_boundary := ps } path' d).1 i j at h1
        change 0 ≤ (startFwd { cfg with periodic_boundary := ps } path' d).2 i j at h2
        simp [ho', FwdOutput.zeros, ofRat_zero, h1, h2])
      (by rw [ho']; exact fwd_acc_zeros _ _)
      (by
        intro i j hbd
        obtain ⟨h1, h2⟩ := hedge i j hbd
        rw [ho']
        exact ⟨h1, h2⟩)
      hloss cfg.steps le_rfl
  · exact key.2
  · exact key.1

/-! ### Backward -/

private theorem flush_extendBwd (p : Place m n M N) (o : BwdOutput (m + 2) (n + 2) K) : BwdOutput.flush (p.extendBwd o) = p.extendBwd (BwdOutput.flush o) := by
  have key : ∀ f : Arr (m + 2) (n + 2) K, (fun I J => p.extend f I J * ofRat 0) = p.extend fun i j => f i j * ofRat 0 := by
    intro f
    funext I J
    unfold Place.extend
    split
    · rfl
    · simp
  simp only [BwdOutput.flush, Place.extendBwd, key]

private theorem bwd_regional (p : Place m n M N) (cfg : RunConfig K) (src : Source M N K) (inp : Input M N K) (ps : Bool)
    (hf : p.Fits ps cfg.periodic_boundary) (h : Runnable cfg src inp)
    (hp : Physical inp cfg.tracking_start_date cfg.tracking_end_date) (ha : ∀ I, 0 < src.grid.a I)
    (hmask : ∀ t, cfg.tracking_start_date ≤ t → t ≤ cfg.tracking_end_date → inWindow cfg t →
      ∀ I J, ¬ p.Covers I J → inp.region t I J = 0)
    (o : BwdOutput (m + 2) (n + 2) K) (ho : nonnegBwd ps o) (hacc : BwdOutput.acc o = 0)
    (hb : ∀ i j, isBoundary ps i j → o.s_track_lower i j = 0 ∧ o.s_track_upper i j = 0)
    (hloss : ∀ x ∈ (bwdProc { cfg with periodic_boundary := ps } (p.cutGrid src.grid) (p.cutInput inp)).files o cfg.steps,
      ∀ i j, isBoundary ps i j → x.2.losses i j = 0) :
    ∀ k ≤ cfg.steps, (bwdProc cfg src.grid inp).out (p.extendBwd o) k =
        p.extendBwd ((bwdProc { cfg with periodic_boundary := ps } (p.cutGrid src.grid) (p.cutInput inp)).out o k) ∧
      (bwdProc cfg src.grid inp).files (p.extendBwd o) k =
        ((bwdProc { cfg with periodic_boundary := ps } (p.cutGrid src.grid) (p.cutInput inp)).files o k).map
          fun x => (x.1, p.extendBwd x.2) := by
  set q := bwdProc { cfg with periodic_boundary := ps } (p.cutGrid src.grid) (p.cutInput inp) with hq
  have hrun := Local.runnable_cut p h ps
  have hphys : Physical (p.cutInput inp) cfg.tracking_start_date cfg.tracking_end_date :=
    ⟨fun t h1 h2 i j => hp.wet t h1 h2 _ _, fun t h1 h2 i j => hp.precip t h1 h2 _ _, fun t h1 h2 i j => hp.evap t h1 h2 _ _,
      fun t h1 h2 i j => hp.region t h1 h2 _ _⟩
  have hsound : ∀ k < cfg.steps, SoundBwd ps (p.cutStates (inp.states (cfg.bwdTime (k + 1)))) (q.full o k) := fun k hk =>
    bwd_full_sound { cfg with periodic_boundary := ps } (p.cutSource src) (p.cutInput inp) hrun hphys o ho k hk
  -- storages before every step
  have hbefore : ∀ k ≤ cfg.steps, (∀ i j, 0 ≤ (q.out o k).s_track_lower i j ∧ 0 ≤ (q.out o k).s_track_upper i j) ∧
      ∀ i j, isBoundary ps i j → (q.out o k).s_track_lower i j = 0 ∧ (q.out o k).s_track_upper i j = 0 := by
    intro k hk
    rcases k with _ | k
    · exact ⟨fun i j => ⟨(ho i j).1, (ho i j).2.1⟩, hb⟩
    · have hs := hsound k hk
      have e : (q.out o (k + 1)).s_track_lower = (q.full o k).s_track_lower ∧ (q.out o (k + 1)).s_track_upper = (q.full o k).s_track_upper := by
        simp only [Proc.out]
        split <;> exact ⟨rfl, rfl⟩
      rw [e.1, e.2]
      exact ⟨fun i j => ⟨(hs.lower i j).1, (hs.upper i j).1⟩, hs.boundary⟩
  have hdt : (0 : K) < ofRat cfg.timestep := by rw [ofRat_int]; exact_mod_cast h.timestep_pos
  have he : ∀ k < cfg.steps, ∀ I J, 0 ≤ (stableFluxes cfg src.grid (inp.fluxes (cfg.bwdTime k - cfg.halfDt)) (inp.states (cfg.bwdTime k))).evap I J := by
    intro k hk I J
    have th := cfg.bwdHalf_mem h.timestep_pos h.ordered k hk
    exact hp.evap _ th.1 th.2 I J
  have hpr : ∀ k < cfg.steps, ∀ I J, 0 ≤ (stableFluxes cfg src.grid (inp.fluxes (cfg.bwdTime k - cfg.halfDt)) (inp.states (cfg.bwdTime k))).precip I J := by
    intro k hk I J
    have th := cfg.bwdHalf_mem h.timestep_pos h.ordered k hk
    exact hp.precip _ th.1 th.2 I J
  have hm : ∀ k < cfg.steps, ∀ I J, 0 ≤ maskAt cfg inp (cfg.bwdTime k) I J := by
    intro k hk
    have t0 := cfg.bwdTime_mem h.timestep_pos h.ordered k hk.le
    exact maskAt_nonneg cfg inp _ (hp.region _ t0.1 t0.2)
  have hw : ∀ k ≤ cfg.steps, Wet (inp.states (cfg.bwdTime k)) := fun k hk => by
    have t0 := cfg.bwdTime_mem h.timestep_pos h.ordered k hk
    exact hp.wet _ t0.1 t0.2
  have hfull : ∀ k, q.full o k = backtrack ps (ofRat cfg.timestep) cfg.kvf (p.cutGrid src.grid).a
        (p.cutFluxes (stableFluxes cfg src.grid (inp.fluxes (cfg.bwdTime k - cfg.halfDt)) (inp.states (cfg.bwdTime k))))
        (calculateFz (p.cutGrid src.grid).a (p.cutFluxes (stableFluxes cfg src.grid (inp.fluxes (cfg.bwdTime k - cfg.halfDt)) (inp.states (cfg.bwdTime k))))
          (p.cutStates (inp.states (cfg.bwdTime k - cfg.dt))) (p.cutStates (inp.states (cfg.bwdTime k))) (ofRat cfg.timestep) cfg.kvf)
        (p.cutStates (inp.states (cfg.bwdTime k))) (p.cutStates (inp.states (cfg.bwdTime k - cfg.dt))) (p.cut (maskAt cfg inp (cfg.bwdTime k)))
        (q.out o k) := fun k => Local.bwdStepAt_cut p cfg ps src.grid inp (cfg.bwdTime k) (q.out o k)
  -- nothing is lost at the edge in any step
  have hnone : ∀ k < cfg.steps, ∀ i j, isBoundary ps i j → (q.full o k).losses i j = (q.out o k).losses i j := by
    intro k hk i j hbd
    have hbud := q.budget o (fun x => x.losses i j) cfg.steps (fun k => (q.full o k).losses i j - (q.out o k).losses i j)
      (fun k _ => by ring) (fun x => by simp [hq, bwdProc, BwdOutput.flush]) cfg.steps le_rfl
    have hfiles : ((q.files o cfg.steps).map fun x => x.2.losses i j).sum = 0 := by
      apply List.sum_eq_zero
      intro y hy
      obtain ⟨x, hx, rfl⟩ := List.mem_map.mp hy
      exact hloss x hx i j hbd
    have hlast : (q.out o cfg.steps).losses i j = 0 := by
      have := acc_out_final_bwd { cfg with periodic_boundary := ps } (p.cutGrid src.grid) (p.cutInput inp) o hacc
      have := congrFun (congrFun (congrFun this 2) i) j
      exact this
    have hfirst : o.losses i j = 0 := by
      have := congrFun (congrFun (congrFun hacc 2) i) j
      simpa [BwdOutput.acc_2] using this
    rw [hfiles, hlast, hfirst, zero_add, zero_add] at hbud
    have hinc : ∀ l ∈ Finset.range cfg.steps, 0 ≤ (q.full o l).losses i j - (q.out o l).losses i j := by
      intro l hl
      have hl := Finset.mem_range.mp hl
      have e := Local.bwd_edge_nonneg p ps (ofRat cfg.timestep) cfg.kvf src.grid
        (stableFluxes cfg src.grid (inp.fluxes (cfg.bwdTime l - cfg.halfDt)) (inp.states (cfg.bwdTime l))) (inp.states (cfg.bwdTime l))
        (maskAt cfg inp (cfg.bwdTime l))
        (calculateFz (p.cutGrid src.grid).a (p.cutFluxes (stableFluxes cfg src.grid (inp.fluxes (cfg.bwdTime l - cfg.halfDt)) (inp.states (cfg.bwdTime l))))
          (p.cutStates (inp.states (cfg.bwdTime l - cfg.dt))) (p.cutStates (inp.states (cfg.bwdTime l))) (ofRat cfg.timestep) cfg.kvf)
        hdt ha (hw l hl.le) (hpr l hl) (hm l hl) (q.out o l) (hbefore l hl.le).1 (hbefore l hl.le).2 i j hbd
      have w1 : Wet (p.cutStates (inp.states (cfg.bwdTime l - cfg.dt))) := fun i j => by
        rw [← cfg.bwdTime_succ]; exact hw (l + 1) hl (p.r i) (p.c j)
      have c := (C14_boundary_backward ps (ofRat cfg.timestep) cfg.kvf (p.cutGrid src.grid).a
        (p.cutFluxes (stableFluxes cfg src.grid (inp.fluxes (cfg.bwdTime l - cfg.halfDt)) (inp.states (cfg.bwdTime l))))
        (calculateFz (p.cutGrid src.grid).a (p.cutFluxes (stableFluxes cfg src.grid (inp.fluxes (cfg.bwdTime l - cfg.halfDt)) (inp.states (cfg.bwdTime l))))
          (p.cutStates (inp.states (cfg.bwdTime l - cfg.dt))) (p.cutStates (inp.states (cfg.bwdTime l))) (ofRat cfg.timestep) cfg.kvf)
        (p.cutStates (inp.states (cfg.bwdTime l - cfg.dt))) (p.cutStates (inp.states (cfg.bwdTime l)))
        (p.cut (maskAt cfg inp (cfg.bwdTime l))) (q.out o l) w1 i j hbd).2.2.1
      rw [hfull l, c]
      linarith [e.1, e.2]
    have := (Finset.sum_eq_zero_iff_of_nonneg hinc).mp hbud.symm k (Finset.mem_range.mpr hk)
    linarith
  have hstep : ∀ k < cfg.steps, (bwdProc cfg src.grid inp).step k (p.extendBwd (q.out o k)) = p.extendBwd (q.full o k) := by
    intro k hk
    have hl := hnone k hk
    rw [hfull k] at hl ⊢
    refine Local.backtrack_extend p ps cfg.periodic_boundary hf (ofRat cfg.timestep) cfg.kvf src.grid _ _ _ _ _ _ hdt ha (hw k hk.le) (hpr k hk) (hm k hk)
      (q.out o k) (hbefore k hk.le).1 (hbefore k hk.le).2 ?_ ?_ ?_ hl
    · intro i j hd
      exact Local.calculateFz_cut p ps cfg.periodic_boundary hf src.grid _ _ _ _ _ i j hd
    · rw [← cfg.bwdTime_succ]; exact hw (k + 1) hk
    · intro I J hc
      have t0 := cfg.bwdTime_mem h.timestep_pos h.ordered k hk.le
      unfold maskAt
      by_cases hin : inWindow cfg (cfg.bwdTime k)
      · rw [if_pos hin]; exact hmask _ t0.1 t0.2 hin I J hc
      · rw [if_neg hin]; simp
  intro k
  induction k with
  | zero => exact fun _ => ⟨rfl, rfl⟩
  | succ k ih =>
    intro hk
    obtain ⟨ih1, ih2⟩ := ih (by omega)
    have hs := hstep k (by omega)
    have hwr : (bwdProc cfg src.grid inp).write (k + 1) = q.write (k + 1) := rfl
    constructor
    · simp only [Proc.out]
      rw [hwr, ih1, hs]
      split
      · exact flush_extendBwd p _
      · rfl
    · simp only [Proc.files, Proc.full]
      rw [hwr, ih1, hs, ih2, List.map_append]
      congr 1
      split <;> rfl

/-- **C99** (backward).  If a run on a part of the grid has no losses at the edge of that part, then the run on the whole grid
(with nothing tagged elsewhere) has the same files: the same values in the cells of the part, zero in all other cells. -/
theorem C99_no_boundary_losses_backward (p : Place m n M N) (cfg : RunConfig K) (src : Source M N K) (inp : Input M N K) (ps : Bool)
    (hf : p.Fits ps cfg.periodic_boundary) (path : ℤ → P) (path' : ℤ → P') (D : P → Option (BwdOutput (M + 2) (N + 2) K))
    (d : P' → Option (BwdOutput (m + 2) (n + 2) K)) (h : Runnable cfg src inp)
    (hp : Physical inp cfg.tracking_start_date cfg.tracking_end_date) (ha : ∀ I, 0 < src.grid.a I)
    (hmask : ∀ t, cfg.tracking_start_date ≤ t → t ≤ cfg.tracking_end_date → inWindow cfg t →
      ∀ I J, ¬ p.Covers I J → inp.region t I J = 0)
    (hd : cfg.restart = true → D (path cfg.tracking_end_date) = (d (path' cfg.tracking_end_date)).map p.extendBwd)
    (hstart : ∀ i j, 0 ≤ (startBwd cfg path' d).1 i j ∧ 0 ≤ (startBwd cfg path' d).2 i j)
    (hedge : ∀ i j, isBoundary ps i j → (startBwd cfg path' d).1 i j = 0 ∧ (startBwd cfg path' d).2 i j = 0)
    {s} (hs : EndsIn (bwdRun { cfg with periodic_boundary := ps } (p.cutSource src) path' d) s)
    (hloss : ∀ x ∈ s.files, ∀ i j, isBoundary ps i j → x.2.losses i j = 0) :
    ∃ S, EndsIn (bwdRun cfg src path D) S ∧ S.files = s.files.map (fun x => (x.1, p.extendBwd x.2)) ∧
      S.output = p.extendBwd s.output := by
  obtain ⟨o, r, ho, rfl⟩ := bwd_ends _ _ (p.cutInput inp) path' d (Local.runnable_cut p h ps) hs
  have ho' := bwd_init_eq _ _ path' d o ho
  have hex : ∀ x : Arr (m + 2) (n + 2) K, p.extend (fun _ _ => (0 : K)) = fun _ _ => 0 := by
    intro _
    funext I J
    unfold Place.extend
    split <;> rfl
  have hO : bwdInitialize cfg src path D = .ok (p.extendBwd o) := by
    have ho2 := ho
    unfold bwdInitialize at ho2 ⊢
    rw [h.serves.states _ h.ordered le_rfl]
    rw [Local.cut_states_ok p src _ (h.serves.states _ h.ordered le_rfl)] at ho2
    simp only at ho2 ⊢
    by_cases hr : cfg.restart = true
    · rw [if_pos hr] at ho2 ⊢
      rw [hd hr]
      rcases hD : d (path' cfg.tracking_end_date) with _ | f
      · rw [hD] at ho2; simp at ho2
      · rw [hD] at ho2
        simp only [Option.map_some] at ho2 ⊢
        injection ho2 with ho2
        subst ho2
        simp only [Place.extendBwd, BwdOutput.zeros, ofRat_zero, hex (fun _ _ => 0)]
    · rw [if_neg hr] at ho2 ⊢
      injection ho2 with ho2
      subst ho2
      simp only [Place.extendBwd, BwdOutput.zeros, ofRat_zero, hex (fun _ _ => 0)]
  obtain ⟨R, -, -, hrun⟩ := bwd_run_eq cfg src inp path D h _ hO
  refine ⟨_, ⟨cfg.steps, fun fuel hfuel => by rw [hrun, if_neg (by omega)]⟩, ?_, ?_⟩
  all_goals
    have key := bwd_regional p cfg src inp ps hf h hp ha hmask o
      (by
        intro i j
        obtain ⟨h1, h2⟩ := hstart i j
        change 0 ≤ (startBwd { cfg with periodic_boundary := ps } path' d).1 i j at h1
        change 0 ≤ (startBwd { cfg with periodic_boundary := ps } path' d).2 i j at h2
        simp [ho', BwdOutput.zeros, ofRat_zero, h1, h2])
      (by rw [ho']; exact bwd_acc_zeros _ _)
      (by
        intro i j hbd
        obtain ⟨h1, h2⟩ := hedge i j hbd
        rw [ho']
        exact ⟨h1, h2⟩)
      hloss cfg.steps le_rfl
  · exact key.2
  · exact key.1

end

end Wam
