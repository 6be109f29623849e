import Verif.Spec.Mirror
import Verif.Lemmas.Run

/-! # Runs on changed data, step by step -/
set_option linter.unusedSectionVars false
set_option linter.unusedVariables false

namespace Wam
open Spec

/-- two loops that correspond in every iteration -/
theorem whileLoop_corresponds {σ τ : Type*} (R : σ → τ → Prop) (guard : σ → Bool) (guard' : τ → Bool)
    (body : σ → Except Err σ) (body' : τ → Except Err τ) (hg : ∀ s t, R s t → guard' t = guard s)
    (hb : ∀ s t, R s t → (∃ e, body s = .error e ∧ body' t = .error e) ∨
      ∃ s' t', body s = .ok s' ∧ body' t = .ok t' ∧ R s' t') (fuel : ℕ) :
    ∀ s t, R s t → Corresponds R (whileLoop guard body fuel s) (whileLoop guard' body' fuel t) := by
  induction fuel with
  | zero =>
    intro s t h
    simp only [whileLoop]
    rw [hg s t h]
    by_cases hc : guard s = true
    · rw [if_pos hc, if_pos hc]; exact .stillRunning h
    · rw [if_neg hc, if_neg hc]; exact .finished h
  | succ fuel ih =>
    intro s t h
    simp only [whileLoop]
    rw [hg s t h]
    by_cases hc : guard s = true
    · rw [if_pos hc, if_pos hc]
      rcases hb s t h with ⟨e, h1, h2⟩ | ⟨s', t', h1, h2, h3⟩
      · rw [h1, h2]; exact .raised h
      · rw [h1, h2]; exact ih _ _ h3
    · rw [if_neg hc, if_neg hc]; exact .finished h

section
variable {m n m' n' : ℕ} {α : Type*} [Add α] [Sub α] [Mul α] [Div α] [Neg α] [NpOps α] {P P' : Type*}

/-- A forward run on changed data, if every step, the start and the resetting of the sums respect the change -/
theorem fwdRun_changed (cfg cfg' : RunConfig α) (src : Source m n α) (src' : Source m' n' α) (path : ℤ → P) (path' : ℤ → P')
    (disk : P → Option (FwdOutput (m + 2) (n + 2) α)) (disk' : P' → Option (FwdOutput (m' + 2) (n' + 2) α))
    (T : FwdOutput (m + 2) (n + 2) α → FwdOutput (m' + 2) (n' + 2) α)
    (Rg : Region (m + 2) (n + 2) α → Region (m' + 2) (n' + 2) α)
    (hdt : cfg'.timestep = cfg.timestep) (hs : cfg'.tracking_start_date = cfg.tracking_start_date)
    (he : cfg'.tracking_end_date = cfg.tracking_end_date) (hu : cfg'.output_frequency = cfg.output_frequency)
    (hinit : fwdInitialize cfg' src' path' disk' = (fwdInitialize cfg src path disk).map T)
    (hz : T FwdOutput.zeros = FwdOutput.zeros) (hf : ∀ o, T o.flush = (T o).flush)
    (hr : src'.region = src.region.map Rg)
    (hstep : ∀ r, src.region = .ok r → ∀ t0 th t1 o, fwdAdvance cfg' src' (Rg r) t0 th t1 (T o) =
      (fwdAdvance cfg src r t0 th t1 o).map fun x => (T x.1, x.2)) (fuel : ℕ) :
    Corresponds (ChangedBy T) (fwdRun cfg src path disk fuel) (fwdRun cfg' src' path' disk' fuel) := by
  have hd : cfg'.dt = cfg.dt := by unfold RunConfig.dt; rw [hdt]
  have hh : cfg'.halfDt = cfg.halfDt := by unfold RunConfig.halfDt; rw [hdt]
  have hst : ∀ o, ChangedBy T (fwdStart cfg src o) (fwdStart cfg' src' (T o)) := fun o =>
    ⟨hs, by simp only [fwdStart, hs, hh], by simp only [fwdStart, hs, hd], rfl, by simp only [fwdStart, hs], rfl⟩
  unfold fwdRun
  rw [hinit]
  rcases fwdInitialize cfg src path disk with e | o
  · simp only [Except.map]
    have h := hst FwdOutput.zeros
    rw [hz] at h
    exact .raised ⟨h.t0, h.th, h.t1, h.output, rfl, h.files⟩
  · simp only [Except.map]
    rw [hr]
    rcases hreg : src.region with e | r
    · simp only [Except.map]
      exact .raised (hst o)
    · simp only [Except.map]
      refine whileLoop_corresponds (ChangedBy T) _ _ _ _ (fun s t h => ?_) (fun s t h => ?_) fuel _ _ (hst o)
      · unfold fwdGuard; rw [h.t1, he]
      · unfold fwdBody
        rw [h.t0, h.th, h.t1, h.output, hstep r hreg]
        rcases fwdAdvance cfg src r s.t0 s.th s.t1 s.output with e | ⟨o', l⟩
        · exact .inl ⟨e, rfl, rfl⟩
        · right
          simp only [Except.map, hd, hu, he]
          by_cases hc : (decide (s.t0 + cfg.dt = floorTime (s.t0 + cfg.dt) cfg.output_frequency) ||
              decide (cfg.tracking_end_date < s.t1 + cfg.dt)) = true
          · rw [if_pos hc, if_pos hc]
            exact ⟨_, _, rfl, rfl, rfl, rfl, rfl, (hf o').symm, by simp only [h.loads], by simp only [h.files, List.map_append, List.map_cons, List.map_nil]⟩
          · rw [if_neg hc, if_neg hc]
            exact ⟨_, _, rfl, rfl, rfl, rfl, rfl, rfl, by simp only [h.loads], h.files⟩

/-- A backward run on changed data, if every step, the start and the resetting of the sums respect the change -/
theorem bwdRun_changed (cfg cfg' : RunConfig α) (src : Source m n α) (src' : Source m' n' α) (path : ℤ → P) (path' : ℤ → P')
    (disk : P → Option (BwdOutput (m + 2) (n + 2) α)) (disk' : P' → Option (BwdOutput (m' + 2) (n' + 2) α))
    (T : BwdOutput (m + 2) (n + 2) α → BwdOutput (m' + 2) (n' + 2) α)
    (Rg : Region (m + 2) (n + 2) α → Region (m' + 2) (n' + 2) α)
    (hdt : cfg'.timestep = cfg.timestep) (hs : cfg'.tracking_start_date = cfg.tracking_start_date)
    (he : cfg'.tracking_end_date = cfg.tracking_end_date) (hu : cfg'.output_frequency = cfg.output_frequency)
    (hinit : bwdInitialize cfg' src' path' disk' = (bwdInitialize cfg src path disk).map T)
    (hz : T BwdOutput.zeros = BwdOutput.zeros) (hf : ∀ o, T o.flush = (T o).flush)
    (hr : src'.region = src.region.map Rg)
    (hstep : ∀ r, src.region = .ok r → ∀ t0 th t1 o, bwdAdvance cfg' src' (Rg r) t0 th t1 (T o) =
      (bwdAdvance cfg src r t0 th t1 o).map fun x => (T x.1, x.2)) (fuel : ℕ) :
    Corresponds (ChangedBy T) (bwdRun cfg src path disk fuel) (bwdRun cfg' src' path' disk' fuel) := by
  have hd : cfg'.dt = cfg.dt := by unfold RunConfig.dt; rw [hdt]
  have hh : cfg'.halfDt = cfg.halfDt := by unfold RunConfig.halfDt; rw [hdt]
  have hst : ∀ o, ChangedBy T (bwdStart cfg src o) (bwdStart cfg' src' (T o)) := fun o =>
    ⟨by simp only [bwdStart, he, hd], by simp only [bwdStart, he, hh], he, rfl, by simp only [bwdStart, he], rfl⟩
  unfold bwdRun
  rw [hinit]
  rcases bwdInitialize cfg src path disk with e | o
  · simp only [Except.map]
    have h := hst BwdOutput.zeros
    rw [hz] at h
    exact .raised ⟨h.t0, h.th, h.t1, h.output, rfl, h.files⟩
  · simp only [Except.map]
    rw [hr]
    rcases hreg : src.region with e | r
    · simp only [Except.map]
      exact .raised (hst o)
    · simp only [Except.map]
      refine whileLoop_corresponds (ChangedBy T) _ _ _ _ (fun s t h => ?_) (fun s t h => ?_) fuel _ _ (hst o)
      · unfold bwdGuard; rw [h.t0, hs]
      · unfold bwdBody
        rw [h.t0, h.th, h.t1, h.output, hstep r hreg]
        rcases bwdAdvance cfg src r s.t0 s.th s.t1 s.output with e | ⟨o', l⟩
        · exact .inl ⟨e, rfl, rfl⟩
        · right
          simp only [Except.map, hd, hu, hs]
          by_cases hc : (decide (s.t1 - cfg.dt = floorTime (s.t1 - cfg.dt) cfg.output_frequency) ||
              decide (s.t0 - cfg.dt < cfg.tracking_start_date)) = true
          · rw [if_pos hc, if_pos hc]
            exact ⟨_, _, rfl, rfl, rfl, rfl, rfl, (hf o').symm, by simp only [h.loads], by simp only [h.files, List.map_append, List.map_cons, List.map_nil]⟩
          · rw [if_neg hc, if_neg hc]
            exact ⟨_, _, rfl, rfl, rfl, rfl, rfl, rfl, by simp only [h.loads], h.files⟩

/-- steps on changed data -/
theorem fwdAdvance_changed (cfg cfg' : RunConfig α) (src : Source m n α) (src' : Source m' n' α)
    (T : FwdOutput (m + 2) (n + 2) α → FwdOutput (m' + 2) (n' + 2) α)
    (TS : States (m + 2) (n + 2) α → States (m' + 2) (n' + 2) α) (TF : Fluxes (m + 2) (n + 2) α → Fluxes (m' + 2) (n' + 2) α)
    (TA : Arr (m + 2) (n + 2) α → Arr (m' + 2) (n' + 2) α) (r : Region (m + 2) (n + 2) α) (r' : Region (m' + 2) (n' + 2) α)
    (h1 : ∀ t, src'.states t = (src.states t).map TS) (h2 : ∀ t, src'.fluxes t = (src.fluxes t).map TF)
    (h3 : ∀ t, taggingMask cfg' r' t = (taggingMask cfg r t).map fun x => (TA x.1, x.2))
    (h : ∀ S0 F S1 mask o,
      forwardtrack cfg'.periodic_boundary (ofRat cfg'.timestep) cfg'.kvf src'.grid.a
        (stabilizeFluxes (ofRat cfg'.timestep) src'.grid.a (scaleFluxes src'.grid (TF F)) (TS S0))
        (calculateFz src'.grid.a (stabilizeFluxes (ofRat cfg'.timestep) src'.grid.a (scaleFluxes src'.grid (TF F)) (TS S0))
          (TS S0) (TS S1) (ofRat cfg'.timestep) cfg'.kvf) (TS S1) (TS S0) (TA mask) (T o) =
      T (forwardtrack cfg.periodic_boundary (ofRat cfg.timestep) cfg.kvf src.grid.a
        (stabilizeFluxes (ofRat cfg.timestep) src.grid.a (scaleFluxes src.grid F) S0)
        (calculateFz src.grid.a (stabilizeFluxes (ofRat cfg.timestep) src.grid.a (scaleFluxes src.grid F) S0)
          S0 S1 (ofRat cfg.timestep) cfg.kvf) S1 S0 mask o)) (t0 th t1 : ℤ) (o : FwdOutput (m + 2) (n + 2) α) :
    fwdAdvance cfg' src' r' t0 th t1 (T o) = (fwdAdvance cfg src r t0 th t1 o).map fun x => (T x.1, x.2) := by
  unfold fwdAdvance
  rw [h1, h1, h2, h3]
  rcases src.states t0 with e | S0
  · rfl
  rcases src.fluxes th with e | F
  · rfl
  rcases src.states t1 with e | S1
  · rfl
  rcases taggingMask cfg r t0 with e | ⟨mask, l⟩
  · rfl
  simp only [Except.map]
  rw [h]

/-- steps on changed data -/
theorem bwdAdvance_changed (cfg cfg' : RunConfig α) (src : Source m n α) (src' : Source m' n' α)
    (T : BwdOutput (m + 2) (n + 2) α → BwdOutput (m' + 2) (n' + 2) α)
    (TS : States (m + 2) (n + 2) α → States (m' + 2) (n' + 2) α) (TF : Fluxes (m + 2) (n + 2) α → Fluxes (m' + 2) (n' + 2) α)
    (TA : Arr (m + 2) (n + 2) α → Arr (m' + 2) (n' + 2) α) (r : Region (m + 2) (n + 2) α) (r' : Region (m' + 2) (n' + 2) α)
    (h1 : ∀ t, src'.states t = (src.states t).map TS) (h2 : ∀ t, src'.fluxes t = (src.fluxes t).map TF)
    (h3 : ∀ t, taggingMask cfg' r' t = (taggingMask cfg r t).map fun x => (TA x.1, x.2))
    (h : ∀ S0 F S1 mask o,
      backtrack cfg'.periodic_boundary (ofRat cfg'.timestep) cfg'.kvf src'.grid.a
        (stabilizeFluxes (ofRat cfg'.timestep) src'.grid.a (scaleFluxes src'.grid (TF F)) (TS S1))
        (calculateFz src'.grid.a (stabilizeFluxes (ofRat cfg'.timestep) src'.grid.a (scaleFluxes src'.grid (TF F)) (TS S1))
          (TS S0) (TS S1) (ofRat cfg'.timestep) cfg'.kvf) (TS S1) (TS S0) (TA mask) (T o) =
      T (backtrack cfg.periodic_boundary (ofRat cfg.timestep) cfg.kvf src.grid.a
        (stabilizeFluxes (ofRat cfg.timestep) src.grid.a (scaleFluxes src.grid F) S1)
        (calculateFz src.grid.a (stabilizeFluxes (ofRat cfg.timestep) src.grid.a (scaleFluxes src.grid F) S1)
          S0 S1 (ofRat cfg.timestep) cfg.kvf) S1 S0 mask o)) (t0 th t1 : ℤ) (o : BwdOutput (m + 2) (n + 2) α) :
    bwdAdvance cfg' src' r' t0 th t1 (T o) = (bwdAdvance cfg src r t0 th t1 o).map fun x => (T x.1, x.2) := by
  unfold bwdAdvance
  rw [h1, h1, h2, h3]
  rcases src.states t0 with e | S0
  · rfl
  rcases src.fluxes th with e | F
  · rfl
  rcases src.states t1 with e | S1
  · rfl
  rcases taggingMask cfg r t1 with e | ⟨mask, l⟩
  · rfl
  simp only [Except.map]
  rw [h]

/-- the start of a forward run on changed data -/
theorem fwdInitialize_changed (cfg cfg' : RunConfig α) (src : Source m n α) (src' : Source m' n' α) (path : ℤ → P) (path' : ℤ → P')
    (disk : P → Option (FwdOutput (m + 2) (n + 2) α)) (disk' : P' → Option (FwdOutput (m' + 2) (n' + 2) α))
    (T : FwdOutput (m + 2) (n + 2) α → FwdOutput (m' + 2) (n' + 2) α)
    (TS : States (m + 2) (n + 2) α → States (m' + 2) (n' + 2) α)
    (h1 : ∀ t, src'.states t = (src.states t).map TS) (hs : cfg'.tracking_start_date = cfg.tracking_start_date)
    (hr : cfg'.restart = cfg.restart) (hz : T FwdOutput.zeros = FwdOutput.zeros)
    (hz' : ∀ ds : FwdOutput (m + 2) (n + 2) α,
      T { FwdOutput.zeros with s_track_upper := ds.s_track_upper, s_track_lower := ds.s_track_lower } =
        { FwdOutput.zeros with s_track_upper := (T ds).s_track_upper, s_track_lower := (T ds).s_track_lower })
    (hd : cfg.restart = true → disk' (path' cfg.tracking_start_date) = (disk (path cfg.tracking_start_date)).map T) :
    fwdInitialize cfg' src' path' disk' = (fwdInitialize cfg src path disk).map T := by
  unfold fwdInitialize
  rw [hs, h1]
  rcases src.states cfg.tracking_start_date with e | S0
  · rfl
  simp only [Except.map, hr]
  by_cases hc : cfg.restart = true
  · rw [if_pos hc, if_pos hc, hd hc]
    rcases disk (path cfg.tracking_start_date) with _ | f
    · rfl
    · simp only [Option.map_some]; rw [hz']
  · rw [if_neg hc, if_neg hc]
    simp only; rw [hz]

/-- the start of a backward run on changed data -/
theorem bwdInitialize_changed (cfg cfg' : RunConfig α) (src : Source m n α) (src' : Source m' n' α) (path : ℤ → P) (path' : ℤ → P')
    (disk : P → Option (BwdOutput (m + 2) (n + 2) α)) (disk' : P' → Option (BwdOutput (m' + 2) (n' + 2) α))
    (T : BwdOutput (m + 2) (n + 2) α → BwdOutput (m' + 2) (n' + 2) α)
    (TS : States (m + 2) (n + 2) α → States (m' + 2) (n' + 2) α)
    (h1 : ∀ t, src'.states t = (src.states t).map TS) (hs : cfg'.tracking_end_date = cfg.tracking_end_date)
    (hr : cfg'.restart = cfg.restart) (hz : T BwdOutput.zeros = BwdOutput.zeros)
    (hz' : ∀ ds : BwdOutput (m + 2) (n + 2) α,
      T { BwdOutput.zeros with s_track_upper := ds.s_track_upper, s_track_lower := ds.s_track_lower } =
        { BwdOutput.zeros with s_track_upper := (T ds).s_track_upper, s_track_lower := (T ds).s_track_lower })
    (hd : cfg.restart = true → disk' (path' cfg.tracking_end_date) = (disk (path cfg.tracking_end_date)).map T) :
    bwdInitialize cfg' src' path' disk' = (bwdInitialize cfg src path disk).map T := by
  unfold bwdInitialize
  rw [hs, h1]
  rcases src.states cfg.tracking_end_date with e | S0
  · rfl
  simp only [Except.map, hr]
  by_cases hc : cfg.restart = true
  · rw [if_pos hc, if_pos hc, hd hc]
    rcases disk (path cfg.tracking_end_date) with _ | f
    · rfl
    · simp only [Option.map_some]; rw [hz']
  · rw [if_neg hc, if_neg hc]
    simp only; rw [hz]

/-- a source of the same data cannot be told apart by the mask -/
theorem taggingMask_changed (cfg cfg' : RunConfig α) (TA : Arr (m + 2) (n + 2) α → Arr (m' + 2) (n' + 2) α)
    (r : Region (m + 2) (n + 2) α) (r' : Region (m' + 2) (n' + 2) α)
    (hw : cfg'.tagging_start_date = cfg.tagging_start_date) (hw' : cfg'.tagging_end_date = cfg.tagging_end_date)
    (h0 : TA (fun _ _ => ofRat 0) = fun _ _ => ofRat 0)
    (hr : match r, r' with
      | .stationary mask, .stationary mask' => mask' = TA mask
      | .moving f, .moving f' => ∀ t, f' t = (f t).map TA
      | _, _ => False) (t : ℤ) :
    taggingMask cfg' r' t = (taggingMask cfg r t).map fun x => (TA x.1, x.2) := by
  unfold taggingMask
  rw [hw, hw']
  by_cases hc : cfg.tagging_start_date ≤ t ∧ t ≤ cfg.tagging_end_date
  · rw [if_pos hc, if_pos hc]
    cases r <;> cases r' <;> simp only at hr ⊢
    · rw [hr]; rfl
    · rw [hr]
      rename_i f f'
      rcases f t with e | mask <;> rfl
  · rw [if_neg hc, if_neg hc]
    simp only [Except.map]; rw [h0]

end

end Wam
