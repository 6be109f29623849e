import Verif.Props.NaN
import Verif.Lemmas.RunEnds
import Mathlib.Tactic.Linarith

/-!
# C09 for runs, C21 for steps
-/
set_option linter.unusedSectionVars false
set_option linter.unusedVariables false

namespace Wam
open Spec

section
variable {m n : ℕ} {K : Type*} [Field K] [LinearOrder K] [IsStrictOrderedRing K] {P : Type*}

/-- a tracked storage of the cell is not a number -/
def Spec.BadFwd (i : Fin (m + 2)) (j : Fin (n + 2)) (o : FwdOutput (m + 2) (n + 2) (XF K)) : Prop :=
  o.s_track_lower i j = XF.nan ∨ o.s_track_upper i j = XF.nan

/-- **C09** (forward run): once the tracked storage of an interior cell is NaN in a file (or in the
restart file), both storages and the losses of that cell are NaN in every later file, whatever the data
are: the run never recovers. -/
theorem C09_run_forward (cfg : RunConfig (XF K)) (src : Source m n (XF K)) (inp : Input m n (XF K))
    (path : ℤ → P) (disk : P → Option (FwdOutput (m + 2) (n + 2) (XF K))) (h : Runnable cfg src inp)
    {s} (hs : EndsIn (fwdRun cfg src path disk) s) (i j) (hb : ¬ isBoundary cfg.periodic_boundary i j) :
    (∀ x ∈ s.files, ∀ y ∈ s.files, BadFwd i j x.2 → x.1 < y.1 →
      y.2.s_track_lower i j = XF.nan ∧ y.2.s_track_upper i j = XF.nan ∧ y.2.losses i j = XF.nan) ∧
    (∀ f, cfg.restart = true → disk (path cfg.tracking_start_date) = some f → BadFwd i j f →
      ∀ y ∈ s.files,
      y.2.s_track_lower i j = XF.nan ∧ y.2.s_track_upper i j = XF.nan ∧ y.2.losses i j = XF.nan) := by
  obtain ⟨o, r, ho, rfl⟩ := fwd_ends cfg src inp path disk h hs
  set p := fwdProc cfg src.grid inp
  have hd := cfg.dt_pos h.timestep_pos
  have step : ∀ k x, BadFwd i j x → BadFwd i j (p.step k x) ∧ (p.step k x).s_track_lower i j = XF.nan ∧
      (p.step k x).s_track_upper i j = XF.nan ∧ (p.step k x).losses i j = XF.nan := by
    intro k x hx
    have := C09_nan_stays_forward cfg.periodic_boundary (ofRat cfg.timestep) cfg.kvf src.grid.a
      (stableFluxes cfg src.grid (inp.fluxes (cfg.fwdTime k + cfg.halfDt)) (inp.states (cfg.fwdTime k)))
      (calculateFz src.grid.a (stableFluxes cfg src.grid (inp.fluxes (cfg.fwdTime k + cfg.halfDt))
        (inp.states (cfg.fwdTime k))) (inp.states (cfg.fwdTime k)) (inp.states (cfg.fwdTime k + cfg.dt))
        (ofRat cfg.timestep) cfg.kvf)
      (inp.states (cfg.fwdTime k + cfg.dt)) (inp.states (cfg.fwdTime k)) (maskAt cfg inp (cfg.fwdTime k)) x i j hb hx
    exact ⟨Or.inl this.1, this.1, this.2.1, this.2.2.1⟩
  have flush : ∀ x, BadFwd i j x → BadFwd i j (p.flush x) := fun x hx => hx
  have carry : ∀ a d, BadFwd i j (p.out o a) → BadFwd i j (p.out o (a + d)) := by
    intro a d ha
    induction d with
    | zero => exact ha
    | succ d ih =>
      rw [← Nat.add_assoc]
      simp only [Proc.out]
      split
      · exact flush _ (step _ _ ih).1
      · exact (step _ _ ih).1
  refine ⟨?_, ?_⟩
  · intro x hx y hy hbad hlt
    obtain ⟨a, ha, hwa, rfl⟩ := (Proc.mem_files _ _).mp hx
    obtain ⟨b, hb', hwb, rfl⟩ := (Proc.mem_files _ _).mp hy
    have hab : a < b := by
      have hlt' : cfg.fwdTime (a + 1) < cfg.fwdTime (b + 1) := hlt
      unfold RunConfig.fwdTime at hlt'
      by_contra hn
      have : ((b + 1 : ℕ) : ℤ) * cfg.dt ≤ ((a + 1 : ℕ) : ℤ) * cfg.dt :=
        mul_le_mul_of_nonneg_right (by exact_mod_cast Nat.succ_le_succ (not_lt.mp hn)) hd.le
      linarith
    have ha1 : BadFwd i j (p.out o (a + 1)) := by
      simp only [Proc.out]
      split
      · exact flush _ hbad
      · exact hbad
    have hb1 : BadFwd i j (p.out o b) := by
      have := carry (a + 1) (b - (a + 1)) ha1
      rwa [show a + 1 + (b - (a + 1)) = b from by omega] at this
    exact (step b _ hb1).2
  · intro f hr hf hbad y hy
    obtain ⟨b, hb', hwb, rfl⟩ := (Proc.mem_files _ _).mp hy
    have ho' : BadFwd i j o := by
      unfold fwdInitialize at ho
      rw [h.serves.states _ le_rfl h.ordered, hr, hf] at ho
      simp only [if_true] at ho
      injection ho with ho
      subst ho
      exact hbad
    have := carry 0 b ho'
    rw [Nat.zero_add] at this
    exact (step b _ this).2

/-- a tracked storage of the cell is not a number -/
def Spec.BadBwd (i : Fin (m + 2)) (j : Fin (n + 2)) (o : BwdOutput (m + 2) (n + 2) (XF K)) : Prop :=
  o.s_track_lower i j = XF.nan ∨ o.s_track_upper i j = XF.nan

/-- **C09** (backward run): once the tracked storage of an interior cell is NaN in a file (or in the
restart file), both storages and the losses of that cell are NaN in every later file, whatever the data
are: the run never recovers. -/
theorem C09_run_backward (cfg : RunConfig (XF K)) (src : Source m n (XF K)) (inp : Input m n (XF K))
    (path : ℤ → P) (disk : P → Option (BwdOutput (m + 2) (n + 2) (XF K))) (h : Runnable cfg src inp)
    {s} (hs : EndsIn (bwdRun cfg src path disk) s) (i j) (hb : ¬ isBoundary cfg.periodic_boundary i j) :
    (∀ x ∈ s.files, ∀ y ∈ s.files, BadBwd i j x.2 → y.1 < x.1 →
      y.2.s_track_lower i j = XF.nan ∧ y.2.s_track_upper i j = XF.nan ∧ y.2.losses i j = XF.nan) ∧
    (∀ f, cfg.restart = true → disk (path cfg.tracking_end_date) = some f → BadBwd i j f →
      ∀ y ∈ s.files,
      y.2.s_track_lower i j = XF.nan ∧ y.2.s_track_upper i j = XF.nan ∧ y.2.losses i j = XF.nan) := by
  obtain ⟨o, r, ho, rfl⟩ := bwd_ends cfg src inp path disk h hs
  set p := bwdProc cfg src.grid inp
  have hd := cfg.dt_pos h.timestep_pos
  have step : ∀ k x, BadBwd i j x → BadBwd i j (p.step k x) ∧ (p.step k x).s_track_lower i j = XF.nan ∧
      (p.step k x).s_track_upper i j = XF.nan ∧ (p.step k x).losses i j = XF.nan := by
    intro k x hx
    have := C09_nan_stays_backward cfg.periodic_boundary (ofRat cfg.timestep) cfg.kvf src.grid.a
      (stableFluxes cfg src.grid (inp.fluxes (cfg.bwdTime k - cfg.halfDt)) (inp.states (cfg.bwdTime k)))
      (calculateFz src.grid.a (stableFluxes cfg src.grid (inp.fluxes (cfg.bwdTime k - cfg.halfDt))
        (inp.states (cfg.bwdTime k))) (inp.states (cfg.bwdTime k - cfg.dt)) (inp.states (cfg.bwdTime k))
        (ofRat cfg.timestep) cfg.kvf)
      (inp.states (cfg.bwdTime k)) (inp.states (cfg.bwdTime k - cfg.dt)) (maskAt cfg inp (cfg.bwdTime k)) x i j hb hx
    exact ⟨Or.inl this.1, this.1, this.2.1, this.2.2⟩
  have flush : ∀ x, BadBwd i j x → BadBwd i j (p.flush x) := fun x hx => hx
  have carry : ∀ a d, BadBwd i j (p.out o a) → BadBwd i j (p.out o (a + d)) := by
    intro a d ha
    induction d with
    | zero => exact ha
    | succ d ih =>
      rw [← Nat.add_assoc]
      simp only [Proc.out]
      split
      · exact flush _ (step _ _ ih).1
      · exact (step _ _ ih).1
  refine ⟨?_, ?_⟩
  · intro x hx y hy hbad hlt
    obtain ⟨a, ha, hwa, rfl⟩ := (Proc.mem_files _ _).mp hx
    obtain ⟨b, hb', hwb, rfl⟩ := (Proc.mem_files _ _).mp hy
    have hab : a < b := by
      have hlt' : cfg.bwdTime (b + 1) < cfg.bwdTime (a + 1) := hlt
      unfold RunConfig.bwdTime at hlt'
      by_contra hn
      have : ((b + 1 : ℕ) : ℤ) * cfg.dt ≤ ((a + 1 : ℕ) : ℤ) * cfg.dt :=
        mul_le_mul_of_nonneg_right (by exact_mod_cast Nat.succ_le_succ (not_lt.mp hn)) hd.le
      linarith
    have ha1 : BadBwd i j (p.out o (a + 1)) := by
      simp only [Proc.out]
      split
      · exact flush _ hbad
      · exact hbad
    have hb1 : BadBwd i j (p.out o b) := by
      have := carry (a + 1) (b - (a + 1)) ha1
      rwa [show a + 1 + (b - (a + 1)) = b from by omega] at this
    exact (step b _ hb1).2
  · intro f hr hf hbad y hy
    obtain ⟨b, hb', hwb, rfl⟩ := (Proc.mem_files _ _).mp hy
    have ho' : BadBwd i j o := by
      unfold bwdInitialize at ho
      rw [h.serves.states _ h.ordered le_rfl, hr, hf] at ho
      simp only [if_true] at ho
      injection ho with ho
      subst ho
      exact hbad
    have := carry 0 b ho'
    rw [Nat.zero_add] at this
    exact (step b _ this).2

/-- a run over two steps with a restart file that is NaN in the central cell -/
example : ∃ (cfg : RunConfig (XF ℚ)) (src : Source 1 1 (XF ℚ)) (inp : Input 1 1 (XF ℚ))
    (disk : ℤ → Option (FwdOutput 3 3 (XF ℚ))) (f : FwdOutput 3 3 (XF ℚ)) (s : LoopState (FwdOutput 3 3 (XF ℚ)) (XF ℚ)),
    Runnable cfg src inp ∧ cfg.restart = true ∧ disk cfg.tracking_start_date = some f ∧
    BadFwd (m := 1) (n := 1) 1 1 f ∧ ¬ isBoundary (m := 3) (n := 3) cfg.periodic_boundary 1 1 ∧
    EndsIn (fwdRun cfg src id disk) s := by
  let cfg : RunConfig (XF ℚ) :=
    { tracking_start_date := 0, tracking_end_date := 1200000000, tagging_start_date := 0,
      tagging_end_date := 0, timestep := 600, output_frequency := 600000000, kvf := XF.fin 3,
      periodic_boundary := false, restart := true }
  let one : Arr 3 3 (XF ℚ) := fun _ _ => XF.fin 1
  let inp : Input 1 1 (XF ℚ) :=
    { states := fun _ => ⟨one, one⟩
      fluxes := fun _ => ⟨one, one, one, one, one, one⟩
      region := fun _ => one }
  let src : Source 1 1 (XF ℚ) :=
    { states := fun t => .ok (inp.states t), fluxes := fun t => .ok (inp.fluxes t)
      grid := ⟨fun _ => XF.fin 1, XF.fin 1, fun _ => XF.fin 1⟩
      region := .ok (.stationary one), weight := fun _ => XF.fin 1 }
  let f : FwdOutput 3 3 (XF ℚ) :=
    ⟨fun i j => if i = 1 ∧ j = 1 then XF.nan else XF.fin 0, one, one, one, one, one, one⟩
  have hrun : Runnable cfg src inp := ⟨by decide, by decide, ⟨fun _ _ _ => rfl, fun _ _ _ => rfl, ⟨_, rfl, fun _ _ _ => rfl⟩⟩⟩
  obtain ⟨o, ho⟩ := fwd_init_ok cfg src inp id (fun _ => some f) hrun (fun _ => rfl)
  obtain ⟨r, _, _, he⟩ := fwd_run_eq cfg src inp id _ hrun o ho
  exact ⟨cfg, src, inp, fun _ => some f, f, _, hrun, rfl, rfl, Or.inr rfl, by unfold isBoundary; decide,
    cfg.steps, fun fuel hf => (he fuel).trans (if_neg (not_lt.mpr hf))⟩

end

/-! ### C21 -/

section
variable {m n : ℕ} {K : Type*} [Field K] [LinearOrder K] [IsStrictOrderedRing K]

/-- **C09** (forward run): a cell in which both components of the flux in the data are zero (in one layer) at the middle of a
single time step makes the storages and losses of the cell and of its neighbours NaN in every file from that step on, to the end of
the run. -/
theorem C09_run_zero_flux_forward (cfg : RunConfig (XF K)) (src : Source m n (XF K)) (inp : Input m n (XF K))
    (path : ℤ → P) (disk : P → Option (FwdOutput (m + 2) (n + 2) (XF K))) (h : Runnable cfg src inp)
    {s} (hs : EndsIn (fwdRun cfg src path disk) s) (dy : K) (dx : Fin (m + 2) → K)
    (hdy : src.grid.dy = XF.fin dy) (hdx : ∀ i, src.grid.dx i = XF.fin (dx i))
    (k : ℕ) (i i' : Fin (m + 2)) (j j' : Fin (n + 2))
    (h0 : let F := inp.fluxes (cfg.tracking_start_date + k * (cfg.timestep * 1000000) + cfg.timestep * 500000)
      (F.fx_lower i j = XF.fin 0 ∧ F.fy_lower i j = XF.fin 0) ∨ (F.fx_upper i j = XF.fin 0 ∧ F.fy_upper i j = XF.fin 0))
    (hn : faceNeighbour cfg.periodic_boundary i i' j j') (hb : ¬ isBoundary cfg.periodic_boundary i' j') :
    ∀ y ∈ s.files, cfg.tracking_start_date + k * (cfg.timestep * 1000000) < y.1 →
      y.2.s_track_lower i' j' = XF.nan ∧ y.2.s_track_upper i' j' = XF.nan ∧ y.2.losses i' j' = XF.nan := by
  obtain ⟨o, r, ho, rfl⟩ := fwd_ends cfg src inp path disk h hs
  set p := fwdProc cfg src.grid inp
  have hd := cfg.dt_pos h.timestep_pos
  have dead : ∀ x, (p.step k x).s_track_lower i' j' = XF.nan ∧ (p.step k x).s_track_upper i' j' = XF.nan ∧
      (p.step k x).losses i' j' = XF.nan := by
    intro x
    have h0' : let F := inp.fluxes (cfg.fwdTime k + cfg.halfDt)
      (F.fx_lower i j = XF.fin 0 ∧ F.fy_lower i j = XF.fin 0) ∨ (F.fx_upper i j = XF.fin 0 ∧ F.fy_upper i j = XF.fin 0) := h0
    have hz : ((scaleFluxes src.grid (inp.fluxes (cfg.fwdTime k + cfg.halfDt))).fx_lower i j = XF.fin 0 ∧
        (scaleFluxes src.grid (inp.fluxes (cfg.fwdTime k + cfg.halfDt))).fy_lower i j = XF.fin 0) ∨
        ((scaleFluxes src.grid (inp.fluxes (cfg.fwdTime k + cfg.halfDt))).fx_upper i j = XF.fin 0 ∧
        (scaleFluxes src.grid (inp.fluxes (cfg.fwdTime k + cfg.halfDt))).fy_upper i j = XF.fin 0) := by
      simp only [scaleFluxes, hdy, hdx]
      rcases h0' with ⟨e1, e2⟩ | ⟨e1, e2⟩
      · left; rw [e1, e2]; simp
      · right; rw [e1, e2]; simp
    have hr := C09_nan_spreads_forward cfg.periodic_boundary (ofRat cfg.timestep : K) cfg.kvf src.grid.a
      (scaleFluxes src.grid (inp.fluxes (cfg.fwdTime k + cfg.halfDt)))
      (calculateFz src.grid.a (stableFluxes cfg src.grid (inp.fluxes (cfg.fwdTime k + cfg.halfDt))
        (inp.states (cfg.fwdTime k))) (inp.states (cfg.fwdTime k)) (inp.states (cfg.fwdTime k + cfg.dt))
        (ofRat cfg.timestep) cfg.kvf)
      (inp.states (cfg.fwdTime k + cfg.dt))
      (inp.states (cfg.fwdTime k)) (maskAt cfg inp (cfg.fwdTime k)) x i i' j j' hz hn hb
    exact hr
  have step : ∀ k x, BadFwd i' j' x → BadFwd i' j' (p.step k x) ∧ (p.step k x).s_track_lower i' j' = XF.nan ∧
      (p.step k x).s_track_upper i' j' = XF.nan ∧ (p.step k x).losses i' j' = XF.nan := by
    intro k x hx
    have := C09_nan_stays_forward cfg.periodic_boundary (ofRat cfg.timestep) cfg.kvf src.grid.a
      (stableFluxes cfg src.grid (inp.fluxes (cfg.fwdTime k + cfg.halfDt)) (inp.states (cfg.fwdTime k)))
      (calculateFz src.grid.a (stableFluxes cfg src.grid (inp.fluxes (cfg.fwdTime k + cfg.halfDt))
        (inp.states (cfg.fwdTime k))) (inp.states (cfg.fwdTime k)) (inp.states (cfg.fwdTime k + cfg.dt))
        (ofRat cfg.timestep) cfg.kvf)
      (inp.states (cfg.fwdTime k + cfg.dt)) (inp.states (cfg.fwdTime k)) (maskAt cfg inp (cfg.fwdTime k)) x i' j' hb hx
    exact ⟨Or.inl this.1, this.1, this.2.1, this.2.2.1⟩
  have carry : ∀ a d, BadFwd i' j' (p.out o a) → BadFwd i' j' (p.out o (a + d)) := by
    intro a d ha
    induction d with
    | zero => exact ha
    | succ d ih =>
      rw [← Nat.add_assoc]
      simp only [Proc.out]
      split
      · exact (step _ _ ih).1
      · exact (step _ _ ih).1
  intro y hy hlt
  obtain ⟨b, hb', hwb, rfl⟩ := (Proc.mem_files _ _).mp hy
  have hkb : k ≤ b := by
    have hlt' : cfg.fwdTime k < cfg.fwdTime (b + 1) := hlt
    unfold RunConfig.fwdTime at hlt'
    by_contra hn
    have : ((b + 1 : ℕ) : ℤ) * cfg.dt ≤ (k : ℤ) * cfg.dt :=
      mul_le_mul_of_nonneg_right (by exact_mod_cast Nat.succ_le_of_lt (not_le.mp hn)) hd.le
    linarith
  rcases Nat.eq_or_lt_of_le hkb with rfl | hlt
  · exact dead _
  · have h1 : BadFwd i' j' (p.out o (k + 1)) := by
      simp only [Proc.out]
      split
      · exact Or.inl (dead _).1
      · exact Or.inl (dead _).1
    have := carry (k + 1) (b - (k + 1)) h1
    rw [show k + 1 + (b - (k + 1)) = b from by omega] at this
    exact (step b _ this).2

/-- **C09** (backward run): a cell in which both components of the flux in the data are zero (in one layer) at the middle of a
single time step makes the storages and losses of the cell and of its neighbours NaN in every file from that step on, to the (early) end of
the run. -/
theorem C09_run_zero_flux_backward (cfg : RunConfig (XF K)) (src : Source m n (XF K)) (inp : Input m n (XF K))
    (path : ℤ → P) (disk : P → Option (BwdOutput (m + 2) (n + 2) (XF K))) (h : Runnable cfg src inp)
    {s} (hs : EndsIn (bwdRun cfg src path disk) s) (dy : K) (dx : Fin (m + 2) → K)
    (hdy : src.grid.dy = XF.fin dy) (hdx : ∀ i, src.grid.dx i = XF.fin (dx i))
    (k : ℕ) (i i' : Fin (m + 2)) (j j' : Fin (n + 2))
    (h0 : let F := inp.fluxes (cfg.tracking_end_date - k * (cfg.timestep * 1000000) - cfg.timestep * 500000)
      (F.fx_lower i j = XF.fin 0 ∧ F.fy_lower i j = XF.fin 0) ∨ (F.fx_upper i j = XF.fin 0 ∧ F.fy_upper i j = XF.fin 0))
    (hn : faceNeighbour cfg.periodic_boundary i i' j j') (hb : ¬ isBoundary cfg.periodic_boundary i' j') :
    ∀ y ∈ s.files, y.1 < cfg.tracking_end_date - k * (cfg.timestep * 1000000) →
      y.2.s_track_lower i' j' = XF.nan ∧ y.2.s_track_upper i' j' = XF.nan ∧ y.2.losses i' j' = XF.nan := by
  obtain ⟨o, r, ho, rfl⟩ := bwd_ends cfg src inp path disk h hs
  set p := bwdProc cfg src.grid inp
  have hd := cfg.dt_pos h.timestep_pos
  have dead : ∀ x, (p.step k x).s_track_lower i' j' = XF.nan ∧ (p.step k x).s_track_upper i' j' = XF.nan ∧
      (p.step k x).losses i' j' = XF.nan := by
    intro x
    have h0' : let F := inp.fluxes (cfg.bwdTime k - cfg.halfDt)
      (F.fx_lower i j = XF.fin 0 ∧ F.fy_lower i j = XF.fin 0) ∨ (F.fx_upper i j = XF.fin 0 ∧ F.fy_upper i j = XF.fin 0) := h0
    have hz : ((scaleFluxes src.grid (inp.fluxes (cfg.bwdTime k - cfg.halfDt))).fx_lower i j = XF.fin 0 ∧
        (scaleFluxes src.grid (inp.fluxes (cfg.bwdTime k - cfg.halfDt))).fy_lower i j = XF.fin 0) ∨
        ((scaleFluxes src.grid (inp.fluxes (cfg.bwdTime k - cfg.halfDt))).fx_upper i j = XF.fin 0 ∧
        (scaleFluxes src.grid (inp.fluxes (cfg.bwdTime k - cfg.halfDt))).fy_upper i j = XF.fin 0) := by
      simp only [scaleFluxes, hdy, hdx]
      rcases h0' with ⟨e1, e2⟩ | ⟨e1, e2⟩
      · left; rw [e1, e2]; simp
      · right; rw [e1, e2]; simp
    have hr := C09_nan_spreads_backward cfg.periodic_boundary (ofRat cfg.timestep : K) cfg.kvf src.grid.a
      (scaleFluxes src.grid (inp.fluxes (cfg.bwdTime k - cfg.halfDt)))
      (calculateFz src.grid.a (stableFluxes cfg src.grid (inp.fluxes (cfg.bwdTime k - cfg.halfDt))
        (inp.states (cfg.bwdTime k))) (inp.states (cfg.bwdTime k - cfg.dt)) (inp.states (cfg.bwdTime k))
        (ofRat cfg.timestep) cfg.kvf)
      (inp.states (cfg.bwdTime k))
      (inp.states (cfg.bwdTime k - cfg.dt)) (maskAt cfg inp (cfg.bwdTime k)) x i i' j j' hz hn hb
    exact hr
  have step : ∀ k x, BadBwd i' j' x → BadBwd i' j' (p.step k x) ∧ (p.step k x).s_track_lower i' j' = XF.nan ∧
      (p.step k x).s_track_upper i' j' = XF.nan ∧ (p.step k x).losses i' j' = XF.nan := by
    intro k x hx
    have := C09_nan_stays_backward cfg.periodic_boundary (ofRat cfg.timestep) cfg.kvf src.grid.a
      (stableFluxes cfg src.grid (inp.fluxes (cfg.bwdTime k - cfg.halfDt)) (inp.states (cfg.bwdTime k)))
      (calculateFz src.grid.a (stableFluxes cfg src.grid (inp.fluxes (cfg.bwdTime k - cfg.halfDt))
        (inp.states (cfg.bwdTime k))) (inp.states (cfg.bwdTime k - cfg.dt)) (inp.states (cfg.bwdTime k))
        (ofRat cfg.timestep) cfg.kvf)
      (inp.states (cfg.bwdTime k)) (inp.states (cfg.bwdTime k - cfg.dt)) (maskAt cfg inp (cfg.bwdTime k)) x i' j' hb hx
    exact ⟨Or.inl this.1, this.1, this.2.1, this.2.2⟩
  have carry : ∀ a d, BadBwd i' j' (p.out o a) → BadBwd i' j' (p.out o (a + d)) := by
    intro a d ha
    induction d with
    | zero => exact ha
    | succ d ih =>
      rw [← Nat.add_assoc]
      simp only [Proc.out]
      split
      · exact (step _ _ ih).1
      · exact (step _ _ ih).1
  intro y hy hlt
  obtain ⟨b, hb', hwb, rfl⟩ := (Proc.mem_files _ _).mp hy
  have hkb : k ≤ b := by
    have hlt' : cfg.bwdTime (b + 1) < cfg.bwdTime k := hlt
    unfold RunConfig.bwdTime at hlt'
    by_contra hn
    have : ((b + 1 : ℕ) : ℤ) * cfg.dt ≤ (k : ℤ) * cfg.dt :=
      mul_le_mul_of_nonneg_right (by exact_mod_cast Nat.succ_le_of_lt (not_le.mp hn)) hd.le
    linarith
  rcases Nat.eq_or_lt_of_le hkb with rfl | hlt
  · exact dead _
  · have h1 : BadBwd i' j' (p.out o (k + 1)) := by
      simp only [Proc.out]
      split
      · exact Or.inl (dead _).1
      · exact Or.inl (dead _).1
    have := carry (k + 1) (b - (k + 1)) h1
    rw [show k + 1 + (b - (k + 1)) = b from by omega] at this
    exact (step b _ this).2

/-- `lower` and `upper` split `p` in proportion to the storages `sl` and `su` -/
structure Spec.SplitBy (sl su p lower upper : K) : Prop where
  lower_nonneg : 0 ≤ lower
  upper_nonneg : 0 ≤ upper
  sum : lower + upper = p
  ratio : lower * su = upper * sl

theorem share_SplitBy (dt p sl su : K) (hdt : 0 ≤ dt) (hp : 0 ≤ p) (hl : 0 < sl) (hu : 0 < su) :
    SplitBy sl su (dt * p) (dt * share p sl su) (dt * share p su sl) := by
  obtain ⟨s1, s2, s3, s4⟩ := share_split p su sl hp hu hl
  exact ⟨mul_nonneg hdt s1, mul_nonneg hdt s2, by rw [← mul_add, s3], by
    rw [mul_assoc, s4, mul_assoc]⟩

/-- **C21** (forward): where all water is tracked, a step adds to `p_track_lower` and `p_track_upper`
the whole precipitation, split in proportion to the water of the layers at the start of the step. -/
theorem C21_split_forward (periodic : Bool) (dt kvf : K) (a : Fin (m + 2) → K)
    (F : Fluxes (m + 2) (n + 2) K) (fz : Arr (m + 2) (n + 2) K) (S1 S0 : States (m + 2) (n + 2) K)
    (mask : Arr (m + 2) (n + 2) K) (out : FwdOutput (m + 2) (n + 2) K) (hS : Wet S0) (hdt : 0 ≤ dt) (i j)
    (hP : 0 ≤ F.precip i j) (hl : out.s_track_lower i j = S0.s_lower i j)
    (hu : out.s_track_upper i j = S0.s_upper i j) :
    let out' := forwardtrack periodic dt kvf a F fz S1 S0 mask out
    SplitBy (S0.s_lower i j) (S0.s_upper i j) (dt * F.precip i j)
      (out'.p_track_lower i j - out.p_track_lower i j) (out'.p_track_upper i j - out.p_track_upper i j) := by
  intro out'
  obtain ⟨_, h2, h3⟩ := C17_increments_forward periodic dt kvf a F fz S0 S1 mask out hS i j
  have f1 : fraction (out.s_track_lower i j) (S0.s_lower i j) = 1 := by
    unfold fraction; rw [hl, div_self (hS i j).2.ne', min_self]
  have f2 : fraction (out.s_track_upper i j) (S0.s_upper i j) = 1 := by
    unfold fraction; rw [hu, div_self (hS i j).1.ne', min_self]
  have e1 : out'.p_track_lower i j - out.p_track_lower i j =
      dt * share (F.precip i j) (S0.s_lower i j) (S0.s_upper i j) := by
    show (forwardtrack periodic dt kvf a F fz S1 S0 mask out).p_track_lower i j - _ = _
    rw [h2, f1]; ring
  have e2 : out'.p_track_upper i j - out.p_track_upper i j =
      dt * share (F.precip i j) (S0.s_upper i j) (S0.s_lower i j) := by
    show (forwardtrack periodic dt kvf a F fz S1 S0 mask out).p_track_upper i j - _ = _
    rw [h3, f2]; ring
  rw [e1, e2]
  exact share_SplitBy _ _ _ _ hdt hP (hS i j).2 (hS i j).1

/-- **C21** (backward): what tagging adds to the tracked water of the two layers - compared with the same
transport without tagging - is the tagged precipitation, split in proportion to the water of the
layers at the end of the (backward) step's time interval, `t1`. -/
theorem C21_split_backward (periodic : Bool) (dt kvf : K) (a : Fin (m + 2) → K)
    (F : Fluxes (m + 2) (n + 2) K) (fz : Arr (m + 2) (n + 2) K) (S1 : States (m + 2) (n + 2) K)
    (mask tl tu : Arr (m + 2) (n + 2) K) (hS : Wet S1) (ha : ∀ i, 0 < a i) (hdt : 0 ≤ dt) (i j)
    (hP : 0 ≤ mask i j * F.precip i j) :
    let t := bwdTransport periodic dt kvf a F fz S1 mask tl tu
    let t0 := bwdTransport periodic dt kvf a F fz S1 (fun _ _ => 0) tl tu
    SplitBy (S1.s_lower i j) (S1.s_upper i j) (dt * (mask i j * F.precip i j))
      (t.1 i j - t0.1 i j) (t.2 i j - t0.2 i j) := by
  intro t t0
  obtain ⟨h1, h2⟩ := C20_backward_transport periodic dt kvf a F fz S1 mask tl tu hS ha i j
  obtain ⟨g1, g2⟩ := C20_backward_transport periodic dt kvf a F fz S1 (fun _ _ => 0) tl tu hS ha i j
  have e1 : t.1 i j - t0.1 i j = dt * share (mask i j * F.precip i j) (S1.s_lower i j) (S1.s_upper i j) := by
    show (bwdTransport periodic dt kvf a F fz S1 mask tl tu).1 i j -
      (bwdTransport periodic dt kvf a F fz S1 (fun _ _ => 0) tl tu).1 i j = _
    rw [h1, g1]; simp only [share, zero_mul, zero_div]; ring
  have e2 : t.2 i j - t0.2 i j = dt * share (mask i j * F.precip i j) (S1.s_upper i j) (S1.s_lower i j) := by
    show (bwdTransport periodic dt kvf a F fz S1 mask tl tu).2 i j -
      (bwdTransport periodic dt kvf a F fz S1 (fun _ _ => 0) tl tu).2 i j = _
    rw [h2, g2]; simp only [share, zero_mul, zero_div]; ring
  rw [e1, e2]
  exact share_SplitBy _ _ _ _ hdt hP (hS i j).2 (hS i j).1

/-- a concrete column: 30 mm below, 10 mm above, 4 mm of rain: 3 and 1 -/
example : SplitBy (30 : ℚ) 10 4 3 1 := ⟨by norm_num, by norm_num, by norm_num, by norm_num⟩

end

end Wam
