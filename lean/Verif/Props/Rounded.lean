import Verif.Lemmas.Rounded
import Verif.Lemmas.Demo
import Verif.Props.Restart
import Mathlib.Data.Rat.Floor

/-!
# C85: what survives rounding

The theorems of the other modules are about exact arithmetic.  Here every `+ - * /` of a tracking run is
rounded (`Model/Rounded`): float32, float64, any rounding mode that is monotone and symmetric.
The statements are those of C13, C14, C17, C19, C26, C28, C29 and C30, without any error term.
-/
set_option linter.unusedSectionVars false
set_option linter.unusedVariables false

namespace Wam
open Spec

variable {m n : ℕ} {K : Type*} [Field K] [LinearOrder K] [IsStrictOrderedRing K] {R : Rounding K}
  {P : Type*}

/-! ### One step -/

section
variable (periodic : Bool) (dt kvf : Fl R) (a : Fin (m + 2) → Fl R)
  (F : Fluxes (m + 2) (n + 2) (Fl R)) (fz : Arr (m + 2) (n + 2) (Fl R))
  (S0 S1 : States (m + 2) (n + 2) (Fl R)) (mask : Arr (m + 2) (n + 2) (Fl R))

/-- **C85** (forward step): with rounding, tracked water lies between 0 and the water of the layer at the
new time, for any fluxes, mask, time step, areas and previous state. -/
theorem C85_tracked_within_storage_forward (out : FwdOutput (m + 2) (n + 2) (Fl R))
    (h : ∀ i j, 0 ≤ S1.s_upper i j ∧ 0 ≤ S1.s_lower i j) (i j) :
    let out' := forwardtrack periodic dt kvf a F fz S1 S0 mask out
    (0 ≤ out'.s_track_lower i j ∧ out'.s_track_lower i j ≤ S1.s_lower i j) ∧
    (0 ≤ out'.s_track_upper i j ∧ out'.s_track_upper i j ≤ S1.s_upper i j) :=
  settleFl_bounds (getBoundary periodic i j)
    ((fwdTransport periodic dt kvf a F fz S0 mask out.s_track_lower out.s_track_upper).1 i j)
    ((fwdTransport periodic dt kvf a F fz S0 mask out.s_track_lower out.s_track_upper).2 i j)
    _ _ (h i j).2 (h i j).1

/-- **C85** (backward step) -/
theorem C85_tracked_within_storage_backward (out : BwdOutput (m + 2) (n + 2) (Fl R))
    (h : ∀ i j, 0 ≤ S0.s_upper i j ∧ 0 ≤ S0.s_lower i j) (i j) :
    let out' := backtrack periodic dt kvf a F fz S1 S0 mask out
    (0 ≤ out'.s_track_lower i j ∧ out'.s_track_lower i j ≤ S0.s_lower i j) ∧
    (0 ≤ out'.s_track_upper i j ∧ out'.s_track_upper i j ≤ S0.s_upper i j) :=
  settleFl_bounds (getBoundary periodic i j)
    ((bwdTransport periodic dt kvf a F fz S1 mask out.s_track_lower out.s_track_upper).1 i j)
    ((bwdTransport periodic dt kvf a F fz S1 mask out.s_track_lower out.s_track_upper).2 i j)
    _ _ (h i j).2 (h i j).1

/-- **C85** (forward step): with rounding, boundary cells hold no tracked water after a step and gain
nothing. -/
theorem C85_boundary_forward (out : FwdOutput (m + 2) (n + 2) (Fl R))
    (h : ∀ i j, 0 ≤ S1.s_upper i j ∧ 0 ≤ S1.s_lower i j) (i j) (hb : isBoundary periodic i j) :
    let out' := forwardtrack periodic dt kvf a F fz S1 S0 mask out
    out'.s_track_lower i j = 0 ∧ out'.s_track_upper i j = 0 ∧ out'.gains i j = out.gains i j := by
  have hb' := (getBoundary_iff periodic i j).2 hb
  simp only [forwardtrack, hb']
  rw [settleFl_boundary _ _ _ _ (h i j).2 (h i j).1]
  simp

/-- **C85** (backward step) -/
theorem C85_boundary_backward (out : BwdOutput (m + 2) (n + 2) (Fl R))
    (h : ∀ i j, 0 ≤ S0.s_upper i j ∧ 0 ≤ S0.s_lower i j) (i j) (hb : isBoundary periodic i j) :
    let out' := backtrack periodic dt kvf a F fz S1 S0 mask out
    out'.s_track_lower i j = 0 ∧ out'.s_track_upper i j = 0 ∧ out'.gains i j = out.gains i j := by
  have hb' := (getBoundary_iff periodic i j).2 hb
  simp only [backtrack, hb']
  rw [settleFl_boundary _ _ _ _ (h i j).2 (h i j).1]
  simp

/-- **C85** (forward step): with rounding, tracked precipitation never decreases, and a step adds at most
the precipitation of the layer (as it is computed: `precip * s / (s_upper + s_lower) * dt`, each operation
rounded); tagged evaporation, gains and, away from the boundary, losses never decrease. -/
theorem C85_increments_forward (out : FwdOutput (m + 2) (n + 2) (Fl R)) (hdt : 0 ≤ dt)
    (h0 : ∀ i j, 0 ≤ S0.s_upper i j ∧ 0 ≤ S0.s_lower i j) (hp : ∀ i j, 0 ≤ F.precip i j)
    (he : ∀ i j, 0 ≤ F.evap i j) (hm : ∀ i j, 0 ≤ mask i j)
    (ht : ∀ i j, 0 ≤ out.s_track_upper i j ∧ 0 ≤ out.s_track_lower i j) (i j) :
    let out' := forwardtrack periodic dt kvf a F fz S1 S0 mask out
    (out.p_track_lower i j ≤ out'.p_track_lower i j ∧
      out'.p_track_lower i j ≤ out.p_track_lower i j +
        F.precip i j * S0.s_lower i j / (S0.s_upper i j + S0.s_lower i j) * dt) ∧
    (out.p_track_upper i j ≤ out'.p_track_upper i j ∧
      out'.p_track_upper i j ≤ out.p_track_upper i j +
        F.precip i j * S0.s_upper i j / (S0.s_upper i j + S0.s_lower i j) * dt) ∧
    out.tagged_evap i j ≤ out'.tagged_evap i j ∧ out.gains i j ≤ out'.gains i j ∧
    (¬ isBoundary periodic i j → out.losses i j ≤ out'.losses i j) := by
  obtain ⟨hu, hl⟩ := h0 i j
  obtain ⟨tu, tl⟩ := ht i j
  have hs : ∀ s : Fl R, 0 ≤ s → 0 ≤ F.precip i j * s / (S0.s_upper i j + S0.s_lower i j) :=
    fun s h => Fl.div_nonneg (Fl.mul_nonneg (hp i j) h) (Fl.add_nonneg hu hl)
  have key : ∀ s t : Fl R, 0 ≤ s → 0 ≤ t → ∀ o : Fl R,
      o ≤ o + F.precip i j * s / (S0.s_upper i j + S0.s_lower i j) * relStorage t s * dt ∧
      o + F.precip i j * s / (S0.s_upper i j + S0.s_lower i j) * relStorage t s * dt ≤
        o + F.precip i j * s / (S0.s_upper i j + S0.s_lower i j) * dt := fun s t h h' o =>
    ⟨Fl.le_add_right (Fl.mul_nonneg (Fl.mul_nonneg (hs s h) (relStorageFl_nonneg h' h)) hdt),
      Fl.add_le_add le_rfl (Fl.mul_le_mul_right
        (Fl.mul_le_of_le_one (hs s h) (relStorageFl_le_one t s)) hdt)⟩
  refine ⟨key _ _ hl tl _, key _ _ hu tu _, ?_, ?_, fun hb => ?_⟩
  · exact Fl.le_add_right (Fl.mul_nonneg (Fl.mul_nonneg (hm i j) (he i j)) hdt)
  · exact Fl.le_add_right (settleFl_gains _ _ _ _ _)
  · have hb' : getBoundary periodic i j = false := by
      rw [Bool.eq_false_iff]; exact fun h => hb ((getBoundary_iff periodic i j).1 h)
    simp only [forwardtrack, hb']
    exact Fl.le_add_right (settleFl_losses _ _ _ _)

/-- **C85** (backward step): the same for tracked evaporation (at most the evaporation), tagged
precipitation, gains and losses. -/
theorem C85_increments_backward (out : BwdOutput (m + 2) (n + 2) (Fl R)) (hdt : 0 ≤ dt)
    (h1 : ∀ i j, 0 ≤ S1.s_lower i j) (hp : ∀ i j, 0 ≤ F.precip i j)
    (he : ∀ i j, 0 ≤ F.evap i j) (hm : ∀ i j, 0 ≤ mask i j)
    (ht : ∀ i j, 0 ≤ out.s_track_lower i j) (i j) :
    let out' := backtrack periodic dt kvf a F fz S1 S0 mask out
    (out.e_track i j ≤ out'.e_track i j ∧
      out'.e_track i j ≤ out.e_track i j + F.evap i j * dt) ∧
    out.tagged_precip i j ≤ out'.tagged_precip i j ∧ out.gains i j ≤ out'.gains i j ∧
    (¬ isBoundary periodic i j → out.losses i j ≤ out'.losses i j) := by
  refine ⟨⟨?_, ?_⟩, ?_, ?_, fun hb => ?_⟩
  · exact Fl.le_add_right (Fl.mul_nonneg (Fl.mul_nonneg (he i j)
      (relStorageFl_nonneg (ht i j) (h1 i j))) hdt)
  · exact Fl.add_le_add le_rfl (Fl.mul_le_mul_right
      (Fl.mul_le_of_le_one (he i j) (relStorageFl_le_one _ _)) hdt)
  · exact Fl.le_add_right (Fl.mul_nonneg (Fl.mul_nonneg (hm i j) (hp i j)) hdt)
  · exact Fl.le_add_right (settleFl_gains _ _ _ _ _)
  · have hb' : getBoundary periodic i j = false := by
      rw [Bool.eq_false_iff]; exact fun h => hb ((getBoundary_iff periodic i j).1 h)
    simp only [backtrack, hb']
    exact Fl.le_add_right (settleFl_losses _ _ _ _)

theorem settleFl_zero (bnd : Bool) {Sl Su : Fl R} (hl : 0 ≤ Sl) (hu : 0 ≤ Su) :
    settle bnd 0 0 Sl Su = ⟨0, 0, 0, 0⟩ := by
  have h1 : max 0 (0 - Sl) = (0 : Fl R) := max_eq_left (Fl.sub_nonpos hl)
  have h2 : max 0 (0 - Su) = (0 : Fl R) := max_eq_left (Fl.sub_nonpos hu)
  cases bnd <;> simp [settle, h1, h2, hl, hu]

/-- **C85** (forward step): with rounding, without tagging and without tracked water nothing happens: not
even rounding noise. -/
theorem C85_nothing_from_nothing_forward (out : FwdOutput (m + 2) (n + 2) (Fl R))
    (h : ∀ i j, 0 ≤ S1.s_upper i j ∧ 0 ≤ S1.s_lower i j) (hm : ∀ i j, mask i j = 0)
    (hl : ∀ i j, out.s_track_lower i j = 0) (hu : ∀ i j, out.s_track_upper i j = 0) :
    forwardtrack periodic dt kvf a F fz S1 S0 mask out = out := by
  have ht : fwdTransport periodic dt kvf a F fz S0 mask out.s_track_lower out.s_track_upper =
      (fun _ _ => 0, fun _ _ => 0) := by
    refine Prod.ext ?_ ?_ <;> funext i j <;>
      simp only [fwdTransport, verticalAdvection, verticalDispersion] <;>
      simp [hl, hu, hm, relStorageFl_zero, advectFl_zero]
  unfold forwardtrack
  rw [ht]
  obtain ⟨su, sl, pu, pl, te, lo, ga⟩ := out
  simp only at hl hu
  simp only [FwdOutput.mk.injEq]
  refine ⟨?_, ?_, ?_, ?_, ?_, ?_, ?_⟩ <;> funext i j <;>
    simp [hl, hu, hm, relStorageFl_zero, settleFl_zero _ (h i j).2 (h i j).1]

/-- **C85** (backward step) -/
theorem C85_nothing_from_nothing_backward (out : BwdOutput (m + 2) (n + 2) (Fl R))
    (h : ∀ i j, 0 ≤ S0.s_upper i j ∧ 0 ≤ S0.s_lower i j) (hm : ∀ i j, mask i j = 0)
    (hl : ∀ i j, out.s_track_lower i j = 0) (hu : ∀ i j, out.s_track_upper i j = 0) :
    backtrack periodic dt kvf a F fz S1 S0 mask out = out := by
  have ht : bwdTransport periodic dt kvf a F fz S1 mask out.s_track_lower out.s_track_upper =
      (fun _ _ => 0, fun _ _ => 0) := by
    refine Prod.ext ?_ ?_ <;> funext i j <;>
      simp only [bwdTransport, verticalAdvection, verticalDispersion] <;>
      simp [hl, hu, hm, relStorageFl_zero, advectFl_zero]
  unfold backtrack
  rw [ht]
  obtain ⟨su, sl, et, tp, lo, ga⟩ := out
  simp only at hl hu
  simp only [BwdOutput.mk.injEq]
  refine ⟨?_, ?_, ?_, ?_, ?_, ?_⟩ <;> funext i j <;>
    simp [hl, hu, hm, relStorageFl_zero, settleFl_zero _ (h i j).2 (h i j).1]

end

/-! ### Runs -/

/-- non-negative fields -/
def nonnegFwdFl (periodic : Bool) (f : FwdOutput (m + 2) (n + 2) (Fl R)) : Prop :=
  ∀ i j, 0 ≤ f.s_track_lower i j ∧ 0 ≤ f.s_track_upper i j ∧ 0 ≤ f.tagged_evap i j ∧
    0 ≤ f.p_track_lower i j ∧ 0 ≤ f.p_track_upper i j ∧ 0 ≤ f.gains i j ∧
    (¬ isBoundary periodic i j → 0 ≤ f.losses i j)

/-- non-negative fields -/
def nonnegBwdFl (periodic : Bool) (f : BwdOutput (m + 2) (n + 2) (Fl R)) : Prop :=
  ∀ i j, 0 ≤ f.s_track_lower i j ∧ 0 ≤ f.s_track_upper i j ∧ 0 ≤ f.tagged_precip i j ∧
    0 ≤ f.e_track i j ∧ 0 ≤ f.gains i j ∧ (¬ isBoundary periodic i j → 0 ≤ f.losses i j)

theorem maskAtFl_nonneg (cfg : RunConfig (Fl R)) (inp : Input m n (Fl R)) (t : ℤ)
    (h : ∀ i j, 0 ≤ inp.region t i j) (i j) : 0 ≤ maskAt cfg inp t i j := by
  unfold maskAt
  split
  · exact h i j
  · simp

theorem fwd_step_soundFl (periodic : Bool) (dt kvf : Fl R) (a) (F : Fluxes (m + 2) (n + 2) (Fl R)) (fz)
    (S0 S1 : States (m + 2) (n + 2) (Fl R)) (mask) (out : FwdOutput (m + 2) (n + 2) (Fl R))
    (hdt : 0 ≤ dt) (h0 : ∀ i j, 0 < S0.s_upper i j ∧ 0 < S0.s_lower i j)
    (h1 : ∀ i j, 0 < S1.s_upper i j ∧ 0 < S1.s_lower i j) (hp : ∀ i j, 0 ≤ F.precip i j)
    (he : ∀ i j, 0 ≤ F.evap i j) (hm : ∀ i j, 0 ≤ mask i j) (hx : nonnegFwdFl periodic out) :
    SoundFwd periodic S1 (forwardtrack periodic dt kvf a F fz S1 S0 mask out) := by
  have w1 : ∀ i j, 0 ≤ S1.s_upper i j ∧ 0 ≤ S1.s_lower i j := fun i j => ⟨(h1 i j).1.le, (h1 i j).2.le⟩
  have hinc := C85_increments_forward periodic dt kvf a F fz S0 S1 mask out hdt
    (fun i j => ⟨(h0 i j).1.le, (h0 i j).2.le⟩) hp he hm (fun i j => ⟨(hx i j).2.1, (hx i j).1⟩)
  refine ⟨fun i j => (C85_tracked_within_storage_forward periodic dt kvf a F fz S0 S1 mask out w1
      i j).1, fun i j => (C85_tracked_within_storage_forward periodic dt kvf a F fz S0 S1 mask out w1
      i j).2, fun i j hb => ?_, fun i j => ?_, fun i j => ?_, fun i j => ?_, fun i j hb => ?_⟩
  · have := C85_boundary_forward periodic dt kvf a F fz S0 S1 mask out w1 i j hb
    exact ⟨this.1, this.2.1⟩
  · exact (hx i j).2.2.1.trans (hinc i j).2.2.1
  · exact ⟨(hx i j).2.2.2.1.trans (hinc i j).1.1, (hx i j).2.2.2.2.1.trans (hinc i j).2.1.1⟩
  · exact (hx i j).2.2.2.2.2.1.trans (hinc i j).2.2.2.1
  · exact ((hx i j).2.2.2.2.2.2 hb).trans ((hinc i j).2.2.2.2 hb)

theorem bwd_step_soundFl (periodic : Bool) (dt kvf : Fl R) (a) (F : Fluxes (m + 2) (n + 2) (Fl R)) (fz)
    (S0 S1 : States (m + 2) (n + 2) (Fl R)) (mask) (out : BwdOutput (m + 2) (n + 2) (Fl R))
    (hdt : 0 ≤ dt) (h0 : ∀ i j, 0 < S0.s_upper i j ∧ 0 < S0.s_lower i j)
    (h1 : ∀ i j, 0 < S1.s_upper i j ∧ 0 < S1.s_lower i j) (hp : ∀ i j, 0 ≤ F.precip i j)
    (he : ∀ i j, 0 ≤ F.evap i j) (hm : ∀ i j, 0 ≤ mask i j) (hx : nonnegBwdFl periodic out) :
    SoundBwd periodic S0 (backtrack periodic dt kvf a F fz S1 S0 mask out) := by
  have w0 : ∀ i j, 0 ≤ S0.s_upper i j ∧ 0 ≤ S0.s_lower i j := fun i j => ⟨(h0 i j).1.le, (h0 i j).2.le⟩
  have hinc := C85_increments_backward periodic dt kvf a F fz S0 S1 mask out hdt
    (fun i j => (h1 i j).2.le) hp he hm (fun i j => (hx i j).1)
  refine ⟨fun i j => (C85_tracked_within_storage_backward periodic dt kvf a F fz S0 S1 mask out w0
      i j).1, fun i j => (C85_tracked_within_storage_backward periodic dt kvf a F fz S0 S1 mask out w0
      i j).2, fun i j hb => ?_, fun i j => ?_, fun i j => ?_, fun i j => ?_, fun i j hb => ?_⟩
  · have := C85_boundary_backward periodic dt kvf a F fz S0 S1 mask out w0 i j hb
    exact ⟨this.1, this.2.1⟩
  · exact (hx i j).2.2.1.trans (hinc i j).2.1
  · exact (hx i j).2.2.2.1.trans (hinc i j).1.1
  · exact (hx i j).2.2.2.2.1.trans (hinc i j).2.2.1
  · exact ((hx i j).2.2.2.2.2 hb).trans ((hinc i j).2.2.2 hb)

section
variable (cfg : RunConfig (Fl R)) (src : Source m n (Fl R)) (inp : Input m n (Fl R)) (path : ℤ → P)

theorem fwd_full_soundFl (h : Runnable cfg src inp)
    (hp : Physical inp cfg.tracking_start_date cfg.tracking_end_date) (o)
    (ho : nonnegFwdFl cfg.periodic_boundary o) (k : ℕ) (hk : k < cfg.steps) :
    SoundFwd cfg.periodic_boundary (inp.states (cfg.fwdTime (k + 1)))
      ((fwdProc cfg src.grid inp).full o k) := by
  have hpos := h.timestep_pos
  have hAB := h.ordered
  have step : ∀ k < cfg.steps, ∀ x, nonnegFwdFl cfg.periodic_boundary x →
      SoundFwd cfg.periodic_boundary (inp.states (cfg.fwdTime (k + 1)))
        ((fwdProc cfg src.grid inp).step k x) := by
    intro k hk x hx
    have t0 := cfg.fwdTime_mem hpos hAB k hk.le
    have t1 := cfg.fwdTime_mem hpos hAB (k + 1) hk
    have th := cfg.fwdHalf_mem hpos hAB k hk
    simp only [fwdProc, fwdStepAt, ← cfg.fwdTime_succ]
    apply fwd_step_soundFl
    · exact Fl.ofRat_nonneg (by exact_mod_cast hpos.le)
    · exact hp.wet _ t0.1 t0.2
    · exact hp.wet _ t1.1 t1.2
    · exact hp.precip _ th.1 th.2
    · exact hp.evap _ th.1 th.2
    · exact maskAtFl_nonneg cfg inp _ (hp.region _ t0.1 t0.2)
    · exact hx
  refine step k hk _ ?_
  refine (fwdProc cfg src.grid inp).out_inv o (fun _ x => nonnegFwdFl cfg.periodic_boundary x) ho
    cfg.steps (fun k hk x hx i j => ?_) ?_ k hk.le
  · have s := step k hk x hx
    exact ⟨(s.lower i j).1, (s.upper i j).1, s.tagged i j, (s.tracked i j).1, (s.tracked i j).2,
      s.gains i j, s.losses i j⟩
  · intro _ x hx i j
    obtain ⟨h1, h2, _⟩ := hx i j
    simp [fwdProc, FwdOutput.flush, h1, h2]

theorem bwd_full_soundFl (h : Runnable cfg src inp)
    (hp : Physical inp cfg.tracking_start_date cfg.tracking_end_date) (o)
    (ho : nonnegBwdFl cfg.periodic_boundary o) (k : ℕ) (hk : k < cfg.steps) :
    SoundBwd cfg.periodic_boundary (inp.states (cfg.bwdTime (k + 1)))
      ((bwdProc cfg src.grid inp).full o k) := by
  have hpos := h.timestep_pos
  have hAB := h.ordered
  have step : ∀ k < cfg.steps, ∀ x, nonnegBwdFl cfg.periodic_boundary x →
      SoundBwd cfg.periodic_boundary (inp.states (cfg.bwdTime (k + 1)))
        ((bwdProc cfg src.grid inp).step k x) := by
    intro k hk x hx
    have t0 := cfg.bwdTime_mem hpos hAB k hk.le
    have t1 := cfg.bwdTime_mem hpos hAB (k + 1) hk
    have th := cfg.bwdHalf_mem hpos hAB k hk
    simp only [bwdProc, bwdStepAt, ← cfg.bwdTime_succ]
    apply bwd_step_soundFl
    · exact Fl.ofRat_nonneg (by exact_mod_cast hpos.le)
    · exact hp.wet _ t1.1 t1.2
    · exact hp.wet _ t0.1 t0.2
    · exact hp.precip _ th.1 th.2
    · exact hp.evap _ th.1 th.2
    · exact maskAtFl_nonneg cfg inp _ (hp.region _ t0.1 t0.2)
    · exact hx
  refine step k hk _ ?_
  refine (bwdProc cfg src.grid inp).out_inv o (fun _ x => nonnegBwdFl cfg.periodic_boundary x) ho
    cfg.steps (fun k hk x hx i j => ?_) ?_ k hk.le
  · have s := step k hk x hx
    exact ⟨(s.lower i j).1, (s.upper i j).1, s.tagged i j, s.tracked i j, s.gains i j, s.losses i j⟩
  · intro _ x hx i j
    obtain ⟨h1, h2, _⟩ := hx i j
    simp [bwdProc, BwdOutput.flush, h1, h2]

/-- **C85** (forward run): with every arithmetic operation of the run rounded, in every file of every run
tracked storage is between 0 and the storage at the time of the file, it is zero at the boundary, and
tagged, tracked and gained water are non-negative. -/
theorem C85_files_are_sound_forward (disk : P → Option (FwdOutput (m + 2) (n + 2) (Fl R)))
    (h : Runnable cfg src inp)
    (hp : Physical inp cfg.tracking_start_date cfg.tracking_end_date)
    (hstart : ∀ i j, 0 ≤ (startFwd cfg path disk).1 i j ∧ 0 ≤ (startFwd cfg path disk).2 i j)
    {s} (hs : EndsIn (fwdRun cfg src path disk) s) :
    ∀ x ∈ s.files, SoundFwd cfg.periodic_boundary (inp.states x.1) x.2 := by
  obtain ⟨o, r, ho, rfl⟩ := fwd_ends cfg src inp path disk h hs
  have ho' := fwd_init_eq' cfg src Fl.ofRat_zero path disk o ho
  intro x hx
  obtain ⟨i, hi, _, rfl⟩ := (Proc.mem_files _ _).mp hx
  refine fwd_full_soundFl cfg src inp h hp o ?_ i hi
  intro i j
  obtain ⟨h1, h2⟩ := hstart i j
  simp [ho', FwdOutput.zeros, h1, h2]

/-- **C85** (backward run) -/
theorem C85_files_are_sound_backward (disk : P → Option (BwdOutput (m + 2) (n + 2) (Fl R)))
    (h : Runnable cfg src inp)
    (hp : Physical inp cfg.tracking_start_date cfg.tracking_end_date)
    (hstart : ∀ i j, 0 ≤ (startBwd cfg path disk).1 i j ∧ 0 ≤ (startBwd cfg path disk).2 i j)
    {s} (hs : EndsIn (bwdRun cfg src path disk) s) :
    ∀ x ∈ s.files, SoundBwd cfg.periodic_boundary (inp.states x.1) x.2 := by
  obtain ⟨o, r, ho, rfl⟩ := bwd_ends cfg src inp path disk h hs
  have ho' := bwd_init_eq' cfg src Fl.ofRat_zero path disk o ho
  intro x hx
  obtain ⟨i, hi, _, rfl⟩ := (Proc.mem_files _ _).mp hx
  refine bwd_full_soundFl cfg src inp h hp o ?_ i hi
  intro i j
  obtain ⟨h1, h2⟩ := hstart i j
  simp [ho', BwdOutput.zeros, h1, h2]

/-- **C85** (forward run): with rounding, if nothing is tagged and the run starts without tracked water then
every field of every file is exactly zero. -/
theorem C85_no_tagging_forward (disk : P → Option (FwdOutput (m + 2) (n + 2) (Fl R)))
    (h : Runnable cfg src inp)
    (hw : ∀ t, cfg.tracking_start_date ≤ t → t ≤ cfg.tracking_end_date →
      ∀ i j, 0 ≤ (inp.states t).s_upper i j ∧ 0 ≤ (inp.states t).s_lower i j)
    (hstart : ∀ i j, (startFwd cfg path disk).1 i j = 0 ∧ (startFwd cfg path disk).2 i j = 0)
    (hmask : ∀ t, cfg.tagging_start_date ≤ t → t ≤ cfg.tagging_end_date →
      ∀ i j, inp.region t i j = 0)
    {s} (hs : EndsIn (fwdRun cfg src path disk) s) :
    ∀ x ∈ s.files, ∀ i j, x.2.s_track_upper i j = 0 ∧ x.2.s_track_lower i j = 0 ∧
      x.2.p_track_upper i j = 0 ∧ x.2.p_track_lower i j = 0 ∧ x.2.tagged_evap i j = 0 ∧
      x.2.losses i j = 0 ∧ x.2.gains i j = 0 := by
  obtain ⟨o, r, ho, rfl⟩ := fwd_ends cfg src inp path disk h hs
  have ho' := fwd_init_eq' cfg src Fl.ofRat_zero path disk o ho
  have hz : o = FwdOutput.zeros := by
    rw [ho']
    have e1 : (startFwd cfg path disk).1 = fun _ _ => 0 := by
      funext i j; exact (hstart i j).1
    have e2 : (startFwd cfg path disk).2 = fun _ _ => 0 := by
      funext i j; exact (hstart i j).2
    simp only [e1, e2, FwdOutput.zeros, Fl.ofRat_zero]
  have hpos := h.timestep_pos
  have hAB := h.ordered
  have step : ∀ k < cfg.steps, (fwdProc cfg src.grid inp).step k FwdOutput.zeros =
      (FwdOutput.zeros : FwdOutput (m + 2) (n + 2) (Fl R)) := by
    intro k hk
    have t1 := cfg.fwdTime_mem hpos hAB (k + 1) hk
    simp only [fwdProc, fwdStepAt, ← cfg.fwdTime_succ]
    apply C85_nothing_from_nothing_forward
    · exact hw _ t1.1 t1.2
    · intro i j
      unfold maskAt
      by_cases hwin : inWindow cfg (cfg.fwdTime k)
      · rw [if_pos hwin]; exact hmask _ hwin.1 hwin.2 i j
      · rw [if_neg hwin]; exact Fl.ofRat_zero
    · intro i j; simp [FwdOutput.zeros]
    · intro i j; simp [FwdOutput.zeros]
  intro x hx
  obtain ⟨i, hi, _, rfl⟩ := (Proc.mem_files _ _).mp hx
  have hout : (fwdProc cfg src.grid inp).out o i = FwdOutput.zeros := by
    refine (fwdProc cfg src.grid inp).out_inv o (fun _ x => x = FwdOutput.zeros) hz
      cfg.steps (fun k hk x hx => by rw [hx]; exact step k hk) ?_ i hi.le
    intro _ x hx
    rw [hx]
    simp [fwdProc, FwdOutput.flush, FwdOutput.zeros]
  have hfull : (fwdProc cfg src.grid inp).full o i = FwdOutput.zeros := by
    rw [Proc.full, hout]; exact step i hi
  intro a b
  simp only [hfull, FwdOutput.zeros, Fl.ofRat_zero, and_self]

/-- **C85** (backward run) -/
theorem C85_no_tagging_backward (disk : P → Option (BwdOutput (m + 2) (n + 2) (Fl R)))
    (h : Runnable cfg src inp)
    (hw : ∀ t, cfg.tracking_start_date ≤ t → t ≤ cfg.tracking_end_date →
      ∀ i j, 0 ≤ (inp.states t).s_upper i j ∧ 0 ≤ (inp.states t).s_lower i j)
    (hstart : ∀ i j, (startBwd cfg path disk).1 i j = 0 ∧ (startBwd cfg path disk).2 i j = 0)
    (hmask : ∀ t, cfg.tagging_start_date ≤ t → t ≤ cfg.tagging_end_date →
      ∀ i j, inp.region t i j = 0)
    {s} (hs : EndsIn (bwdRun cfg src path disk) s) :
    ∀ x ∈ s.files, ∀ i j, x.2.s_track_upper i j = 0 ∧ x.2.s_track_lower i j = 0 ∧
      x.2.e_track i j = 0 ∧ x.2.tagged_precip i j = 0 ∧
      x.2.losses i j = 0 ∧ x.2.gains i j = 0 := by
  obtain ⟨o, r, ho, rfl⟩ := bwd_ends cfg src inp path disk h hs
  have ho' := bwd_init_eq' cfg src Fl.ofRat_zero path disk o ho
  have hz : o = BwdOutput.zeros := by
    rw [ho']
    have e1 : (startBwd cfg path disk).1 = fun _ _ => 0 := by
      funext i j; exact (hstart i j).1
    have e2 : (startBwd cfg path disk).2 = fun _ _ => 0 := by
      funext i j; exact (hstart i j).2
    simp only [e1, e2, BwdOutput.zeros, Fl.ofRat_zero]
  have hpos := h.timestep_pos
  have hAB := h.ordered
  have step : ∀ k < cfg.steps, (bwdProc cfg src.grid inp).step k BwdOutput.zeros =
      (BwdOutput.zeros : BwdOutput (m + 2) (n + 2) (Fl R)) := by
    intro k hk
    have t1 := cfg.bwdTime_mem hpos hAB (k + 1) hk
    simp only [bwdProc, bwdStepAt, ← cfg.bwdTime_succ]
    apply C85_nothing_from_nothing_backward
    · exact hw _ t1.1 t1.2
    · intro i j
      unfold maskAt
      by_cases hwin : inWindow cfg (cfg.bwdTime k)
      · rw [if_pos hwin]; exact hmask _ hwin.1 hwin.2 i j
      · rw [if_neg hwin]; exact Fl.ofRat_zero
    · intro i j; simp [BwdOutput.zeros]
    · intro i j; simp [BwdOutput.zeros]
  intro x hx
  obtain ⟨i, hi, _, rfl⟩ := (Proc.mem_files _ _).mp hx
  have hout : (bwdProc cfg src.grid inp).out o i = BwdOutput.zeros := by
    refine (bwdProc cfg src.grid inp).out_inv o (fun _ x => x = BwdOutput.zeros) hz
      cfg.steps (fun k hk x hx => by rw [hx]; exact step k hk) ?_ i hi.le
    intro _ x hx
    rw [hx]
    simp [bwdProc, BwdOutput.flush, BwdOutput.zeros]
  have hfull : (bwdProc cfg src.grid inp).full o i = BwdOutput.zeros := by
    rw [Proc.full, hout]; exact step i hi
  intro a b
  simp only [hfull, BwdOutput.zeros, Fl.ofRat_zero, and_self]

/-! ### Output frequency, restart and crash -/

theorem Proc.core_congr {ω γ : Type*} (p q : Proc ω) (core : ω → γ) (hstep : p.step = q.step)
    (hc : ∀ k x y, core x = core y → core (p.step k x) = core (p.step k y))
    (hp : ∀ x, core (p.flush x) = core x) (hq : ∀ x, core (q.flush x) = core x) (o : ω) (k : ℕ) :
    core (p.out o k) = core (q.out o k) := by
  induction k with
  | zero => rfl
  | succ k ih =>
    have e := hc k _ _ ih
    simp only [Proc.out]
    split <;> split <;> simp only [hp, hq, e] <;> simp only [hstep]

/-- **C85** (forward run): with rounding, changing only the output frequency does not change a single bit of
the tracked storage: the final state is the same, and files for the same time hold the same tracked
storage. -/
theorem C85_output_frequency_forward (disk : P → Option (FwdOutput (m + 2) (n + 2) (Fl R))) (freq : ℤ)
    (h : Runnable cfg src inp) {s s'} (hs : EndsIn (fwdRun cfg src path disk) s)
    (hs' : EndsIn (fwdRun { cfg with output_frequency := freq } src path disk) s') :
    (s'.output.s_track_upper = s.output.s_track_upper ∧
      s'.output.s_track_lower = s.output.s_track_lower) ∧
    ∀ x ∈ s.files, ∀ x' ∈ s'.files, x'.1 = x.1 → x'.2.s_track_upper = x.2.s_track_upper ∧
      x'.2.s_track_lower = x.2.s_track_lower := by
  have h' : Runnable { cfg with output_frequency := freq } src inp :=
    ⟨h.timestep_pos, h.ordered, h.serves⟩
  obtain ⟨o, r, ho, rfl⟩ := fwd_ends cfg src inp path disk h hs
  obtain ⟨o', r', ho', rfl⟩ := fwd_ends _ src inp path disk h' hs'
  have e : o' = o := by
    rw [fwd_init_eq' _ _ Fl.ofRat_zero _ _ _ ho, fwd_init_eq' _ _ Fl.ofRat_zero _ _ _ ho']; rfl
  subst e
  set core : FwdOutput (m + 2) (n + 2) (Fl R) → _ := fun o => (o.s_track_upper, o.s_track_lower)
  have hc : ∀ k x y, core x = core y → core ((fwdProc cfg src.grid inp).step k x) =
      core ((fwdProc cfg src.grid inp).step k y) := by
    intro k x y hxy
    have h1 : x.s_track_upper = y.s_track_upper := congrArg Prod.fst hxy
    have h2 : x.s_track_lower = y.s_track_lower := congrArg Prod.snd hxy
    simp only [core, fwdProc, fwdStepAt, forwardtrack, h1, h2]
  have key : ∀ k, core ((fwdProc { cfg with output_frequency := freq } src.grid inp).out o' k) =
      core ((fwdProc cfg src.grid inp).out o' k) := fun k =>
    Proc.core_congr (fwdProc { cfg with output_frequency := freq } src.grid inp) (fwdProc cfg src.grid inp)
      core rfl hc (fun _ => rfl) (fun _ => rfl) o' k
  refine ⟨⟨congrArg Prod.fst (key cfg.steps), congrArg Prod.snd (key cfg.steps)⟩, ?_⟩
  intro x hx x' hx' ht
  obtain ⟨i, hi, _, rfl⟩ := (Proc.mem_files _ _).mp hx
  obtain ⟨i', hi', _, rfl⟩ := (Proc.mem_files _ _).mp hx'
  have hd := cfg.dt_pos h.timestep_pos
  have hii : i' = i := by
    have ht' : cfg.tracking_start_date + ((i' + 1 : ℕ) : ℤ) * cfg.dt =
      cfg.tracking_start_date + ((i + 1 : ℕ) : ℤ) * cfg.dt := ht
    have : ((i' + 1 : ℕ) : ℤ) * cfg.dt = ((i + 1 : ℕ) : ℤ) * cfg.dt := by linarith
    have := mul_right_cancel₀ hd.ne' this
    omega
  subst hii
  have := hc i' _ _ (key i')
  exact ⟨congrArg Prod.fst this, congrArg Prod.snd this⟩

/-- **C85** (backward run) -/
theorem C85_output_frequency_backward (disk : P → Option (BwdOutput (m + 2) (n + 2) (Fl R))) (freq : ℤ)
    (h : Runnable cfg src inp) {s s'} (hs : EndsIn (bwdRun cfg src path disk) s)
    (hs' : EndsIn (bwdRun { cfg with output_frequency := freq } src path disk) s') :
    (s'.output.s_track_upper = s.output.s_track_upper ∧
      s'.output.s_track_lower = s.output.s_track_lower) ∧
    ∀ x ∈ s.files, ∀ x' ∈ s'.files, x'.1 = x.1 → x'.2.s_track_upper = x.2.s_track_upper ∧
      x'.2.s_track_lower = x.2.s_track_lower := by
  have h' : Runnable { cfg with output_frequency := freq } src inp :=
    ⟨h.timestep_pos, h.ordered, h.serves⟩
  obtain ⟨o, r, ho, rfl⟩ := bwd_ends cfg src inp path disk h hs
  obtain ⟨o', r', ho', rfl⟩ := bwd_ends _ src inp path disk h' hs'
  have e : o' = o := by
    rw [bwd_init_eq' _ _ Fl.ofRat_zero _ _ _ ho, bwd_init_eq' _ _ Fl.ofRat_zero _ _ _ ho']; rfl
  subst e
  set core : BwdOutput (m + 2) (n + 2) (Fl R) → _ := fun o => (o.s_track_upper, o.s_track_lower)
  have hc : ∀ k x y, core x = core y → core ((bwdProc cfg src.grid inp).step k x) =
      core ((bwdProc cfg src.grid inp).step k y) := by
    intro k x y hxy
    have h1 : x.s_track_upper = y.s_track_upper := congrArg Prod.fst hxy
    have h2 : x.s_track_lower = y.s_track_lower := congrArg Prod.snd hxy
    simp only [core, bwdProc, bwdStepAt, backtrack, h1, h2]
  have key : ∀ k, core ((bwdProc { cfg with output_frequency := freq } src.grid inp).out o' k) =
      core ((bwdProc cfg src.grid inp).out o' k) := fun k =>
    Proc.core_congr (bwdProc { cfg with output_frequency := freq } src.grid inp) (bwdProc cfg src.grid inp)
      core rfl hc (fun _ => rfl) (fun _ => rfl) o' k
  refine ⟨⟨congrArg Prod.fst (key cfg.steps), congrArg Prod.snd (key cfg.steps)⟩, ?_⟩
  intro x hx x' hx' ht
  obtain ⟨i, hi, _, rfl⟩ := (Proc.mem_files _ _).mp hx
  obtain ⟨i', hi', _, rfl⟩ := (Proc.mem_files _ _).mp hx'
  have hd := cfg.dt_pos h.timestep_pos
  have hii : i' = i := by
    have ht' : cfg.tracking_end_date - ((i' + 1 : ℕ) : ℤ) * cfg.dt =
      cfg.tracking_end_date - ((i + 1 : ℕ) : ℤ) * cfg.dt := ht
    have : ((i' + 1 : ℕ) : ℤ) * cfg.dt = ((i + 1 : ℕ) : ℤ) * cfg.dt := by linarith
    have := mul_right_cancel₀ hd.ne' this
    omega
  subst hii
  have := hc i' _ _ (key i')
  exact ⟨congrArg Prod.fst this, congrArg Prod.snd this⟩

/-- **C85** (forward run): with rounding, a run that is stopped at one of its output times and continued by a
restart writes exactly the same files, bit by bit, as the uninterrupted run, if the files hold the numbers in
the precision of the computation. -/
theorem C85_restart_forward [DecidableEq P] (disk : P → Option (FwdOutput (m + 2) (n + 2) (Fl R)))
    (h : Runnable cfg src inp) {s} (hs : EndsIn (fwdRun cfg src path disk) s) (B : ℤ)
    (hB : B ∈ s.files.map Prod.fst) :
    ∃ s1 s2, EndsIn (fwdRun { cfg with tracking_end_date := B } src path disk) s1 ∧
      EndsIn (fwdRun { cfg with tracking_start_date := B, restart := true } src path
        (writeFiles path disk s1.files)) s2 ∧
      s.files = s1.files ++ s2.files ∧ s.output = s2.output ∧ s.t0 = s2.t0 :=
  C29_restart_forward cfg src inp path disk h hs B hB

/-- **C85** (backward run) -/
theorem C85_restart_backward [DecidableEq P] (disk : P → Option (BwdOutput (m + 2) (n + 2) (Fl R)))
    (h : Runnable cfg src inp) {s} (hs : EndsIn (bwdRun cfg src path disk) s) (B : ℤ)
    (hB : B ∈ s.files.map Prod.fst) :
    ∃ s1 s2, EndsIn (bwdRun { cfg with tracking_start_date := B } src path disk) s1 ∧
      EndsIn (bwdRun { cfg with tracking_end_date := B, restart := true } src path
        (writeFiles path disk s1.files)) s2 ∧
      s.files = s1.files ++ s2.files ∧ s.output = s2.output ∧ s.t1 = s2.t1 :=
  C29_restart_backward cfg src inp path disk h hs B hB

end

/-! ### Conversion of files to another precision -/

/-- **C85** (files of lower precision): if a field that lies between 0 and the storage is converted to another
precision (any monotone rounding), it lies between 0 and the converted storage; zero stays zero. -/
theorem C85_conversion (R' : Rounding K) (s S : Fl R) (h0 : 0 ≤ s) (h1 : s ≤ S) :
    0 ≤ Fl.round R' s.val ∧ Fl.round R' s.val ≤ Fl.round R' S.val ∧
    (s = 0 → Fl.round R' s.val = 0) := by
  refine ⟨?_, R'.mono h1, ?_⟩
  · exact Fl.rnd_nonneg h0
  · rintro rfl; exact Fl.ext R'.zero

/-! ### Non-vacuity -/

/-- fixed-point numbers: rounding towards zero to multiples of 1/64 -/
def chop64 : Rounding ℚ where
  rnd x := if 0 ≤ x then (⌊x * 64⌋ : ℚ) / 64 else -((⌊-x * 64⌋ : ℚ) / 64)
  mono := by
    intro x y hxy
    show (if 0 ≤ x then (⌊x * 64⌋ : ℚ) / 64 else -((⌊-x * 64⌋ : ℚ) / 64)) ≤
      (if 0 ≤ y then (⌊y * 64⌋ : ℚ) / 64 else -((⌊-y * 64⌋ : ℚ) / 64))
    have nn : ∀ z : ℚ, 0 ≤ z → (0 : ℚ) ≤ (⌊z * 64⌋ : ℚ) / 64 := fun z hz =>
      div_nonneg (by exact_mod_cast Int.floor_nonneg.2 (by linarith)) (by norm_num)
    have mm : ∀ z w : ℚ, z ≤ w → (⌊z * 64⌋ : ℚ) / 64 ≤ (⌊w * 64⌋ : ℚ) / 64 := fun z w hzw => by
      have : ⌊z * 64⌋ ≤ ⌊w * 64⌋ := Int.floor_mono (by linarith)
      have : (⌊z * 64⌋ : ℚ) ≤ (⌊w * 64⌋ : ℚ) := by exact_mod_cast this
      linarith
    split_ifs with h1 h2 h2
    · exact mm _ _ hxy
    · linarith
    · have := nn (-x) (by linarith)
      have := nn y h2
      linarith
    · have := mm (-y) (-x) (by linarith)
      linarith
  idem := by
    intro x
    have fl : ∀ k : ℤ, ⌊(k : ℚ) / 64 * 64⌋ = k := fun k => by
      rw [div_mul_cancel₀ _ (by norm_num)]; exact Int.floor_intCast k
    have nn : ∀ z : ℚ, 0 ≤ z → (0 : ℚ) ≤ (⌊z * 64⌋ : ℚ) / 64 := fun z hz =>
      div_nonneg (by exact_mod_cast Int.floor_nonneg.2 (by linarith)) (by norm_num)
    by_cases h1 : 0 ≤ x
    · simp only [if_pos h1]
      rw [if_pos (nn x h1), fl]
    · simp only [if_neg h1]
      have h2 := nn (-x) (by linarith)
      by_cases h3 : 0 ≤ -((⌊-x * 64⌋ : ℚ) / 64)
      · have : (⌊-x * 64⌋ : ℚ) / 64 = 0 := by linarith
        rw [this]; simp
      · rw [if_neg h3, neg_neg, fl]
  neg := by
    intro x
    rcases lt_trichotomy x 0 with h | h | h
    · rw [if_pos (by linarith), if_neg (by linarith), neg_neg]
    · subst h; simp
    · rw [if_neg (by linarith), if_pos h.le, neg_neg]
  zero := by simp
  one := by norm_num

/-- rounding does something: in this arithmetic `1/64 * 1/2 = 0` although neither factor is zero -/
example : (Fl.round chop64 (1 / 64) * Fl.round chop64 (1 / 2) : Fl chop64) = 0 ∧
    Fl.round chop64 (1 / 64) ≠ (0 : Fl chop64) ∧ Fl.round chop64 (1 / 2) ≠ (0 : Fl chop64) := by
  have e : ∀ x y : ℚ, Fl.round chop64 x = Fl.round chop64 y ↔ chop64.rnd x = chop64.rnd y := fun x y =>
    ⟨fun h => congrArg Fl.val h, fun h => Fl.ext h⟩
  have z : (0 : Fl chop64) = Fl.round chop64 0 := Fl.ext chop64.zero.symm
  rw [z]
  refine ⟨(e _ _).2 ?_, fun h => ?_, fun h => ?_⟩
  · simp only [Fl.round, chop64]; norm_num
  · have := (e _ _).1 h; simp only [chop64] at this; norm_num at this
  · have := (e _ _).1 h; simp only [chop64] at this; norm_num at this

namespace RoundDemo

/-- the demonstration experiment in rounded arithmetic -/
def r (x : ℚ) : Fl chop64 := Fl.round chop64 x

def cfg : RunConfig (Fl chop64) :=
  { tracking_start_date := 0, tracking_end_date := 4 * Demo.step, tagging_start_date := Demo.step,
    tagging_end_date := 2 * Demo.step, timestep := 600, output_frequency := 2 * Demo.step, kvf := r 3,
    periodic_boundary := false, restart := false }

def inp : Input 1 1 (Fl chop64) :=
  { states := fun t => ⟨fun i j => r ((Demo.inp.states t).s_upper i j),
      fun i j => r ((Demo.inp.states t).s_lower i j)⟩
    fluxes := fun t =>
      { fx_upper := fun i j => r ((Demo.inp.fluxes t).fx_upper i j)
        fy_upper := fun i j => r ((Demo.inp.fluxes t).fy_upper i j)
        fx_lower := fun i j => r ((Demo.inp.fluxes t).fx_lower i j)
        fy_lower := fun i j => r ((Demo.inp.fluxes t).fy_lower i j)
        evap := fun i j => r ((Demo.inp.fluxes t).evap i j)
        precip := fun i j => r ((Demo.inp.fluxes t).precip i j) }
    region := fun t i j => r (Demo.inp.region t i j) }

def src : Source 1 1 (Fl chop64) :=
  { states := fun t => if 0 ≤ t ∧ t ≤ 4 * Demo.step then .ok (inp.states t) else .error .keyError
    fluxes := fun t => if 0 ≤ t ∧ t ≤ 4 * Demo.step then .ok (inp.fluxes t) else .error .keyError
    grid := ⟨fun i => r (2 + i), r 1, fun _ => r 1⟩
    region := .ok (.stationary (inp.region 0))
    weight := fun i => r (2 + i) }

theorem runnable : Runnable cfg src inp where
  timestep_pos := by decide
  ordered := by decide
  serves :=
    { states := fun t h0 h1 => if_pos ⟨h0, h1⟩
      fluxes := fun t h0 h1 => if_pos ⟨h0, h1⟩
      region := ⟨_, rfl, fun t _ _ => rfl⟩ }

theorem r_nonneg {x : ℚ} (h : 0 ≤ x) : 0 ≤ r x := by
  rw [Fl.le_def]
  exact Fl.rnd_nonneg (R := chop64) h

theorem r_pos {x : ℚ} (h : 1 ≤ x) : 0 < r x := by
  rw [Fl.lt_def]
  have := chop64.mono h
  rw [chop64.one] at this
  exact lt_of_lt_of_le one_pos this

theorem physical : Physical inp cfg.tracking_start_date cfg.tracking_end_date where
  wet := by
    intro t h0 h1 i j
    have e0 : (0 : ℚ) ≤ t := by exact_mod_cast h0
    have e1 : (t : ℚ) ≤ 2400000000 := by exact_mod_cast h1
    have := i.val.cast_nonneg (α := ℚ)
    have := j.val.cast_nonneg (α := ℚ)
    constructor
    · refine r_pos ?_
      simp only [Demo.inp]
      have : 0 ≤ (t : ℚ) / 600000000 := by positivity
      linarith
    · refine r_pos ?_
      simp only [Demo.inp]
      have : (t : ℚ) / 600000000 ≤ 4 := by rw [div_le_iff₀ (by norm_num)]; linarith
      linarith
  precip := fun t h0 h1 i j => r_nonneg (Demo.physical.precip t h0 h1 i j)
  evap := fun t h0 h1 i j => r_nonneg (Demo.physical.evap t h0 h1 i j)
  region := fun t h0 h1 i j => r_nonneg (Demo.physical.region t h0 h1 i j)

theorem fwd_ends : ∃ s, EndsIn (fwdRun cfg src Demo.path fun _ => none) s ∧
    s.files.map Prod.fst = [2 * Demo.step, 4 * Demo.step] := by
  obtain ⟨o, ho⟩ := fwd_init_ok cfg src inp Demo.path (fun _ => none) runnable (by decide)
  obtain ⟨r, _, _, hrun⟩ := fwd_run_eq cfg src inp Demo.path _ runnable o ho
  refine ⟨_, ⟨cfg.steps, fun fuel hf => (hrun fuel).trans (if_neg (not_lt.mpr hf))⟩, ?_⟩
  rfl

theorem bwd_ends : ∃ s, EndsIn (bwdRun cfg src Demo.path fun _ => none) s ∧
    s.files.map Prod.fst = [2 * Demo.step, 0] := by
  obtain ⟨o, ho⟩ := bwd_init_ok cfg src inp Demo.path (fun _ => none) runnable (by decide)
  obtain ⟨r, _, _, hrun⟩ := bwd_run_eq cfg src inp Demo.path _ runnable o ho
  refine ⟨_, ⟨cfg.steps, fun fuel hf => (hrun fuel).trans (if_neg (not_lt.mpr hf))⟩, ?_⟩
  rfl

/-- C85 applies to the files of a rounded run -/
example : ∃ s, EndsIn (fwdRun cfg src Demo.path fun _ => none) s ∧ s.files.length = 2 ∧
    ∀ x ∈ s.files, SoundFwd false (inp.states x.1) x.2 := by
  obtain ⟨s, hs, hf⟩ := fwd_ends
  refine ⟨s, hs, ?_, C85_files_are_sound_forward cfg src inp Demo.path _ runnable physical
    (fun i j => ?_) hs⟩
  · have := congrArg List.length hf
    simpa using this
  · simp [startFwd, cfg]

example : ∃ s, EndsIn (bwdRun cfg src Demo.path fun _ => none) s ∧ s.files.length = 2 ∧
    ∀ x ∈ s.files, SoundBwd false (inp.states x.1) x.2 := by
  obtain ⟨s, hs, hf⟩ := bwd_ends
  refine ⟨s, hs, ?_, C85_files_are_sound_backward cfg src inp Demo.path _ runnable physical
    (fun i j => ?_) hs⟩
  · have := congrArg List.length hf
    simpa using this
  · simp [startBwd, cfg]

end RoundDemo

end Wam
