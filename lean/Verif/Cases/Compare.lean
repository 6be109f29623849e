import Verif.Cases.Step
import Verif.Props.Run
import Verif.Props.Compare
import Verif.Props.Contract
import Verif.Props.Superposition
import Verif.Props.Window
import Verif.Props.NaNRun
import Verif.Props.Rounded
import Verif.Props.Single

/-!
# Concrete cases: comparison of steps and runs, missing values, rounding

Theorems of `Props/Compare`, `Contract`, `Superposition`, `Window`, `NaNRun`, `Rounded` and `Single` that are not applied to concrete data in
those files themselves.
-/

namespace Wam.Cases.Compare
open Spec Cases.Step

/-! ### One step, from more or less tracked water -/

theorem calmF : NoOverdrawFwd (m := 1) (n := 1) false 100 3 a F fz S0 := ⟨by decide +kernel, by decide +kernel⟩
theorem calmB : NoOverdrawBwd (m := 1) (n := 1) false 100 3 a F fz S1 := ⟨by decide +kernel, by decide +kernel⟩

/-- less tracked water -/
def o1 : FwdOutput 3 3 ℚ := { out with s_track_upper := fun _ _ => 1 / 4, s_track_lower := fun _ j => j / 2 }
def b1 : BwdOutput 3 3 ℚ := { outB with s_track_upper := fun _ _ => 1 / 4, s_track_lower := fun _ j => j / 2 }
def half : Arr 3 3 ℚ := fun i j => mask i j / 2
theorem leF : FwdLE o1 out := by constructor <;> decide +kernel
theorem leB : BwdLE b1 outB := by constructor <;> decide +kernel
theorem precip0 : ∀ i j, 0 ≤ F.precip i j := by decide +kernel
theorem evap0 : ∀ i j, 0 ≤ F.evap i j := by decide +kernel

example := C77_step_forward (m := 1) (n := 1) false 100 3 a F fz S0 S1 half mask o1 out wet0 wet1 ha (by norm_num) (by norm_num) precip0 calmF
  (by decide +kernel) leF
example := C77_step_backward (m := 1) (n := 1) false 100 3 a F fz S0 S1 half mask b1 outB wet0 wet1 ha (by norm_num) (by norm_num) evap0 calmB
  (by decide +kernel) leB
example := C78_step_forward (m := 1) (n := 1) false 100 3 a F fz S0 S1 1 (1 / 2) (by norm_num) (by norm_num) mask half o1 out wet0 wet1 ha
  (by norm_num) (by norm_num) calmF (by decide +kernel) (by decide +kernel) (by decide +kernel) (by decide +kernel) (by decide +kernel)
  (by decide +kernel) (by decide +kernel) (by decide +kernel) (fun i j => 1 * mask i j + 1 / 2 * half i j) (fun _ _ => rfl)
  (by unfold isBoundary; decide +kernel) (by unfold isBoundary; decide +kernel) (by unfold isBoundary; decide +kernel)
example := C78_step_backward (m := 1) (n := 1) false 100 3 a F fz S0 S1 1 (1 / 2) (by norm_num) (by norm_num) mask half b1 outB wet0 wet1 ha
  (by norm_num) (by norm_num) calmB (by decide +kernel) (by decide +kernel) (by decide +kernel) (by decide +kernel) (by decide +kernel)
  (by decide +kernel) (by decide +kernel) (by decide +kernel) (fun i j => 1 * mask i j + 1 / 2 * half i j) (fun _ _ => rfl)
  (by unfold isBoundary; decide +kernel) (by unfold isBoundary; decide +kernel) (by unfold isBoundary; decide +kernel)
example := C90_step_forward (m := 1) (n := 1) false 100 3 a F fz S0 S1 half mask o1 out wet0 wet1 ha (by norm_num) (by norm_num) precip0 evap0
  (by decide +kernel) (by decide +kernel) (by decide +kernel) (by decide +kernel) calmF
example := C90_step_backward (m := 1) (n := 1) false 100 3 a F fz S0 S1 half mask b1 outB wet0 wet1 ha (by norm_num) (by norm_num) precip0 evap0
  (by decide +kernel) (by decide +kernel) (by decide +kernel) (by decide +kernel) calmB

/-- all the water is tracked -/
example := C21_split_forward (m := 1) (n := 1) false 600 3 a F fz S1 S0 mask
  { out with s_track_upper := S0.s_upper, s_track_lower := S0.s_lower } wet0 (by norm_num) 1 1 (by decide +kernel) rfl rfl
example := C21_split_backward (m := 1) (n := 1) false 600 3 a F fz S1 mask out.s_track_lower out.s_track_upper wet1 ha (by norm_num) 1 1
  (by decide +kernel)

/-! ### Runs -/
section
open Demo

example := C77_run_backward cfgB (srcOf maskA) (srcOf maskAB) (inpOf maskA) (inpOf maskAB) path path (fun _ => none) (fun _ => none)
  (runnableB _) (runnableB _) rfl ⟨rfl, rfl⟩ (physicalOf _ maskA_nonneg)
  (fun _ _ _ i j => le_add_of_nonneg_right (maskB_nonneg i j)) area_pos (by decide) (calm_bwd _) (fun _ _ => ⟨le_refl _, le_refl _⟩)
  (ends_bwd maskA).choose_spec (ends_bwd maskAB).choose_spec
example := C78_scaling_backward cfgB (srcOf maskAB) (srcOf fun i j => 1 / 2 * maskAB i j) (inpOf maskAB) (inpOf fun i j => 1 / 2 * maskAB i j)
  path path (1 / 2) (by norm_num) (by norm_num) (fun _ => none) (fun _ => none) (runnableB _) (runnableB _) rfl ⟨rfl, rfl⟩
  (physicalOf _ maskAB_nonneg) (fun _ _ _ _ _ => rfl) area_pos (by decide) (calm_bwd _) (fun _ _ => ⟨le_refl _, le_refl _⟩)
  (fun _ _ => ⟨(mul_zero _).symm, (mul_zero _).symm⟩) never_full_bwd (ends_bwd maskAB).choose_spec (ends_bwd _).choose_spec

theorem hB2 : ∀ {β : Type} {l : List (ℤ × β)} {a b : ℤ}, l.map Prod.fst = [a, b] → a ∈ l.map Prod.fst := by
  intro β l a b h; rw [h]; exact List.mem_cons_self

/-- files in single precision -/
theorem single_fwd : ∃ s, EndsIn (fwdRun cfg (srcOf maskB) path fun _ => none) s ∧ 2 * step ∈ s.files.map Prod.fst := by
  obtain ⟨s, hs, ht⟩ := C94_completes_forward cfg (by decide) (srcOf maskB) path (fun _ => none)
    ((C94_iff_forward cfg (by decide) (srcOf maskB) path _).mp (ends_fwd maskB))
  exact ⟨s, hs, by rw [ht]; decide +kernel⟩
theorem single_bwd : ∃ s, EndsIn (bwdRun cfgB (srcOf maskB) path fun _ => none) s ∧ 2 * step ∈ s.files.map Prod.fst := by
  obtain ⟨s, hs, ht⟩ := C94_completes_backward cfgB (by decide) (srcOf maskB) path (fun _ => none)
    ((C94_iff_backward cfgB (by decide) (srcOf maskB) path _).mp (ends_bwd maskB))
  exact ⟨s, hs, by rw [ht]; decide +kernel⟩
example := C95_restart_forward cfg (srcOf maskB) (inpOf maskB) path (fun _ => none) (runnableOf maskB) (physicalOf maskB maskB_nonneg) area_pos
  (by decide) (calm_fwd maskB) (binary32 : Rounding ℚ) accurate32 (fun _ _ => ⟨le_refl _, le_refl _⟩) single_fwd.choose_spec.1 _
  single_fwd.choose_spec.2
example := C95_restart_backward cfgB (srcOf maskB) (inpOf maskB) path (fun _ => none) (runnableB maskB) (physicalOf maskB maskB_nonneg) area_pos
  (by decide) (calm_bwd maskB) (binary32 : Rounding ℚ) accurate32 (fun _ _ => ⟨le_refl _, le_refl _⟩) single_bwd.choose_spec.1 _
  single_bwd.choose_spec.2
example := C95_file_forward path (fun _ => none) (binary32 : Rounding ℚ) accurate32 [(5, o1), (7, out)] 7 out (by simp)
  (by
    intro x hx h
    simp only [List.mem_cons, List.not_mem_nil, or_false] at hx
    rcases hx with rfl | rfl
    · exact absurd h (by decide)
    · rfl)
example := C95_file_backward path (fun _ => none) (binary32 : Rounding ℚ) accurate32 [(5, b1), (7, outB)] 7 outB (by simp)
  (by
    intro x hx h
    simp only [List.mem_cons, List.not_mem_nil, or_false] at hx
    rcases hx with rfl | rfl
    · exact absurd h (by decide)
    · rfl)

end

/-- what the region is outside of the window does not matter -/
example : ∃ s s', EndsIn (bwdRun Demo.cfgW (Demo.srcOf Demo.maskA) Demo.path fun _ => none) s ∧
    EndsIn (bwdRun Demo.cfgW Demo.srcM Demo.path fun _ => none) s' ∧ s'.files = s.files ∧ s'.output = s.output := by
  have rM : Runnable Demo.cfgW Demo.srcM Demo.inpM :=
    { timestep_pos := by decide
      ordered := by decide
      serves :=
        { states := fun t h0 h1 => if_pos ⟨h0, h1⟩
          fluxes := fun t h0 h1 => if_pos ⟨h0, h1⟩
          region := ⟨_, rfl, fun t _ _ => rfl⟩ } }
  obtain ⟨r, _, _, hrun⟩ := bwd_run_eq Demo.cfgW (Demo.srcOf Demo.maskA) (Demo.inpOf Demo.maskA) Demo.path (fun _ => none)
    (Demo.runnableW Demo.maskA) BwdOutput.zeros rfl
  obtain ⟨r', _, _, hrun'⟩ := bwd_run_eq Demo.cfgW Demo.srcM Demo.inpM Demo.path (fun _ => none) rM BwdOutput.zeros rfl
  have he : EndsIn (bwdRun Demo.cfgW (Demo.srcOf Demo.maskA) Demo.path fun _ => none) _ :=
    ⟨Demo.cfgW.steps, fun fuel hf => (hrun fuel).trans (if_neg (not_lt.mpr hf))⟩
  have he' : EndsIn (bwdRun Demo.cfgW Demo.srcM Demo.path fun _ => none) _ :=
    ⟨Demo.cfgW.steps, fun fuel hf => (hrun' fuel).trans (if_neg (not_lt.mpr hf))⟩
  refine ⟨_, _, he, he', ?_⟩
  exact C31_outside_window_backward Demo.cfgW (Demo.srcOf Demo.maskA) Demo.srcM (Demo.inpOf Demo.maskA) Demo.inpM Demo.path _
    (Demo.runnableW Demo.maskA) rM rfl ⟨rfl, rfl⟩ (fun t h0 h1 => if_pos ⟨h0, h1⟩) he he'

/-- a restart file with a missing value, backwards -/
example : ∃ (cfg : RunConfig (XF ℚ)) (src : Source 1 1 (XF ℚ)) (f : BwdOutput 3 3 (XF ℚ)) (s : LoopState (BwdOutput 3 3 (XF ℚ)) (XF ℚ)),
    EndsIn (bwdRun cfg src id fun _ => some f) s ∧ s.files ≠ [] ∧
    ∀ y ∈ s.files, y.2.s_track_lower 1 1 = XF.nan ∧ y.2.s_track_upper 1 1 = XF.nan ∧ y.2.losses 1 1 = XF.nan := by
  let cfg : RunConfig (XF ℚ) :=
    { tracking_start_date := 0, tracking_end_date := 1200000000, tagging_start_date := 0,
      tagging_end_date := 0, timestep := 600, output_frequency := 600000000, kvf := XF.fin 3,
      periodic_boundary := false, restart := true }
  let one : Arr 3 3 (XF ℚ) := fun _ _ => XF.fin 1
  let inp : Input 1 1 (XF ℚ) :=
    { states := fun _ => ⟨one, one⟩
      fluxes := fun _ => ⟨one, one, one, one, one, one⟩
      region := fun _ => one }
  let src : Source 1 1 (XF ℚ) :=
    { states := fun t => .ok (inp.states t), fluxes := fun t => .ok (inp.fluxes t)
      grid := ⟨fun _ => XF.fin 1, XF.fin 1, fun _ => XF.fin 1⟩
      region := .ok (.stationary one), weight := fun _ => XF.fin 1 }
  let f : BwdOutput 3 3 (XF ℚ) :=
    ⟨fun i j => if i = 1 ∧ j = 1 then XF.nan else XF.fin 0, one, one, one, one, one⟩
  have hrun : Runnable cfg src inp := ⟨by decide, by decide, ⟨fun _ _ _ => rfl, fun _ _ _ => rfl, ⟨_, rfl, fun _ _ _ => rfl⟩⟩⟩
  obtain ⟨o, ho⟩ := bwd_init_ok cfg src inp id (fun _ => some f) hrun (fun _ => rfl)
  obtain ⟨r, _, _, he⟩ := bwd_run_eq cfg src inp id _ hrun _ ho
  have hs : EndsIn (bwdRun cfg src id fun _ => some f) _ := ⟨cfg.steps, fun fuel hf => (he fuel).trans (if_neg (not_lt.mpr hf))⟩
  refine ⟨cfg, src, f, _, hs, ?_, (C09_run_backward cfg src inp id (fun _ => some f) hrun hs 1 1 (by unfold isBoundary; decide)).2 f rfl rfl
    (Or.inr rfl)⟩
  intro h0
  have := ((C25_output_order_backward cfg src inp id (fun _ => some f) hrun hs).2.2 (by decide)).1
  rw [h0] at this
  cases this

/-- calm air in the middle of the lower layer during the first step only: no number is left in the file of twenty minutes later -/
example : ∃ (cfg : RunConfig (XF ℚ)) (src : Source 1 1 (XF ℚ)) (s : LoopState (FwdOutput 3 3 (XF ℚ)) (XF ℚ))
    (s' : LoopState (BwdOutput 3 3 (XF ℚ)) (XF ℚ)),
    EndsIn (fwdRun cfg src id fun _ => none) s ∧ (∃ y ∈ s.files, y.1 = 1200000000 ∧ y.2.s_track_lower 1 1 = XF.nan) ∧
    EndsIn (bwdRun cfg src id fun _ => none) s' ∧ (∃ y ∈ s'.files, y.1 = 0 ∧ y.2.s_track_lower 1 1 = XF.nan) := by
  let cfg : RunConfig (XF ℚ) :=
    { tracking_start_date := 0, tracking_end_date := 1200000000, tagging_start_date := 0,
      tagging_end_date := 0, timestep := 600, output_frequency := 600000000, kvf := XF.fin 3,
      periodic_boundary := false, restart := false }
  let one : Arr 3 3 (XF ℚ) := fun _ _ => XF.fin 1
  let calm : ℤ → Arr 3 3 (XF ℚ) := fun t i j => if (t = 300000000 ∨ t = 900000000) ∧ i = 1 ∧ j = 1 then XF.fin 0 else XF.fin 1
  let inp : Input 1 1 (XF ℚ) :=
    { states := fun _ => ⟨one, one⟩
      fluxes := fun t => ⟨one, one, calm t, calm t, one, one⟩
      region := fun _ => one }
  let src : Source 1 1 (XF ℚ) :=
    { states := fun t => .ok (inp.states t), fluxes := fun t => .ok (inp.fluxes t)
      grid := ⟨fun _ => XF.fin 1, XF.fin 1, fun _ => XF.fin 1⟩
      region := .ok (.stationary one), weight := fun _ => XF.fin 1 }
  have hrun : Runnable cfg src inp := ⟨by decide, by decide, ⟨fun _ _ _ => rfl, fun _ _ _ => rfl, ⟨_, rfl, fun _ _ _ => rfl⟩⟩⟩
  obtain ⟨o, ho⟩ := fwd_init_ok cfg src inp id (fun _ => none) hrun (by decide)
  obtain ⟨r, _, _, he⟩ := fwd_run_eq cfg src inp id _ hrun _ ho
  have hs : EndsIn (fwdRun cfg src id fun _ => none) _ := ⟨cfg.steps, fun fuel hf => (he fuel).trans (if_neg (not_lt.mpr hf))⟩
  obtain ⟨o', ho'⟩ := bwd_init_ok cfg src inp id (fun _ => none) hrun (by decide)
  obtain ⟨r', _, _, he'⟩ := bwd_run_eq cfg src inp id _ hrun _ ho'
  have hs' : EndsIn (bwdRun cfg src id fun _ => none) _ := ⟨cfg.steps, fun fuel hf => (he' fuel).trans (if_neg (not_lt.mpr hf))⟩
  have hF := C09_run_zero_flux_forward cfg src inp id (fun _ => none) hrun hs 1 (fun _ => 1) rfl (fun _ => rfl) 0 1 1 1 1
    (.inl ⟨by decide +kernel, by decide +kernel⟩) (by unfold faceNeighbour; decide) (by unfold isBoundary; decide)
  have hB := C09_run_zero_flux_backward cfg src inp id (fun _ => none) hrun hs' 1 (fun _ => 1) rfl (fun _ => rfl) 0 1 1 1 1
    (.inl ⟨by decide +kernel, by decide +kernel⟩) (by unfold faceNeighbour; decide) (by unfold isBoundary; decide)
  refine ⟨cfg, src, _, _, hs, ?_, hs', ?_⟩
  · have hmem : (1200000000 : ℤ) ∈ (fwdStateAt cfg src inp r o cfg.steps).files.map Prod.fst := by
      rw [C25_output_times_forward cfg src inp id (fun _ => none) hrun hs]; decide +kernel
    obtain ⟨y, hy, hy'⟩ := List.mem_map.mp hmem
    exact ⟨y, hy, hy', (hF y hy (by rw [hy']; decide)).1⟩
  · have hmem : (0 : ℤ) ∈ (bwdStateAt cfg src inp r' o' cfg.steps).files.map Prod.fst := by
      rw [C25_output_times_backward cfg src inp id (fun _ => none) hrun hs']; decide +kernel
    obtain ⟨y, hy, hy'⟩ := List.mem_map.mp hmem
    exact ⟨y, hy, hy', (hB y hy (by rw [hy']; decide)).1⟩

/-! ### Rounded arithmetic -/
section
open RoundDemo

noncomputable def sF := RoundDemo.fwd_ends.choose
noncomputable def sB := RoundDemo.bwd_ends.choose
theorem hF : EndsIn (fwdRun cfg src Demo.path fun _ => none) sF := RoundDemo.fwd_ends.choose_spec.1
theorem hB : EndsIn (bwdRun cfg src Demo.path fun _ => none) sB := RoundDemo.bwd_ends.choose_spec.1
example := C85_restart_forward cfg src inp Demo.path (fun _ => none) runnable hF _ (hB2 RoundDemo.fwd_ends.choose_spec.2)
example := C85_restart_backward cfg src inp Demo.path (fun _ => none) runnable hB _ (hB2 RoundDemo.bwd_ends.choose_spec.2)

def cfg1 : RunConfig (Fl chop64) := { cfg with output_frequency := Demo.step }
theorem runnable1 : Runnable cfg1 src inp := ⟨runnable.timestep_pos, runnable.ordered, runnable.serves⟩
theorem endsF1 : ∃ s, EndsIn (fwdRun cfg1 src Demo.path fun _ => none) s := by
  obtain ⟨o, ho⟩ := fwd_init_ok cfg1 src inp Demo.path (fun _ => none) runnable1 (by decide)
  obtain ⟨r, _, _, hrun⟩ := fwd_run_eq cfg1 src inp Demo.path _ runnable1 o ho
  exact ⟨_, ⟨cfg1.steps, fun fuel hf => (hrun fuel).trans (if_neg (not_lt.mpr hf))⟩⟩
theorem endsB1 : ∃ s, EndsIn (bwdRun cfg1 src Demo.path fun _ => none) s := by
  obtain ⟨o, ho⟩ := bwd_init_ok cfg1 src inp Demo.path (fun _ => none) runnable1 (by decide)
  obtain ⟨r, _, _, hrun⟩ := bwd_run_eq cfg1 src inp Demo.path _ runnable1 o ho
  exact ⟨_, ⟨cfg1.steps, fun fuel hf => (hrun fuel).trans (if_neg (not_lt.mpr hf))⟩⟩
example := C85_output_frequency_forward cfg src inp Demo.path (fun _ => none) Demo.step runnable hF endsF1.choose_spec
example := C85_output_frequency_backward cfg src inp Demo.path (fun _ => none) Demo.step runnable hB endsB1.choose_spec

def inpZ : Input 1 1 (Fl chop64) := { inp with region := fun _ _ _ => 0 }
def srcZ : Source 1 1 (Fl chop64) := { src with region := .ok (.stationary fun _ _ => 0) }
theorem runnableZ : Runnable cfg srcZ inpZ where
  timestep_pos := runnable.timestep_pos
  ordered := runnable.ordered
  serves := ⟨runnable.serves.states, runnable.serves.fluxes, _, rfl, fun _ _ _ => rfl⟩
theorem endsFZ : ∃ s, EndsIn (fwdRun cfg srcZ Demo.path fun _ => none) s := by
  obtain ⟨o, ho⟩ := fwd_init_ok cfg srcZ inpZ Demo.path (fun _ => none) runnableZ (by decide)
  obtain ⟨r, _, _, hrun⟩ := fwd_run_eq cfg srcZ inpZ Demo.path _ runnableZ o ho
  exact ⟨_, ⟨cfg.steps, fun fuel hf => (hrun fuel).trans (if_neg (not_lt.mpr hf))⟩⟩
theorem endsBZ : ∃ s, EndsIn (bwdRun cfg srcZ Demo.path fun _ => none) s := by
  obtain ⟨o, ho⟩ := bwd_init_ok cfg srcZ inpZ Demo.path (fun _ => none) runnableZ (by decide)
  obtain ⟨r, _, _, hrun⟩ := bwd_run_eq cfg srcZ inpZ Demo.path _ runnableZ o ho
  exact ⟨_, ⟨cfg.steps, fun fuel hf => (hrun fuel).trans (if_neg (not_lt.mpr hf))⟩⟩
theorem wetZ : ∀ t, cfg.tracking_start_date ≤ t → t ≤ cfg.tracking_end_date →
    ∀ i j, 0 ≤ (inpZ.states t).s_upper i j ∧ 0 ≤ (inpZ.states t).s_lower i j := fun t h0 h1 i j =>
  ⟨(physical.wet t h0 h1 i j).1.le, (physical.wet t h0 h1 i j).2.le⟩
example := C85_no_tagging_forward cfg srcZ inpZ Demo.path (fun _ => none) runnableZ wetZ (fun _ _ => ⟨rfl, rfl⟩) (fun _ _ _ _ _ => rfl)
  endsFZ.choose_spec
example := C85_no_tagging_backward cfg srcZ inpZ Demo.path (fun _ => none) runnableZ wetZ (fun _ _ => ⟨rfl, rfl⟩) (fun _ _ _ _ _ => rfl)
  endsBZ.choose_spec
example := C85_conversion (R := chop64) chop64 (r 1) (r 2) (r_nonneg (by norm_num)) (by rw [Fl.le_def]; exact chop64.mono (by norm_num))

/-- one step in rounded arithmetic -/
abbrev S0r := inp.states 0
abbrev S1r := inp.states (2 * Demo.step)
abbrev Fr := inp.fluxes 0
abbrev ar : Fin 3 → Fl chop64 := src.grid.a
abbrev fzr : Arr 3 3 (Fl chop64) := fun _ _ => r (1 / 64)
def outr : FwdOutput 3 3 (Fl chop64) := ⟨fun _ _ => r 1, fun _ _ => r 2, fun _ _ => r 1, fun _ _ => r 1, fun _ _ => r 1, fun _ _ => r 1, fun _ _ => r 1⟩
def outBr : BwdOutput 3 3 (Fl chop64) := ⟨fun _ _ => r 1, fun _ _ => r 2, fun _ _ => r 1, fun _ _ => r 1, fun _ _ => r 1, fun _ _ => r 1⟩
theorem w0 : ∀ i j, 0 ≤ S0r.s_upper i j ∧ 0 ≤ S0r.s_lower i j := fun i j =>
  ⟨(physical.wet 0 (by decide) (by decide) i j).1.le, (physical.wet 0 (by decide) (by decide) i j).2.le⟩
theorem w1 : ∀ i j, 0 ≤ S1r.s_upper i j ∧ 0 ≤ S1r.s_lower i j := fun i j =>
  ⟨(physical.wet (2 * Demo.step) (by decide) (by decide) i j).1.le, (physical.wet (2 * Demo.step) (by decide) (by decide) i j).2.le⟩
example := C85_tracked_within_storage_forward (m := 1) (n := 1) false (r 600) (r 3) ar Fr fzr S0r S1r (inp.region 0) outr w1 1 1
example := C85_tracked_within_storage_backward (m := 1) (n := 1) false (r 600) (r 3) ar Fr fzr S0r S1r (inp.region 0) outBr w0 1 1
example := C85_boundary_forward (m := 1) (n := 1) false (r 600) (r 3) ar Fr fzr S0r S1r (inp.region 0) outr w1 0 1 (by unfold isBoundary; decide)
example := C85_boundary_backward (m := 1) (n := 1) false (r 600) (r 3) ar Fr fzr S0r S1r (inp.region 0) outBr w0 0 1 (by unfold isBoundary; decide)
example := C85_increments_forward (m := 1) (n := 1) false (r 600) (r 3) ar Fr fzr S0r S1r (inp.region 0) outr (r_nonneg (by norm_num)) w0
  (physical.precip 0 (by decide) (by decide)) (physical.evap 0 (by decide) (by decide)) (physical.region 0 (by decide) (by decide))
  (fun _ _ => ⟨r_nonneg (by norm_num), r_nonneg (by norm_num)⟩) 1 1
example := C85_increments_backward (m := 1) (n := 1) false (r 600) (r 3) ar Fr fzr S0r S1r (inp.region 0) outBr (r_nonneg (by norm_num))
  (fun i j => (w1 i j).2)
  (physical.precip 0 (by decide) (by decide)) (physical.evap 0 (by decide) (by decide)) (physical.region 0 (by decide) (by decide))
  (fun _ _ => r_nonneg (by norm_num)) 1 1
example := C85_nothing_from_nothing_forward (m := 1) (n := 1) false (r 600) (r 3) ar Fr fzr S0r S1r (fun _ _ => 0)
  { outr with s_track_upper := fun _ _ => 0, s_track_lower := fun _ _ => 0 } w1 (fun _ _ => rfl) (fun _ _ => rfl) (fun _ _ => rfl)
example := C85_nothing_from_nothing_backward (m := 1) (n := 1) false (r 600) (r 3) ar Fr fzr S0r S1r (fun _ _ => 0)
  { outBr with s_track_upper := fun _ _ => 0, s_track_lower := fun _ _ => 0 } w0 (fun _ _ => rfl) (fun _ _ => rfl) (fun _ _ => rfl)

end

end Wam.Cases.Compare
