import Verif.Props.Run
import Verif.Props.RunPhysics
import Verif.Props.Restart
import Verif.Props.Progress
import Verif.Props.RunMore
import Verif.Props.Complete
import Verif.Lemmas.Demo

/-!
# Concrete cases: whole runs

Every theorem of `Props/Run`, `RunPhysics`, `Restart`, `Progress`, `RunMore` and `Complete` that has hypotheses, applied to the experiment
of `Lemmas/Demo` (3 x 3 cells, four steps, output every second step).
-/

namespace Wam.Cases.Run
open Spec Demo

abbrev noFwd : ℤ → Option (FwdOutput 3 3 ℚ) := fun _ => none
abbrev noBwd : ℤ → Option (BwdOutput 3 3 ℚ) := fun _ => none

/-- final states of the two runs -/
noncomputable def sF := Demo.fwd_ends.choose
noncomputable def sB := Demo.bwd_ends.choose
theorem hF : EndsIn (fwdRun cfg src path noFwd) sF := Demo.fwd_ends.choose_spec.1
theorem hB : EndsIn (bwdRun cfg src path noBwd) sB := Demo.bwd_ends.choose_spec.1
theorem timesF : sF.files.map Prod.fst = [2 * step, 4 * step] := Demo.fwd_ends.choose_spec.2
theorem timesB : sB.files.map Prod.fst = [2 * step, 0] := Demo.bwd_ends.choose_spec.2

theorem two {β : Type} {l : List (ℤ × β)} {a b : ℤ} (h : l.map Prod.fst = [a, b]) : ∃ f g, l = [(a, f), (b, g)] := by
  match l, h with
  | [(x, f), (y, g)], h => simp only [List.map_cons, List.map_nil, List.cons.injEq, and_true] at h; exact ⟨f, g, by rw [h.1, h.2]⟩

theorem filesF : ∃ f g, sF.files = [(2 * step, f), (4 * step, g)] := two timesF
/-- the two files of the forward run -/
noncomputable def fF := filesF.choose
noncomputable def gF := filesF.choose_spec.choose
theorem hfF : sF.files = [(2 * step, fF), (4 * step, gF)] := filesF.choose_spec.choose_spec
theorem filesB : ∃ f g, sB.files = [(2 * step, f), (0, g)] := two timesB
/-- the two files of the backward run -/
noncomputable def fB := filesB.choose
noncomputable def gB := filesB.choose_spec.choose
theorem hfB : sB.files = [(2 * step, fB), (0, gB)] := filesB.choose_spec.choose_spec

/-- the same experiment with time step zero or a negative time step, and data at all times -/
def cfg0 : RunConfig ℚ := { cfg with timestep := 0 }
def cfgN : RunConfig ℚ := { cfg with timestep := -600 }
def srcAll : Source 1 1 ℚ := { src with states := fun t => .ok (inp.states t), fluxes := fun t => .ok (inp.fluxes t) }
theorem servesAll (A B : ℤ) : Serves srcAll inp A B where
  states := fun _ _ _ => rfl
  fluxes := fun _ _ _ => rfl
  region := ⟨_, rfl, fun _ _ _ => rfl⟩

/-! ### Steps and output times -/

example := C23_step_count_forward cfg src inp path noFwd runnable (by decide)
example := C23_step_count_backward cfg src inp path noBwd runnable (by decide)
example := C24_zero_timestep_forward cfg0 src inp path noFwd rfl (by decide) rfl runnable.serves
example := C24_zero_timestep_backward cfg0 src inp path noBwd rfl (by decide) rfl runnable.serves
example := C24_nonpositive_timestep_forward cfgN srcAll inp path noFwd (by decide) (by decide) rfl servesAll
example := C24_nonpositive_timestep_backward cfgN srcAll inp path noBwd (by decide) (by decide) rfl servesAll
example := C25_output_times_forward cfg src inp path noFwd runnable hF
example := C25_output_times_backward cfg src inp path noBwd runnable hB
example := C25_output_order_forward cfg src inp path noFwd runnable hF
example := C25_output_order_backward cfg src inp path noBwd runnable hB

/-! ### Physics of the output -/

example := C26_files_are_sound_forward cfg src inp path noFwd runnable physical (fun _ _ => ⟨le_refl _, le_refl _⟩) hF
example := C26_files_are_sound_backward cfg src inp path noBwd runnable physical (fun _ _ => ⟨le_refl _, le_refl _⟩) hB
example := C27_run_budget_forward cfg src inp path noFwd runnable physical.wet area_pos hF
example := C27_run_budget_backward cfg src inp path noBwd runnable physical.wet area_pos hB
example : ∃ x, sF.files.getLast? = some x ∧
    sF.output = { FwdOutput.zeros with s_track_lower := x.2.s_track_lower, s_track_upper := x.2.s_track_upper } := by
  obtain ⟨f, g, h⟩ := filesF
  exact ⟨(4 * step, g), by rw [h]; rfl, C27_final_storage_forward cfg src inp path noFwd runnable hF _ (by rw [h]; rfl)⟩
example : ∃ x, sB.files.getLast? = some x ∧
    sB.output = { BwdOutput.zeros with s_track_lower := x.2.s_track_lower, s_track_upper := x.2.s_track_upper } := by
  obtain ⟨f, g, h⟩ := filesB
  exact ⟨(0, g), by rw [h]; rfl, C27_final_storage_backward cfg src inp path noBwd runnable hB _ (by rw [h]; rfl)⟩

/-- the same experiment with output after every step -/
def cfg1 : RunConfig ℚ := { cfg with output_frequency := step }
theorem runnable1 : Runnable cfg1 src inp := ⟨runnable.timestep_pos, runnable.ordered, runnable.serves⟩
theorem endsF1 : ∃ s, EndsIn (fwdRun cfg1 src path noFwd) s := by
  obtain ⟨o, ho⟩ := fwd_init_ok cfg1 src inp path noFwd runnable1 (by decide)
  obtain ⟨r, _, _, hrun⟩ := fwd_run_eq cfg1 src inp path _ runnable1 o ho
  exact ⟨_, ⟨cfg1.steps, fun fuel hf => (hrun fuel).trans (if_neg (not_lt.mpr hf))⟩⟩
theorem endsB1 : ∃ s, EndsIn (bwdRun cfg1 src path noBwd) s := by
  obtain ⟨o, ho⟩ := bwd_init_ok cfg1 src inp path noBwd runnable1 (by decide)
  obtain ⟨r, _, _, hrun⟩ := bwd_run_eq cfg1 src inp path _ runnable1 o ho
  exact ⟨_, ⟨cfg1.steps, fun fuel hf => (hrun fuel).trans (if_neg (not_lt.mpr hf))⟩⟩
example := C28_output_frequency_forward cfg src inp path noFwd step runnable hF endsF1.choose_spec
example := C28_output_frequency_backward cfg src inp path noBwd step runnable hB endsB1.choose_spec
example := C32_tagged_total_forward cfg src inp path noFwd runnable hF 1 1
example := C32_tagged_total_backward cfg src inp path noBwd runnable hB 1 1

/-! ### Restart and crash -/

example := C29_restart_forward cfg src inp path noFwd runnable hF (2 * step) (by rw [timesF]; exact List.mem_cons_self)
example := C29_restart_backward cfg src inp path noBwd runnable hB (2 * step) (by rw [timesB]; exact List.mem_cons_self)
/-- the run stopped after three steps: one file has been written -/
example : ∃ sk, fwdRun cfg src path noFwd 3 = .stillRunning sk ∧ sk.files = sF.files.filter (fun x => decide (x.1 ≤ sk.t0)) ∧
    sk.files.map Prod.fst = [2 * step] :=
  ⟨_, rfl, (C30_crash_forward cfg src inp path noFwd runnable hF 3 _ (.inl rfl)).1, rfl⟩
example : ∃ sk, bwdRun cfg src path noBwd 3 = .stillRunning sk ∧ sk.files = sB.files.filter (fun x => decide (sk.t1 ≤ x.1)) ∧
    sk.files.map Prod.fst = [2 * step] :=
  ⟨_, rfl, (C30_crash_backward cfg src inp path noBwd runnable hB 3 _ (.inl rfl)).1, rfl⟩

/-! ### What the files accumulate, and the progress report -/

example := C33_accumulation_forward cfg src inp path noFwd runnable hF [] [] _ _ fF gF hfF 1 1
example := C33_accumulation_backward cfg src inp path noBwd runnable hB [] [] _ _ fB gB hfB 1 1
example := C33_accumulation_first_forward cfg src inp path noFwd runnable hF [(4 * step, gF)] _ _ hfF 1 1
example := C33_accumulation_first_backward cfg src inp path noBwd runnable hB [(0, gB)] _ _ hfB 1 1
example := C33_time_bounds_forward cfg src inp path noFwd runnable hF _ _ gF (.inl ⟨[], fF, [], hfF⟩)
example := C33_time_bounds_backward cfg src inp path noBwd runnable hB _ _ gB (.inl ⟨[], fB, [], hfB⟩)
example := C34_report_totals_forward cfg src inp path noFwd runnable hF
example := C34_report_totals_backward cfg src inp path noBwd runnable hB
theorem reportF : ∃ f g rep, sF.files = [(2 * step, f), (4 * step, g)] ∧ sF.reports[1]? = some (4 * step, rep) := by
  obtain ⟨f, g, h⟩ := filesF
  obtain ⟨rep, hr, _⟩ := (C34_report_totals_forward cfg src inp path noFwd runnable hF).2 [(2 * step, f)] _ g [] h
  exact ⟨f, g, rep, h, hr⟩
theorem reportB : ∃ f g rep, sB.files = [(2 * step, f), (0, g)] ∧ sB.reports[1]? = some (0, rep) := by
  obtain ⟨f, g, h⟩ := filesB
  obtain ⟨rep, hr, _⟩ := (C34_report_totals_backward cfg src inp path noBwd runnable hB).2 [(2 * step, f)] _ g [] h
  exact ⟨f, g, rep, h, hr⟩
example := C35_closure_forward cfg src inp path noFwd runnable physical.wet area_pos 1 (fun _ => (one_mul _).symm) hF
  [(2 * step, reportF.choose)] _ _ [] reportF.choose_spec.choose_spec.choose_spec.1 _ reportF.choose_spec.choose_spec.choose_spec.2
example := C35_closure_backward cfg src inp path noBwd runnable physical.wet area_pos 1 (fun _ => (one_mul _).symm) hB
  [(2 * step, reportB.choose)] _ _ [] reportB.choose_spec.choose_spec.choose_spec.1 _ reportB.choose_spec.choose_spec.choose_spec.2

/-! ### Nothing tagged -/

def inpZ : Input 1 1 ℚ := { inp with region := fun _ _ _ => 0 }
def srcZ : Source 1 1 ℚ := { src with region := .ok (.stationary fun _ _ => 0) }
theorem runnableZ : Runnable cfg srcZ inpZ where
  timestep_pos := runnable.timestep_pos
  ordered := runnable.ordered
  serves := ⟨runnable.serves.states, runnable.serves.fluxes, _, rfl, fun _ _ _ => rfl⟩
theorem endsFZ : ∃ s, EndsIn (fwdRun cfg srcZ path noFwd) s := by
  obtain ⟨o, ho⟩ := fwd_init_ok cfg srcZ inpZ path noFwd runnableZ (by decide)
  obtain ⟨r, _, _, hrun⟩ := fwd_run_eq cfg srcZ inpZ path _ runnableZ o ho
  exact ⟨_, ⟨cfg.steps, fun fuel hf => (hrun fuel).trans (if_neg (not_lt.mpr hf))⟩⟩
theorem endsBZ : ∃ s, EndsIn (bwdRun cfg srcZ path noBwd) s := by
  obtain ⟨o, ho⟩ := bwd_init_ok cfg srcZ inpZ path noBwd runnableZ (by decide)
  obtain ⟨r, _, _, hrun⟩ := bwd_run_eq cfg srcZ inpZ path _ runnableZ o ho
  exact ⟨_, ⟨cfg.steps, fun fuel hf => (hrun fuel).trans (if_neg (not_lt.mpr hf))⟩⟩
example := C19_run_forward cfg srcZ inpZ path noFwd runnableZ physical.wet (fun _ _ => ⟨rfl, rfl⟩) (fun _ _ _ _ _ => rfl) endsFZ.choose_spec
example := C19_run_backward cfg srcZ inpZ path noBwd runnableZ physical.wet (fun _ _ => ⟨rfl, rfl⟩) (fun _ _ _ _ _ => rfl) endsBZ.choose_spec

/-! ### Damaged or incomplete archives -/

/-- the fluxes between the third and the fourth step are gone -/
abbrev srcD : Source 1 1 ℚ := C94demo.src'
theorem damaged : Damaged src srcD where
  states := fun _ => .inl rfl
  fluxes := by
    intro t
    by_cases h : t = 7 * step / 2
    · right; exact ⟨.keyError, by simp only [C94demo.src', if_pos h]⟩
    · left; simp only [C94demo.src', if_neg h]
  grid := rfl
  weight := rfl
  region := .inr ⟨_, _, rfl, rfl, rfl⟩
example := C72_missing_input_forward cfg src srcD damaged path noFwd 4 _ rfl
example := C72_missing_input_backward cfg src srcD damaged path noBwd 4 _ rfl

theorem lackF : ¬ CompleteFwd cfg srcD path noFwd := by
  rintro ⟨_, r, _, h⟩
  obtain ⟨v, hv⟩ := (h 3 (by decide +kernel)).fluxes
  have e : timeFwd cfg 3 + cfg.timestep * 500000 = 7 * step / 2 := by decide +kernel
  rw [e] at hv
  simp only [C94demo.src', if_true] at hv
  cases hv
theorem lackB : ¬ CompleteBwd cfg srcD path noBwd := by
  rintro ⟨_, r, _, h⟩
  obtain ⟨v, hv⟩ := (h 0 (by decide +kernel)).fluxes
  have e : timeBwd cfg 0 - cfg.timestep * 500000 = 7 * step / 2 := by decide +kernel
  rw [e] at hv
  simp only [C94demo.src', if_true] at hv
  cases hv
example := C94_fails_forward cfg (by decide) srcD path noFwd lackF
example := C94_fails_backward cfg (by decide) srcD path noBwd lackB
example := C94_restart_backward { cfg with restart := true } src path noBwd rfl rfl
/-- a file of a later time is in one of the folders -/
example := C94_folder_forward { cfg with restart := true } src path noFwd (fun t => if t = 3 then some FwdOutput.zeros else none) (fun _ => rfl) 7
example := C94_folder_backward { cfg with restart := true } src path noBwd (fun t => if t = 3 then some BwdOutput.zeros else none)
  (fun _ => rfl) 7

end Wam.Cases.Run
