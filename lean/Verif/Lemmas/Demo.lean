import Verif.Lemmas.RunEnds
import Verif.Lemmas.RunK

/-!
# A concrete experiment

A 3x3 grid, four time steps of ten minutes, output every twenty minutes, tagging in the second and
third step.  It meets the hypotheses of the theorems about runs (`Demo.runnable`, `Demo.physical`, ...)
and its runs end (`Demo.fwd_ends`, `Demo.bwd_ends`), so those theorems are not vacuous.
-/

namespace Wam.Demo
open Spec

/-- ten minutes in microseconds -/
def step : ℤ := 600000000

def cfg : RunConfig ℚ :=
  { tracking_start_date := 0, tracking_end_date := 4 * step, tagging_start_date := step,
    tagging_end_date := 2 * step, timestep := 600, output_frequency := 2 * step, kvf := 3,
    periodic_boundary := false, restart := false }

def inp : Input 1 1 ℚ :=
  { states := fun t => ⟨fun i j => 4 + i + j + t / 600000000, fun i j => 8 + i - t / 600000000⟩
    fluxes := fun _ =>
      { fx_upper := fun i j => if i = 1 ∧ j = 1 then 1 / 1000 else 0
        fy_upper := fun _ j => (j.val : ℚ) / 2000
        fx_lower := fun i j => - (i.val : ℚ) * j / 4000
        fy_lower := fun _ _ => 1 / 3000
        evap := fun i j => (1 + i + j) / 1000
        precip := fun i _ => (2 + i) / 2000 }
    region := fun _ i j => if i = 1 ∧ j = 1 then 1 else 0 }

def src : Source 1 1 ℚ :=
  { states := fun t => if 0 ≤ t ∧ t ≤ 4 * step then .ok (inp.states t) else .error .keyError
    fluxes := fun t => if 0 ≤ t ∧ t ≤ 4 * step then .ok (inp.fluxes t) else .error .keyError
    grid := ⟨fun i => 2 + i, 1, fun _ => 1⟩
    region := .ok (.stationary (inp.region 0))
    weight := fun i => 2 + i }

/-- output paths: the time itself -/
def path : ℤ → ℤ := id

theorem runnable : Runnable cfg src inp where
  timestep_pos := by decide
  ordered := by decide
  serves :=
    { states := fun t h0 h1 => if_pos ⟨h0, h1⟩
      fluxes := fun t h0 h1 => if_pos ⟨h0, h1⟩
      region := ⟨_, rfl, fun t _ _ => rfl⟩ }

theorem physical : Physical inp cfg.tracking_start_date cfg.tracking_end_date where
  wet := by
    intro t h0 h1 i j
    have e0 : (0 : ℚ) ≤ t := by exact_mod_cast h0
    have e1 : (t : ℚ) ≤ 2400000000 := by exact_mod_cast h1
    simp only [inp]
    constructor <;> have := i.val.cast_nonneg (α := ℚ) <;> have := j.val.cast_nonneg (α := ℚ)
    · positivity
    · have : (t : ℚ) / 600000000 ≤ 4 := by rw [div_le_iff₀ (by norm_num)]; linarith
      linarith
  precip := by intro t _ _ i j; simp only [inp]; positivity
  evap := by intro t _ _ i j; simp only [inp]; positivity
  region := by intro t _ _ i j; simp only [inp]; split <;> norm_num

theorem area_pos : ∀ i, 0 < src.grid.a i := by
  intro i; simp only [src]; positivity

/-- the forward run ends, with files after 20 and 40 minutes -/
theorem fwd_ends : ∃ s, EndsIn (fwdRun cfg src path fun _ => none) s ∧
    s.files.map Prod.fst = [2 * step, 4 * step] := by
  obtain ⟨o, ho⟩ := fwd_init_ok cfg src inp path (fun _ => none) runnable (by decide)
  obtain ⟨r, _, _, hrun⟩ := fwd_run_eq cfg src inp path _ runnable o ho
  refine ⟨_, ⟨cfg.steps, fun fuel hf => (hrun fuel).trans (if_neg (not_lt.mpr hf))⟩, ?_⟩
  rfl

/-- the backward run ends, with files after 20 and 40 minutes of backward time -/
theorem bwd_ends : ∃ s, EndsIn (bwdRun cfg src path fun _ => none) s ∧
    s.files.map Prod.fst = [2 * step, 0] := by
  obtain ⟨o, ho⟩ := bwd_init_ok cfg src inp path (fun _ => none) runnable (by decide)
  obtain ⟨r, _, _, hrun⟩ := bwd_run_eq cfg src inp path _ runnable o ho
  refine ⟨_, ⟨cfg.steps, fun fuel hf => (hrun fuel).trans (if_neg (not_lt.mpr hf))⟩, ?_⟩
  rfl

end Wam.Demo
