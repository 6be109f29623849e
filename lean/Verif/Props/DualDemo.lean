import Verif.Props.Dual
import Mathlib.Data.Rat.Floor

/-!
# C107: concrete cases

A steady wind along a row of two cells inside the boundary, with evaporation and precipitation of equal size.  With cells of one
square metre the vertical flux of `calculate_fz` closes the balance exactly; with larger cells it does not.
-/

namespace Wam.DualDemo
open Spec

def cfg : RunConfig ℚ :=
  { tracking_start_date := 0, tracking_end_date := 3000000, tagging_start_date := 0, tagging_end_date := 3000000,
    timestep := 1, output_frequency := 2000000, kvf := 3, periodic_boundary := false, restart := false }

/-- evaporation of the western cell is tagged forward -/
def A : Arr 3 4 ℚ := fun i j => if i = 1 ∧ j = 1 then 1 else 0
/-- precipitation of the eastern cell is tagged backward -/
def B : Arr 3 4 ℚ := fun i j => if i = 1 ∧ j = 2 then 1 else 0

def inp (w : Arr 3 4 ℚ) : Input 1 2 ℚ :=
  { states := fun _ => ⟨fun _ _ => 100, fun _ _ => 100⟩
    fluxes := fun _ =>
      { fx_upper := fun _ _ => 1, fy_upper := fun _ _ => 0, fx_lower := fun _ _ => 1, fy_lower := fun _ _ => 0
        evap := fun _ _ => 2, precip := fun _ _ => 2 }
    region := fun _ => w }

/-- cells of `a` square metres -/
def src (a : ℚ) (w : Arr 3 4 ℚ) : Source 1 2 ℚ :=
  { states := fun t => .ok ((inp w).states t), fluxes := fun t => .ok ((inp w).fluxes t)
    grid := ⟨fun _ => a, 1, fun _ => 1⟩, region := .ok (.stationary w), weight := fun _ => a }

theorem runnable (a : ℚ) (w : Arr 3 4 ℚ) : Runnable cfg (src a w) (inp w) where
  timestep_pos := by decide
  ordered := by decide
  serves := ⟨fun _ _ _ => rfl, fun _ _ _ => rfl, ⟨_, rfl, fun _ _ _ => rfl⟩⟩

theorem same (a : ℚ) : SameExperiment cfg cfg (src a A) (src a B) (inp A) (inp B) :=
  ⟨rfl, rfl, rfl, rfl, rfl, rfl, fun _ _ _ => rfl, fun _ _ _ => rfl⟩

theorem tagsA : TagsThroughout cfg (inp A) A :=
  ⟨rfl, by decide, by decide, fun _ _ _ => rfl, by decide +kernel⟩

theorem tagsB : TagsThroughout cfg (inp B) B :=
  ⟨rfl, by decide, by decide, fun _ _ _ => rfl, by decide +kernel⟩

theorem physical : Physical (inp A) cfg.tracking_start_date cfg.tracking_end_date where
  wet := fun _ _ _ _ _ => by constructor <;> (simp only [inp]; norm_num)
  precip := fun _ _ _ _ _ => by simp only [inp]; norm_num
  evap := fun _ _ _ _ _ => by simp only [inp]; norm_num
  region := fun _ _ _ i j => by simp only [inp, A]; split <;> norm_num

theorem gentle (a : ℚ) (ha : a = 1 ∨ a = 4) : Gentle cfg (src a A).grid (inp A) := by
  intro k _
  rcases ha with rfl | rfl
  · refine ⟨?_, ?_, ⟨?_, ?_, ?_, ?_⟩⟩
    · show Unlimited _ _ (stepFluxes cfg (src 1 A).grid (inp A) 0) (stepStates cfg (inp A) 0)
      unfold Unlimited halfCell; decide +kernel
    · show Unlimited _ _ (stepFluxes cfg (src 1 A).grid (inp A) 0) (stepStates cfg (inp A) 0)
      unfold Unlimited halfCell; decide +kernel
    · exact (by decide +kernel : ∀ (i : Fin 3) (j : Fin 4), ((1 : ℤ) : ℚ) * (outflow false (stepFluxes cfg (src 1 A).grid (inp A) 0).fx_lower
        (stepFluxes cfg (src 1 A).grid (inp A) 0).fy_lower i j / 1 + max (-stepFz cfg (src 1 A).grid (inp A) 0 i j) 0 +
          3 * |stepFz cfg (src 1 A).grid (inp A) 0 i j| + share 2 100 100) ≤ 100)
    · exact (by decide +kernel : ∀ (i : Fin 3) (j : Fin 4), ((1 : ℤ) : ℚ) * (outflow false (stepFluxes cfg (src 1 A).grid (inp A) 0).fx_upper
        (stepFluxes cfg (src 1 A).grid (inp A) 0).fy_upper i j / 1 + max (stepFz cfg (src 1 A).grid (inp A) 0 i j) 0 +
          3 * |stepFz cfg (src 1 A).grid (inp A) 0 i j| + share 2 100 100) ≤ 100)
    · exact (by decide +kernel : ∀ (i : Fin 3) (j : Fin 4), ((1 : ℤ) : ℚ) * (outflow false
        (fun i j => -(stepFluxes cfg (src 1 A).grid (inp A) 0).fx_lower i j)
        (fun i j => -(stepFluxes cfg (src 1 A).grid (inp A) 0).fy_lower i j) i j / 1 +
          max (stepFz cfg (src 1 A).grid (inp A) 0 i j) 0 + 3 * |stepFz cfg (src 1 A).grid (inp A) 0 i j| + 2) ≤ 100)
    · exact (by decide +kernel : ∀ (i : Fin 3) (j : Fin 4), ((1 : ℤ) : ℚ) * (outflow false
        (fun i j => -(stepFluxes cfg (src 1 A).grid (inp A) 0).fx_upper i j)
        (fun i j => -(stepFluxes cfg (src 1 A).grid (inp A) 0).fy_upper i j) i j / 1 +
          max (-stepFz cfg (src 1 A).grid (inp A) 0 i j) 0 + 3 * |stepFz cfg (src 1 A).grid (inp A) 0 i j|) ≤ 100)
  · refine ⟨?_, ?_, ⟨?_, ?_, ?_, ?_⟩⟩
    · show Unlimited _ _ (stepFluxes cfg (src 4 A).grid (inp A) 0) (stepStates cfg (inp A) 0)
      unfold Unlimited halfCell; decide +kernel
    · show Unlimited _ _ (stepFluxes cfg (src 4 A).grid (inp A) 0) (stepStates cfg (inp A) 0)
      unfold Unlimited halfCell; decide +kernel
    · exact (by decide +kernel : ∀ (i : Fin 3) (j : Fin 4), ((1 : ℤ) : ℚ) * (outflow false (stepFluxes cfg (src 4 A).grid (inp A) 0).fx_lower
        (stepFluxes cfg (src 4 A).grid (inp A) 0).fy_lower i j / 4 + max (-stepFz cfg (src 4 A).grid (inp A) 0 i j) 0 +
          3 * |stepFz cfg (src 4 A).grid (inp A) 0 i j| + share 2 100 100) ≤ 100)
    · exact (by decide +kernel : ∀ (i : Fin 3) (j : Fin 4), ((1 : ℤ) : ℚ) * (outflow false (stepFluxes cfg (src 4 A).grid (inp A) 0).fx_upper
        (stepFluxes cfg (src 4 A).grid (inp A) 0).fy_upper i j / 4 + max (stepFz cfg (src 4 A).grid (inp A) 0 i j) 0 +
          3 * |stepFz cfg (src 4 A).grid (inp A) 0 i j| + share 2 100 100) ≤ 100)
    · exact (by decide +kernel : ∀ (i : Fin 3) (j : Fin 4), ((1 : ℤ) : ℚ) * (outflow false
        (fun i j => -(stepFluxes cfg (src 4 A).grid (inp A) 0).fx_lower i j)
        (fun i j => -(stepFluxes cfg (src 4 A).grid (inp A) 0).fy_lower i j) i j / 4 +
          max (stepFz cfg (src 4 A).grid (inp A) 0 i j) 0 + 3 * |stepFz cfg (src 4 A).grid (inp A) 0 i j| + 2) ≤ 100)
    · exact (by decide +kernel : ∀ (i : Fin 3) (j : Fin 4), ((1 : ℤ) : ℚ) * (outflow false
        (fun i j => -(stepFluxes cfg (src 4 A).grid (inp A) 0).fx_upper i j)
        (fun i j => -(stepFluxes cfg (src 4 A).grid (inp A) 0).fy_upper i j) i j / 4 +
          max (-stepFz cfg (src 4 A).grid (inp A) 0 i j) 0 + 3 * |stepFz cfg (src 4 A).grid (inp A) 0 i j|) ≤ 100)

theorem closed (k : ℕ) (i : Fin 3) (j : Fin 4) (hb : ¬ isBoundary false i j) :
    imbalanceLower false ((1 : ℤ) : ℚ) (src 1 A).grid.a (stepFluxes cfg (src 1 A).grid (inp A) k)
      (stepFz cfg (src 1 A).grid (inp A) k) (stepStates cfg (inp A) k) (stepStates cfg (inp A) (k + 1)) i j = 0 ∧
    imbalanceUpper false ((1 : ℤ) : ℚ) (src 1 A).grid.a (stepFluxes cfg (src 1 A).grid (inp A) k)
      (stepFz cfg (src 1 A).grid (inp A) k) (stepStates cfg (inp A) k) (stepStates cfg (inp A) (k + 1)) i j = 0 ∧
    shareDrift ((1 : ℤ) : ℚ) (stepFluxes cfg (src 1 A).grid (inp A) k) (stepStates cfg (inp A) k)
      (stepStates cfg (inp A) (k + 1)) i j = 0 :=
  (by decide +kernel : ∀ (i : Fin 3) (j : Fin 4), ¬ isBoundary false i j →
    imbalanceLower false ((1 : ℤ) : ℚ) (src 1 A).grid.a (stepFluxes cfg (src 1 A).grid (inp A) 0)
      (stepFz cfg (src 1 A).grid (inp A) 0) (stepStates cfg (inp A) 0) (stepStates cfg (inp A) 0) i j = 0 ∧
    imbalanceUpper false ((1 : ℤ) : ℚ) (src 1 A).grid.a (stepFluxes cfg (src 1 A).grid (inp A) 0)
      (stepFz cfg (src 1 A).grid (inp A) 0) (stepStates cfg (inp A) 0) (stepStates cfg (inp A) 0) i j = 0 ∧
    shareDrift ((1 : ℤ) : ℚ) (stepFluxes cfg (src 1 A).grid (inp A) 0) (stepStates cfg (inp A) 0)
      (stepStates cfg (inp A) 0) i j = 0) i j hb

theorem fwd_ends (a : ℚ) : ∃ s, EndsIn (fwdRun cfg (src a A) id fun _ => none) s := by
  obtain ⟨o, ho⟩ := fwd_init_ok cfg (src a A) (inp A) id (fun _ => none) (runnable a A) (by decide)
  obtain ⟨r, _, _, hrun⟩ := fwd_run_eq cfg (src a A) (inp A) id _ (runnable a A) o ho
  exact ⟨_, ⟨cfg.steps, fun fuel hf => (hrun fuel).trans (if_neg (not_lt.mpr hf))⟩⟩

theorem bwd_ends (a : ℚ) : ∃ s, EndsIn (bwdRun cfg (src a B) id fun _ => none) s := by
  obtain ⟨o, ho⟩ := bwd_init_ok cfg (src a B) (inp B) id (fun _ => none) (runnable a B) (by decide)
  obtain ⟨r, _, _, hrun⟩ := bwd_run_eq cfg (src a B) (inp B) id _ (runnable a B) o ho
  exact ⟨_, ⟨cfg.steps, fun fuel hf => (hrun fuel).trans (if_neg (not_lt.mpr hf))⟩⟩

/-- all hypotheses of the exact theorem hold, and the runs end -/
example : ∃ s s', EndsIn (fwdRun cfg (src 1 A) id fun _ => none) s ∧ EndsIn (bwdRun cfg (src 1 B) id fun _ => none) s' ∧
    sumFiles s'.files (fun f => amountOver (src 1 A).grid.a A f.e_track) =
      sumFiles s.files (fun f => amountOver (src 1 A).grid.a B (fun i j => f.p_track_lower i j + f.p_track_upper i j)) := by
  obtain ⟨s, hs⟩ := fwd_ends 1
  obtain ⟨s', hs'⟩ := bwd_ends 1
  exact ⟨s, s', hs, hs', C107_reciprocity_exact cfg cfg (src 1 A) (src 1 B) (inp A) (inp B) id id _ _ (runnable 1 A)
    (runnable 1 B) (same 1) (by decide) A B tagsA tagsB physical (fun _ => by simp [src]) (by simp [cfg])
    (gentle 1 (Or.inl rfl)) (fun k _ i j hb => closed k i j hb) hs hs'⟩

/-- with cells of four square metres the balance of the data is not closed by `calculate_fz`; the general theorem applies -/
example : ∃ s s', EndsIn (fwdRun cfg (src 4 A) id fun _ => none) s ∧ EndsIn (bwdRun cfg (src 4 B) id fun _ => none) s' ∧
    |sumFiles s'.files (fun f => amountOver (src 4 A).grid.a A f.e_track) -
      sumFiles s.files (fun f => amountOver (src 4 A).grid.a B (fun i j => f.p_track_lower i j + f.p_track_upper i j))| ≤
    5 * ∑ k ∈ Finset.range (stepCount cfg.tracking_start_date cfg.tracking_end_date cfg.dt),
      stepMisfit cfg (src 4 A).grid (inp A) k := by
  obtain ⟨s, hs⟩ := fwd_ends 4
  obtain ⟨s', hs'⟩ := bwd_ends 4
  exact ⟨s, s', hs, hs', C107_reciprocity cfg cfg (src 4 A) (src 4 B) (inp A) (inp B) id id _ _ (runnable 4 A)
    (runnable 4 B) (same 4) (by decide) A B tagsA tagsB physical (fun _ => by simp [src]) (by simp [cfg])
    (gentle 4 (Or.inr rfl)) hs hs'⟩

/-- precipitation tracked over the eastern cell, in the last file of the forward run -/
def lastRain : Option ℚ := match fwdRun cfg (src 1 A) id (fun _ => none) 3 with
  | .finished s => s.files.getLast?.map fun x => x.2.p_track_lower 1 2
  | _ => none

/-- it is not zero: water that evaporated in the west has reached the east -/
example : lastRain = some (1 / 5000) := by decide +kernel

end Wam.DualDemo
