import Verif.Props.Limit

/-!
# C110: a concrete family of runs

A steady wind over a row of two cells inside the boundary; all storages, fluxes, the region and `kvf` are perturbed by `x`, and
`x` goes to zero.  The flow of the lower layer reverses with the sign of `x` in one component, so that the donor cell changes.
-/

namespace Wam.LimitDemo
open Spec Filter Topology

noncomputable def cfg (x : ℝ) : RunConfig ℝ :=
  { tracking_start_date := 0, tracking_end_date := 3000000, tagging_start_date := 0, tagging_end_date := 3000000,
    timestep := 1, output_frequency := 2000000, kvf := 3 + x, periodic_boundary := false, restart := false }

noncomputable def inp (x : ℝ) : Input 1 2 ℝ :=
  { states := fun _ => ⟨fun _ _ => 100 + x, fun _ _ => 100 - x⟩
    fluxes := fun _ =>
      { fx_upper := fun _ _ => 1 + x, fy_upper := fun _ _ => x, fx_lower := fun _ _ => -1, fy_lower := fun _ _ => x
        evap := fun _ _ => 2 + x, precip := fun _ _ => 2 - x }
    region := fun _ _ _ => 1 + x }

noncomputable def src (x : ℝ) : Source 1 2 ℝ :=
  { states := fun t => .ok ((inp x).states t), fluxes := fun t => .ok ((inp x).fluxes t)
    grid := ⟨fun _ => 4, 1, fun _ => 1⟩, region := .ok (.stationary ((inp x).region 0)), weight := fun _ => 4 }

theorem runnable (x : ℝ) : Runnable (cfg x) (src x) (inp x) where
  timestep_pos := by show (0 : ℤ) < 1; decide
  ordered := by show (0 : ℤ) ≤ 3000000; decide
  serves := ⟨fun _ _ _ => rfl, fun _ _ _ => rfl, ⟨_, rfl, fun _ _ _ => rfl⟩⟩

theorem lively : Lively (src 0).grid (inp 0) (cfg 0).tracking_start_date (cfg 0).tracking_end_date where
  wet := fun _ _ _ _ _ => by constructor <;> (simp only [inp]; norm_num)
  upper := fun _ _ _ _ _ => by left; simp [inp, src]
  lower := fun _ _ _ _ _ => by left; simp [inp, src]

theorem lin (a b : ℝ) : Tendsto (fun x : ℝ => a + b * x) (𝓝 0) (𝓝 (a + b * 0)) :=
  tendsto_const_nhds.add (tendsto_id.const_mul b)

theorem data : DataTend (𝓝 0) inp (inp 0) (cfg 0).tracking_start_date (cfg 0).tracking_end_date where
  s_upper := fun _ _ _ _ _ => by simpa [inp] using lin 100 1
  s_lower := fun _ _ _ _ _ => by simpa [inp, sub_eq_add_neg] using lin 100 (-1)
  fx_upper := fun _ _ _ _ _ => by simpa [inp] using lin 1 1
  fy_upper := fun _ _ _ _ _ => by simpa [inp] using lin 0 1
  fx_lower := fun _ _ _ _ _ => by simpa [inp] using lin (-1) 0
  fy_lower := fun _ _ _ _ _ => by simpa [inp] using lin 0 1
  evap := fun _ _ _ _ _ => by simpa [inp] using lin 2 1
  precip := fun _ _ _ _ _ => by simpa [inp, sub_eq_add_neg] using lin 2 (-1)
  region := fun _ _ _ _ _ => by simpa [inp] using lin 1 1

theorem steps (x : ℝ) : (cfg x).steps = 3 := by
  show stepCount 0 3000000 (1 * 1000000) = 3
  decide +kernel

theorem fwd_ends (x : ℝ) : ∃ s, EndsIn (fwdRun (cfg x) (src x) id fun _ => none) s ∧
    s.files.map Prod.fst = [2000000, 3000000] := by
  obtain ⟨o, ho⟩ := fwd_init_ok (cfg x) (src x) (inp x) id (fun _ => none) (runnable x) (fun h => by cases h)
  obtain ⟨r, _, _, hrun⟩ := fwd_run_eq (cfg x) (src x) (inp x) id _ (runnable x) o ho
  refine ⟨_, ⟨(cfg x).steps, fun fuel hf => (hrun fuel).trans (if_neg (not_lt.mpr hf))⟩, ?_⟩
  refine (Proc.files_time _ _ _).trans ?_
  rw [steps]
  show List.map (fun i => (fun k : ℕ => 0 + (k : ℤ) * 1000000) (i + 1))
    (List.filter (fun i => decide (writes (fun k : ℕ => 0 + (k : ℤ) * 1000000) 2000000 (cfg x).steps (i + 1))) (List.range 3)) = [2000000, 3000000]
  rw [steps]
  decide +kernel

theorem bwd_ends (x : ℝ) : ∃ s, EndsIn (bwdRun (cfg x) (src x) id fun _ => none) s ∧
    s.files.map Prod.fst = [2000000, 0] := by
  obtain ⟨o, ho⟩ := bwd_init_ok (cfg x) (src x) (inp x) id (fun _ => none) (runnable x) (fun h => by cases h)
  obtain ⟨r, _, _, hrun⟩ := bwd_run_eq (cfg x) (src x) (inp x) id _ (runnable x) o ho
  refine ⟨_, ⟨(cfg x).steps, fun fuel hf => (hrun fuel).trans (if_neg (not_lt.mpr hf))⟩, ?_⟩
  refine (Proc.files_time _ _ _).trans ?_
  rw [steps]
  have bt : (cfg x).bwdTime = fun k : ℕ => 3000000 - (k : ℤ) * 1000000 := by
    funext k
    have : (cfg x).dt = 1000000 := rfl
    unfold RunConfig.bwdTime
    rw [this]; rfl
  have fr : (cfg x).output_frequency = 2000000 := rfl
  simp only [bwdProc, fr, steps, bt]
  decide +kernel

/-- the runs of the family end, and their files tend to those of the run without perturbation -/
example : ∃ (s : ℝ → LoopState (FwdOutput 3 4 ℝ) ℝ), (∀ x, EndsIn (fwdRun (cfg x) (src x) id fun _ => none) (s x)) ∧
    (s 0).files ≠ [] ∧ FilesTend (FwdTend (𝓝 0)) (fun x => (s x).files) (s 0).files := by
  choose s hs hf using fwd_ends
  refine ⟨s, hs, fun h => by have := hf 0; simp [h] at this, ?_⟩
  refine C110_forward cfg (cfg 0) (fun _ => rfl) (by simpa [cfg] using lin 3 1) (by simp [cfg]) src (src 0) (fun _ => rfl)
    inp (inp 0) runnable (runnable 0) data lively (fun _ => id) id (fun _ _ => none) (fun _ => none) ?_ ?_ hs (hs 0)
  · exact fun _ _ => tendsto_const_nhds
  · exact fun _ _ => tendsto_const_nhds

example : ∃ (s : ℝ → LoopState (BwdOutput 3 4 ℝ) ℝ), (∀ x, EndsIn (bwdRun (cfg x) (src x) id fun _ => none) (s x)) ∧
    (s 0).files ≠ [] ∧ FilesTend (BwdTend (𝓝 0)) (fun x => (s x).files) (s 0).files := by
  choose s hs hf using bwd_ends
  refine ⟨s, hs, fun h => by have := hf 0; simp [h] at this, ?_⟩
  refine C110_backward cfg (cfg 0) (fun _ => rfl) (by simpa [cfg] using lin 3 1) (by simp [cfg]) src (src 0) (fun _ => rfl)
    inp (inp 0) runnable (runnable 0) data lively (fun _ => id) id (fun _ _ => none) (fun _ => none) ?_ ?_ hs (hs 0)
  · exact fun _ _ => tendsto_const_nhds
  · exact fun _ _ => tendsto_const_nhds

/-- the hypotheses of the versions with a tolerance hold for the run without perturbation, and the perturbed runs are among
those that come close to it -/
example : ∃ δ > 0, ∀ x : ℝ, |x| ≤ δ → ∀ s s₀ : LoopState (FwdOutput 3 4 ℝ) ℝ, EndsIn (fwdRun (cfg x) (src x) id fun _ => none) s →
    EndsIn (fwdRun (cfg 0) (src 0) id fun _ => none) s₀ → FilesClose (FwdWithin (1 / 1000)) s.files s₀.files := by
  obtain ⟨s₁, hs₁, -⟩ := fwd_ends 0
  obtain ⟨δ, hδ, h⟩ := C110_forward_tolerance (cfg 0) (by simp [cfg]) (src 0) (inp 0) (runnable 0) lively id (fun _ => none) hs₁
    (1 / 1000) (by norm_num)
  refine ⟨δ, hδ, fun x hx s s₀ hs hs₀ => ?_⟩
  have e : s₀ = s₁ := by
    obtain ⟨N, h1⟩ := hs₀
    obtain ⟨M, h2⟩ := hs₁
    have := (h1 (max N M) (le_max_left _ _)).symm.trans (h2 (max N M) (le_max_right _ _))
    injection this
  subst e
  refine h (3 + x) (src x) (inp x) id (fun _ => none) s rfl (runnable x) (by simpa [cfg] using hx) ?_ ?_ ?_ hs
  · have h1 : |(100 : ℝ) + x - 100| ≤ δ := by simpa using hx
    have h2 : |(100 : ℝ) - x - 100| ≤ δ := by simpa using hx
    constructor <;> intro t _ _ i j <;> simp only [inp] <;> norm_num <;> first | exact hx | exact hδ.le
  · intro i j; simp [startFwd, hδ.le]
  · intro i j; simp [startFwd, hδ.le]

example : ∃ δ > 0, ∀ x : ℝ, |x| ≤ δ → ∀ s s₀ : LoopState (BwdOutput 3 4 ℝ) ℝ, EndsIn (bwdRun (cfg x) (src x) id fun _ => none) s →
    EndsIn (bwdRun (cfg 0) (src 0) id fun _ => none) s₀ → FilesClose (BwdWithin (1 / 1000)) s.files s₀.files := by
  obtain ⟨s₁, hs₁, -⟩ := bwd_ends 0
  obtain ⟨δ, hδ, h⟩ := C110_backward_tolerance (cfg 0) (by simp [cfg]) (src 0) (inp 0) (runnable 0) lively id (fun _ => none) hs₁
    (1 / 1000) (by norm_num)
  refine ⟨δ, hδ, fun x hx s s₀ hs hs₀ => ?_⟩
  have e : s₀ = s₁ := by
    obtain ⟨N, h1⟩ := hs₀
    obtain ⟨M, h2⟩ := hs₁
    have := (h1 (max N M) (le_max_left _ _)).symm.trans (h2 (max N M) (le_max_right _ _))
    injection this
  subst e
  refine h (3 + x) (src x) (inp x) id (fun _ => none) s rfl (runnable x) (by simpa [cfg] using hx) ?_ ?_ ?_ hs
  · constructor <;> intro t _ _ i j <;> simp only [inp] <;> norm_num <;> first | exact hx | exact hδ.le
  · intro i j; simp [startBwd, hδ.le]
  · intro i j; simp [startBwd, hδ.le]

end Wam.LimitDemo
