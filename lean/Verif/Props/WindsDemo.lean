import Verif.Props.Winds
import Verif.Props.WorksDemo

/-! # C114 on examples -/

set_option linter.unusedSectionVars false
set_option linter.unusedVariables false

namespace Wam
open Spec

/-- C114_pressure_levels: four levels and the surface, with winds between 1 and 20 eastward and between -1 and 2 northward -/
example : ∃ r, preprocessPressure demoArgsort (7 / 10) 5000 (column demoLevels) (surface demoSurface) (some 3) = .ok r ∧
    (⟨1, 20, -1, 2⟩ : WindRange ℚ).CarriesBoth r :=
  C114_pressure_levels demoArgsort demoArgsort_isArgsort (7 / 10) 5000 demoLevels (by decide +kernel) (by decide +kernel) demoSurface
    (by decide +kernel) (by decide +kernel) (by decide +kernel) (by decide +kernel) ⟨1, 20, -1, 2⟩
    (by unfold WindRange.Holds; decide +kernel) (some 3) (fun t h => by injection h with h; rw [← h]; norm_num)

/-- C114_model_levels: four levels -/
example : ∃ r, preprocessModel (era5A ℚ) (era5B ℚ) [105, 114, 123, 137] 111
      ⟨[0, 0, 0, 0], [1 / 1000, 2 / 1000, 5 / 1000, 0], [10, -5, 3, 2], [1, 2, 3, 4]⟩ 100000 none = .ok r ∧
    (⟨-5, 10, 1, 4⟩ : WindRange ℚ).CarriesBoth r :=
  C114_model_levels (100000 : ℚ) (by norm_num) 111 [105, 114, 123, 137] (by decide) (by decide) (by decide) [0, 0, 0, 0]
    [1 / 1000, 2 / 1000, 5 / 1000, 0] [10, -5, 3, 2] [1, 2, 3, 4] rfl rfl rfl
    (by decide +kernel) ⟨-5, 10, 1, 4⟩ (by decide +kernel) (by decide +kernel) none (fun t h => by cases h)

namespace WorksDemo

/-- all winds are 3 m s-1 -/
theorem winds {t : ℤ} (ht : t ∈ [0, 3600000000]) : Era5Winds (⟨3, 3, 3, 3⟩ : WindRange ℝ) (PipelineDemo.cfg .pressure_levels [850, 500])
    (PipelineDemo.disk (K := ℝ) [850, 500]) t [850, 500] ([52, 51, 50, 49], [4, 5, 6, 7]) := by
  have key : ∀ var ∈ ["u", "v", "u10", "v10"], ∀ {l : Option ℚ} {lat lon x : ℝ}, OnDisk (PipelineDemo.cfg .pressure_levels [850, 500])
      (PipelineDemo.disk [850, 500]) var t l lat lon x → (3 : ℝ) ≤ x ∧ x ≤ 3 := by
    intro var hvar l lat lon x hx
    have e : x = PipelineDemo.number var.toList := PipelineDemo.onDisk (by
      simp only [List.mem_cons, List.not_mem_nil, or_false] at hvar ⊢
      tauto) ht hx
    have e' : (PipelineDemo.number var.toList : ℝ) = ((3 : ℚ) : ℝ) := by
      simp only [List.mem_cons, List.not_mem_nil, or_false] at hvar
      rcases hvar with rfl | rfl | rfl | rfl <;> rfl
    rw [e, e']
    norm_num
  exact ⟨fun _ _ _ _ _ _ _ h => key "u" (by simp) h, fun _ _ _ _ _ _ _ h => key "v" (by simp) h,
    fun _ _ _ _ _ h => key "u10" (by simp) h, fun _ _ _ _ _ h => key "v10" (by simp) h⟩

/-- C114_era5 -/
theorem carried {t : ℤ} (ht : t ∈ inputDates 0 3600000000 3600000000) : ∃ ds, compute t = .ok ds ∧
    ∀ i < ds.latitude.length, ∀ j < ds.longitude.length, (⟨3, 3, 3, 3⟩ : WindRange ℝ).CarriesIn ds i j :=
  C114_era5 (cfg := PipelineDemo.cfg .pressure_levels [850, 500]) rfl rfl (by simp) (by decide)
    (PipelineDemo.complete' t ht).1 demoArgsort_isArgsort (PipelineDemo.complete' t ht).2.toPhysicalEra5
    (fun lat hlat lon hlon x hx => ((PipelineDemo.complete' t ht).2.tcw lat hlat lon hlon x hx).le) (winds (PipelineDemo.dates t ht))

end WorksDemo

open WorksDemo in
/-- C114_between_input_times, for the input of the run of `WorksDemo`: at 00:20 the fluxes are 3 times the storages -/
example : ∃ inp : Input 2 2 ℝ, InputFrom compute 3600000000 0 3600000000 none [52, 51, 50, 49] [4, 5, 6, 7] inp ∧
    ∀ i j, (inp.fluxes 1200000000).fx_upper i j = 3 * (inp.states 1200000000).s_upper i j := by
  obtain ⟨-, -, inp, lat, lon, s, h1, h2, -⟩ := WorksDemo.forward
  obtain ⟨ds, e, hc1, hc2⟩ := h1 0 le_rfl (by norm_num) (dvd_zero _)
  have hax := PipelineDemo.era5Axes 0 (by decide +kernel) ds e
  rw [hax.1] at hc1
  rw [hax.2] at hc2
  subst hc1 hc2
  refine ⟨inp, h2, fun i j => ?_⟩
  have := (C114_between_input_times h2 (by norm_num) (dvd_zero _) dvd_rfl (w := ⟨3, 3, 3, 3⟩) (by
    intro t g0 g1 g2 ds hds
    have ht : t ∈ inputDates 0 3600000000 3600000000 := by
      have : t = 0 ∨ t = 3600000000 := by omega
      rcases this with rfl | rfl <;> decide +kernel
    obtain ⟨ds', e1, e2⟩ := carried ht
    rw [hds] at e1
    injection e1 with e1
    subst e1
    exact e2) 1200000000 (by norm_num) (by norm_num) i j).1.1
  exact le_antisymm this.2 this.1

/-- C114_no_correction: cells of 100 by 100 km, steps of 15 minutes, winds up to 25 m s-1, and at most 10% more water halfway; fluxes of
20 and 10 times the storage stay as they are -/
example : (stabilizeFluxes (m := 1) (n := 1) (900 : ℚ) (fun _ => 10000000000)
      (scaleFluxes ⟨fun _ => 10000000000, 100000, fun _ => 100000⟩
        ⟨fun _ _ => 220, fun _ _ => 110, fun _ _ => -110, fun _ _ => 220, fun _ _ => 0, fun _ _ => 0⟩) ⟨fun _ _ => 10, fun _ _ => 10⟩).fx_upper 0 0 =
    22000000 := by
  have := C114_no_correction (m := 1) (n := 1) (900 : ℚ) (by norm_num) ⟨fun _ => 10000000000, 100000, fun _ => 100000⟩
    (fun _ => by norm_num) (fun _ => by norm_num) (by norm_num) ⟨fun _ _ => 10, fun _ _ => 10⟩ ⟨fun _ _ => 11, fun _ _ => 11⟩
    ⟨fun _ _ => 220, fun _ _ => 110, fun _ _ => -110, fun _ _ => 220, fun _ _ => 0, fun _ _ => 0⟩ 25 25 (11 / 10) (by norm_num) (by norm_num)
    (fun _ _ => by norm_num) (fun _ _ => by norm_num)
    (fun _ _ => by unfold WindRange.CarriesAt WindRange.Carries; norm_num) (fun _ => by norm_num) 0 0
  rw [(this.1 (Or.inl (by norm_num))).1]
  norm_num

end Wam
