import Verif.Props.Column
import Verif.Props.ColumnMore
import Verif.Props.ModelLevels
import Verif.Props.ModelLayers
import Verif.Props.Surface
import Verif.Props.Longitude
import Mathlib.Data.Rat.Floor

/-!
# Concrete cases: preprocessing of one column, surface data, longitudes

Every theorem of `Props/Column`, `ColumnMore`, `ModelLevels`, `ModelLayers`, `Surface` and `Longitude` that has hypotheses, applied to numbers.
-/

namespace Wam.Cases.Column
open Spec

/-! ### Interpolation -/

def xp : List ℚ := [0, 1, 3, 3, 7]
def fp : List ℚ := [10, 0, 8, 9, 1]
example := C49_piecewise_linear (5 / 2) xp fp rfl (by decide +kernel) (by decide) (by decide +kernel)
example := C49_errors (5 / 2) xp fp rfl
example := C49_exact_at_samples [0, 1, 3, 7] [10, 0, 8, (1 : ℚ)] rfl (by decide +kernel) (by decide) 2 (by decide)
example := C49_between_neighbours (5 / 2) 6 xp fp rfl (by decide +kernel) (by decide) (by decide +kernel) 1 (by decide) (by decide +kernel)
  (by decide +kernel) (by decide +kernel)
example := C49_linear_data (5 / 2) 3 (-4) xp (by decide +kernel) (by decide) (by decide +kernel) (by decide +kernel) (by decide +kernel)

/-! ### Pressure levels -/

theorem lo : 0 ≤ (7 / 10 : ℚ) * demoSurface.p + 5000 := by decide +kernel
theorem hi : (7 / 10 : ℚ) * demoSurface.p + 5000 ≤ demoSurface.p := by decide +kernel
theorem p0 : ∀ l ∈ demoLevels, 0 ≤ l.p := by decide +kernel
theorem ps : 0 < demoSurface.p := by decide +kernel
theorem ne : demoLevels ≠ [] := by decide +kernel
example := C52_layer_integrals demoArgsort demoArgsort_isArgsort (7 / 10) 5000 demoLevels ne p0 demoSurface ps lo hi
example := (C52_layer_integrals demoArgsort demoArgsort_isArgsort (7 / 10) 5000 demoLevels ne p0 demoSurface ps lo hi).imp fun E h =>
  C52_thickness demoLevels p0 demoSurface ps _ lo hi E h.1
/-- humidity in proportion to pressure -/
example := C52_linear_humidity_exact demoArgsort demoArgsort_isArgsort (7 / 10) 5000 [⟨20000, 2, 5, 1⟩, ⟨85000, 17 / 2, 3, 0⟩] (by simp)
  (by decide +kernel) ⟨100000, 10, 3, -1⟩ (by norm_num) (by norm_num) (by norm_num) (1 / 10000 : ℚ) (by decide +kernel)
example := C52_boundary_outside demoArgsort demoArgsort_isArgsort (-1) 5000 demoLevels ne p0 demoSurface ps (some 3) (.inl (by decide +kernel))
example := C52_boundary_outside demoArgsort demoArgsort_isArgsort 2 5000 demoLevels ne p0 demoSurface ps none (.inr (by decide +kernel))
example := C52_default_boundary demoArgsort demoArgsort_isArgsort demoLevels ne p0 demoSurface (by decide +kernel) (some 40)
example := C51_partition_pressure_levels demoArgsort demoArgsort_isArgsort (7 / 10) 5000 demoLevels ne p0 demoSurface ps lo hi
example := C51_storages_nonneg demoArgsort demoArgsort_isArgsort (7 / 10) 5000 demoLevels ne p0 demoSurface ps lo hi (by decide +kernel)
  (some 40) (by intro t h; injection h with h; subst h; norm_num)
example := C51_dry_column_loses_tcw demoArgsort demoArgsort_isArgsort (7 / 10) 5000 [⟨20000, 0, 5, 1⟩, ⟨85000, 0, 3, 0⟩] (by simp)
  (by decide +kernel) ⟨100000, 0, 3, -1⟩ (by norm_num) (by norm_num) (by norm_num) (by decide +kernel) (40 : ℚ)
theorem distinct : DistinctPressures demoLevels demoSurface.p := by unfold DistinctPressures; decide +kernel
example := C53_level_order demoArgsort demoArgsort demoArgsort_isArgsort demoArgsort_isArgsort (7 / 10) 5000 demoLevels demoLevels.reverse ne
  demoSurface ps distinct lo hi (List.reverse_perm _).symm (some 40)
example := C53_below_ground_ignored demoArgsort demoArgsort demoArgsort_isArgsort demoArgsort_isArgsort (7 / 10) 5000 demoLevels demoSurface ps
  distinct (by decide +kernel) lo hi none

/-! ### Model levels -/

def lev : List ℤ := [105, 114, 123, 137]
example := C54_thicknesses_add_up [0, 100, 20, (0 : ℚ)] [0, 0, 1 / 2, 1] rfl (by decide) 100000 [1, 3, 2] (by decide) (by decide)
example := C54_era5_surface_pressure (100000 : ℚ) lev (by decide) (by decide)
example := C54_nonneg [0, 100, 20, (0 : ℚ)] [0, 0, 1 / 2, 1] rfl (by decide) 100000 (by decide +kernel) [1, 2, 3] (by decide) (by decide)
  (by decide)
example := C54_era5_nonneg (100000 : ℚ) (by norm_num) lev (by decide) (by decide) (by decide)
example := C54_level_out_of_table [0, 100, 20, (0 : ℚ)] [0, 0, 1 / 2, 1] 100000 [1, 3, 4] 4 (by decide) (by decide) (by decide) (by decide)
/-- the level thicknesses -/
def dp : List ℚ := (getDpModellevels (era5A ℚ) (era5B ℚ) 100000 lev).toOption.getD []
theorem hdp : getDpModellevels (era5A ℚ) (era5B ℚ) 100000 lev = .ok dp := by
  obtain ⟨d, h, _⟩ := C54_era5_surface_pressure (100000 : ℚ) lev (by decide) (by decide)
  unfold dp; rw [h]; rfl
theorem hdpl : dp.length = 4 := by decide +kernel
example := C51_partition_model_levels (era5A ℚ) (era5B ℚ) lev 110 [] [1/1000, 2/1000, 5/1000, 1/100] [1, 2, 3, 4] [0, 1, -1, 2] 100000 dp hdp
  hdpl rfl rfl rfl
example := C51_storages_nonneg_model_levels (100000 : ℚ) (by norm_num) 110 lev (by decide) (by decide) (by decide) []
  [1/1000, 2/1000, 5/1000, 1/100] [1, 2, 3, 4] [0, 1, -1, 2] rfl rfl rfl (by decide +kernel) none (by intro t h; cases h)
def ls : List (ModelLevel ℚ) := List.zipWith (fun (n : ℤ) d => ⟨n, d, 1 / 100, 2, 3⟩) lev dp
theorem hls : ls.map ModelLevel.number = lev ∧ ls.map ModelLevel.dp = dp := by decide +kernel
example := C54_layer_integrals (era5A ℚ) (era5B ℚ) 110 ls [] 100000 (by rw [hls.1, hls.2]; exact hdp)

/-! ### Surface data -/

example := C50_era5_nonneg (3 / 1000 : ℚ) (-1 / 1000) 3600 (by norm_num)
example := C50_era5_net (3 / 1000 : ℚ) (2 / 1000) 3600 (by norm_num)
example := C50_era5_parts (3 / 1000 : ℚ) (2 / 1000) 3600 (by norm_num) (by norm_num)
def vals : List ℚ := (List.range 16).map fun i => (i : ℚ)
example := C70_resample_ok_iff .prolepticGregorian demoTimes vals rfl
theorem res : ∃ r, resample3hr .prolepticGregorian demoTimes vals = .ok r :=
  (C70_resample_ok_iff .prolepticGregorian demoTimes vals rfl).2 ⟨_, rfl, by decide +kernel, by decide +kernel, by decide +kernel⟩
theorem grid : ∀ (i : ℕ) (hi : i < demoTimes.length), demoTimes[i] = 18628 * usPerDay + 90 * 60 * 1000000 + 3 * 3600 * 1000000 * i := by
  intro i hi
  have : ∀ i : Fin 16, demoTimes[i.val]? = some (18628 * usPerDay + 90 * 60 * 1000000 + 3 * 3600 * 1000000 * (i.val : ℤ)) := by
    decide +kernel
  have h := this ⟨i, hi⟩
  rw [List.getElem?_eq_getElem hi] at h
  exact Option.some.inj h
example := C70_resample_values .prolepticGregorian demoTimes vals rfl _ res.choose_spec
example := C70_labels .prolepticGregorian demoTimes vals rfl _ res.choose_spec _ ⟨18628, rfl⟩ grid
example := C70_flux_at .prolepticGregorian demoTimes vals rfl _ ⟨by decide +kernel, by decide +kernel⟩ (by decide +kernel) (by decide +kernel) grid
  (18628 * usPerDay + 6 * 3600 * 1000000)
example := C70_common_levels id (fun _ _ => Iff.rfl) (fun _ h => h) [100, 85, 70, 50] [[85, 50, 20], [50, 85]]
example := C73_vapour_pressure 280 290 (by norm_num) (by norm_num)
theorem sat : (saturationPressure (28315 / 100 : ℝ)) < 100000 := by
  simp only [saturationPressure, NpExp.exp, ofRat_cast]
  push_cast
  have h1 : (17502 / 1000 * (28315 / 100 - 27315 / 100) / (28315 / 100 - 3219 / 100) : ℝ) ≤ 1 := by
    norm_num
  have h2 := Real.exp_le_exp.mpr h1
  have h3 : Real.exp 1 < 3 := lt_trans Real.exp_one_lt_d9 (by norm_num)
  nlinarith
example := C73_monotone (28000 / 100) (28315 / 100) 101000 100000 (by norm_num) (by norm_num) (by norm_num) sat (.inl (by norm_num))

/-! ### Longitudes -/

theorem shift : ∃ x ∈ demoGlobal.longitude, 180 < x ∨ x < 0 := ⟨225, by decide +kernel, .inl (by norm_num)⟩
example := C55_unchanged { demoGlobal with longitude := [0, 60, 120, 180] } (by decide +kernel)
example := C55_range_and_order demoGlobal shift
example := C55_columns demoGlobal shift
example := C55_strict_iff demoGlobal shift
example := C55_global_grid demoGlobal 4 45 (by norm_num) (by norm_num) rfl

end Wam.Cases.Column
