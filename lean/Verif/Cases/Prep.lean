import Verif.Props.PrepRun
import Verif.Props.ColumnMore
import Verif.Props.PrepGrid
import Verif.Props.Validate
import Verif.Props.Bounds
import Verif.Props.Checks
import Verif.Props.GridInfo
import Verif.Props.Regions
import Verif.Props.Shapes
import Mathlib.Data.Rat.Floor

/-!
# Concrete cases: preprocessing runs, checks, grids and tagging regions

Every theorem of `Props/PrepRun`, `PrepGrid`, `Validate`, `Bounds`, `Checks`, `GridInfo`, `Regions` and `Shapes` that has hypotheses, applied
to concrete data.
-/

namespace Wam.Cases.Prep
open Spec

/-! ### Preprocessing: 30 hours in steps of 6 hours -/

abbrev A : ℤ := 64800000000
abbrev B : ℤ := 172800000000
abbrev dt : ℤ := 21600000000
abbrev dir : List Char := "in".toList
abbrev empty : PrepDisk ℚ ℚ := fun _ => none
theorem years : ∀ t ∈ inputDates A B dt, FourDigitYear .standard t := by unfold FourDigitYear; decide +kernel

theorem years' : ∀ t, A ≤ t → t ≤ B → FourDigitYear .standard t := by
  intro t h0 h1
  have h0 : 64800000000 ≤ t := h0
  have h1 : t ≤ 172800000000 := h1
  have hy : ∀ k : Fin 3, FourDigitYear .standard (k.val * 86400000000) := by unfold FourDigitYear; decide +kernel
  exact FourDigitYear.sameDay (hy ⟨(t / 86400000000).toNat, by omega⟩) (by unfold SameDay; simp only; omega)

example := C56_dates A B dt (by decide)
example := C56_dates_whole_minutes A B dt (by decide) (by decide) (by decide)
example := C56_nothing_lost .standard (inputDates A B dt) (C56_dates A B dt (by decide)).2
example := C56_groups_are_files .standard dir (inputDates A B dt) years A (A + dt) (by decide +kernel) (by decide +kernel)
theorem ran : prepExperiment demoCompute .standard dir A B dt empty = (none, demoRun.2) :=
  Prod.ext (by decide +kernel : demoRun.1 = none) rfl
example := C57_files demoCompute .standard dir A B dt empty _ years ran
theorem gridOf : ∀ t ds, demoCompute t = .ok ds → ds.latitude = [1, 0] ∧ ds.longitude = [0, 1, 2] := by
  intro t ds h; injection h with h; subst h; exact ⟨rfl, rfl⟩
example := C57_same_grid demoCompute .standard dir A B dt empty _ [1, 0] [0, 1, 2] years gridOf ran
example := C57_succeeds demoCompute .standard dir A B dt empty years 2 3 allVars (fun _ _ => ⟨_, rfl, rfl, rfl, rfl⟩)
/-- the raw data of midnight are missing -/
def broken (t : ℤ) : Except Err (Dataset ℚ ℚ) := if t = 86400000000 then .error .fileNotFound else demoCompute t
example := C57_fails broken .standard dir A B dt empty _ _ years 86400000000 (by decide +kernel) .fileNotFound rfl rfl
/-- an old file of 2 January is in the folder -/
example := C58_old_files_do_not_matter demoCompute .standard dir A B dt empty
  (fun p => if p = inputPath .standard 86400000000 dir then demoRun.2 p else none) _ years
  (fun p h => (if_neg fun e => h 86400000000 (by decide +kernel) e.symm).symm) ran
example := C58_rerun demoCompute .standard dir A B dt empty _ years ran
/-- 2 January in two runs -/
example := C58_split_day_is_lost demoCompute .standard dir 86400000000 108000000000 dt 129600000000 151200000000 empty _ _
  (by unfold FourDigitYear; decide +kernel) (by unfold FourDigitYear; decide +kernel)
  (Prod.ext (by decide +kernel : (prepExperiment demoCompute .standard dir 86400000000 108000000000 dt empty).1 = none) rfl)
  (Prod.ext (by decide +kernel : (prepExperiment demoCompute .standard dir 129600000000 151200000000 dt
    (prepExperiment demoCompute .standard dir 86400000000 108000000000 dt empty).2).1 = none) rfl)
  86400000000 129600000000 (by decide +kernel) (by decide +kernel) (by decide +kernel) (by unfold SameDay; decide +kernel)
/-- three workers, interleaved -/
abbrev sched : List ℕ := [1, 0, 1, 2, 1, 1, 0, 2, 1, 1, 1, 1]
theorem done : ∀ w ∈ (parallelPrep demoCompute .standard dir A B dt sched empty).1, w.todo = [] ∧ w.failed = none := by
  have h : (parallelPrep demoCompute .standard dir A B dt sched empty).1.all (fun w => w.todo.isEmpty && w.failed.isNone) = true := by
    decide +kernel
  intro w hw
  have := List.all_eq_true.mp h w hw
  simpa [List.isEmpty_iff, Option.isNone_iff_eq_none] using this
example := C59_parallel_eq_sequential demoCompute .standard dir A B dt empty sched years done
example := C59_no_failure demoCompute .standard dir A B dt empty _ sched years ran
theorem groups : (groupByDay .standard (inputDates A B dt)).map Prod.snd =
    [[64800000000], [86400000000, 108000000000, 129600000000, 151200000000], [172800000000]] := by decide +kernel
theorem worker1 : ∃ w, (parallelPrep demoCompute .standard dir A B dt sched empty).1[1]? = some w :=
  Option.isSome_iff_exists.mp (by decide +kernel)
example := C59_days_are_independent demoCompute .standard dir A B dt empty sched years 1 _ _ (by rw [groups]; rfl) worker1.choose_spec
  (done _ (List.mem_of_getElem? worker1.choose_spec)) 86400000000 (by decide)
example := C59_every_fair_schedule demoCompute .standard dir A B dt empty _ sched years
  (by
    rw [groups]
    intro i ts h
    match i, h with
    | 0, h => injection h with h; subst h; decide
    | 1, h => injection h with h; subst h; decide
    | 2, h => injection h with h; subst h; decide
    | i + 3, h => exact absurd h (by simp)) ran
example := C58_after_crash demoCompute .standard dir A B dt empty
  (parallelPrep demoCompute .standard dir A B dt [1, 0, 1, 2, 1] empty).2 _ [1, 0, 1, 2, 1] years (fun _ => .inl rfl) ran
example := C58_after_failure demoCompute .standard dir A B dt broken empty _ _ _ years rfl ran
example := C74_archive demoCompute .standard dir A B dt empty _
  (fun t => { latitude := [1, 0], longitude := [0, 1, 2], vars := allVars, data := fun _ _ _ => (t / 3600000000 % 24 : ℤ) }) [1, 0] [0, 1, 2]
  (by decide) (by decide) (by decide) years' (fun _ _ => rfl) (fun _ => ⟨rfl, rfl⟩) ran

/-! ### Preprocessing of one time -/

abbrev cell (raw : RawInput ℚ ℚ) (i j : ℕ) : Except Err (LayerSums ℚ) :=
  preprocessPressure demoArgsort (7 / 10) 5000 (raw.column i j) (raw.surface i j) (raw.tcw.map fun t => t i j)
theorem prepared : ∃ ds, prepTime cell demoRaw = .ok ds :=
  (C75_succeeds_iff cell demoRaw).2 fun i _ j _ =>
    (C51_storages_nonneg demoArgsort demoArgsort_isArgsort (7 / 10) 5000 demoLevels (by decide +kernel) (by decide +kernel) demoSurface
      (by decide +kernel) (by decide +kernel) (by decide +kernel) (by decide +kernel) (some (40 + j))
      (by intro t h; injection h with h; subst h; positivity)).imp fun _ h => h.1
example := C75_cells cell demoRaw _ prepared.choose_spec
theorem column_not_dry (E) (h : IsExtended demoLevels demoSurface (7 / 10 * demoSurface.p + 5000) E) :
    pairSum water (between 0 demoSurface.p E) ≠ 0 := by
  obtain ⟨E', h', ⟨r, hr, hw, _⟩, _⟩ := C51_partition_pressure_levels demoArgsort demoArgsort_isArgsort (7 / 10) 5000 demoLevels
    (by decide +kernel) (by decide +kernel) demoSurface (by decide +kernel) (by decide +kernel) (by decide +kernel)
  have e : E = E' := extended_unique (by decide +kernel) (by unfold DistinctPressures; decide +kernel) (List.Perm.refl _) h h'
  have hv : preprocessPressure demoArgsort (7 / 10) 5000 (column demoLevels) (surface demoSurface) none =
      .ok ⟨22200000 / 1372931, 28900000 / 1372931, 1691250000 / 9610517, 929200000 / 9610517,
        151000000 / 9610517, -56150000 / 9610517⟩ := by decide +kernel
  rw [hv] at hr
  injection hr with hr
  rw [e, ← hw, ← hr]
  norm_num
example := C75_pressure_level_storage demoArgsort demoArgsort_isArgsort (7 / 10) 5000 demoRaw (fun _ _ => demoLevels) (fun _ _ => demoSurface)
  (fun _ j => 40 + j) rfl (fun _ _ _ _ => ⟨rfl, rfl, by decide +kernel, by decide +kernel, by decide +kernel, by decide +kernel, by decide +kernel,
    column_not_dry⟩)

/-! ### Validation -/

theorem valid : validateInput (demoInput (.fin 2)) .model_levels = .ok () := rfl
theorem nans : validateInput (demoInput .nan) .model_levels = .error (.nans 1 "q") := rfl
example := (C60_accepts_iff (demoInput (.fin 2)) .model_levels).1 valid
example := C60_error_is_real (demoInput .nan) .model_levels _ nans
example := C60_nans_last (demoInput .nan) .model_levels 1 "q" nans (demoInput (.fin 2)) rfl rfl (by simp [demoInput, NpOps.isnan, XF.isNaN])
example := C60_extra_variable (demoInput (.fin 2)) .model_levels "pv" ⟨["latitude"], [.fin 3]⟩ rfl (by simp [NpOps.isnan, XF.isNaN]) valid

/-! ### Axis bounds and checks -/

theorem uni : UniformAxis ([48, 49, 50] : List ℚ) 1 := by
  intro i x y hx hy
  match i, hx, hy with
  | 0, hx, hy => simp at hx hy; subst hx; subst hy; norm_num
  | 1, hx, hy => simp at hx hy; subst hx; subst hy; norm_num
  | i + 2, hx, hy => simp at hy
example := C61_uniform ([48, 49, 50] : List ℚ) 1 uni (by decide)
example := C61_shared_edges_iff ([48, 49, 50] : List ℚ) (by decide)
example := C61_majority ([-180, -179, 178, 179, 180] : List ℚ) 1 (by decide +kernel)
example := C61_orientation ([-180, -179, 178, 179, 180] : List ℚ) 1 (by decide +kernel) (-361 / 2, -359 / 2) (by decide +kernel)
example := C61_beyond_the_pole ([88, 89, 90] : List ℚ) 1 (by norm_num) (by decide +kernel) (by decide +kernel)
example := C61_tiling ([48, 49, 50] : List ℚ) 1 uni (by norm_num) (by decide) 48 50 rfl rfl (245 / 5 + 1 / 3) (by norm_num) (by norm_num)
example := C61_single_value (.fin (3 : ℚ)) (.nan, .nan) (by decide +kernel)
example := C63_range_wrong_iff (3 : ℚ) [5, -1] 0 4 (by norm_num)
example := C63_monotonic_warns_iff ([3, 4, 4] : List ℚ) (by decide)
theorem silent : checkInput (demoData 5000) = .ok [] := by
  have h : (checkInput (demoData 5000)).toOption = some [] := by decide +kernel
  cases hc : checkInput (demoData 5000) with
  | error e => rw [hc] at h; cases h
  | ok ws => rw [hc] at h; injection h with h; rw [h]
example := C63_check_input_completes (demoData 5000) [] silent
example := (C63_check_input_silent_iff (demoData 5000)).1 silent
example := ((C63_check_input_silent_iff (demoData 5000)).1 silent).1.imp fun x h => C63_upper_limit_has_no_effect x _ 0 _ 17 h.2 rfl

/-! ### Grid -/

/-- 1 degree, with the poles -/
def lat : Fin (179 + 2) → ℝ := fun i => 90 - (i : ℕ) * 1
def lon : Fin (358 + 2) → ℝ := fun j => -180 + (j : ℕ) * 1
theorem width : |lon 1 - lon 0| = 1 := by
  have e : lon 1 - lon 0 = 1 := by simp [lon]
  rw [e, abs_one]
theorem lat30 : lat 30 = 60 := by
  show (90 : ℝ) - ((30 : ℕ) : ℝ) * 1 = 60
  norm_num
example := C62_area lat lon 30 (by rw [lat30]; norm_num) (by rw [lat30]; norm_num)
example := C62_area_pos lat lon 30 (by rw [lat30]; norm_num) (by rw [lat30]; norm_num) (by intro h; have := width; rw [h] at this; norm_num at this)
example := C62_global_between_poles (m := 178) (fun i => 90 - 1 / 2 - (i : ℕ) * 1) lon 1 width (by norm_num) (by norm_num) (.inl fun _ => rfl)
example := C62_area_right_iff lat lon 30 (1 / 2) (by rw [width]; norm_num) (by norm_num) (by rw [lat30, width]; norm_num)
  (by rw [lat30, width]; norm_num) (by rw [lat30]; norm_num) (by rw [lat30]; norm_num)
example := C62_dx_pos lat lon 30 (by intro h; have := width; rw [h] at this; norm_num at this) (by rw [width]; norm_num)
  (by rw [lat30]; norm_num) (by rw [lat30]; norm_num)
example := C62_dx_pole lat lon 0 (.inl (by simp [lat]))
example := C62_date_line (m := 0) (n := 1) (fun _ => 0) (fun j => if j = 0 then 179 else if j = 1 then -180 else -179) 1 1 (by norm_num)
  (by norm_num) (by norm_num) (by norm_num) rfl

/-! ### Regions -/

abbrev masks : List (ℕ → ℕ → Bool) := [fun _ j => j == 0, fun _ j => j == 1]
theorem validR : ∀ k ∈ [1, 2], ValidRegion masks true k := by unfold ValidRegion; decide
theorem regionsOk : ∃ r : TagFile ℚ ℚ, maskWithRegions [0] [0, 1, 2] masks true [1, 2] = .ok r :=
  (C64_value ℚ [0] [0, 1, 2] masks true [1, 2] validR).imp fun _ h => h.1
theorem regionOk : ∃ r : TagFile ℚ ℚ, maskWithRegions [0] [0, 1, 2] masks true [2] = .ok r :=
  (C64_value ℚ [0] [0, 1, 2] masks true [2] (fun k h => validR k (List.mem_cons_of_mem _ h))).imp fun _ h => h.1
example := C64_value (K := ℚ) ℚ [0] [0, 1, 2] masks true [1, 2] validR
example := C64_range ℚ [0] [0, 1, 2] masks true [1, 2] (by decide) validR _ regionsOk.choose_spec 0 0 1
example := C64_single ℚ [0] [0, 1, 2] masks true 2 (validR 2 (by decide)) _ regionOk.choose_spec 0 0 1
example := C64_disjoint ℚ [0] [0, 1, 2] masks true [1, 2] (by decide) validR
  (by
    simp only [List.pairwise_cons, List.mem_cons, List.not_mem_nil, or_false, forall_eq, List.Pairwise.nil, and_true, false_imp_iff, implies_true]
    intro i j h
    obtain ⟨h1, h2⟩ := h
    simp [regionOf, masks] at h1 h2
    omega) _ regionsOk.choose_spec 0 0 1
example := (C64_bad_numbers (K := ℚ) ℚ [0] [0, 1, 2] masks (by simp) true 3).1 (by decide)
example := C64_shapes_default (K := ℚ) ℚ [0] [0, 1, 2] masks _ rfl
example := C65_square ([50, 51] : List ℚ) [179, -179] (50, 179) 2 0 1 0 51 179 rfl rfl
example := C65_square_is_box ((50, 179) : ℚ × ℚ) 2 (by norm_num) 51 178
example := C65_no_wrapping ([50, 51] : List ℚ) [179, -179] (50, 179) 2 0 1 1 51 (-179) rfl rfl (by norm_num) (by norm_num) (by norm_num)
example := (C65_track ([50, 51] : List ℚ) [179, -179] [(50, 179), (51, 178)] [0, 10] 2).2 rfl
example := C65_track_in_use ([50, 51] : List ℚ) [179, -179] [(50, 179), (51, 178)] [0, 10] 2 rfl (by decide) (by decide) 4

/-! ### Shapes and the tagging region file -/

abbrev la : List ℚ := [-2, 0, 2, 4]
abbrev lo : List ℚ := [-3, -1, 1, 3]
theorem res : inferResolution la = 2 ∧ inferResolution lo = 2 := by decide +kernel
theorem shapeOk : ∃ r, createMask la lo demoPolygon = .ok r :=
  (C66_succeeds_iff la lo demoPolygon demoPolygon_isPolygon).2 ⟨⟨0, by decide +kernel⟩, ⟨-1, by decide +kernel⟩⟩
example := C66_fraction la lo demoPolygon demoPolygon_isPolygon (by rw [res.1]; norm_num) (by rw [res.2]; norm_num) _ shapeOk.choose_spec
example := C66_range la lo demoPolygon demoPolygon_isPolygon (by rw [res.1]; norm_num) (by rw [res.2]; norm_num) _ shapeOk.choose_spec 0 1 1 0 (-1)
  rfl rfl

def ds : Dataset ℚ ℚ := { latitude := [2, 1, 0], longitude := [0, 1, 2, 3], vars := allVars, data := fun _ i j => 10 * i + j }
def reg : TagFile ℚ ℚ := ⟨[2, 1, 0], [0, 1, 2, 3], none, fun _ i j => i * j⟩
def moving : TagFile ℚ ℚ := ⟨[2, 1, 0], [0, 1, 2, 3], some [0, 20], fun k i j => k + i * j⟩
def box : BoundingBox ℚ := ⟨1, 0, 2, 1⟩
theorem cut : ∃ d, selectSubdomain ds box = .ok d ∧ d.latitude = [1, 0] ∧ d.longitude = [1, 2] := by
  have h : ((selectSubdomain ds box).toOption.map fun d => (d.latitude, d.longitude)) = some ([1, 0], [1, 2]) := by decide +kernel
  cases hc : selectSubdomain ds box with
  | error e => rw [hc] at h; cases h
  | ok d => rw [hc] at h; injection h with h; exact ⟨d, rfl, congrArg Prod.fst h, congrArg Prod.snd h⟩
example := C76_aligned ds reg box rfl rfl _ cut.choose_spec.1
example := (C76_moving moving 13).2 [0, 20] rfl (by decide) (by decide)
example := (C76_moving reg 13).1 rfl
theorem cutMoving : ∃ r, loadTaggingRegion (.ok moving) (some box) none = .ok r ∧ r.time = some [0, 20] := by
  obtain ⟨r, h, _, _, ht, _⟩ := C76_aligned ds moving box rfl rfl _ cut.choose_spec.1
  exact ⟨r, h, ht⟩
example := C43_load_tagging_region (.ok moving) (some box) 13 cutMoving.choose_spec.1 cutMoving.choose_spec.2 (by decide) (by decide)

end Wam.Cases.Prep
