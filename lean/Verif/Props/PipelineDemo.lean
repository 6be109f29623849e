import Verif.Props.Pipeline
import Verif.Props.PrepInputDemo

/-!
# C88: a case that meets the hypotheses

Two hours of ERA5 data on a grid of four by four, half an hour of tracking.
-/

set_option linter.unusedSectionVars false
set_option linter.unusedVariables false

namespace Wam
open Spec

namespace PipelineDemo

section
variable {K : Type} [Field K] [LinearOrder K] [IsStrictOrderedRing K] [FloorRing K]

def cfg (lt : LevelType) (levels : List ℤ) : InputConfig :=
  { calendar := .standard, template := "{variable}".toList, levelType := lt, levels := .list levels, nseconds := 3600 }

/-- the number in a file -/
def number (path : List Char) : K :=
  if path = "q".toList then ((1 / 1000 : ℚ) : K)
  else if path = "sp".toList then ((100000 : ℚ) : K)
  else if path = "d2m".toList then ((27315 / 100 : ℚ) : K)
  else ((3 : ℚ) : K)

def file (levels : List ℤ) (path : List Char) : RawFile K K :=
  { timeName := "time", levelName := if path ∈ ["q".toList, "u".toList, "v".toList] then some "level" else none
    times := [0, 3600000000], levels := levels.map fun l : ℤ => (l : ℚ), latitude := [52, 51, 50, 49], longitude := [4, 5, 6, 7]
    value := fun _ _ _ _ => number path }

def disk (levels : List ℤ) (path : List Char) : Except Err (RawFile K K) := .ok (file levels path)

theorem path_eq (lt : LevelType) (levels : List ℤ) (b : Prop) [Decidable b] {t : ℤ} (ht : t ∈ [0, 3600000000]) (var : String)
    (h : var ∈ ["q", "u", "v", "sp", "e", "tp", "d2m", "u10", "v10", "tcw"]) :
    formatTemplate (cfg lt levels).template (era5Args (cfg lt levels).calendar b var t) = .ok var.toList := by
  simp only [List.mem_cons, List.not_mem_nil, or_false] at h
  show formatTemplate "{variable}".toList (era5Args .standard (decide b) var t) = .ok var.toList
  generalize decide b = c
  simp only [List.mem_cons, List.not_mem_nil, or_false] at ht
  rcases ht with rfl | rfl <;> rcases h with rfl | rfl | rfl | rfl | rfl | rfl | rfl | rfl | rfl | rfl <;> (revert c; decide +kernel)

theorem axes : ([52, 51, 50, 49] : List K).Nodup ∧ ([4, 5, 6, 7] : List K).Nodup := by
  constructor <;> norm_num

theorem covers (levels : List ℤ) (path : List Char) {t : ℤ} (ht : t ∈ [0, 3600000000]) :
    FileCovers (file (K := K) levels path) t ([52, 51, 50, 49], [4, 5, 6, 7]) :=
  ⟨.inl rfl, by
    show List.count t [0, 3600000000] = 1
    simp only [List.mem_cons, List.not_mem_nil, or_false] at ht
    rcases ht with rfl | rfl <;> decide, ⟨axes.1, fun _ h => h⟩, ⟨axes.2, fun _ h => h⟩⟩

theorem complete (lt : LevelType) (levels : List ℤ) (hn : levels.Nodup) {t : ℤ} (ht : t ∈ [0, 3600000000]) :
    Era5Complete (α := K) (κ := K) (cfg lt levels) (disk levels) t levels ([52, 51, 50, 49], [4, 5, 6, 7]) := by
  have hf : ∀ var, var ∈ ["q", "u", "v", "sp", "e", "tp", "d2m", "u10", "v10", "tcw"] →
      Era5File (cfg lt levels) (disk (K := K) levels) var t (file levels var.toList) := fun var h => ⟨_, path_eq lt levels _ ht var h, rfl⟩
  refine ⟨⟨_, hf "q" (by simp), rfl⟩, ?_, ?_, .inr ⟨_, hf "tcw" (by simp), covers _ _ ht, rfl⟩⟩
  · intro var hvar
    refine ⟨_, hf var ?_, covers _ _ ht, ?_, ?_⟩
    · simp only [List.mem_cons, List.not_mem_nil, or_false] at hvar ⊢
      tauto
    · simp only [List.mem_cons, List.not_mem_nil, or_false] at hvar
      rcases hvar with rfl | rfl | rfl <;> (show some "level" ∈ _; decide)
    · intro l hl
      show List.count ((l : ℤ) : ℚ) (levels.map fun l : ℤ => (l : ℚ)) = 1
      have hinj : Function.Injective (fun l : ℤ => (l : ℚ)) := fun a b h => by simpa using h
      rw [List.count_map_of_injective levels (fun l : ℤ => (l : ℚ)) hinj]
      exact List.count_eq_one_of_mem hn hl
  · intro var hvar
    have hvar' : var ∈ ["sp", "e", "tp", "d2m", "u10", "v10"] := by
      cases lt
      · exact hvar
      · simp only [List.mem_append, List.mem_cons, List.not_mem_nil, or_false] at hvar ⊢
        rcases hvar with h | h
        · tauto
        · cases h
    refine ⟨_, hf var ?_, covers _ _ ht, ?_⟩
    · simp only [List.mem_cons, List.not_mem_nil, or_false] at hvar' ⊢
      tauto
    · simp only [List.mem_cons, List.not_mem_nil, or_false] at hvar'
      rcases hvar' with rfl | rfl | rfl | rfl | rfl | rfl <;> rfl

theorem onDisk {lt : LevelType} {levels : List ℤ} {var : String}
    (h : var ∈ ["q", "u", "v", "sp", "e", "tp", "d2m", "u10", "v10", "tcw"]) {t : ℤ} (ht : t ∈ [0, 3600000000]) {l : Option ℚ} {lat lon x : K}
    (hx : OnDisk (cfg lt levels) (disk levels) var t l lat lon x) : x = number var.toList := by
  obtain ⟨f, ⟨path, hp, hd⟩, n, k, i, j, -, -, -, -, rfl⟩ := hx
  rw [path_eq lt levels _ ht var h] at hp
  injection hp with hp
  subst hp
  injection hd with hd
  subst hd
  rfl

/-- the default layer boundary of the configuration, config.py:458-503 -/
def lay : LayerConfig K :=
  ⟨((72878581 / 100000000 : ℚ) : K), ((7438803223 / 1000000 : ℚ) : K), 111⟩

theorem boundary {lt : LevelType} {levels : List ℤ} {t : ℤ} (ht : t ∈ [0, 3600000000]) {l : Option ℚ} {lat lon x : K}
    (hx : OnDisk (cfg lt levels) (disk levels) "sp" t l lat lon x) :
    0 < x ∧ 0 < lay.factor * x + lay.offset ∧ lay.factor * x + lay.offset < x := by
  have : x = ((100000 : ℚ) : K) := onDisk (by simp) ht hx
  subst this
  simp only [lay]
  refine ⟨?_, ?_, ?_⟩ <;> (push_cast; norm_num)

end

theorem moist {t : ℤ} (ht : t ∈ [0, 3600000000]) :
    MoistEra5 (cfg .pressure_levels [850, 500]) (disk (K := ℝ) [850, 500]) t lay [850, 500] ([52, 51, 50, 49], [4, 5, 6, 7]) := by
  refine ⟨⟨?_, ?_, ?_⟩, ?_, ?_⟩
  · intro _ _ _ _ _ hx
    obtain ⟨a, b, c⟩ := boundary ht hx
    exact ⟨a, b.le, c.le⟩
  · intro lat _ lon _ l _ x hx
    have : x = ((1 / 1000 : ℚ) : ℝ) := onDisk (by simp) ht hx
    subst this
    norm_num
  · intro lat _ lon _ T p hT hp
    have h1 : T = ((27315 / 100 : ℚ) : ℝ) := onDisk (by simp) ht hT
    have h2 : p = ((100000 : ℚ) : ℝ) := onDisk (by simp) ht hp
    subst h1 h2
    show ((61121 / 100 : ℚ) : ℝ) * Real.exp (((17502 / 1000 : ℚ) : ℝ) * (((27315 / 100 : ℚ) : ℝ) - ((27315 / 100 : ℚ) : ℝ)) /
      (((27315 / 100 : ℚ) : ℝ) - ((3219 / 100 : ℚ) : ℝ))) < ((100000 : ℚ) : ℝ)
    rw [sub_self, mul_zero, zero_div, Real.exp_zero]
    norm_num
  · exact fun _ _ _ _ _ hx => (boundary ht hx).2
  · intro lat _ lon _ x hx
    have : x = ((3 : ℚ) : ℝ) := onDisk (by simp) ht hx
    subst this
    norm_num

theorem period : PrepPeriod .standard 0 3600000000 3600000000 3600000000 := by
  refine ⟨by norm_num, by norm_num, by norm_num, by norm_num, le_rfl, ?_⟩
  intro t h0 h1
  have hy : FourDigitYear .standard 0 := by unfold FourDigitYear; decide +kernel
  exact FourDigitYear.sameDay hy (by unfold SameDay; omega)

theorem dates : ∀ t ∈ inputDates 0 3600000000 3600000000, t ∈ ([0, 3600000000] : List ℤ) := by decide +kernel

/-- 00:10 to 00:40 in steps of ten minutes, output every 20 minutes -/
def run : RunConfig ℝ :=
  { tracking_start_date := 600000000, tracking_end_date := 2400000000, tagging_start_date := 600000000
    tagging_end_date := 2400000000, timestep := 600, output_frequency := 1200000000, kvf := 3
    periodic_boundary := false, restart := false }

theorem within : TracksWithin run 0 3600000000 := by
  refine ⟨?_, ?_, ?_, ?_⟩ <;> (simp only [run]; norm_num)

/-- the box around the middle of the grid -/
def box : TaggingRegion ℝ ℝ := .box ⟨4.5, 49.5, 5.5, 50.5⟩

theorem complete' : ∀ t ∈ inputDates 0 3600000000 3600000000,
    Era5Complete (cfg .pressure_levels [850, 500]) (disk (K := ℝ) [850, 500]) t [850, 500] ([52, 51, 50, 49], [4, 5, 6, 7]) ∧
    MoistEra5 (cfg .pressure_levels [850, 500]) (disk (K := ℝ) [850, 500]) t lay [850, 500] ([52, 51, 50, 49], [4, 5, 6, 7]) :=
  fun t ht => ⟨complete .pressure_levels [850, 500] (by decide) (dates t ht), moist (dates t ht)⟩

theorem shifted : shiftedLongitudes ([4, 5, 6, 7] : List ℝ) = [4, 5, 6, 7] := by
  unfold shiftedLongitudes
  rw [C55_unchanged]
  intro x hx
  simp only [List.mem_cons, List.not_mem_nil, or_false] at hx
  rcases hx with rfl | rfl | rfl | rfl <;> norm_num

theorem era5Axes : ∀ t ∈ inputDates 0 3600000000 3600000000, ∀ ds,
    prepEra5 demoArgsort lay (cfg .pressure_levels [850, 500]) (disk (K := ℝ) [850, 500]) t = .ok ds →
    ds.latitude = [52, 51, 50, 49] ∧ ds.longitude = [4, 5, 6, 7] := by
  intro t ht ds h
  obtain ⟨ds', h', e1, e2, -⟩ := era5_moist (cfg := cfg .pressure_levels [850, 500]) rfl rfl (by simp) (by decide) (complete' t ht).1
    demoArgsort_isArgsort (by decide +kernel) (complete' t ht).2
  rw [h] at h'
  injection h' with h'
  subst h'
  exact ⟨e1, by rw [e2]; exact shifted⟩

theorem fits {ds : Dataset ℝ ℝ} (h : ds.latitude = [52, 51, 50, 49] ∧ ds.longitude = [4, 5, 6, 7]) :
    FitsData none box ds [52, 51, 50, 49] [4, 5, 6, 7] := ⟨⟨h.1.symm, h.2.symm⟩, trivial⟩

/-- `C88_era5_forward` applies -/
example : ForwardWorks (m := 2) (n := 2) (prepEra5 demoArgsort lay (cfg .pressure_levels [850, 500]) (disk (K := ℝ) [850, 500]))
    .standard "in".toList 0 3600000000 3600000000 3600000000 (fun _ => none) run none box (fun t : ℤ => t) (fun _ => none) :=
  C88_era5_forward rfl rfl (by simp) (by decide) (by decide +kernel) demoArgsort_isArgsort "in".toList period complete'
    _ within rfl rfl (fun t ht ds h => fits (era5Axes t ht ds h)) _ _ (fun h => by cases h)

/-- `C88_era5_backward` applies -/
example : BackwardWorks (m := 2) (n := 2) (prepEra5 demoArgsort lay (cfg .pressure_levels [850, 500]) (disk (K := ℝ) [850, 500]))
    .standard "in".toList 0 3600000000 3600000000 3600000000 (fun _ => none) run none box (fun t : ℤ => t) (fun _ => none) :=
  C88_era5_backward rfl rfl (by simp) (by decide) (by decide +kernel) demoArgsort_isArgsort "in".toList period complete'
    _ within rfl rfl (fun t ht ds h => fits (era5Axes t ht ds h)) _ _ (fun h => by cases h)

/-- a part of the grid, three by three -/
def domain : BoundingBox ℝ := ⟨4.5, 48, 7, 51.5⟩

/-- a moving region on the grid of the data -/
noncomputable def regionFile : TaggingRegion ℝ ℝ :=
  .file (.ok ⟨[52, 51, 50, 49], [4, 5, 6, 7], some [0, 1800000000], fun k i j => (k + i + j : ℕ)⟩)

theorem fitsDomain {ds : Dataset ℝ ℝ} (h : ds.latitude = [52, 51, 50, 49] ∧ ds.longitude = [4, 5, 6, 7]) :
    FitsData (some domain) regionFile ds [51, 50, 49] [5, 6, 7] := by
  obtain ⟨h1, h2⟩ := h
  refine ⟨?_, ⟨_, rfl, ⟨h1.symm, h2.symm⟩, fun _ _ _ => Nat.cast_nonneg _, ?_⟩⟩
  · rw [h1, h2]
    have hw : domain.west < domain.east := by simp only [domain]; norm_num
    refine ⟨by norm_num, by norm_num, by decide, by simp only [domain]; norm_num, ?_, fun _ => ?_, fun h => absurd hw (not_lt.2 h),
      fun h => absurd hw (not_lt.2 h)⟩
    · simp only [domain, List.filter_cons, List.filter_nil]
      norm_num
    · simp only [domain, List.filter_cons, List.filter_nil]
      norm_num
  · intro times ht
    injection ht with ht
    subst ht
    exact ⟨by simp, by decide⟩

/-- `C88_era5_forward` applies, with a tracking domain and a moving tagging region from a file -/
example : ForwardWorks (m := 1) (n := 1) (prepEra5 demoArgsort lay (cfg .pressure_levels [850, 500]) (disk (K := ℝ) [850, 500]))
    .standard "in".toList 0 3600000000 3600000000 3600000000 (fun _ => none) run (some domain) regionFile (fun t : ℤ => t)
    (fun _ => none) :=
  C88_era5_forward rfl rfl (by simp) (by decide) (by decide +kernel) demoArgsort_isArgsort "in".toList period complete'
    _ within rfl rfl (fun t ht ds h => fitsDomain (era5Axes t ht ds h)) _ _ (fun h => by cases h)

/-! ### Model levels -/

theorem moistModel {t : ℤ} (ht : t ∈ [0, 3600000000]) : MoistModelLevels (cfg .model_levels [105, 114, 123, 137])
    (disk (K := ℝ) [105, 114, 123, 137]) t [105, 114, 123, 137] ([52, 51, 50, 49], [4, 5, 6, 7]) := by
  refine ⟨?_, ?_, ?_⟩
  · intro lat _ lon _ x hx
    have : x = ((100000 : ℚ) : ℝ) := onDisk (by simp) ht hx
    subst this
    norm_num
  · intro lat _ lon _ l _ x hx
    have : x = ((1 / 1000 : ℚ) : ℝ) := onDisk (by simp) ht hx
    subst this
    norm_num
  · intro lat _ lon _ x hx
    have : x = ((3 : ℚ) : ℝ) := onDisk (by simp) ht hx
    subst this
    norm_num

/-- `C88_era5_model_levels` applies -/
example : ForwardWorks (m := 2) (n := 2) (prepEra5 demoArgsort lay (cfg .model_levels [105, 114, 123, 137])
      (disk (K := ℝ) [105, 114, 123, 137])) .standard "in".toList 0 3600000000 3600000000 3600000000 (fun _ => none) run none box
      (fun t : ℤ => t) (fun _ => none) :=
  (C88_era5_model_levels rfl rfl ⟨by decide, by decide, ⟨105, by simp, by show (105 : ℤ) ≤ 111; decide⟩,
    ⟨114, by simp, by show (111 : ℤ) < 114; decide⟩⟩ (by decide +kernel) demoArgsort "in".toList period
    (fun t ht => ⟨complete .model_levels [105, 114, 123, 137] (by decide) (dates t ht), moistModel (dates t ht)⟩)
    _ within rfl rfl (fun t ht ds h => by
      obtain ⟨ds', h', e1, e2, -⟩ := era5_model_moist (cfg := cfg .model_levels [105, 114, 123, 137]) (lay := lay) rfl rfl
        ⟨by decide, by decide, ⟨105, by simp, by show (105 : ℤ) ≤ 111; decide⟩,
          ⟨114, by simp, by show (111 : ℤ) < 114; decide⟩⟩
        (complete .model_levels [105, 114, 123, 137] (by decide) (dates t ht)) demoArgsort (by decide +kernel) (moistModel (dates t ht))
      rw [h] at h'
      injection h' with h'
      subst h'
      exact fits ⟨e1, by rw [e2]; exact shifted⟩) _).1 _ (fun h => by cases h)

/-! ### ARCO-ERA5 -/

noncomputable def store : ArcoStore ℝ ℝ :=
  { times := [0, 3600000000], levels := [500, 850, 1000], latitude := [52, 51, 50, 49], longitude := [4, 5, 6, 7]
    value := fun var _ _ _ _ => if var = "specific_humidity" then ((1 / 1000 : ℚ) : ℝ) else if var = "surface_pressure" then ((100000 : ℚ) : ℝ)
      else if var = "2m_dewpoint_temperature" then ((27315 / 100 : ℚ) : ℝ) else 3
    validStart := 0, validStop := 7200000000 }

theorem arcoComplete {t : ℤ} (ht : t ∈ [0, 3600000000]) : ArcoComplete store t [850, 500] := by
  refine ⟨?_, ?_, ?_, ?_, ?_⟩
  · simp only [List.mem_cons, List.not_mem_nil, or_false] at ht
    show (0 : ℤ) ≤ t ∧ t ≤ 7200000000
    omega
  · simp only [List.mem_cons, List.not_mem_nil, or_false] at ht
    show List.count t [0, 3600000000] = 1
    rcases ht with rfl | rfl <;> decide
  · show ∀ l ∈ [850, 500], List.count ((l : ℤ) : ℚ) [500, 850, 1000] = 1
    decide +kernel
  · exact (axes (K := ℝ)).1
  · exact (axes (K := ℝ)).2

theorem moistArco {t : ℤ} : MoistArco store t lay [850, 500] := by
  refine ⟨?_, ?_, ?_, ?_⟩
  · rintro lat _ lon _ x ⟨n, k, i, j, -, -, -, -, rfl⟩
    show (0 : ℝ) < ((100000 : ℚ) : ℝ) ∧ 0 < lay.factor * ((100000 : ℚ) : ℝ) + lay.offset ∧
      lay.factor * ((100000 : ℚ) : ℝ) + lay.offset < ((100000 : ℚ) : ℝ)
    simp only [lay]
    refine ⟨?_, ?_, ?_⟩ <;> (push_cast; norm_num)
  · rintro lat _ lon _ l _ x ⟨n, k, i, j, -, -, -, -, rfl⟩
    show (0 : ℝ) < ((1 / 1000 : ℚ) : ℝ)
    norm_num
  · rintro lat _ lon _ T p ⟨n, k, i, j, -, -, -, -, rfl⟩ ⟨n', k', i', j', -, -, -, -, rfl⟩
    show ((61121 / 100 : ℚ) : ℝ) * Real.exp (((17502 / 1000 : ℚ) : ℝ) * (((27315 / 100 : ℚ) : ℝ) - ((27315 / 100 : ℚ) : ℝ)) /
      (((27315 / 100 : ℚ) : ℝ) - ((3219 / 100 : ℚ) : ℝ))) < ((100000 : ℚ) : ℝ)
    rw [sub_self, mul_zero, zero_div, Real.exp_zero]
    norm_num
  · rintro lat _ lon _ x ⟨n, k, i, j, -, -, -, -, rfl⟩
    show (0 : ℝ) < 3
    norm_num

/-- `C88_arco` applies -/
example : BackwardWorks (m := 2) (n := 2) (prepArco demoArgsort lay ArcoDemo.demoCfg store)
    .standard "in".toList 0 3600000000 3600000000 3600000000 (fun _ => none) run none box (fun t : ℤ => t) (fun _ => none) :=
  (C88_arco rfl rfl rfl (by simp) (by decide) (by decide +kernel) demoArgsort_isArgsort "in".toList period
    (fun t ht => ⟨arcoComplete (dates t ht), moistArco⟩) _ within rfl rfl (fun t ht ds h => by
      obtain ⟨ds', h', e1, e2, -⟩ := arco_moist (cfg := ArcoDemo.demoCfg) (lay := lay) rfl rfl rfl (by simp) (by decide)
        (arcoComplete (dates t ht)) demoArgsort_isArgsort (by decide +kernel) moistArco
      rw [h] at h'
      injection h' with h'
      subst h'
      exact fits ⟨e1, by rw [e2]; exact shifted⟩) _).2 _ (fun h => by cases h)

/-! ### CMIP -/

def cmipCfg : InputConfig :=
  { calendar := .standard, template := "cmip/{variable}".toList, levelType := .pressure_levels, levels := .all
    nseconds := 21600 }

/-- one file for each variable; two six-hourly samples, or ten three-hourly samples -/
noncomputable def cmipFile (path : List Char) : RawFile ℝ ℝ :=
  { timeName := "time"
    levelName := if path ∈ ["cmip/hus".toList, "cmip/ua".toList, "cmip/va".toList] then some "plev" else none
    times := if path ∈ ["cmip/pr".toList, "cmip/hfls".toList] then
        [-81000000000, -70200000000, -59400000000, -48600000000, -37800000000, -27000000000, -16200000000, -5400000000, 5400000000,
          16200000000]
      else [0, 21600000000]
    levels := [85000, 50000], latitude := [52, 51, 50, 49], longitude := [4, 5, 6, 7]
    value := fun _ _ _ _ => if path = "cmip/ps".toList then ((100000 : ℚ) : ℝ) else ((1 / 1000 : ℚ) : ℝ) }

theorem cmip_path : ∀ var ∈ ["hus", "ua", "va", "ps", "huss", "uas", "vas", "pr", "hfls"],
    formatCmip cmipCfg.template var.toList = .ok ("cmip/" ++ var).toList := by decide +kernel

theorem cmip_axes (var : String) (hv : var ∈ ["hus", "ua", "va", "ps", "huss", "uas", "vas", "pr", "hfls"]) :
    CmipAxes cmipCfg (fun path => [cmipFile path]) var [cmipFile ("cmip/" ++ var).toList] ([52, 51, 50, 49], [4, 5, 6, 7])
      ([52, 51, 50, 49], [4, 5, 6, 7]) := by
  refine ⟨⟨_, cmip_path var hv, rfl⟩, by simp, ?_, ⟨axes.1, fun _ h => h, ?_⟩, ⟨axes.2, fun _ h => h, ?_⟩⟩ <;>
  · intro f hf
    rw [List.mem_singleton] at hf
    subst hf
    rfl

theorem cmipComplete {t : ℤ} (ht : t ∈ [0, 21600000000]) :
    CmipComplete cmipCfg (fun path => [cmipFile path]) t ([52, 51, 50, 49], [4, 5, 6, 7]) := by
  have ht' : t = 0 ∨ t = 21600000000 := by simpa using ht
  refine ⟨?_, ⟨_, cmip_axes "hus" (by simp)⟩, ?_, ?_, ?_⟩
  · rcases ht' with rfl | rfl <;> decide
  · intro var hvar
    simp only [List.mem_cons, List.not_mem_nil, or_false] at hvar
    refine ⟨_, _, cmip_axes var (by simp; tauto), ?_, [85000, 50000], by decide +kernel, "plev", by simp, ?_⟩
    · have htimes : (cmipFile ("cmip/" ++ var).toList).times = [0, 21600000000] := by
        rcases hvar with rfl | rfl | rfl <;> rfl
      show List.count _ ((cmipFile ("cmip/" ++ var).toList).times ++ []) = 1
      rw [htimes]
      rcases ht' with rfl | rfl <;> decide
    · intro f hf
      rw [List.mem_singleton] at hf
      subst hf
      rcases hvar with rfl | rfl | rfl <;> exact ⟨rfl, rfl⟩
  · intro var hvar
    simp only [List.mem_cons, List.not_mem_nil, or_false] at hvar
    refine ⟨_, _, cmip_axes var (by simp; tauto), ?_, ?_⟩
    · have htimes : (cmipFile ("cmip/" ++ var).toList).times = [0, 21600000000] := by
        rcases hvar with rfl | rfl | rfl | rfl <;> rfl
      show List.count _ ((cmipFile ("cmip/" ++ var).toList).times ++ []) = 1
      rw [htimes]
      rcases ht' with rfl | rfl <;> decide
    · intro f hf
      rw [List.mem_singleton] at hf
      subst hf
      rcases hvar with rfl | rfl | rfl | rfl <;> rfl
  · intro var hvar
    simp only [List.mem_cons, List.not_mem_nil, or_false] at hvar
    have htimes : (cmipFile ("cmip/" ++ var).toList).times = [-81000000000, -70200000000, -59400000000, -48600000000, -37800000000,
        -27000000000, -16200000000, -5400000000, 5400000000, 16200000000] := by
      rcases hvar with rfl | rfl <;> rfl
    refine ⟨_, _, cmip_axes var (by simp; tauto), ?_, ?_, ?_⟩
    · show List.count _ ((cmipFile ("cmip/" ++ var).toList).times ++ []) = 1
      rw [htimes]
      rcases ht' with rfl | rfl <;> decide
    · intro f hf
      rw [List.mem_singleton] at hf
      subst hf
      rcases hvar with rfl | rfl <;> rfl
    · intro f hf
      rw [List.mem_singleton] at hf
      subst hf
      unfold ThreeHourlyFile
      rw [htimes]
      refine ⟨⟨⟨5, rfl⟩, ?_⟩, _, rfl, by decide⟩
      intro n a b ha hb
      have hn : n < 9 := by
        have := (List.getElem?_eq_some_iff.mp hb).1
        simp at this
        omega
      interval_cases n <;> (simp at ha hb; subst ha hb; decide)

theorem cmipStored {var : String} (hv : var ∈ ["hus", "ua", "va", "ps", "huss", "uas", "vas", "pr", "hfls"]) {t : ℤ}
    {l : Option ℚ} {lat lon x : ℝ} (h : CmipStored cmipCfg (fun path => [cmipFile path]) var t l lat lon x) :
    x = if var = "ps" then ((100000 : ℚ) : ℝ) else ((1 / 1000 : ℚ) : ℝ) := by
  obtain ⟨f, ⟨path, hp, hf⟩, n, k, i, j, -, -, -, -, rfl⟩ := h
  rw [cmip_path var hv] at hp
  injection hp with hp
  subst hp
  rw [List.mem_singleton] at hf
  subst hf
  show (if ("cmip/" ++ var).toList = "cmip/ps".toList then ((100000 : ℚ) : ℝ) else ((1 / 1000 : ℚ) : ℝ)) = _
  simp only [List.mem_cons, List.not_mem_nil, or_false] at hv
  rcases hv with rfl | rfl | rfl | rfl | rfl | rfl | rfl | rfl | rfl <;> rfl

theorem moistCmip {t : ℤ} : MoistCmip cmipCfg (fun path => [cmipFile path]) t lay ([52, 51, 50, 49], [4, 5, 6, 7]) := by
  refine ⟨⟨85000, ?_, ?_, ?_⟩, ?_, ?_, ?_, ?_, ?_⟩
  · exact ⟨_, ⟨_, cmip_path "hus" (by simp), List.mem_singleton.2 rfl⟩, List.mem_cons_self⟩
  · exact ⟨_, ⟨_, cmip_path "ua" (by simp), List.mem_singleton.2 rfl⟩, List.mem_cons_self⟩
  · exact ⟨_, ⟨_, cmip_path "va" (by simp), List.mem_singleton.2 rfl⟩, List.mem_cons_self⟩
  · rintro l ⟨f, ⟨path, -, hf⟩, hl⟩
    rw [List.mem_singleton] at hf
    subst hf
    have key : ∀ l ∈ ([85000, 50000] : List ℚ), 0 < l := by decide +kernel
    exact key l hl
  · intro lat _ lon _ x hx
    have := cmipStored (by simp) hx
    rw [if_pos rfl] at this
    subst this
    simp only [lay]
    refine ⟨?_, ?_, ?_⟩ <;> (push_cast; norm_num)
  · intro lat _ lon _ l x hx
    have := cmipStored (by simp) hx
    rw [if_neg (by decide)] at this
    subst this
    norm_num
  · intro lat _ lon _ x hx
    have := cmipStored (by simp) hx
    rw [if_neg (by decide)] at this
    subst this
    norm_num
  · rintro lat _ lon _ x ⟨a, b, ha, hb, rfl⟩
    have h1 := cmipStored (by simp) ha
    have h2 := cmipStored (by simp) hb
    rw [if_neg (by decide)] at h1 h2
    subst h1 h2
    rw [ofRat_cast]
    norm_num

theorem cmipPeriod : PrepPeriod .standard 0 21600000000 21600000000 21600000000 := by
  refine ⟨by norm_num, by norm_num, by norm_num, by norm_num, le_rfl, ?_⟩
  intro t h0 h1
  have hy : FourDigitYear .standard 0 := by unfold FourDigitYear; decide +kernel
  exact FourDigitYear.sameDay hy (by unfold SameDay; omega)

theorem cmipDates : ∀ t ∈ inputDates 0 21600000000 21600000000, t ∈ ([0, 21600000000] : List ℤ) := by decide +kernel

theorem within' : TracksWithin run 0 21600000000 := by
  refine ⟨?_, ?_, ?_, ?_⟩ <;> (simp only [run]; norm_num)

/-- `C88_cmip` applies -/
example : ForwardWorks (m := 2) (n := 2) (prepCmip demoArgsort lay cmipCfg ⟨id, id⟩ (fun path => [cmipFile path]))
    .standard "in".toList 0 21600000000 21600000000 21600000000 (fun _ => none) run none box (fun t : ℤ => t) (fun _ => none) :=
  (C88_cmip rfl ⟨fun _ _ => Iff.rfl, fun _ _ => Iff.rfl, fun _ h => h⟩ demoArgsort_isArgsort "in".toList cmipPeriod
    (fun t ht => ⟨cmipComplete (cmipDates t ht), moistCmip⟩) _ within' rfl rfl (fun t ht ds h => by
      obtain ⟨ds', h', e1, e2, -⟩ := cmip_moist (cfg := cmipCfg) (lay := lay) (ord := ⟨id, id⟩) rfl
        ⟨fun _ _ => Iff.rfl, fun _ _ => Iff.rfl, fun _ h => h⟩ (cmipComplete (cmipDates t ht)) demoArgsort_isArgsort moistCmip
      rw [h] at h'
      injection h' with h'
      subst h'
      exact fits ⟨e1, by rw [e2]; exact shifted⟩) _).1 _
    (fun h => by cases h)

end PipelineDemo

end Wam
