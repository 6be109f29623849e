import Verif.Props.PrepInput

/-!
# C83: cases that meet the hypotheses
-/

set_option linter.unusedSectionVars false
set_option linter.unusedVariables false

namespace Wam
open Spec

namespace PrepDemo

section
variable {K : Type} [Field K] [LinearOrder K] [IsStrictOrderedRing K] [FloorRing K]

def cfg (lt : LevelType) (levels : List ℤ) : InputConfig :=
  { calendar := .standard, template := "{variable}".toList, levelType := lt, levels := .list levels, nseconds := 3600 }

/-- the number in a file -/
def number (path : List Char) : K :=
  if path = "q".toList then ((1 / 1000 : ℚ) : K)
  else if path = "sp".toList then ((100000 : ℚ) : K)
  else if path = "d2m".toList then ((27315 / 100 : ℚ) : K)
  else ((3 : ℚ) : K)

def file (levels : List ℤ) (path : List Char) : RawFile K K :=
  { timeName := "time", levelName := if path ∈ ["q".toList, "u".toList, "v".toList] then some "level" else none
    times := [0], levels := levels.map fun l : ℤ => (l : ℚ), latitude := [51, 50], longitude := [4, 5]
    value := fun _ _ _ _ => number path }

def disk (levels : List ℤ) (path : List Char) : Except Err (RawFile K K) := .ok (file levels path)

theorem path_eq (lt : LevelType) (levels : List ℤ) (b : Prop) [Decidable b] (var : String)
    (h : var ∈ ["q", "u", "v", "sp", "e", "tp", "d2m", "u10", "v10", "tcw"]) :
    formatTemplate (cfg lt levels).template (era5Args (cfg lt levels).calendar b var 0) = .ok var.toList := by
  simp only [List.mem_cons, List.not_mem_nil, or_false] at h
  show formatTemplate "{variable}".toList (era5Args .standard (decide b) var 0) = .ok var.toList
  generalize decide b = c
  rcases h with rfl | rfl | rfl | rfl | rfl | rfl | rfl | rfl | rfl | rfl <;> (revert c; decide +kernel)

theorem axes : ([51, 50] : List K).Nodup ∧ ([4, 5] : List K).Nodup := by
  constructor <;> norm_num

theorem covers (levels : List ℤ) (path : List Char) : FileCovers (file (K := K) levels path) 0 ([51, 50], [4, 5]) :=
  ⟨.inl rfl, by show List.count (0 : ℤ) [0] = 1; decide, ⟨axes.1, fun _ h => h⟩, ⟨axes.2, fun _ h => h⟩⟩

theorem complete (lt : LevelType) (levels : List ℤ) (hn : levels.Nodup) :
    Era5Complete (α := K) (κ := K) (cfg lt levels) (disk levels) 0 levels ([51, 50], [4, 5]) := by
  have hf : ∀ var, var ∈ ["q", "u", "v", "sp", "e", "tp", "d2m", "u10", "v10", "tcw"] →
      Era5File (cfg lt levels) (disk (K := K) levels) var 0 (file levels var.toList) := fun var h => ⟨_, path_eq lt levels _ var h, rfl⟩
  refine ⟨⟨_, hf "q" (by simp), rfl⟩, ?_, ?_, .inr ⟨_, hf "tcw" (by simp), covers _ _, rfl⟩⟩
  · intro var hvar
    refine ⟨_, hf var ?_, covers _ _, ?_, ?_⟩
    · simp only [List.mem_cons, List.not_mem_nil, or_false] at hvar ⊢
      tauto
    · simp only [List.mem_cons, List.not_mem_nil, or_false] at hvar
      rcases hvar with rfl | rfl | rfl <;> (show some "level" ∈ _; decide)
    · intro l hl
      show List.count ((l : ℤ) : ℚ) (levels.map fun l : ℤ => (l : ℚ)) = 1
      have hinj : Function.Injective (fun l : ℤ => (l : ℚ)) := fun a b h => by simpa using h
      rw [List.count_map_of_injective levels (fun l : ℤ => (l : ℚ)) hinj]
      exact List.count_eq_one_of_mem hn hl
  · intro var hvar
    have hvar' : var ∈ ["sp", "e", "tp", "d2m", "u10", "v10"] := by
      cases lt
      · exact hvar
      · simp only [List.mem_append, List.mem_cons, List.not_mem_nil, or_false] at hvar ⊢
        rcases hvar with h | h
        · tauto
        · cases h
    refine ⟨_, hf var ?_, covers _ _, ?_⟩
    · simp only [List.mem_cons, List.not_mem_nil, or_false] at hvar' ⊢
      tauto
    · simp only [List.mem_cons, List.not_mem_nil, or_false] at hvar'
      rcases hvar' with rfl | rfl | rfl | rfl | rfl | rfl <;> rfl

theorem onDisk {lt : LevelType} {levels : List ℤ} {var : String}
    (h : var ∈ ["q", "u", "v", "sp", "e", "tp", "d2m", "u10", "v10", "tcw"]) {l : Option ℚ} {lat lon x : K}
    (hx : OnDisk (cfg lt levels) (disk levels) var 0 l lat lon x) : x = number var.toList := by
  obtain ⟨f, ⟨path, hp, hd⟩, n, k, i, j, -, -, -, -, rfl⟩ := hx
  rw [path_eq lt levels _ var h] at hp
  injection hp with hp
  subst hp
  injection hd with hd
  subst hd
  rfl

/-- the default layer boundary of the configuration, config.py:458-503 -/
def lay : LayerConfig K :=
  ⟨((72878581 / 100000000 : ℚ) : K), ((7438803223 / 1000000 : ℚ) : K), 111⟩

theorem boundary {lt : LevelType} {levels : List ℤ} {l : Option ℚ} {lat lon x : K}
    (hx : OnDisk (cfg lt levels) (disk levels) "sp" 0 l lat lon x) :
    0 < x ∧ 0 ≤ lay.factor * x + lay.offset ∧ lay.factor * x + lay.offset ≤ x := by
  have : x = ((100000 : ℚ) : K) := onDisk (by simp) hx
  subst this
  simp only [lay]
  refine ⟨?_, ?_, ?_⟩ <;> (push_cast; norm_num)

end

section
variable {K : Type} [Field K] [LinearOrder K] [IsStrictOrderedRing K] [FloorRing K]

/-- `C83_era5_pressure_levels` applies to files on 500 and 850 hPa, with the default layer boundary -/
example [NpExp K] : ∃ ds, prepEra5 demoArgsort lay (cfg .pressure_levels [850, 500]) (disk (K := K) [850, 500]) 0 = .ok ds ∧
    ds.latitude = [51, 50] := by
  obtain ⟨ds, _, h, _, hl, _⟩ := C83_era5_pressure_levels (lay := lay) rfl rfl (by simp) (by decide)
    (complete (K := K) .pressure_levels [850, 500] (by decide)) demoArgsort_isArgsort (fun _ _ _ _ _ hx => boundary hx)
  exact ⟨ds, h, hl⟩

/-- `C83_era5_model_levels` applies to files on four model levels -/
example [NpExp K] : ∃ ds, prepEra5 demoArgsort lay (cfg .model_levels [105, 114, 123, 137])
      (disk (K := K) [105, 114, 123, 137]) 0 = .ok ds ∧ ds.latitude = [51, 50] := by
  obtain ⟨ds, _, h, _, hl, _⟩ := C83_era5_model_levels rfl rfl (by simp) (by decide)
    (complete (K := K) .model_levels [105, 114, 123, 137] (by decide)) demoArgsort lay
  exact ⟨ds, h, hl⟩

end

/-- `C83_era5_total_column_water` applies: 3 kg m-2 in the file, a dew point of 0 degrees Celsius -/
example : ∃ ds, prepEra5 demoArgsort lay (cfg .pressure_levels [850, 500]) (disk (K := ℝ) [850, 500]) 0 = .ok ds ∧
    ds.latitude = [51, 50] ∧ ds.longitude.length = 2 ∧
      ∀ i lat j x, ds.latitude[i]? = some lat → ds.longitude[j]? = some x →
        ∃ lon ∈ ([4, 5] : List ℝ), SameMeridian x lon ∧ OnDisk (cfg .pressure_levels [850, 500]) (disk (K := ℝ) [850, 500])
          "tcw" 0 none lat lon (ds.data .s_upper i j + ds.data .s_lower i j) := by
  refine C83_era5_total_column_water rfl rfl (by simp) (by decide) (complete .pressure_levels [850, 500] (by decide))
    ⟨_, _, path_eq _ _ _ "tcw" (by simp), rfl⟩ demoArgsort_isArgsort ⟨?_, ?_, ?_⟩
  · exact fun _ _ _ _ _ hx => boundary hx
  · intro lat _ lon _ l _ x hx
    have : x = ((1 / 1000 : ℚ) : ℝ) := onDisk (by simp) hx
    subst this
    norm_num
  · intro lat _ lon _ T p hT hp
    have h1 : T = ((27315 / 100 : ℚ) : ℝ) := onDisk (by simp) hT
    have h2 : p = ((100000 : ℚ) : ℝ) := onDisk (by simp) hp
    subst h1 h2
    show ((61121 / 100 : ℚ) : ℝ) * Real.exp (((17502 / 1000 : ℚ) : ℝ) * (((27315 / 100 : ℚ) : ℝ) - ((27315 / 100 : ℚ) : ℝ)) /
      (((27315 / 100 : ℚ) : ℝ) - ((3219 / 100 : ℚ) : ℝ))) < ((100000 : ℚ) : ℝ)
    rw [sub_self, mul_zero, zero_div, Real.exp_zero]
    norm_num

end PrepDemo

namespace ArcoDemo

local instance : NpExp ℚ := ⟨fun x => x⟩

/-- `C83_arco` applies to the store of C82 -/
example : ∃ ds, prepArco demoArgsort ⟨1 / 2, 0, 111⟩ demoCfg demoStore 3600000000 = .ok ds ∧
    ds.latitude = [51, 50] := by
  suffices hs : _ by
    obtain ⟨ds, h, hl, _⟩ := C83_arco (cfg := demoCfg) (lay := ⟨1 / 2, 0, 111⟩) rfl rfl rfl
      (by simp) (by decide) demo_complete demoArgsort_isArgsort hs
    exact ⟨ds, h, hl⟩
  rintro lat _ lon _ x ⟨n, k, i, j, h1, -, -, -, rfl⟩
  have hn : 0 < n := by
    rcases n with _ | n
    · simp [demoStore] at h1
    · omega
  have hn' : (0 : ℚ) < n := by exact_mod_cast hn
  have : (0 : ℚ) < demoStore.value "surface_pressure" n k i j := by
    show (0 : ℚ) < (if "surface_pressure" = "total_column_water" then (7 : ℚ) else 0) + 10 * n + 1000 * k + 100000 * i + 10000000 * j
    rw [if_neg (by decide)]
    positivity
  refine ⟨this, ?_, ?_⟩ <;> linarith

end ArcoDemo

namespace CmipDemo

/-- `C83_cmip` applies to the files of C81, in both orders -/
example (rev : Bool) : ∃ ds, prepCmip demoArgsort ⟨1 / 2, 0, 111⟩ demoCfg plain (demoGlob rev) (30 * hour) = .ok ds ∧
      ds.latitude = [51, 50] := by
  have hpath : formatCmip demoCfg.template "ps".toList = .ok "cmip/ps_*.nc".toList := by decide +kernel
  have hhus : formatCmip demoCfg.template "hus".toList = .ok "cmip/hus_*.nc".toList := by decide +kernel
  have hua : formatCmip demoCfg.template "ua".toList = .ok "cmip/ua_*.nc".toList := by decide +kernel
  have hva : formatCmip demoCfg.template "va".toList = .ok "cmip/va_*.nc".toList := by decide +kernel
  have hmem : ∀ (f : ℤ → RawFile ℚ ℚ), f 0 ∈ (if rev then [f 1, f 0] else [f 0, f 1]) := by
    intro f; cases rev <;> simp
  suffices hs : _ ∧ _ ∧ _ by
    obtain ⟨ds, ls, h, -, -, h2, -⟩ := C83_cmip (lay := ⟨1 / 2, 0, 111⟩) rfl plain_fair (demo_complete rev) hs.1 hs.2.1
      demoArgsort_isArgsort hs.2.2
    exact ⟨ds, h, h2⟩
  refine ⟨⟨85000, ?_, ?_, ?_⟩, ?_, ?_⟩
  · exact ⟨_, ⟨_, hhus, hmem (fun d => file (some "plev") (sixHours d) [85000, 50000, 10000] [51, 50] [4, 5])⟩, by
      show (85000 : ℚ) ∈ ([85000, 50000, 10000] : List ℚ); decide +kernel⟩
  · exact ⟨_, ⟨_, hua, hmem (fun d => file (some "plev") (sixHours d) [50000, 85000] [50, 51] [5, 4])⟩, by
      show (85000 : ℚ) ∈ ([50000, 85000] : List ℚ); decide +kernel⟩
  · exact ⟨_, ⟨_, hva, hmem (fun d => file (some "plev") (sixHours d) [50000, 85000, 100000] [50, 51] [4, 5])⟩, by
      show (85000 : ℚ) ∈ ([50000, 85000, 100000] : List ℚ); decide +kernel⟩
  · rintro l ⟨f, ⟨path, hp, hf⟩, hl⟩
    rw [hhus] at hp
    injection hp with hp
    subst hp
    have : f.levels = [85000, 50000, 10000] := by
      have hf' : f ∈ (if rev then [file (some "plev") (sixHours 1) [85000, 50000, 10000] [51, 50] [4, 5],
        file (some "plev") (sixHours 0) [85000, 50000, 10000] [51, 50] [4, 5]] else
        [file (some "plev") (sixHours 0) [85000, 50000, 10000] [51, 50] [4, 5],
        file (some "plev") (sixHours 1) [85000, 50000, 10000] [51, 50] [4, 5]]) := hf
      cases rev <;> simp at hf' <;> rcases hf' with rfl | rfl <;> rfl
    rw [this] at hl
    revert l
    decide +kernel
  · rintro lat hlat lon hlon x ⟨f, ⟨path, hp, hf⟩, n, k, i, j, h1, h2, h3, -, rfl⟩
    rw [hpath] at hp
    injection hp with hp
    subst hp
    have hf' : ∃ d, f = file none (sixHours d) [] [50, 51] [5, 4] := by
      have hf' : f ∈ (if rev then [file none (sixHours 1) [] [50, 51] [5, 4], file none (sixHours 0) [] [50, 51] [5, 4]] else
        [file none (sixHours 0) [] [50, 51] [5, 4], file none (sixHours 1) [] [50, 51] [5, 4]]) := hf
      cases rev <;> simp at hf' <;> rcases hf' with h | h <;> exact ⟨_, h⟩
    obtain ⟨d, rfl⟩ := hf'
    have e1 : (sixHours d)[n]? = some (30 * hour) := h1
    have e2 : ([50, 51] : List ℚ)[i]? = some lat := h2
    have e3 : ([5, 4] : List ℚ)[j]? = some lon := h3
    have hv : (file none (sixHours d) [] [50, 51] [5, 4]).value n k i j = 30 + 1000000000 * lat + 10000000000000 * lon := by
      show ((sixHours d).getD n 0 : ℚ) / 3600000000 + 1000 * ([] : List ℚ).getD k 0 + 1000000000 * ([50, 51] : List ℚ).getD i 0 +
        10000000000000 * ([5, 4] : List ℚ).getD j 0 = _
      rw [List.getD_eq_getElem?_getD, List.getD_eq_getElem?_getD, List.getD_eq_getElem?_getD, List.getD_eq_getElem?_getD, e1, e2, e3]
      simp [hour]
      norm_num
    rw [hv]
    have p1 : ∀ x ∈ ([51, 50] : List ℚ), 0 < x := by decide +kernel
    have p2 : ∀ x ∈ ([4, 5] : List ℚ), 0 < x := by decide +kernel
    have l1 := p1 lat hlat
    have l2 := p2 lon hlon
    refine ⟨by positivity, ?_, ?_⟩
    · simp only; positivity
    · simp only; linarith

end CmipDemo

end Wam
