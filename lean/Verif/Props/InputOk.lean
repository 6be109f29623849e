import Verif.Lemmas.InputOk
import Verif.Props.InputMore
import Verif.Props.Input
import Verif.Props.ModelLevels

set_option linter.unusedSectionVars false
set_option linter.unusedVariables false

namespace Wam
open Spec

section
variable {κ α : Type} [DecidableEq κ]

theorem loadEra5_profile_ok {cfg : InputConfig} {disk : List Char → Except Err (RawFile κ α)} {t : ℤ}
    {var : String} (hvar : var ∈ levelVariables) {levels : List ℤ} (hL : cfg.levels = .list levels)
    {file : RawFile κ α} (hfile : Era5File cfg disk var t file) {g : List κ × List κ} (hg : FileCovers file t g)
    (hln : file.levelName ∈ [some "level", some "lev", some "pressure_level", some "model_level"])
    (hlev : ∀ l ∈ levels, file.levels.count (l : ℚ) = 1) :
    ∃ f, loadEra5 cfg disk var t = .ok f ∧ f.Full ∧ f.Covers g ∧ f.levels = some (levelLabels levels) ∧
      f.latitude = file.latitude ∧ f.longitude = file.longitude := by
  obtain ⟨path, hp, hd⟩ := hfile
  obtain ⟨n, hn, -⟩ := selLabel_ok hg.once
  obtain ⟨nm, hnm⟩ : ∃ nm, file.levelName = some nm := by
    simp at hln; rcases hln with h | h | h | h <;> exact ⟨_, h⟩
  let f0 : DataField κ α := ⟨some file.levels, file.latitude, file.longitude, fun k i j => some (file.value n k i j)⟩
  have hf0 : f0.Full := ⟨hg.lat.1, hg.lon.1, fun _ _ _ _ _ _ => rfl⟩
  obtain ⟨f, h1, h2, h3, h4, h5⟩ := selLevels_full hf0 (axis := file.levels) rfl (n := some "level") rfl
    (levels := levelLabels levels) (by
      intro l hl
      simp only [levelLabels, List.mem_map] at hl
      obtain ⟨m, hm, rfl⟩ := hl
      exact hlev m hm)
  refine ⟨f, ?_, h2, ⟨by rw [h4]; exact hg.lat.2, by rw [h5]; exact hg.lon.2⟩, h3, h4, h5⟩
  have ht : (if file.timeName = "valid_time" then "time" else file.timeName) = "time" := by
    rcases hg.time with h | h <;> simp [h]
  unfold loadEra5 openDa
  simp only [hp, hd, bind, Except.bind, pure, Except.pure, RawFile.atTime, ht, ne_eq, not_true_eq_false, if_false,
    hn, hL, if_pos hvar, hnm, Option.map_some]
  have e : (some (if (if nm = "model_level" ∨ nm = "pressure_level" then "level" else nm) = "lev" then "level"
      else if nm = "model_level" ∨ nm = "pressure_level" then "level" else nm)) = some "level" := by
    rw [hnm] at hln
    simp at hln
    rcases hln with h | h | h | h <;> simp [h]
  rw [e]
  exact h1

theorem loadEra5_surface_ok {cfg : InputConfig} {disk : List Char → Except Err (RawFile κ α)} {t : ℤ}
    {var : String} (hvar : var ∉ levelVariables) {file : RawFile κ α} (hfile : Era5File cfg disk var t file)
    {g : List κ × List κ} (hg : FileCovers file t g) (hln : file.levelName = none) :
    ∃ f, loadEra5 cfg disk var t = .ok f ∧ f.Full ∧ f.Covers g ∧ f.levels = none := by
  obtain ⟨path, hp, hd⟩ := hfile
  obtain ⟨n, hn, -⟩ := selLabel_ok hg.once
  have ht : (if file.timeName = "valid_time" then "time" else file.timeName) = "time" := by
    rcases hg.time with h | h <;> simp [h]
  refine ⟨⟨none, file.latitude, file.longitude, fun k i j => some (file.value n k i j)⟩, ?_,
    ⟨hg.lat.1, hg.lon.1, fun _ _ _ _ _ _ => rfl⟩, ⟨hg.lat.2, hg.lon.2⟩, rfl⟩
  unfold loadEra5 openDa
  simp only [hp, hd, bind, Except.bind, pure, Except.pure, RawFile.atTime, ht, ne_eq, not_true_eq_false, if_false,
    hn, hln, Option.map_none, checkLevelName]
  cases cfg.levels <;> simp [hvar]

end

section
variable {κ K : Type} [DecidableEq κ] [Field K] [LinearOrder K] [IsStrictOrderedRing K] [NpExp K]

theorem loadDp_ok {ps : DataField κ K} (hps : ps.Full) (hl : ps.levels = none) {levels : List ℤ}
    (hne : levels ≠ []) (h : ∀ l ∈ levels, 1 ≤ l ∧ l ≤ 137) :
    ∃ f, loadDp ps levels = .ok f ∧ f.Full ∧ f.levels = some (levelLabels levels) ∧
      f.latitude = ps.latitude ∧ f.longitude = ps.longitude := by
  unfold loadDp
  obtain ⟨dp0, h0, -⟩ := C54_era5_surface_pressure (K := K) (ofRat 0) levels hne h
  rw [h0]
  refine ⟨_, rfl, ⟨hps.lat, hps.lon, ?_⟩, rfl, rfl, rfl⟩
  intro k i j hk hi hj
  simp only [Option.elim_some, levelLabels, List.length_map] at hk hi hj ⊢
  obtain ⟨sp, hsp⟩ := Option.isSome_iff_exists.mp (hps.value 0 i j (by rw [hl]; exact Nat.one_pos) hi hj)
  rw [hsp, Option.bind_some]
  obtain ⟨dp, h1, h2, -⟩ := C54_era5_surface_pressure (K := K) sp levels hne h
  rw [h1]
  simp only
  rw [List.getElem?_eq_getElem (by rw [h2]; exact hk)]
  rfl

/-- **C79** Complete input is accepted: if every file that is needed exists, has the time and covers the grid of the
humidity file (in any order), and has the requested levels, then loading succeeds. -/
theorem C79_succeeds {cfg : InputConfig} {disk : List Char → Except Err (RawFile κ K)} {t : ℤ}
    {levels : List ℤ} (hL : cfg.levels = .list levels)
    (hm : cfg.levelType = .model_levels → levels ≠ [] ∧ ∀ l ∈ levels, 1 ≤ l ∧ l ≤ 137)
    {g : List κ × List κ} (h : Era5Complete cfg disk t levels g) :
    ∃ raw, getInputEra5 cfg disk t = .ok raw := by
  have hsurf : ∀ var, var ∉ levelVariables → var ∈ ["sp", "e", "tp"] ++
      (if cfg.levelType = .pressure_levels then ["d2m", "u10", "v10"] else []) →
      ∃ f : DataField κ K, loadEra5 cfg disk var t = .ok f ∧ f.Full ∧ f.Covers g ∧ f.levels = none := by
    intro var hv hmem
    obtain ⟨file, h1, h2, h3⟩ := h.surface var hmem
    exact loadEra5_surface_ok hv h1 h2 h3
  have hprof : ∀ var ∈ ["q", "u", "v"], ∃ f : DataField κ K, loadEra5 cfg disk var t = .ok f ∧ f.Full ∧ f.Covers g ∧
      f.levels = some (levelLabels levels) := by
    intro var hmem
    obtain ⟨file, h1, h2, h3, h4⟩ := h.profile var hmem
    obtain ⟨f, a1, a2, a3, a4, -⟩ := loadEra5_profile_ok (by simp at hmem; rcases hmem with rfl | rfl | rfl <;> decide) hL h1 h2 h3 h4
    exact ⟨f, a1, a2, a3, a4⟩
  obtain ⟨qf, q1, q2, q3, q4⟩ := h.profile "q" (by simp)
  obtain ⟨q, hq, fq, cq, lq, latq, lonq⟩ := loadEra5_profile_ok (var := "q") (by decide) hL q1 q2 q3 q4
  obtain ⟨qf', ⟨path', hp', hd'⟩, hgq⟩ := h.grid
  obtain ⟨path, hp, hd⟩ := q1
  rw [hp] at hp'; injection hp' with hp'; subst hp'
  rw [hd] at hd'; injection hd' with hd'; subst hd'
  have hgrid : (q.latitude, q.longitude) = g := by rw [hgq, latq, lonq]
  have n1 : g.1.Nodup := by rw [← hgrid]; exact fq.lat
  have n2 : g.2.Nodup := by rw [← hgrid]; exact fq.lon
  obtain ⟨u, hu, fu, cu, lu⟩ := hprof "u" (by simp)
  obtain ⟨v, hv, fv, cv, lv⟩ := hprof "v" (by simp)
  obtain ⟨sp, hsp, fsp, csp, lsp⟩ := hsurf "sp" (by decide) (by simp)
  obtain ⟨e, he, fe, ce, le⟩ := hsurf "e" (by decide) (by simp)
  obtain ⟨tp, htp, ftp, ctp, ltp⟩ := hsurf "tp" (by decide) (by simp)
  obtain ⟨d1, h1, c1⟩ := assign_first fq lq "q"
  rw [hgrid] at c1
  obtain ⟨d2, h2, c2⟩ := assign_next c1 n1 n2 fu cu (.inr lu) "u"
  obtain ⟨d3, h3, c3⟩ := assign_next c2 n1 n2 fv cv (.inr lv) "v"
  obtain ⟨d4, h4, c4⟩ := assign_next c3 n1 n2 fsp csp (.inl lsp) "ps"
  have hE : era5Levels cfg disk t = .ok d4 := by
    unfold era5Levels
    simp only [hq, hu, hv, hsp, h1, h2, h3, h4, bind, Except.bind]
  simp only [lu, lv, lsp, Option.isSome_some, Option.isSome_none, List.cons_append, List.nil_append] at c4
  -- `data["ps"]` is what was assigned
  obtain ⟨ps, hps, fps, cps, lps⟩ : ∃ ps : DataField κ K, d4.get "ps" = .ok ps ∧ ps.Full ∧ ps.Covers g ∧ ps.levels = none := by
    have hn := c4.names
    have : ∃ f, d4.vars.lookup "ps" = some f ∧ f.levels.isSome = false := by
      have hlk : ∀ l : List (String × DataField κ K), (l.map fun v => (v.1, v.2.levels.isSome)).lookup "ps" =
          (l.lookup "ps").map fun f => f.levels.isSome := by
        intro l
        induction l with
        | nil => rfl
        | cons a l ih =>
          obtain ⟨m, f⟩ := a
          simp only [List.map_cons, List.lookup_cons]
          split
          · rfl
          · exact ih
      have h0 := hlk d4.vars
      rw [hn] at h0
      have : (some false : Option Bool) = (d4.vars.lookup "ps").map fun f => f.levels.isSome := h0
      exact (Option.map_eq_some_iff.mp this.symm)
    obtain ⟨f, hf, hfl⟩ := this
    obtain ⟨a1, a2, a3, a4⟩ := c4.vars _ (field_mem hf)
    refine ⟨f, by unfold InputData.get; rw [hf], a1, ⟨by simp only at a2; rw [a2]; exact fun _ h => h, by simp only at a3; rw [a3]; exact fun _ h => h⟩, by simpa using hfl⟩
  -- precipitation, evaporation and total column water
  have hflux : ∀ (d : InputData κ K) names, d.Complete g (levelLabels levels) names →
      ∃ d', era5Fluxes cfg disk t d = .ok d' ∧ ∃ l, d'.Complete g (levelLabels levels)
        (names ++ [("precip", false), ("evap", false)] ++ l) := by
    intro d names hd
    obtain ⟨z, hz, fz, lz, cz⟩ := zip_full (op := fun tp e => (precipEvapEra5 tp e (ofRat cfg.nseconds : K)).1)
      ftp fe ltp le ctp ce
    obtain ⟨d5, h5, c5⟩ := assign_next hd n1 n2 fz cz (.inl lz) "precip"
    obtain ⟨d6, h6, c6⟩ := assign_next c5 n1 n2 (map_full (op := fun e => (precipEvapEra5 (ofRat 0) e (ofRat cfg.nseconds : K)).2) fe)
      (f := e.map fun e => (precipEvapEra5 (ofRat 0) e (ofRat cfg.nseconds : K)).2) ce (.inl le) "evap"
    have hpe : loadPrecipEvapEra5 cfg disk t = .ok (z, e.map fun e => (precipEvapEra5 (ofRat 0) e (ofRat cfg.nseconds : K)).2) := by
      unfold loadPrecipEvapEra5
      simp only [he, htp, hz, bind, Except.bind, pure, Except.pure]
    have ez : z.levels.isSome = false := by rw [lz]; rfl
    have ee : (e.map fun e => (precipEvapEra5 (ofRat 0) e (ofRat cfg.nseconds : K)).2).levels.isSome = false := by
      show e.levels.isSome = false
      rw [le]; rfl
    rw [ez, ee, List.append_assoc] at c6
    rcases h.tcw with ⟨path, hp, hd⟩ | ⟨file, a1, a2, a3⟩
    · refine ⟨d6, ?_, [], by simpa using c6⟩
      have : loadEra5 cfg disk "tcw" t = .error .fileNotFound := by
        unfold loadEra5 openDa
        simp only [hp, hd, bind, Except.bind]
      unfold era5Fluxes
      simp only [hpe, h5, h6, this, bind, Except.bind]
    · obtain ⟨f, b1, b2, b3, b4⟩ := loadEra5_surface_ok (var := "tcw") (by decide) a1 a2 a3
      obtain ⟨d7, h7, c7⟩ := assign_next c6 n1 n2 b2 b3 (.inl b4) "tcw"
      refine ⟨d7, ?_, [("tcw", f.levels.isSome)], by simpa using c7⟩
      unfold era5Fluxes
      simp only [hpe, h5, h6, b1, h7, bind, Except.bind]
  have hnan : ∀ x : K, NpOps.isnan x = false := fun _ => rfl
  have pascal : ∀ (d : InputData κ K) lt, (∃ raw, validated lt d = .ok raw) → ∃ raw, validated lt d.toPascal = .ok raw := by
    rintro d lt ⟨raw, h⟩
    unfold validated at h ⊢
    rw [toPascal_toXDataset]
    split at h
    · exact ⟨_, rfl⟩
    · cases h
  cases hlt : cfg.levelType with
  | pressure_levels =>
    obtain ⟨d2m, k1, k2, k3, k4⟩ := hsurf "d2m" (by decide) (by simp [hlt])
    obtain ⟨us, w1, w2, w3, w4⟩ := hsurf "u10" (by decide) (by simp [hlt])
    obtain ⟨vs, x1, x2, x3, x4⟩ := hsurf "v10" (by decide) (by simp [hlt])
    obtain ⟨qs, y1, y2, y3, y4⟩ := zip_full (op := calculateHumidity) k2 fps k4 lps k3 cps
    obtain ⟨d5, h5, c5⟩ := assign_next c4 n1 n2 y2 y4 (.inl y3) "qs"
    obtain ⟨d6, h6, c6⟩ := assign_next c5 n1 n2 w2 w3 (.inl w4) "us"
    obtain ⟨d7, h7, c7⟩ := assign_next c6 n1 n2 x2 x3 (.inl x4) "vs"
    simp only [y3, w4, x4, Option.isSome_none, List.cons_append, List.nil_append] at c7
    obtain ⟨d8, h8, l, c8⟩ := hflux d7 _ c7
    obtain ⟨raw, hr⟩ := pascal d8 .pressure_levels (validated_ok hnan c8 .pressure_levels rfl rfl rfl rfl rfl rfl
      (fun _ => ⟨rfl, rfl, rfl⟩) (fun h => by cases h))
    refine ⟨raw, ?_⟩
    unfold getInputEra5 era5Input era5LevelType
    simp only [hE, hlt, k1, hps, y1, h5, w1, h6, x1, h7, h8, bind, Except.bind, pure, Except.pure, if_true]
    exact hr
  | model_levels =>
    obtain ⟨m1, m2⟩ := hm hlt
    obtain ⟨dp, y1, y2, y3, y4, y5⟩ := loadDp_ok fps lps m1 m2
    obtain ⟨d5, h5, c5⟩ := assign_next c4 n1 n2 y2 ⟨by rw [y4]; exact cps.1, by rw [y5]; exact cps.2⟩ (.inr y3) "dp"
    simp only [y3, Option.isSome_some, List.cons_append, List.nil_append] at c5
    obtain ⟨d8, h8, l, c8⟩ := hflux d5 _ c5
    obtain ⟨raw, hr⟩ := validated_ok hnan c8 .model_levels rfl rfl rfl rfl rfl rfl
      (fun h => by cases h) (fun _ => rfl)
    refine ⟨raw, ?_⟩
    unfold getInputEra5 era5Input era5LevelType
    simp only [hE, hlt, hL, hps, y1, h5, h8, bind, Except.bind, pure, Except.pure]
    exact hr

end

namespace InputDemo

local instance : NpExp ℚ := ⟨fun x => x⟩

theorem demo_covers {lat lon levels : List ℚ} {name : Option String} {g : List ℚ × List ℚ} (h1 : lat.Nodup)
    (h2 : lon.Nodup) (h3 : ∀ x ∈ g.1, x ∈ lat) (h4 : ∀ x ∈ g.2, x ∈ lon) :
    FileCovers (file 0 name levels lat lon) 3600000000 g :=
  ⟨.inr rfl, by show List.count (3600000000 : ℤ) [0, 3600000000] = 1; decide, ⟨h1, h3⟩, ⟨h2, h4⟩⟩

/-- the example of C79 with files in different orders is complete -/
theorem demo_complete (tcw : Bool) : Era5Complete demoCfg (demoDisk tcw) 3600000000 [850, 500]
    ([51, 50], [4, 5, 6]) := by
  have prof : ∀ (var : String) (path : List Char) (name : Option String) (levels lat lon : List ℚ),
      formatTemplate demoCfg.template (era5Args demoCfg.calendar (demoCfg.levelType = .pressure_levels) var 3600000000) =
        .ok path → demoDisk tcw path = .ok (file 0 name levels lat lon) →
      Era5File demoCfg (demoDisk tcw) var 3600000000 (file 0 name levels lat lon) :=
    fun var path _ _ _ _ h1 h2 => ⟨path, h1, h2⟩
  refine ⟨⟨_, prof "q" "d/1970-01-01_pl_q.nc".toList _ _ _ _ (by decide +kernel) rfl, rfl⟩, ?_, ?_, ?_⟩
  · intro var hvar
    simp only [List.mem_cons, List.not_mem_nil, or_false] at hvar
    rcases hvar with rfl | rfl | rfl
    · exact ⟨_, prof "q" "d/1970-01-01_pl_q.nc".toList _ _ _ _ (by decide +kernel) rfl,
        demo_covers (by decide +kernel) (by decide +kernel) (by decide +kernel) (by decide +kernel), by
          show some "pressure_level" ∈ _; decide, by
          show ∀ l ∈ [850, 500], List.count ((l : ℤ) : ℚ) [1000, 850, 500] = 1; decide +kernel⟩
    · exact ⟨_, prof "u" "d/1970-01-01_pl_u.nc".toList _ _ _ _ (by decide +kernel) rfl,
        demo_covers (by decide +kernel) (by decide +kernel) (by decide +kernel) (by decide +kernel), by
          show some "lev" ∈ _; decide, by
          show ∀ l ∈ [850, 500], List.count ((l : ℤ) : ℚ) [500, 850] = 1; decide +kernel⟩
    · exact ⟨_, prof "v" "d/1970-01-01_pl_v.nc".toList _ _ _ _ (by decide +kernel) rfl,
        demo_covers (by decide +kernel) (by decide +kernel) (by decide +kernel) (by decide +kernel), by
          show some "level" ∈ _; decide, by
          show ∀ l ∈ [850, 500], List.count ((l : ℤ) : ℚ) [500, 850] = 1; decide +kernel⟩
  · intro var hvar
    have surf : ∀ path, formatTemplate demoCfg.template (era5Args demoCfg.calendar
        (demoCfg.levelType = .pressure_levels) var 3600000000) = .ok path →
        demoDisk tcw path = .ok (file 0 none [] [50, 51] [5, 4, 6]) →
        ∃ f, Era5File demoCfg (demoDisk tcw) var 3600000000 f ∧
          FileCovers f 3600000000 ([51, 50], [4, 5, 6]) ∧ f.levelName = none :=
      fun path h1 h2 => ⟨_, prof var path _ _ _ _ h1 h2,
        demo_covers (by decide +kernel) (by decide +kernel) (by decide +kernel) (by decide +kernel), rfl⟩
    have hvar' : var ∈ ["sp", "e", "tp", "d2m", "u10", "v10"] := hvar
    simp only [List.mem_cons, List.not_mem_nil, or_false] at hvar'
    rcases hvar' with rfl | rfl | rfl | rfl | rfl | rfl
    · exact surf "d/1970-01-01_sp.nc".toList (by decide +kernel) (by cases tcw <;> rfl)
    · exact surf "d/1970-01-01_e.nc".toList (by decide +kernel) (by cases tcw <;> rfl)
    · exact surf "d/1970-01-01_tp.nc".toList (by decide +kernel) (by cases tcw <;> rfl)
    · exact surf "d/1970-01-01_d2m.nc".toList (by decide +kernel) (by cases tcw <;> rfl)
    · exact surf "d/1970-01-01_u10.nc".toList (by decide +kernel) (by cases tcw <;> rfl)
    · exact surf "d/1970-01-01_v10.nc".toList (by decide +kernel) (by cases tcw <;> rfl)
  · cases tcw
    · exact .inl ⟨"d/1970-01-01_tcw.nc".toList, by decide +kernel, rfl⟩
    · exact .inr ⟨_, prof "tcw" "d/1970-01-01_tcw.nc".toList _ _ _ _ (by decide +kernel) rfl,
        demo_covers (by decide +kernel) (by decide +kernel) (by decide +kernel) (by decide +kernel), rfl⟩

/-- `C79_succeeds` applies to it -/
example (tcw : Bool) : ∃ raw, getInputEra5 demoCfg (demoDisk tcw) 3600000000 = .ok raw :=
  C79_succeeds rfl (fun h => by cases h) (demo_complete tcw)

end InputDemo

end Wam
