import Verif.Props.Input
import Verif.Props.InputMore
import Verif.Props.InputComplete
import Verif.Props.Template
import Verif.Props.CalendarCheck
import Verif.Props.Visualize
import Mathlib.Data.Rat.Floor

/-!
# Concrete cases: input data, file name templates, the calendar check and the figures

Every theorem of `Props/Input`, `InputMore`, `InputComplete`, `Template`, `CalendarCheck` and `Visualize` that has hypotheses,
applied to concrete data.
-/

namespace Wam.Cases.Input
open Spec

/-- some function in place of `np.exp` on the rationals (no theorem below looks at it) -/
local instance : NpExp ℚ := ⟨fun x => x⟩

theorem ok_of_isSome {β : Type} (x : Except Err β) (h : x.toOption.isSome = true) : ∃ b, x = .ok b := by
  cases x with
  | error e => cases h
  | ok b => exact ⟨b, rfl⟩

/-! ### ERA5 -/

theorem era5_ok : ∃ raw, getInputEra5 InputDemo.demoCfg (InputDemo.demoDisk true) 3600000000 = .ok raw :=
  ok_of_isSome _ (by decide +kernel)

noncomputable def era5 := era5_ok.choose

example := C79_every_number_from_its_place era5_ok.choose_spec
example := C79_total_column_water era5_ok.choose_spec
theorem era5_grid : era5.latitude = [51, 50] ∧ era5.longitude = [4, 5, 6] := by
  have h : (getInputEra5 InputDemo.demoCfg (InputDemo.demoDisk true) 3600000000).toOption.map
      (fun r => (r.latitude, r.longitude)) = some ([51, 50], [4, 5, 6]) := by decide +kernel
  rw [era5_ok.choose_spec] at h
  have h := Option.some.inj h
  exact ⟨congrArg Prod.fst h, congrArg Prod.snd h⟩

example := C79_no_missing_values era5_ok.choose_spec (i := 1) (j := 2)
  (by have := era5_grid.1; unfold era5 at this; rw [this]; decide)
  (by have := era5_grid.2; unfold era5 at this; rw [this]; decide)
example := C79_labels_determine_number
  (file := InputDemo.file 0 (some "level") [500, 850] [50, 51, 52] [6, 5, 4]) (by decide) (by decide +kernel)
  (by decide +kernel) (by decide +kernel) (t := 3600000000) (l := some 850) (lat := 51) (lon := 6)
  ⟨1, 1, 1, 0, rfl, rfl, rfl, rfl, rfl⟩ ⟨1, 1, 1, 0, rfl, rfl, rfl, rfl, rfl⟩

/-! ### CMIP: the files and the labels listed in two orders -/

section cmip
open CmipDemo

theorem three_pr (rev : Bool) (var : String) (hv : var ∈ ["pr", "hfls"]) :
    ∀ f, CmipFile CmipDemo.demoCfg (demoGlob rev) var f → ThreeHourlyFile f := by
  rintro f ⟨path, hp, hf⟩
  obtain ⟨files, axes, h1, -, -, h2⟩ := (CmipDemo.demo_complete rev).fluxes var hv
  obtain ⟨path', hp', hg⟩ := h1.path
  rw [hp] at hp'
  injection hp' with hp'
  subst hp'
  rw [hg] at hf
  exact (h2 f hf).1

theorem shape_of (rev : Bool) (path : List Char) (f : RawFile ℚ ℚ) (h : f ∈ demoGlob rev path) :
    ∃ lv ts ls la lo, f = CmipDemo.file lv ts ls la lo ∧ (lv = none → ls = []) := by
  unfold demoGlob at h
  have both : ∀ lv ls la lo (ts : ℤ → List ℤ), (lv = none → ls = []) →
      (f ∈ (if rev then [CmipDemo.file lv (ts 1) ls la lo, CmipDemo.file lv (ts 0) ls la lo]
        else [CmipDemo.file lv (ts 0) ls la lo, CmipDemo.file lv (ts 1) ls la lo])) →
      ∃ lv ts ls la lo, f = CmipDemo.file lv ts ls la lo ∧ (lv = none → ls = []) := by
    intro lv ls la lo ts hl h
    cases rev <;>
    · simp only [Bool.false_eq_true, if_false, if_true, List.mem_cons, List.not_mem_nil, or_false] at h
      rcases h with rfl | rfl <;> exact ⟨_, _, _, _, _, rfl, hl⟩
  simp only at h
  split at h
  · exact both _ _ _ _ sixHours (by simp) h
  split at h
  · exact both _ _ _ _ sixHours (by simp) h
  split at h
  · exact both _ _ _ _ sixHours (by simp) h
  split at h
  · exact both _ _ _ _ threeHours (by simp) h
  split at h
  · exact both _ _ _ _ sixHours (by simp) h
  · cases h

/-- the number in a file tells its place -/
theorem place (lv : Option String) (ts : List ℤ) (ls la lo : List ℚ) (hl : lv = none → ls = []) (t : ℤ)
    (l : Option ℚ) (lat lon x : ℚ) (h : StoredAt (CmipDemo.file lv ts ls la lo) t l lat lon x) :
    x = (t : ℚ) / 3600000000 + 1000 * l.getD 0 + 1000000000 * lat + 10000000000000 * lon := by
  obtain ⟨n, k, i, j, h1, h2, h3, h4, h5⟩ := h
  rw [← h5]
  have h1 : ts[n]? = some t := h1
  have h2 : la[i]? = some lat := h2
  have h3 : lo[j]? = some lon := h3
  have e4 : ls.getD k 0 = l.getD 0 := by
    cases l with
    | none => rw [hl h4.1]; rfl
    | some l =>
      have h4 : ls[k]? = some l := h4
      simp [List.getD, h4]
  simp only [CmipDemo.file, List.getD, h1, h2, h3, Option.getD_some]
  rw [← e4]
  simp [List.getD]

theorem unique (rev : Bool) : ∀ var t l lat lon x y, CmipStored CmipDemo.demoCfg (demoGlob rev) var t l lat lon x →
    CmipStored CmipDemo.demoCfg (demoGlob rev) var t l lat lon y → x = y := by
  rintro var t l lat lon x y ⟨f, ⟨p, hp, hf⟩, hx⟩ ⟨f', ⟨p', hp', hf'⟩, hy⟩
  obtain ⟨lv, ts, ls, la, lo, rfl, hl⟩ := shape_of rev p f hf
  obtain ⟨lv', ts', ls', la', lo', rfl, hl'⟩ := shape_of rev p' f' hf'
  rw [place _ _ _ _ _ hl _ _ _ _ _ hx, place _ _ _ _ _ hl' _ _ _ _ _ hy]

theorem same_files : ∀ path file, file ∈ demoGlob true path ↔ file ∈ demoGlob false path := by
  intro path f
  unfold demoGlob
  simp only
  repeat' split
  all_goals simp [or_comm]

theorem cmip_ok : ∃ raw, getInputCmip CmipDemo.demoCfg plain (demoGlob false) (30 * hour) = .ok raw ∧
    (raw.latitude, raw.longitude) = ([51, 50], [4, 5]) :=
  C81_succeeds (cfg := CmipDemo.demoCfg) rfl plain_fair (CmipDemo.demo_complete false)
theorem cmip_ok' : ∃ raw, getInputCmip CmipDemo.demoCfg flipped (demoGlob true) (30 * hour) = .ok raw ∧
    (raw.latitude, raw.longitude) = ([51, 50], [4, 5]) :=
  C81_succeeds (cfg := CmipDemo.demoCfg) rfl flipped_fair (CmipDemo.demo_complete true)

example := C81_every_number_from_its_place plain_fair (three_pr false "pr" (by simp)) (three_pr false "hfls" (by simp))
  cmip_ok.choose_spec.1
example := C81_file_order plain_fair flipped_fair same_files (three_pr false "pr" (by simp))
  (three_pr false "hfls" (by simp)) (unique false) cmip_ok.choose_spec.1 cmip_ok'.choose_spec.1

/-- four three-hourly samples of one cell -/
example := C81_resamples_each_cell .noleap
  (⟨none, [], [], ([1, 2, 3, 4] : List ℚ).mapIdx fun n x => (minutes (90 + 180 * n), fun _ _ _ => some x)⟩ : Stack ℚ ℚ)
  0 0 0 [1, 2, 3, 4] rfl

end cmip

/-! ### ARCO ERA5 -/

theorem arco_ok : ∃ raw, getInputArco ArcoDemo.demoCfg ArcoDemo.demoStore 3600000000 = .ok raw :=
  C82_succeeds (cfg := ArcoDemo.demoCfg) rfl rfl rfl ArcoDemo.demo_complete

example := C82_every_number_from_its_place arco_ok.choose_spec

/-! ### Templates -/

abbrev template : List Char :=
  "/data/{year}/{month:02}/ERA5_{year}-{month:02d}-{day:02d}{levtype}_{variable}.nc".toList

theorem template_ok : UsesField template "variable" ∧ UsesField template "year" ∧ UsesField template "month" ∧
    UsesField template "day" ∧ FixedWidth template := by
  have hc : (parseTemplate .text template).toOption.map (fun ps =>
      decide (Piece.field "variable".toList [] ∈ ps ∧ .field "year".toList [] ∈ ps ∧
        .field "month".toList "02".toList ∈ ps ∧ .field "day".toList "02d".toList ∈ ps) && ps.all fun p => match p with
        | .text _ => true
        | .field name spec => decide ((name ∈ ["month".toList, "day".toList, "hour".toList, "minute".toList] →
            spec = "02".toList ∨ spec = "02d".toList) ∧
          (name = "year".toList → spec = [] ∨ spec = "04".toList ∨ spec = "04d".toList))) = some true := by
    decide +kernel
  cases hp : parseTemplate .text template with
  | error e => rw [hp] at hc; cases hc
  | ok ps =>
  rw [hp] at hc
  have hc := Option.some.inj hc
  rw [Bool.and_eq_true, decide_eq_true_iff, List.all_eq_true] at hc
  obtain ⟨⟨h1, h2, h3, h4⟩, h5⟩ := hc
  refine ⟨⟨ps, _, hp, h1⟩, ⟨ps, _, hp, h2⟩, ⟨ps, _, hp, h3⟩, ⟨ps, _, hp, h4⟩, fun ps' name spec hp' hm => ?_⟩
  rw [hp] at hp'
  injection hp' with hp'
  subst hp'
  exact of_decide_eq_true (h5 _ hm)

theorem plain_year : PlainYear .standard 1626307200000000 ∧ PlainYear .standard 1626310800000000 := by
  unfold PlainYear
  decide +kernel

abbrev args : TemplateArgs := era5Args .standard true "u" 1626307200000000

example := C80_text args 'x' "{year}".toList (by decide) (by decide)
example := (C80_variable args "_{year}".toList).1
example := C80_dates args "_x".toList (by decide +kernel) (by decide +kernel) (by decide +kernel) (by decide +kernel)
  (by decide +kernel) (by decide +kernel)
example := C80_different_variables template template_ok.1 .standard true 1626307200000000 "u" "v" (by decide) (by decide)
  (by decide) "/data/2021/07/ERA5_2021-07-15_pl_u.nc".toList "/data/2021/07/ERA5_2021-07-15_pl_v.nc".toList
  (by decide +kernel) (by decide +kernel)
/-- 00:00 and 01:00 of the same day are in the same file -/
example := C80_different_times template template_ok.2.2.2.2 .standard true "u" 1626307200000000 1626310800000000
  plain_year.1 plain_year.2 "/data/2021/07/ERA5_2021-07-15_pl_u.nc".toList (by decide +kernel) (by decide +kernel)
example := C80_daily_files template template_ok.2.2.2.2 template_ok.2.1 template_ok.2.2.1 template_ok.2.2.2.1 .standard true
  "u" 1626307200000000 1626310800000000 plain_year.1 plain_year.2 "/data/2021/07/ERA5_2021-07-15_pl_u.nc".toList
  (by decide +kernel) (by decide +kernel)

/-! ### The calendar check -/

example := C87_no_warning_means_same_calendar ⟨.noleap, false⟩ [] "noleap".toList .noleap rfl (by decide)
example := C87_usual_name_no_warning ⟨.day360, false⟩ [⟨.noleap, false⟩] (by decide)
example := C87_mismatch_is_reported ⟨.day360, false⟩ [] "standard".toList .standard rfl (by decide) (by decide)
example := C87_synonyms_always_warn ⟨.noleap, false⟩ [] "365_day".toList (by decide)
example := (C87_first_file_only ⟨.noleap, false⟩ [] [⟨.day360, false⟩] "noleap".toList).1

/-! ### Figures -/

abbrev none' {ω : Type} : ℤ → Option ω := fun _ => none

noncomputable def fwdEnd := Demo.fwd_ends.choose
theorem fwdEnd_ends : EndsIn (fwdRun Demo.cfg Demo.src Demo.path none') fwdEnd := Demo.fwd_ends.choose_spec.1
theorem fwdEnd_times : fwdEnd.files.map Prod.fst = [2 * Demo.step, 4 * Demo.step] := Demo.fwd_ends.choose_spec.2
noncomputable def bwdEnd := Demo.bwd_ends.choose
theorem bwdEnd_ends : EndsIn (bwdRun Demo.cfg Demo.src Demo.path none') bwdEnd := Demo.bwd_ends.choose_spec.1
theorem bwdEnd_times : bwdEnd.files.map Prod.fst = [2 * Demo.step, 0] := Demo.bwd_ends.choose_spec.2

theorem fwd_shown : ∃ shown, plotOutputFwd Demo.cfg Demo.path (writeFiles Demo.path none' fwdEnd.files) = .ok shown := by
  have h := C86_plot_forward Demo.cfg Demo.src Demo.inp Demo.path _ Demo.runnable fwdEnd_ends (by decide)
    (by decide) (by decide) (fun x _ y _ h => h)
  simp only at h
  rw [if_neg] at h
  · exact ⟨_, h⟩
  · intro hnil
    rcases hfs : fwdEnd.files with _ | ⟨x, l⟩
    · have := fwdEnd_times; rw [hfs] at this; cases this
    · have ht := fwdEnd_times
      rw [hfs] at ht
      have hx : x.1 = 2 * Demo.step := by
        have := congrArg List.head? ht; simpa using this
      have : x ∈ fwdEnd.files.filter fun x => decide (Demo.cfg.output_frequency ∣ x.1 ∧
          x.1 < Demo.cfg.tracking_end_date) := by
        rw [List.mem_filter, hx, hfs]
        exact ⟨by simp, by decide⟩
      rw [hnil] at this
      cases this

theorem bwd_shown : ∃ shown, plotOutputBwd Demo.cfg Demo.path (writeFiles Demo.path none' bwdEnd.files) = .ok shown := by
  have h := C86_plot_backward Demo.cfg Demo.src Demo.inp Demo.path _ Demo.runnable bwdEnd_ends (by decide)
    (by decide) (by decide) (by decide) (fun x _ y _ h => h)
  have hl : bwdEnd.files.length = 2 := by simpa using congrArg List.length bwdEnd_times
  rw [if_neg] at h
  · exact ⟨_, h⟩
  · intro hnil
    have := congrArg List.length hnil
    simp [hl] at this

example := C86_last_file_is_missing_forward Demo.cfg Demo.src Demo.inp Demo.path none' Demo.runnable fwdEnd_ends (by decide)
  (by decide) (by decide) (by decide) (by decide) (fun _ _ _ _ h => h) _ fwd_shown.choose_spec
example := C86_first_file_is_missing_backward Demo.cfg Demo.src Demo.inp Demo.path none' Demo.runnable bwdEnd_ends (by decide)
  (by decide) (by decide) (by decide) (fun _ _ _ _ h => h) _ bwd_shown.choose_spec

end Wam.Cases.Input
