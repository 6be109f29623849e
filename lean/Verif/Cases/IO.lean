import Verif.Props.Select
import Verif.Props.Load
import Verif.Props.LoadOnly
import Verif.Props.Names
import Verif.Props.Config
import Verif.Props.Cli
import Mathlib.Data.Rat.Floor

/-!
# Concrete cases: reading and selecting data, file names, configurations and the command line

Every theorem of `Props/Select`, `Load`, `LoadOnly`, `Names`, `Config` and `Cli` that has hypotheses, applied
to concrete data.
-/

namespace Wam.Cases.IO
open Spec

/-! ### Boxes on a global grid of 90 × 45 degrees -/

def globe : Dataset ℤ ℚ :=
  ⟨[45, 0, -45], [-180, -90, 0, 90], [.evap], fun _ i j => 10 * i + j⟩

abbrev plain : BoundingBox ℤ := ⟨-90, -10, 90, 60⟩
abbrev across : BoundingBox ℤ := ⟨50, -10, -50, 60⟩

example := C40_plain_box globe plain (by decide) (by decide) (by decide) (by decide) (by decide)
example := C40_box_across_date_line globe across (by decide) (by decide) (by decide) (by decide) (by decide)
example := C40_eastward globe across (by decide) (by decide) (by decide) (by decide)
/-- the box across the date line keeps 90° E, 180°, 90° W, in this order -/
example : (selectSubdomain globe across).toOption.map (fun d => (d.latitude, d.longitude)) =
    some ([45, 0], [90, -180, -90]) := by decide +kernel
example := C41_tagging_box across [45, 0, -45] [-180, -90, 0, 90] 1 3 0 90 rfl rfl
example := (C41_shape across [45, 0, -45] [-180, -90, 0, 90]).1
example : initializeTaggingRegion across [45, 0, -45] [-180, -90, 0, 90] =
    [[1, 1, 0, 1], [1, 1, 0, 1], [0, 0, 0, 0]] := by decide +kernel

/-! ### A server that answers at the third attempt, and one that never does -/

abbrev third : ℕ → Except Err ℕ := fun k => if k < 2 then .error .indexError else .ok 7
abbrev rand : ℕ → ℕ := fun i => 100 * 2 ^ i

theorem rand_lt : ∀ i, rand i < 500 * 2 ^ i := by
  intro i
  have : 0 < 2 ^ i := Nat.two_pow_pos i
  unfold rand
  omega

example := C39_first_answer third rand 2 (by decide) (by decide) (by unfold third; decide)
example := C39_gives_up (fun _ => (.error .indexError : Except Err ℕ)) rand (fun _ _ => rfl) rand_lt
example := C39_bounds third rand rand_lt
example : readOrRetry third rand = (.ok 7, 3, [600, 1200]) := by decide +kernel

/-! ### Tagging regions per day, and times on and off the input frequency -/

abbrev daily : List (ℤ × String) := [(0, "a"), (86400, "b"), (172800, "c")]

/-- exactly between two times the later one is used -/
example := C43_nearest_region daily (by decide) (by decide) 43200
example : nearestMask daily 43200 = .ok "b" := by decide +kernel
example := C43_exact_time daily (by decide) 86400 "b" (by decide)
example := C48_floor_ceil 7 6 (by decide)
example := C48_floor_ceil (-1) 6 (by decide)
example := C48_floor_ceil_optimal 7 6 12 (by decide) (by decide)
example := C48_multiple 12 6 (by decide)
example := C48_nearest 9 6 (by decide)
example : (floorTime (-1) 6, ceilTime (-1) 6, roundTime 9 6, roundTime 15 6) = (-6, 0, 12, 12) := by decide +kernel

/-! ### A day of preprocessed data -/

/-- the weather grows linearly in time -/
def weather (s : ℤ) : Dataset ℚ ℚ :=
  ⟨[1, 0, -1], [5, 6, 7], [.s_upper, .s_lower, .fx_upper, .fx_lower, .fy_upper, .fy_lower, .evap, .precip],
    fun _ i j => 3 + i + j + (1 / 21600000000) * s⟩

def file : DataFile ℚ ℚ :=
  ⟨.standard, [0, 21600000000, 43200000000, 64800000000].map fun s => (s, weather s)⟩

def files (p : List Char) : Except Err (DataFile ℚ ℚ) :=
  if p = "in/1970-01-01_fluxes_storages.nc".toList then .ok file else .error .fileNotFound

theorem year0 : FourDigitYear .standard 0 := by unfold FourDigitYear; decide +kernel

theorem archive : Archive files .standard "in".toList 21600000000 0 64800000000 weather where
  day := by
    intro s h0 h1 hd
    have hsame : SameDay s 0 := by unfold SameDay; omega
    have hys : FourDigitYear .standard s := FourDigitYear.sameDay year0 hsame.symm
    have hp : inputPath .standard s "in".toList = "in/1970-01-01_fluxes_storages.nc".toList :=
      ((C42_input_path .standard s 0 _ _ hys year0).2 ⟨rfl, hsame⟩).trans (by decide +kernel)
    refine ⟨file, by rw [hp]; rfl, rfl, ?_, by decide, ?_⟩
    · have : s = 0 ∨ s = 21600000000 ∨ s = 43200000000 ∨ s = 64800000000 := by omega
      rcases this with rfl | rfl | rfl | rfl <;> simp [file]
    · intro e he
      simp only [file, List.map_cons, List.map_nil, List.mem_cons, List.not_mem_nil,
        or_false] at he
      unfold SameDay
      rcases he with rfl | rfl | rfl | rfl <;> simp only <;> omega
  year := by
    intro s h0 h1
    exact FourDigitYear.sameDay year0 (by unfold SameDay; omega)

abbrev io : IOConfig ℚ := ⟨.standard, "in".toList, none, 21600000000⟩
abbrev ioBox : IOConfig ℚ := ⟨.standard, "in".toList, some ⟨5, -1, 6, 1⟩, 21600000000⟩

theorem all_vars (s : ℤ) (v : Var) : v ∈ (weather s).vars := by
  have : ∀ v : Var, v ∈ ([.s_upper, .s_lower, .fx_upper, .fx_lower, .fy_upper, .fy_lower, .evap, .precip] : List Var) := by
    intro v; cases v <;> decide
  exact this v

/-- another folder that agrees on the two times around 03:00 -/
def files' (p : List Char) : Except Err (DataFile ℚ ℚ) :=
  if p = "in/1970-01-01_fluxes_storages.nc".toList then
    .ok ⟨.standard, [(0, weather 0), (21600000000, weather 21600000000)]⟩ else .error .fileNotFound

theorem only_two : ∀ s, (21600000000 : ℤ) ∣ s → |s - 10800000000| < 21600000000 →
    s = 0 ∨ s = 21600000000 := by
  intro s h1 h2
  rw [abs_lt] at h2
  omega

example := C37_only_enclosing_slices files files' io .states 10800000000 (by decide) (by
  intro s h1 h2
  rcases only_two s h1 h2 with rfl | rfl <;> rfl)
example := C37_interpolation files io 0 64800000000 weather .states (by decide) rfl archive (fun s v _ => all_vars s v)
  (by decide) (by decide) 10800000000 (by decide) (by decide)
example := C37_between files io 0 64800000000 weather .states (by decide) rfl archive (fun s v _ => all_vars s v)
  (by decide) (by decide) 10800000000 (by decide) (by decide) 2 6 .s_lower 0 1 (by
    intro s hs
    simp only [weather]
    rw [abs_lt] at hs
    obtain ⟨h1, h2⟩ := hs
    have h1 : -10800000000 < s := by linarith
    have h2 : s < 32400000000 := by linarith
    have h1 : (-10800000000 : ℚ) < s := by exact_mod_cast h1
    have h2 : (s : ℚ) < 32400000000 := by exact_mod_cast h2
    constructor <;> push_cast <;> linarith)
example := C37_linear_data files io 0 64800000000 weather .states (by decide) rfl archive (fun s v _ => all_vars s v)
  (by decide) (by decide) 10800000000 (by decide) (by decide) (fun _ i j => 3 + i + j)
  (fun _ _ _ => 1 / 21600000000) (fun _ _ _ _ => rfl)
example := C37_subdomain files ioBox ⟨5, -1, 6, 1⟩ 0 64800000000 weather .states (by decide) rfl archive
  (fun s v _ => all_vars s v) [1, 0, -1] [5, 6, 7] (fun _ => ⟨rfl, rfl⟩) (by decide) (by decide) 10800000000
  (by decide) (by decide)
example := C37_runs_from_archive (m := 1) (n := 1) files io 0 64800000000 weather (by decide) rfl archive
  all_vars (by decide) (by decide) Demo.src.grid (fun _ _ => 1) Demo.src.weight
  Demo.cfg (by decide) (by decide) (by decide) (by decide)

/-! ### The cache: slices 0 … 9 can be read -/

abbrev read : ℕ → Except Err ℕ := fun k => if k < 10 then .ok (100 * k) else .error .keyError

example := C38_cache_invisible read [.load 0, .load 1, .modify 1 (· + 1), .load 1, .load 12]
example := C38_repeatable read 4 400 rfl [.load 0, .modify 0 (· + 1)] [.modify 1 (· * 2), .load 5]
example := C38_stale_if_files_change read (fun _ => .ok 0) 4 400 rfl

/-! ### Complete runs from the folder of `LoadOnlyDemo`: 40 minutes of tracking -/

theorem run_years (s : ℤ) (h0 : Demo.cfg.tracking_start_date - 21600000000 < s)
    (h1 : s < Demo.cfg.tracking_end_date + 21600000000) : FourDigitYear .standard s := by
  have h0 : (-21600000000 : ℤ) < s := h0
  have h1 : s < 4 * 600000000 + 21600000000 := h1
  have hz : FourDigitYear .standard (-1) := by unfold FourDigitYear; decide +kernel
  by_cases h : 0 ≤ s
  · exact FourDigitYear.sameDay year0 (by unfold SameDay; omega)
  · exact FourDigitYear.sameDay hz (by unfold SameDay; omega)

theorem folder_years : ∀ p f, LoadOnlyDemo.folder false p = .ok f → ∀ e ∈ f.entries,
    FourDigitYear f.calendar e.1 := by
  intro p f hf e he
  unfold LoadOnlyDemo.folder at hf
  split at hf
  · injection hf with hf
    subst hf
    simp only [Bool.false_eq_true, if_false, List.append_nil, List.mem_cons,
      List.not_mem_nil, or_false] at he
    rcases he with rfl | rfl
    · exact year0
    · exact FourDigitYear.sameDay year0 (by unfold SameDay; decide)
  · cases hf

example := C89_read_from_the_files (LoadOnlyDemo.folder false) LoadOnlyDemo.io .states 21600000000
  _ (by decide) (by
    intro s hs
    have hs : |s - 21600000000| < 21600000000 := hs
    rw [abs_lt] at hs
    exact FourDigitYear.sameDay year0 (by unfold SameDay; omega)) folder_years
  (show loadData (LoadOnlyDemo.folder false) LoadOnlyDemo.io 21600000000 .states = .ok _ from rfl)
example := C89_complete_forward Demo.cfg Demo.src Demo.path (fun _ => none) 4 _ (by decide) rfl
  (Demo.cfg.tracking_start_date + 2 * 600000000) 2 (by decide) (by decide)
example := C89_complete_backward Demo.cfg Demo.src Demo.path (fun _ => none) 4 _ (by decide) rfl
  (Demo.cfg.tracking_end_date - 2 * 600000000) 2 (by decide) (by decide)
example := C89_forward_run_from_files (LoadOnlyDemo.folder false) LoadOnlyDemo.io (by decide) Demo.src.grid
  Demo.src.region Demo.src.weight Demo.cfg Demo.path (fun _ => none) 4 _ (by decide) run_years folder_years rfl
  (Demo.cfg.tracking_start_date + 2 * 600000000) 2 (by decide) (by decide)
example := C89_backward_run_from_files (LoadOnlyDemo.folder false) LoadOnlyDemo.io (by decide) Demo.src.grid
  Demo.src.region Demo.src.weight Demo.cfg Demo.path (fun _ => none) 4 _ (by decide) run_years folder_years rfl
  (Demo.cfg.tracking_end_date - 2 * 600000000) 2 (by decide) (by decide)

/-! ### File names -/

theorem demo_years (t : ℤ) (h0 : Demo.cfg.tracking_start_date ≤ t) (h1 : t ≤ Demo.cfg.tracking_end_date) :
    FourDigitYear .standard t := by
  have h0 : (0 : ℤ) ≤ t := h0
  have h1 : t ≤ 4 * 600000000 := h1
  exact FourDigitYear.sameDay year0 (by unfold SameDay; omega)

example := C42_input_path .standard 0 86399000000 "in".toList "in".toList year0
  (FourDigitYear.sameDay year0 (by unfold SameDay; decide))
example := C42_output_path .standard 0 60000000 "out".toList "out".toList true true year0
  (FourDigitYear.sameDay year0 (by unfold SameDay; decide))
example := fun s (hs : EndsIn (fwdRun Demo.cfg Demo.src _ _) s) => C42_run_forward Demo.cfg Demo.src Demo.inp .standard
  "out".toList (fun _ => none) Demo.runnable (by decide) demo_years hs
example := fun s (hs : EndsIn (bwdRun Demo.cfg Demo.src _ _) s) => C42_run_backward Demo.cfg Demo.src Demo.inp .standard
  "out".toList (fun _ => none) Demo.runnable (by decide) demo_years hs
/-- such runs exist -/
example : ∃ s, EndsIn (bwdRun Demo.cfg Demo.src (fun t => outputPath .standard t "out".toList true) fun _ => none) s := by
  obtain ⟨o, ho⟩ := bwd_init_ok Demo.cfg Demo.src Demo.inp
    (fun t => outputPath .standard t "out".toList true) (fun _ => none) Demo.runnable (by decide)
  obtain ⟨r, _, _, hrun⟩ := bwd_run_eq Demo.cfg Demo.src Demo.inp _ _ Demo.runnable o ho
  exact ⟨_, Demo.cfg.steps, fun fuel hf => (hrun fuel).trans (if_neg (not_lt.mpr hf))⟩
example := C42_sub_minute_collision .standard 10 "out".toList false
  (FourDigitYear.sameDay year0 (by unfold SameDay; decide))

/-! ### Frequencies -/

theorem sixH : MeansOld "6H".toList "6".toList .hour := ⟨by decide, "H".toList, by decide, by decide⟩

example := C47_modernised _ _ _ sixH
example := C47_meaning_kept _ _ _ (.inl sixH)
example := C47_meaning_kept "10min".toList "10".toList .minute (.inr ⟨by decide, by decide⟩)
example := C47_idempotent "6H".toList
example := C47_meaning_unique "10ms".toList "10".toList "10".toList .milli .milli ⟨by decide, rfl⟩ ⟨by decide, rfl⟩
/-- a day is no unit of time of the table: `1d` stays -/
example := C47_others_unchanged "1d".toList (by
  rintro num u ⟨h1, ls, h2, h3⟩
  have h4 := congrArg List.getLast? h2
  have hne : ls ≠ [] := by rintro rfl; cases u <;> exact absurd h3 (by decide)
  have h5 : ls.getLast? = some 'd' := by
    rw [List.getLast?_append_of_ne_nil _ hne] at h4
    exact h4.symm
  have h6 := congrArg List.getLast? h3
  rw [List.getLast?_map, h5] at h6
  cases u <;> exact absurd h6 (by decide))

/-! ### Dates -/

abbrev half : DateTime := ⟨⟨2021, 7, 13⟩, 22, 0, 30, 500000⟩
abbrev tHalf : ℤ := 1626213630500000

theorem year_half : FourDigitYear .standard tHalf := by unfold FourDigitYear; decide +kernel

example := C46_date_round_trip .standard tHalf year_half
example := C46_exact_iff_whole_minute .standard tHalf year_half
example := C46_reads_what_is_written .standard half (by constructor <;> decide +kernel) (by decide) (by decide) tHalf
example := C46_only_existing_dates .day360 "2021-02-30T00:00".toList (timeOf .day360 ⟨⟨2021, 2, 30⟩, 0, 0, 0, 0⟩)
  (by decide +kernel)
example := C46_rejects_missing_dates .standard ⟨⟨2021, 2, 30⟩, 0, 0, 0, 0⟩ (by decide) (by decide) (by decide) (by decide)
  (by decide) (by decide) (by decide) (by unfold Calendar.Valid; decide +kernel)
example := C46_timestamp .standard 1626213630000000 (by unfold FourDigitYear; decide +kernel) (by decide)

/-! ### Configurations -/

/-- tracking 1970-01-01 00:00 … 01:40, tagging inside, preprocessing the whole day -/
def config : Config ℕ := ⟨"360_day".toList, fun
  | .tracking_start_date => 0
  | .tracking_end_date => 6000000000
  | .tagging_start_date => 600000000
  | .tagging_end_date => 1200000000
  | .preprocess_start_date => 0
  | .preprocess_end_date => 82800000000, 5⟩

theorem ordered : Ordered config := ⟨by decide, by decide, by decide⟩

example := C46_config_round_trip config .day360 rfl ordered (by
  intro f
  cases f <;> (unfold FourDigitYear; decide +kernel))

abbrev settings : Settings ℕ := ⟨none, fun _ => some (.text "2021-07-01T00:00".toList), .ok 3⟩

noncomputable def made : Config ℕ := (makeConfig settings).toOption.getD config

theorem made_ok : makeConfig settings = .ok made := by
  have h : (makeConfig settings).isOk = true := by decide +kernel
  unfold made
  revert h
  cases makeConfig settings <;> simp [Except.toOption, Except.isOk, Except.toBool]

example := C45_accepted_is_ordered settings made made_ok
/-- a later end of tracking is accepted, one before the start is reported and kept -/
example := C45_assignment config (.date .tracking_end_date (.date 7000000000)) (by decide)
example := C45_disorder_is_reported config (.date .tracking_end_date (.date (-1))) (by
  intro h
  exact absurd h.tracking (by decide))
example := C45_history config [.date .tracking_end_date (.date (-1))] (.date .tracking_start_date (.date (-2))) (by decide)
example := C45_stays_ordered config ordered [.date .tracking_end_date (.date 7000000000), .rest (.ok 6)] (by decide)
example := C45_rejected_assignment_sticks config ordered

/-! ### DOIs, downloads and commands -/

example := (C67_parse_doi "https://doi.org/10.4121/abc.v1".toList "10.4121".toList "abc.v1".toList).1 (by rfl)
example := (C67_rejects "10.41/abc".toList).1.1 (by rfl)
example := C67_4tu_id "f9572240-f179".toList "v1".toList (by decide) (by decide) (by decide) (by decide)

/-- `/home` with a file in it -/
def fs : FileSystem := fun p =>
  if p = [] ∨ p = ["home".toList] then some .dir
  else if p = ["home".toList, "old".toList] then some (.file "x".toList) else none

theorem fs_below (p q : FPath) (h : fs p = none) : fs (p ++ q) = none := by
  unfold fs at h ⊢
  have hp : p ≠ [] ∧ p ≠ ["home".toList] ∧ p ≠ ["home".toList, "old".toList] := by
    refine ⟨?_, ?_, ?_⟩ <;> rintro rfl <;> exact absurd h (by decide)
  have h1 : ¬ (p ++ q = [] ∨ p ++ q = ["home".toList]) := by
    rintro (h | h)
    · exact hp.1 (List.append_eq_nil_iff.1 h).1
    · rcases List.append_eq_singleton_iff.1 h with ⟨h, _⟩ | ⟨h, _⟩
      · exact hp.1 h
      · exact hp.2.1 h
  have h2 : ¬ p ++ q = ["home".toList, "old".toList] := by
    intro h
    rcases p with _ | ⟨a, _ | ⟨b, _ | ⟨c, p⟩⟩⟩
    · exact hp.1 rfl
    · exact hp.2.1 (by simp only [List.cons_append, List.nil_append, List.cons.injEq] at h; rw [h.1])
    · simp only [List.cons_append, List.nil_append, List.cons.injEq] at h
      exact hp.2.2 (by rw [h.1, h.2.1])
    · simp at h
  rw [if_neg h1, if_neg h2]

def server : List Char → Except Err (List (FileName × List Char)) := fun id =>
  if id = "abc".toList then .ok [(⟨false, ["a.nc".toList]⟩, "data".toList), (⟨false, ["b.yaml".toList]⟩, "c".toList)]
  else .error .fileNotFound

theorem server_names : ∀ id files, server id = .ok files → ∀ f ∈ files, SimpleName f.1 := by
  intro id files h f hf
  unfold server at h
  split at h
  · injection h with h
    subst h
    simp only [List.mem_cons, List.not_mem_nil, or_false] at hf
    rcases hf with rfl | rfl
    · exact ⟨rfl, _, rfl, by decide⟩
    · exact ⟨rfl, _, rfl, by decide⟩
  · cases h

example := (C68_target_directory fs ["home".toList] "new".toList (by decide) fs_below).2 (by decide)
example := (C68_target_directory fs ["home".toList] "old".toList (by decide) fs_below).1 (by decide)
example := C68_download_keeps_existing fs ["home".toList] "10.4121/abc.v1".toList "new".toList server fs_below server_names
  ["home".toList, "old".toList] (by decide)
/-- the download itself: both files arrive -/
example : (fun r : Option Err × FileSystem => (r.1, r.2 ["home".toList, "new".toList, "a.nc".toList]))
    (downloadFromDoi fs ["home".toList] "10.4121/abc.v1".toList "new".toList server) =
      (none, some (.file "data".toList)) := by decide +kernel
example := C68_existing_target_stops fs ["home".toList] "10.4121/abc.v1".toList "old".toList server (by decide)

abbrev cli : CliConfig := ⟨.backward, ["out".toList], ["pre".toList]⟩

example := (C69_track ["cases".toList, "c.yaml".toList] cli (by decide)).1 (by decide)
example := (C69_track ["out".toList, "c.yaml".toList] cli (by decide)).2 (by decide)
example := (C69_preprocess ["cases".toList, "c.yaml".toList] cli (by decide) .era5).1 (by decide)
example := (C69_nothing_else ["cases".toList, "c.yaml".toList] (.ok cli) .valueError .track).1

end Wam.Cases.IO
