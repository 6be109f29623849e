import Verif.Props.Works
import Verif.Props.PipelineDemo
import Verif.Props.CommandDemo

/-! # C111 and C112 on an example

ERA5 files on disk, `preprocess` to `/in`, `track` to `/out`. -/

set_option linter.unusedSectionVars false
set_option linter.unusedVariables false

namespace Wam
open Spec

namespace WorksDemo

/-- a configuration file and raw data -/
def fs₀ : FileSystem := fun p =>
  if p = [] then some .dir
  else if p = ["a.yaml".toList] then some (.file "x".toList)
  else if p = ["raw".toList] then some (.file "r".toList)
  else none

noncomputable def settings (backward : Bool) : TrackSettings ℝ :=
  { backward := backward, timestep := 600, input_frequency := 3600000000, output_frequency := 1200000000, kvf := 3
    periodic_boundary := false, restart := false, tracking_domain := none, tagging_region := .box ⟨4.5, 49.5, 5.5, 50.5⟩ }

noncomputable def file (backward : Bool) : FileSettings (TrackSettings ℝ) :=
  { settings := { calendar := none
                  dates := fun
                    | .tracking_start_date => some (.date 600000000)
                    | .tracking_end_date => some (.date 2400000000)
                    | .tagging_start_date => some (.date 600000000)
                    | .tagging_end_date => some (.date 2400000000)
                    | .preprocess_start_date => some (.date 0)
                    | .preprocess_end_date => some (.date 3600000000)
                  rest := .ok (settings backward) }
    folders := { preprocessed := .ok (some ⟨true, ["in".toList]⟩), output := .ok ⟨true, ["out".toList]⟩ } }

noncomputable def cfg (backward : Bool) : Loaded (TrackSettings ℝ) :=
  { config := { dates := fun
                  | .tracking_start_date => 600000000
                  | .tracking_end_date => 2400000000
                  | .tagging_start_date => 600000000
                  | .tagging_end_date => 2400000000
                  | .preprocess_start_date => 0
                  | .preprocess_end_date => 3600000000
                calendar := "standard".toList
                rest := settings backward }
    preprocessed := some ["in".toList]
    output := ["out".toList] }

theorem loaded (b : Bool) : LoadedFrom [] (file b) (cfg b) := ⟨rfl, ⟨_, rfl, rfl⟩, ⟨_, rfl, rfl⟩⟩

/-- the files of raw data: those of the demonstration of C88, if `/raw` is there -/
noncomputable def raw (_ : Loaded (TrackSettings ℝ)) (fs : FileSystem) (path : List Char) : Except Err (RawFile ℝ ℝ) :=
  match fs ["raw".toList] with
  | some (.file _) => PipelineDemo.disk [850, 500] path
  | _ => .error .fileNotFound

theorem raw_eq (b : Bool) : raw (cfg b) fs₀ = PipelineDemo.disk [850, 500] := rfl

noncomputable def compute : ℤ → Except Err (Dataset ℝ ℝ) :=
  prepEra5 demoArgsort PipelineDemo.lay (PipelineDemo.cfg .pressure_levels [850, 500]) (PipelineDemo.disk [850, 500])

def shw (_ : DataFile ℝ ℝ) : List Char := "d".toList

open Classical in
/-- what is written is read back: there is only one file that is written -/
noncomputable def lib : Library 2 2 ℝ where
  readData text := if h : ∃ f, HoldsDay .standard compute (inputDates 0 3600000000 3600000000) 0 f then .ok h.choose
    else .error .valueError
  remote _ := .error .fileNotFound
  readTag _ := .error .valueError
  first _ := none
  mask _ _ := .error .valueError
  showMask _ := []
  showCorrection _ := "c".toList
  showFwd _ := "o".toList
  readFwd _ := none
  showBwd _ := "o".toList
  readBwd _ := none

theorem first_ok : ∀ q name, lib.first q = some name → q name = true := fun _ _ h => by cases h

theorem filtered {t : ℤ} (ht : t ∈ inputDates 0 3600000000 3600000000) :
    (inputDates 0 3600000000 3600000000).filter (fun s => decide (SameDay s t)) =
      (inputDates 0 3600000000 3600000000).filter (fun s => decide (SameDay s 0)) := by
  have := PipelineDemo.dates t ht
  simp only [List.mem_cons, List.not_mem_nil, or_false] at this
  rcases this with rfl | rfl
  · rfl
  · decide +kernel

theorem holds_same {t : ℤ} (ht : t ∈ inputDates 0 3600000000 3600000000) {f : DataFile ℝ ℝ}
    (h : HoldsDay .standard compute (inputDates 0 3600000000 3600000000) t f) :
    HoldsDay .standard compute (inputDates 0 3600000000 3600000000) 0 f := by
  unfold HoldsDay at h ⊢
  rw [filtered ht] at h
  exact h

theorem forall₂_unique {β γ : Type} {R : β → γ → Prop} (hR : ∀ a b c, R a b → R a c → b = c) :
    ∀ {xs : List β} {ys zs : List γ}, List.Forall₂ R xs ys → List.Forall₂ R xs zs → ys = zs := by
  intro xs ys zs h
  induction h generalizing zs with
  | nil => intro h; cases h; rfl
  | cons h1 _ ih =>
    intro h
    cases h with
    | cons h3 h4 => rw [hR _ _ _ h1 h3, ih h4]

theorem holds_unique {f f' : DataFile ℝ ℝ} (h : HoldsDay .standard compute (inputDates 0 3600000000 3600000000) 0 f)
    (h' : HoldsDay .standard compute (inputDates 0 3600000000 3600000000) 0 f') : f = f' := by
  obtain ⟨h1, d0, h2, h3⟩ := h
  obtain ⟨h1', d0', h2', h3'⟩ := h'
  have hd : d0 = d0' := by
    rw [h2] at h2'
    injection h2' with h2'
    injection h2'
  subst hd
  have he := forall₂_unique (by
    rintro a b c ⟨r, k1, k2, _⟩ ⟨r', k1', k2', _⟩
    rw [k1] at k1'
    injection k1' with k1'
    subst k1'
    rw [k2, k2']) h3 h3'
  cases f
  cases f'
  simp only at h1 h1' he
  rw [h1, h1', he]

theorem read_back {t : ℤ} (ht : t ∈ inputDates 0 3600000000 3600000000) {f : DataFile ℝ ℝ}
    (h : HoldsDay .standard compute (inputDates 0 3600000000 3600000000) t f) : lib.readData (shw f) = .ok f := by
  have hex : ∃ f, HoldsDay .standard compute (inputDates 0 3600000000 3600000000) 0 f := ⟨f, holds_same ht h⟩
  have e : lib.readData (shw f) = .ok hex.choose := dif_pos hex
  rw [e, holds_unique hex.choose_spec (holds_same ht h)]

theorem follows (b b' : Bool) : Follows shw lib (fun r : TrackSettings ℝ => r.input_frequency) compute (cfg b) ["in".toList] (cfg b') where
  folder₀ := rfl
  folder := rfl
  calendar := rfl
  frequency := rfl
  read := fun t ht f h => read_back ht h

theorem wellFormed : WellFormed fs₀ where
  root := rfl
  parent := by
    intro p c h
    have key : ∀ x : List Char, p ++ [c] = [x] → fs₀ p = some .dir := by
      intro x hx
      have : p = [] := by
        have := congrArg List.length hx
        simp at this
        exact this
      subst this; rfl
    unfold fs₀ at h
    split at h
    · next hc => exact absurd hc (by simp)
    · split at h
      · next hc => exact key _ hc
      · split at h
        · next hc => exact key _ hc
        · exact absurd rfl h

theorem folders_short {b : Bool} {p : FPath} (h : ConfigFolder [] (file b).folders p) :
    p = [] ∨ p = ["in".toList] ∨ p = ["out".toList] := by
  obtain ⟨q, h1, rest, h2⟩ := h
  have key : ∀ x : List Char, q = [x] → p = [] ∨ p = [x] := by
    intro x hx
    rw [hx] at h2
    rcases p with _ | ⟨y, p⟩
    · exact .inl rfl
    · injection h2 with h3 h4
      have := (List.append_eq_nil_iff.1 h4).1
      exact .inr (by rw [h3, this])
  rcases h1 with ⟨name, h4, h5⟩ | ⟨name, h4, h5⟩
  · have h6 : some name = some ⟨true, ["in".toList]⟩ := (Except.ok.inj h4).symm
    injection h6 with h6
    subst h6
    rcases key _ h5 with h | h
    · exact .inl h
    · exact .inr (.inl h)
  · have h6 : name = ⟨true, ["out".toList]⟩ := (Except.ok.inj h4).symm
    subst h6
    rcases key _ h5 with h | h
    · exact .inl h
    · exact .inr (.inr h)

theorem below_head {x : List Char} {p : FPath} (h : Below [x] p) : ∃ a r, p = x :: a :: r := by
  obtain ⟨rest, h1, rfl⟩ := h
  rcases rest with _ | ⟨a, r⟩
  · exact absurd rfl h1
  · exact ⟨a, r, rfl⟩

theorem record_below {x stamp name : List Char} {p : FPath} (h : Record [x] stamp name p) : Below [x] p := by
  cases h <;> exact ⟨_, by simp, rfl⟩

theorem day_below {x : List Char} {c : Calendar} {p : FPath} (h : DayFile c [x] p) : Below [x] p := by
  cases h; exact ⟨_, by simp, rfl⟩

theorem folders_above {b : Bool} {x : List Char} {p : FPath} (h : ConfigFolder [] (file b).folders p) : ¬ Below [x] p := by
  intro h'
  obtain ⟨a, r, rfl⟩ := below_head h'
  rcases folders_short h with h | h | h
  · cases h
  · have := congrArg List.length h; simp at this
  · have := congrArg List.length h; simp at this

theorem short_not_below {x y : List Char} : ¬ Below [x] [y] := by
  intro h
  obtain ⟨a, r, h⟩ := below_head h
  have := congrArg List.length h; simp at this

theorem fs₀_long {p : FPath} (h : 2 ≤ p.length) : fs₀ p = none := by
  unfold fs₀
  rw [if_neg (by rintro rfl; simp at h), if_neg (by rintro rfl; simp at h), if_neg (by rintro rfl; simp at h)]

theorem below_two {x : List Char} {p : FPath} (h : Below [x] p) : 2 ≤ p.length := by
  obtain ⟨a, r, rfl⟩ := below_head h
  simp

theorem not_folder {b : Bool} {x : List Char} (h1 : x ≠ "in".toList) (h2 : x ≠ "out".toList) :
    ¬ ConfigFolder [] (file b).folders [x] := by
  intro h
  rcases folders_short h with h | h | h
  · cases h
  · injection h with h; exact h1 h
  · injection h with h; exact h2 h

theorem given₀ (b : Bool) : GivenWith (fun _ => .ok (file b)) [] [] ("a".toList ++ ".yaml".toList) "S".toList fs₀ (file b) (cfg b) :=
  ⟨⟨"x".toList, by decide +kernel, rfl⟩, loaded b, by decide +kernel⟩

theorem untouched₀ (b : Bool) : Untouched [] (file b) ["in".toList] "S".toList ("a".toList ++ ".yaml".toList)
    (· = ["raw".toList]) := by
  rintro p rfl
  exact ⟨not_folder (by decide +kernel) (by decide +kernel), fun h => short_not_below (record_below h)⟩

theorem looks (b : Bool) : LooksOnlyAt (raw (cfg b)) (· = ["raw".toList]) := by
  intro fs₁ fs₂ h
  funext path
  unfold raw
  rw [h _ rfl]

theorem room₀ (b : Bool) : RoomForPreprocessing [] (file b) (cfg b) [] ["in".toList] "a".toList "S".toList fs₀ where
  wf := wellFormed
  folders := by
    intro p h text
    rcases folders_short h with rfl | rfl | rfl
    · show some Node.dir ≠ _; simp
    · have : fs₀ ["in".toList] = none := by decide +kernel
      rw [this]; simp
    · have : fs₀ ["out".toList] = none := by decide +kernel
      rw [this]; simp
  files := by
    intro p h
    rw [fs₀_long (below_two (x := "in".toList) (h.elim record_below day_below))]
    simp
  apart := fun p h => folders_above h
  own := short_not_below

/-- `preprocess` -/
noncomputable def prep (b : Bool) : Act Unit :=
  command (fun _ => .ok (file b)) [] ([] ++ ["a".toList ++ ".yaml".toList]) "S".toList (fun r => r.backward)
    (fun cfg => cfg.preprocessed) (preprocessExperiment shw (fun r : TrackSettings ℝ => r.input_frequency) fun c fs =>
      prepEra5 demoArgsort PipelineDemo.lay (PipelineDemo.cfg .pressure_levels [850, 500]) (raw c fs))

/-- the file system when it has ended -/
noncomputable def fs (b : Bool) : FileSystem := after (prep b) fs₀

theorem is_moment (b : Bool) : Moment (prep b) fs₀ (fs b) := ⟨(prep b fs₀).1.length, by rw [List.take_length]; rfl⟩

theorem changed (b : Bool) : ChangedOnly (ConfigFolder [] (file b).folders)
    (fun p => Record ["in".toList] "S".toList ("a".toList ++ ".yaml".toList) p ∨ DayFile .standard ["in".toList] p) fs₀ (fs b) := by
  refine C106_preprocess (fun _ => .ok (file b)) [] [] ("a".toList ++ ".yaml".toList) fs₀ (fs b) "x".toList "S".toList (file b)
    .standard ⟨true, ["in".toList]⟩ (fun r => r.backward) _ (by decide +kernel) rfl rfl rfl (by decide +kernel) ?_
    (is_moment b)
  intro cfg fs' x hx
  obtain ⟨_, _, e2, _⟩ := preprocessExperiment_writes shw (fun r : TrackSettings ℝ => r.input_frequency) (fun c fs =>
    prepEra5 demoArgsort PipelineDemo.lay (PipelineDemo.cfg .pressure_levels [850, 500]) (raw c fs)) cfg fs'
  obtain ⟨t, y, rfl⟩ := e2 x hx
  trivial

theorem in_or_not {p : FPath} (h : ∀ a r, p ≠ "in".toList :: a :: r) :
    ¬ (Record ["in".toList] "S".toList ("a".toList ++ ".yaml".toList) p ∨ DayFile .standard ["in".toList] p) := by
  intro h'
  obtain ⟨a, r, e⟩ := below_head (h'.elim record_below day_below)
  exact h a r e

theorem given (b : Bool) : GivenWith (fun _ => .ok (file b)) [] [] ("a".toList ++ ".yaml".toList) "T".toList (fs b) (file b) (cfg b) := by
  refine ⟨⟨"x".toList, ?_, rfl⟩, loaded b, by decide +kernel⟩
  rcases changed b ([] ++ ["a".toList ++ ".yaml".toList]) with h | ⟨h, _⟩ | ⟨h, _⟩
  · rw [h]; decide +kernel
  · exact absurd h (not_folder (by decide +kernel) (by decide +kernel))
  · exact absurd h (in_or_not (fun a r e => by have := congrArg List.length e; simp at this))

theorem input {b : Bool} {p : FPath} (h : TrackInput (cfg b) p) : ∃ name, p = ["in".toList, name] := by
  cases h with
  | data pre t h =>
    injection h with h
    subst h
    exact ⟨_, rfl⟩
  | tag _ h => cases h
  | shape _ h => cases h
  | axes _ _ _ _ h => cases h
  | forward h => cases h
  | backward h => cases h

theorem untouched (b : Bool) : Untouched [] (file b) ["out".toList] "T".toList ("a".toList ++ ".yaml".toList) (TrackInput (cfg b)) := by
  intro p hp
  obtain ⟨name, rfl⟩ := input hp
  constructor
  · exact fun h => folders_above h ⟨[name], by simp, rfl⟩
  · intro h
    obtain ⟨a, r, h⟩ := below_head (record_below h)
    injection h with h _
    exact absurd h (by decide +kernel)

theorem room (b : Bool) : RoomForTracking [] (file b) (cfg b) [] "a".toList "T".toList (fs b) where
  wf := solid_moment (solid_command _ _ _ _ _ _ _) wellFormed (is_moment b)
  folders := by
    intro p h text
    rcases changed b p with h' | ⟨_, _, h'⟩ | ⟨h', _⟩
    · rw [h']; exact (room₀ b).folders p h text
    · rw [h']; simp
    · exact absurd (h'.elim record_below day_below) (folders_above h)
  debug := by
    intro text
    rcases changed b (["out".toList] ++ ["debug".toList]) with h' | ⟨_, _, h'⟩ | ⟨h', _⟩
    · have : fs₀ (["out".toList] ++ ["debug".toList]) = none := fs₀_long (by simp)
      show fs b (["out".toList] ++ ["debug".toList]) ≠ _
      rw [h', this]; simp
    · show fs b (["out".toList] ++ ["debug".toList]) ≠ _
      rw [h']; simp
    · exact absurd h' (in_or_not (fun a r e => by injection e with e _; exact absurd e (by decide +kernel)))
  files := by
    intro p h
    have hb : Below ["out".toList] p := h.elim record_below below_of_trackFile
    rcases changed b p with h' | ⟨h', _⟩ | ⟨_, _, text, h'⟩
    · rw [h', fs₀_long (below_two hb)]; simp
    · exact absurd hb (folders_above h')
    · rw [h']; simp
  apart := fun p h => folders_above h
  own := short_not_below

theorem within (b : Bool) : TracksWithin (cfg b).runConfig 0 3600000000 := by
  refine ⟨?_, ?_, ?_, ?_⟩
  · show (0 : ℤ) < 600; norm_num
  · show (0 : ℤ) ≤ 600000000; norm_num
  · show (600000000 : ℤ) ≤ 2400000000; norm_num
  · show (2400000000 : ℤ) ≤ 3600000000; norm_num

/-- `track` -/
noncomputable def track (b : Bool) : Act Unit :=
  command (fun _ => .ok (file b)) [] ([] ++ ["a".toList ++ ".yaml".toList]) "T".toList (fun r => r.backward)
    (fun cfg => some cfg.output) (trackExperiment lib)

end WorksDemo

open WorksDemo in
/-- C112_era5_forward, with C112_pipeline_forward, C112_preprocess, C112_forward, C112_ends and C111_era5_forward: all that they ask for is
there, and both commands end normally -/
theorem WorksDemo.forward : (prep false fs₀).2 = .ok () ∧ (track false (fs false)).2 = .ok () ∧
    ForwardResult lib compute 3600000000 0 3600000000 (cfg false) (fs false) (after (track false) (fs false)) :=
  C112_era5_forward shw (fun r : TrackSettings ℝ => r.input_frequency) (fun _ => PipelineDemo.cfg .pressure_levels [850, 500])
    (fun _ => PipelineDemo.lay) raw demoArgsort_isArgsort lib first_ok (fun r => r.backward) (fun _ => .ok (file false)) [] []
    "a".toList "S".toList fs₀ (file false) (cfg false) ["in".toList] (given₀ false) (· = ["raw".toList]) (looks false)
    (untouched₀ false) (room₀ false) (fs false) (cfg false) (fun p _ => rfl) (follows false false) 3600000000 PipelineDemo.period
    (within false) ⟨10, rfl⟩ (fun _ => .ok (file false)) [] [] "a".toList "T".toList (file false) (given false) (untouched false) rfl
    (room false) (fun h => by cases h) rfl rfl (by simp) (by decide) (by decide +kernel)
    (fun t ht => PipelineDemo.complete' t ht) (lat := [52, 51, 50, 49]) (lon := [4, 5, 6, 7]) rfl rfl
    (fun t ht ds h => PipelineDemo.fits (PipelineDemo.era5Axes t ht ds h))

open WorksDemo in
/-- C112_era5_backward, with C112_pipeline_backward, C112_backward and C111_era5_backward -/
theorem WorksDemo.backward : (prep true fs₀).2 = .ok () ∧ (track true (fs true)).2 = .ok () ∧
    BackwardResult lib compute 3600000000 0 3600000000 (cfg true) (fs true) (after (track true) (fs true)) :=
  C112_era5_backward shw (fun r : TrackSettings ℝ => r.input_frequency) (fun _ => PipelineDemo.cfg .pressure_levels [850, 500])
    (fun _ => PipelineDemo.lay) raw demoArgsort_isArgsort lib first_ok (fun r => r.backward) (fun _ => .ok (file true)) [] []
    "a".toList "S".toList fs₀ (file true) (cfg true) ["in".toList] (given₀ true) (· = ["raw".toList]) (looks true)
    (untouched₀ true) (room₀ true) (fs true) (cfg true) (fun p _ => rfl) (follows true true) 3600000000 PipelineDemo.period
    (within true) ⟨10, rfl⟩ (fun _ => .ok (file true)) [] [] "a".toList "T".toList (file true) (given true) (untouched true) rfl
    (room true) (fun h => by cases h) rfl rfl (by simp) (by decide) (by decide +kernel)
    (fun t ht => PipelineDemo.complete' t ht) (lat := [52, 51, 50, 49]) (lon := [4, 5, 6, 7]) rfl rfl
    (fun t ht ds h => PipelineDemo.fits (PipelineDemo.era5Axes t ht ds h))

open WorksDemo in
/-- C111_preprocess: the file of the day holds what was computed for 00:00 and 01:00 -/
example : ∃ f, HoldsDay .standard compute (inputDates 0 3600000000 3600000000) 0 f ∧
    fs false ["in".toList, "1970-01-01_fluxes_storages.nc".toList] = some (.file (shw f)) := by
  obtain ⟨f, h1, h2⟩ := C111_preprocess shw (fun r : TrackSettings ℝ => r.input_frequency)
    (fun c fs => prepEra5 demoArgsort PipelineDemo.lay (PipelineDemo.cfg .pressure_levels [850, 500]) (raw c fs)) (fun r => r.backward)
    (fun _ => .ok (file false)) [] [] _ "S".toList fs₀ (file false) (cfg false) ["in".toList] (given₀ false) rfl (· = ["raw".toList])
    (fun fs₁ fs₂ h => by simp only [looks false fs₁ fs₂ h]) (untouched₀ false) WorksDemo.forward.1 (by
      intro t ht
      have := PipelineDemo.dates t ht
      refine PipelineDemo.period.years t ?_ ?_ <;>
      · simp only [List.mem_cons, List.not_mem_nil, or_false] at this
        omega) 0 (by decide +kernel)
  exact ⟨f, h1, h2⟩

open WorksDemo in
/-- the files of the forward run: 00:20 and 00:40 -/
example : ∃ o, after (track false) (fs false) ["out".toList, "forwardtrack_1970-01-01T00-20.nc".toList] = some (.file (lib.showFwd o)) := by
  obtain ⟨inp, lat, lon, s', _, _, _, _, _, _, h⟩ := WorksDemo.forward.2.2
  obtain ⟨o, _, _, h⟩ := h 1 le_rfl (by decide +kernel) (.inl ⟨1, by decide +kernel⟩)
  exact ⟨o, h⟩

/-! ### Things that do stand in the way -/

namespace DiskDemo

theorem room : RoomForTracking ["work".toList] good cfg ["cases".toList] "a".toList "T".toList fs where
  wf := wellFormed
  folders := by
    intro p h text
    have h1 := folders_short h
    obtain ⟨q, h2, rest, h3⟩ := h
    unfold fs
    split
    · simp
    · split
      · next hc =>
        subst hc
        exact absurd ⟨q, h2, rest, h3⟩ cases_apart
      · split
        · next hc =>
          subst hc
          exfalso
          rcases h2 with ⟨name, h4, h5⟩ | ⟨name, h4, h5⟩
          · have h6 : some name = some ⟨true, ["work".toList, "pre".toList]⟩ := (Except.ok.inj h4).symm
            injection h6 with h6
            subst h6
            have h7 : ["work".toList, "f".toList] ++ rest = ["work".toList, "pre".toList] := by rw [h3, h5]; decide +kernel
            injection h7 with _ h7
            injection h7 with h7 _
            exact absurd h7 (by decide +kernel)
          · have h6 : name = ⟨false, ["data".toList, "out".toList]⟩ := (Except.ok.inj h4).symm
            subst h6
            have h7 : ["work".toList, "f".toList] ++ rest = ["work".toList, "data".toList, "out".toList] := by
              rw [h3, h5]; decide +kernel
            injection h7 with _ h7
            injection h7 with h7 _
            exact absurd h7 (by decide +kernel)
        · simp
  debug := by
    have : fs (out ++ ["debug".toList]) = none := by decide +kernel
    intro text
    show fs (out ++ ["debug".toList]) ≠ _
    rw [this]; simp
  files := by
    rintro p (h | h)
    · refine no_folder ?_
      cases h <;> exact ⟨_, by simp, rfl⟩
    · refine no_folder ?_
      cases h <;> exact ⟨_, by simp, rfl⟩
  apart := fun p h h' => by have h1 := folders_short h; have h2 := below_long h'; omega
  own := kept _

end DiskDemo

open DiskDemo in
/-- C112_tracking_ends: a run that raises an exception at its end -/
example : (command (fun _ => .ok good) ["work".toList] (["cases".toList] ++ ["a".toList ++ ".yaml".toList]) "T".toList
    (fun _ => false) (fun cfg => some cfg.output) (fun _ _ => ([.output 0 "o".toList], some .keyError)) fs).2 = .error .keyError := by
  refine ((C112_tracking_ends (fun _ => .ok good) ["work".toList] ["cases".toList] "a".toList "T".toList fs good cfg (fun _ => false)
    (fun _ _ => ([.output 0 "o".toList], some .keyError))
    ⟨⟨"x".toList, by decide +kernel, rfl⟩, loaded, by decide +kernel⟩ (fun _ => False) (fun _ _ _ => rfl) (fun _ h => h.elim) ?_ room).2
    .keyError).2 rfl
  intro x hx
  rcases List.mem_cons.1 hx with rfl | hx
  · trivial
  · cases hx

/-- why RoomForTracking is asked for: with the configuration file in the output folder, `track` fails -/
example : (command (fun _ => .ok DiskDemo.good) ["work".toList] (DiskDemo.out ++ ["a.yaml".toList]) "T".toList
    (fun _ => false) (fun cfg => some cfg.output) (fun _ _ => ([], none))
    (fun p => if p = [] ∨ p = ["work".toList] ∨ p = ["work".toList, "data".toList] ∨ p = DiskDemo.out then some .dir
      else if p = DiskDemo.out ++ ["a.yaml".toList] then some (.file "x".toList) else none)).2 =
    .error (.other "SameFileError") := by
  decide +kernel

end Wam
