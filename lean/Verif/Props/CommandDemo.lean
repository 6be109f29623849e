import Verif.Props.Command
import Verif.Props.DiskDemo
import Verif.Props.DomainDemo

/-! # C108 and C109 on examples -/

set_option linter.unusedSectionVars false
set_option linter.unusedVariables false

namespace Wam
open Spec

/-! ### Any experiment -/

namespace DiskDemo

theorem folders_short {p : FPath} (h : ConfigFolder ["work".toList] good.folders p) : p.length ≤ 3 := by
  obtain ⟨q, h1, rest, h2⟩ := h
  have h3 := congrArg List.length h2
  rw [List.length_append] at h3
  rcases h1 with ⟨name, h4, h5⟩ | ⟨name, h4, h5⟩
  · have h6 : some name = some ⟨true, ["work".toList, "pre".toList]⟩ := (Except.ok.inj h4).symm
    injection h6 with h6
    subst h6
    rw [h5] at h3
    have : (resolve ["work".toList] ⟨true, ["work".toList, "pre".toList]⟩).length = 2 := by decide +kernel
    omega
  · have h6 : name = ⟨false, ["data".toList, "out".toList]⟩ := (Except.ok.inj h4).symm
    subst h6
    rw [h5] at h3
    have : (resolve ["work".toList] ⟨false, ["data".toList, "out".toList]⟩).length = 3 := by decide +kernel
    omega

theorem below_long {p : FPath} (h : Below out p) : 4 ≤ p.length := by
  obtain ⟨rest, h1, rfl⟩ := h
  rw [List.length_append]
  have : 0 < rest.length := List.length_pos_of_ne_nil h1
  show 4 ≤ 3 + rest.length
  omega

/-- the configuration -/
def cfg : Loaded Unit :=
  { config := { dates := fun
                  | .tracking_start_date => 0
                  | .tracking_end_date => 1
                  | .tagging_start_date => 0
                  | .tagging_end_date => 1
                  | .preprocess_start_date => 0
                  | .preprocess_end_date => 1
                calendar := "standard".toList
                rest := () }
    preprocessed := some ["work".toList, "pre".toList]
    output := out }

theorem loaded : LoadedFrom ["work".toList] good cfg := by
  refine ⟨?_, ⟨_, rfl, ?_⟩, ⟨_, rfl, ?_⟩⟩
  · rfl
  · decide +kernel
  · decide +kernel

theorem no_folder {p : FPath} (h : Below out p) : fs p ≠ some .dir := by
  have h1 := below_long h
  unfold fs
  rw [if_neg ?_]
  · split
    · simp
    · split <;> simp
  · rintro (rfl | rfl | rfl) <;> simp at h1

theorem kept (st : List Char) : ¬ Below out ["cases".toList, st] := fun h => by
  have := below_long h
  simp at this

theorem cases_apart {st : List Char} : ¬ ConfigFolder ["work".toList] good.folders ["cases".toList, st] := by
  have key : ∀ q rest : FPath, ["cases".toList, st] ++ rest = "work".toList :: q → False := by
    intro q rest h
    injection h with h1 _
    exact absurd h1 (by decide +kernel)
  rintro ⟨q, h1, rest, h2⟩
  rcases h1 with ⟨name, h4, h5⟩ | ⟨name, h4, h5⟩
  · have h6 : some name = some ⟨true, ["work".toList, "pre".toList]⟩ := (Except.ok.inj h4).symm
    injection h6 with h6
    subst h6
    exact key ["pre".toList] rest (by rw [h2, h5]; decide +kernel)
  · have h6 : name = ⟨false, ["data".toList, "out".toList]⟩ := (Except.ok.inj h4).symm
    subst h6
    exact key ["data".toList, "out".toList] rest (by rw [h2, h5]; decide +kernel)

/-- the state after a crash: the output file has just been opened -/
def crashed : FileSystem := applyChanges fs ((track fs).1.take 11)

/-- a second attempt, killed after its first five changes -/
def crashedAgain : FileSystem :=
  applyChanges crashed ((command (fun _ => .ok good) ["work".toList] ["cases".toList, "a.yaml".toList] "T2".toList
    (fun _ => false) (fun cfg => some cfg.output) tracking crashed).1.take 3)

end DiskDemo

open DiskDemo in
/-- C108_track_again: an attempt is killed when it has opened its output file, a second one earlier; the third one
ends normally and the output file is complete. -/
example :
    crashed (out ++ ["forwardtrack_1970-01-01T00-00.nc".toList]) = some (.file []) ∧
    crashedAgain (out ++ ["a.yaml".toList]) = some (.file []) ∧
    (command (fun _ => .ok good) ["work".toList] ["cases".toList, "a.yaml".toList] "T3".toList
      (fun _ => false) (fun cfg => some cfg.output) tracking crashedAgain).2 = .ok () ∧
    after (command (fun _ => .ok good) ["work".toList] ["cases".toList, "a.yaml".toList] "T3".toList
      (fun _ => false) (fun cfg => some cfg.output) tracking) crashedAgain
        (out ++ ["forwardtrack_1970-01-01T00-00.nc".toList]) = some (.file "o".toList) := by
  have h := C108_track_again (fun _ => .ok good) ["work".toList] ["cases".toList] "a".toList fs crashedAgain
    "x".toList "T".toList "T3".toList good cfg (fun _ => false) tracking (fun _ => False) wellFormed
    (by decide +kernel) rfl loaded
    (by
      intro x hx
      rcases List.mem_cons.1 hx with rfl | hx
      · trivial
      · rcases List.mem_cons.1 hx with rfl | hx
        · trivial
        · cases hx)
    (fun _ _ _ => rfl)
    (by
      rintro p (h | rfl)
      · exact h.elim
      · exact ⟨kept _, cases_apart⟩)
    (fun p h h' => by have h1 := folders_short h; have h2 := below_long h'; omega)
    (by
      rintro p (⟨st, rfl⟩ | rfl | h)
      · exact no_folder ⟨_, by simp, rfl⟩
      · exact no_folder ⟨_, by simp, rfl⟩
      · refine no_folder ?_
        cases h <;> exact ⟨_, by simp, rfl⟩)
    (congrArg Prod.snd track_changes)
    (.next "T2".toList (.next "T".toList (.start fs) ⟨11, rfl⟩) ⟨3, rfl⟩)
  refine ⟨?_, ?_, h.1, ?_⟩
  · unfold crashed; rw [track_changes]; decide +kernel
  · unfold crashedAgain crashed; rw [track_changes]; decide +kernel
  · refine (h.2 _ ?_).trans ?_
    · rintro ⟨st, h⟩
      have h1 := List.append_cancel_left h
      injection h1 with h1
      have h2 : some 'f' = some 'w' := congrArg List.head? h1
      exact absurd h2 (by decide +kernel)
    · show applyChanges fs (track fs).1 _ = _
      rw [track_changes]; decide +kernel

namespace DiskDemo

theorem below_pre {p : FPath} (h : Below ["work".toList, "pre".toList] p) :
    ∃ a r, p = "work".toList :: "pre".toList :: a :: r := by
  obtain ⟨rest, h1, rfl⟩ := h
  rcases rest with _ | ⟨a, r⟩
  · exact absurd rfl h1
  · exact ⟨a, r, rfl⟩

theorem pre_apart {p : FPath} (h : ConfigFolder ["work".toList] good.folders p) :
    ¬ Below ["work".toList, "pre".toList] p := by
  intro hb
  obtain ⟨a, r, rfl⟩ := below_pre hb
  obtain ⟨q, h1, rest, h2⟩ := h
  rcases h1 with ⟨name, h4, h5⟩ | ⟨name, h4, h5⟩
  · have h6 : some name = some ⟨true, ["work".toList, "pre".toList]⟩ := (Except.ok.inj h4).symm
    injection h6 with h6
    subst h6
    rw [h5, show resolve ["work".toList] ⟨true, ["work".toList, "pre".toList]⟩ =
      ["work".toList, "pre".toList] from by decide +kernel] at h2
    have := congrArg List.length h2
    simp at this
  · have h6 : name = ⟨false, ["data".toList, "out".toList]⟩ := (Except.ok.inj h4).symm
    subst h6
    rw [h5, show resolve ["work".toList] ⟨false, ["data".toList, "out".toList]⟩ =
      ["work".toList, "data".toList, "out".toList] from by decide +kernel] at h2
    injection h2 with _ h2
    injection h2 with h2 _
    exact absurd h2 (by decide +kernel)

theorem no_folder_pre {p : FPath} (h : Below ["work".toList, "pre".toList] p) : fs p ≠ some .dir := by
  obtain ⟨a, r, rfl⟩ := below_pre h
  unfold fs
  rw [if_neg ?_]
  · split
    · simp
    · split <;> simp
  · rintro (h | h | h)
    · cases h
    · have := congrArg List.length h; simp at this
    · have := congrArg List.length h; simp at this

/-- the `preprocess` command -/
abbrev prep (stamp : List Char) : Act Unit :=
  command (fun _ => .ok good) ["work".toList] ["cases".toList, "a.yaml".toList] stamp (fun _ => false)
    (fun cfg => cfg.preprocessed) preparing

/-- only the first of the two times has been written -/
def halfDay : FileSystem := applyChanges fs ((prep "T".toList fs).1.take 9)

end DiskDemo

open DiskDemo in
/-- C108_preprocess_again: killed when a day was half done -/
example :
    halfDay ["work".toList, "pre".toList, "1970-01-01_fluxes_storages.nc".toList] = some (.file "a".toList) ∧
    (prep "T2".toList halfDay).2 = .ok () ∧
    after (prep "T2".toList) halfDay ["work".toList, "pre".toList, "1970-01-01_fluxes_storages.nc".toList] =
      some (.file "b".toList) := by
  have h := C108_preprocess_again (fun _ => .ok good) ["work".toList] ["cases".toList] "a".toList fs halfDay
    "x".toList "T".toList "T2".toList good cfg ["work".toList, "pre".toList] (fun _ => false) preparing
    (fun _ => False) wellFormed (by decide +kernel) rfl loaded rfl
    (by
      intro x hx
      rcases List.mem_cons.1 hx with rfl | hx
      · trivial
      · rcases List.mem_cons.1 hx with rfl | hx
        · trivial
        · cases hx)
    (fun _ _ _ => rfl)
    (by
      rintro p (h | rfl)
      · exact h.elim
      · refine ⟨fun h => ?_, cases_apart⟩
        obtain ⟨a, r, h⟩ := below_pre h
        have := congrArg List.length h; simp at this)
    (fun p h => pre_apart h)
    (by
      rintro p (⟨st, rfl⟩ | rfl | h)
      · exact no_folder_pre ⟨_, by simp, rfl⟩
      · exact no_folder_pre ⟨_, by simp, rfl⟩
      · refine no_folder_pre ?_
        cases h <;> exact ⟨_, by simp, rfl⟩)
    (show (prep "T".toList fs).2 = .ok () by decide +kernel)
    (.next "T".toList (.start fs) ⟨9, rfl⟩)
  refine ⟨?_, h.1, ?_⟩
  · decide +kernel
  · refine (h.2 _ ?_).trans ?_
    · rintro ⟨st, h⟩
      injection h with _ h1
      injection h1 with _ h1
      injection h1 with h1
      have h2 : some '1' = some 'w' := congrArg List.head? h1
      exact absurd h2 (by decide +kernel)
    · show applyChanges fs (prep "T".toList fs).1 _ = _
      decide +kernel

/-! ### Tracking -/

namespace TrackDemo
open DomainDemo

local instance : NpTrig ℚ := trig

/-- storages and water exchange as in the demonstration of C100, and water flowing north -/
def data : Dataset ℚ ℚ :=
  { DomainDemo.data with data := fun v i j => match v with
    | .fy_upper => 1
    | .fy_lower => 1
    | v => DomainDemo.value v i j }

/-- files with one letter that stands for the data; output tells whether there is water in the centre -/
def lib : Library 1 1 ℚ where
  readData text := if text = "d".toList then .ok ⟨.standard, [(0, data), (3600000000, data)]⟩ else .error .valueError
  remote _ := .error .fileNotFound
  readTag _ := .error .valueError
  first _ := none
  mask _ _ := .error .valueError
  showMask _ := []
  showCorrection _ := "c".toList
  showFwd o := if 0 < o.s_track_lower 1 1 then "wet".toList else "dry".toList
  readFwd _ := none
  showBwd o := if 0 < o.s_track_lower 1 1 then "wet".toList else "dry".toList
  readBwd _ := none

def fs : FileSystem := fun p =>
  if p = [] ∨ p = ["in".toList] then some .dir
  else if p = ["a.yaml".toList] then some (.file "x".toList)
  else if p = ["in".toList, "1970-01-01_fluxes_storages.nc".toList] then some (.file "d".toList)
  else none

def settings (backward : Bool) : TrackSettings ℚ :=
  { backward := backward, timestep := 3600, input_frequency := 3600000000, output_frequency := 3600000000, kvf := 3
    periodic_boundary := false, restart := false, tracking_domain := some DomainDemo.box
    tagging_region := .box ⟨5, 50, 5, 50⟩ }

def file (backward : Bool) : FileSettings (TrackSettings ℚ) :=
  { settings := { calendar := none
                  dates := fun
                    | .tracking_start_date => some (.date 0)
                    | .tracking_end_date => some (.date 3600000000)
                    | .tagging_start_date => some (.date 0)
                    | .tagging_end_date => some (.date 3600000000)
                    | .preprocess_start_date => some (.date 0)
                    | .preprocess_end_date => some (.date 3600000000)
                  rest := .ok (settings backward) }
    folders := { preprocessed := .ok (some ⟨true, ["in".toList]⟩), output := .ok ⟨true, ["out".toList]⟩ } }

def cfg (backward : Bool) : Loaded (TrackSettings ℚ) :=
  { config := { dates := fun
                  | .tracking_start_date => 0
                  | .tracking_end_date => 3600000000
                  | .tagging_start_date => 0
                  | .tagging_end_date => 3600000000
                  | .preprocess_start_date => 0
                  | .preprocess_end_date => 3600000000
                calendar := "standard".toList
                rest := settings backward }
    preprocessed := some ["in".toList]
    output := ["out".toList] }

theorem loaded (b : Bool) : LoadedFrom [] (file b) (cfg b) := ⟨rfl, ⟨_, rfl, rfl⟩, ⟨_, rfl, rfl⟩⟩

/-- the command -/
def track (b : Bool) (stamp : List Char) : Act Unit :=
  command (fun _ => .ok (file b)) [] ["a.yaml".toList] stamp (fun r => r.backward) (fun cfg => some cfg.output)
    (trackExperiment lib)

theorem track_ok : track false "T".toList fs =
    ([(["out".toList], .dir),
      (["out".toList, "wam2layers_T.log".toList], .file []), (["out".toList, "wam2layers_T.log".toList], .file []),
      (["out".toList, "a.yaml".toList], .file []), (["out".toList, "a.yaml".toList], .file "x".toList),
      (["out".toList, "forwardtrack_1970-01-01T01-00.nc".toList], .file []),
      (["out".toList, "forwardtrack_1970-01-01T01-00.nc".toList], .file "wet".toList)], .ok ()) := by
  decide +kernel

theorem track_back : track true "T".toList fs =
    ([(["out".toList], .dir),
      (["out".toList, "wam2layers_T.log".toList], .file []), (["out".toList, "wam2layers_T.log".toList], .file []),
      (["out".toList, "a.yaml".toList], .file []), (["out".toList, "a.yaml".toList], .file "x".toList),
      (["out".toList, "backtrack_1970-01-01T00-00.nc".toList], .file []),
      (["out".toList, "backtrack_1970-01-01T00-00.nc".toList], .file "wet".toList)], .ok ()) := by
  decide +kernel

theorem wellFormed : WellFormed fs where
  root := rfl
  parent := by
    intro p c h
    unfold fs at h
    split at h
    · next hc =>
      rcases hc with hc | hc
      · exact absurd hc (by simp)
      · have : p = [] := by
          have := congrArg List.length hc
          simp at this
          exact this
        subst this; rfl
    · split at h
      · next hc =>
        have : p = [] := by
          have := congrArg List.length hc
          simp at this
          exact this
        subst this; rfl
      · split at h
        · next hc =>
          have : p = ["in".toList] := by
            rw [show ["in".toList, "1970-01-01_fluxes_storages.nc".toList] = ["in".toList] ++
              ["1970-01-01_fluxes_storages.nc".toList] from rfl] at hc
            exact (List.append_inj' hc rfl).1
          subst this; rfl
        · exact absurd rfl h

theorem folders_short {b : Bool} {p : FPath} (h : ConfigFolder [] (file b).folders p) :
    p = [] ∨ p = ["in".toList] ∨ p = ["out".toList] := by
  obtain ⟨q, h1, rest, h2⟩ := h
  have key : ∀ x : List Char, q = [x] → p = [] ∨ p = [x] := by
    intro x hx
    rw [hx] at h2
    rcases p with _ | ⟨y, p⟩
    · exact .inl rfl
    · injection h2 with h3 h4
      have := (List.append_eq_nil_iff.1 h4).1
      exact .inr (by rw [h3, this])
  rcases h1 with ⟨name, h4, h5⟩ | ⟨name, h4, h5⟩
  · have h6 : some name = some ⟨true, ["in".toList]⟩ := (Except.ok.inj h4).symm
    injection h6 with h6
    subst h6
    rcases key _ h5 with h | h
    · exact .inl h
    · exact .inr (.inl h)
  · have h6 : name = ⟨true, ["out".toList]⟩ := (Except.ok.inj h4).symm
    subst h6
    rcases key _ h5 with h | h
    · exact .inl h
    · exact .inr (.inr h)

theorem below_out {p : FPath} (h : Below ["out".toList] p) : ∃ a r, p = "out".toList :: a :: r := by
  obtain ⟨rest, h1, rfl⟩ := h
  rcases rest with _ | ⟨a, r⟩
  · exact absurd rfl h1
  · exact ⟨a, r, rfl⟩

theorem input {b : Bool} {p : FPath} (h : TrackInput (cfg b) p) : ∃ name, p = ["in".toList, name] := by
  cases h with
  | data pre t h =>
    injection h with h
    subst h
    exact ⟨_, rfl⟩
  | tag _ h => cases h
  | shape _ h => cases h
  | axes _ _ _ _ h => cases h
  | forward h => cases h
  | backward h => cases h

theorem first_ok : ∀ q name, lib.first q = some name → q name = true := fun _ _ h => by cases h

theorem input_apart {b : Bool} {p : FPath} (h : TrackInput (cfg b) p) :
    ¬ Below ["out".toList] p ∧ ¬ ConfigFolder [] (file b).folders p := by
  obtain ⟨name, rfl⟩ := input h
  constructor
  · intro h
    obtain ⟨a, r, h⟩ := below_out h
    injection h with h _
    exact absurd h (by decide +kernel)
  · intro h
    rcases folders_short h with h | h | h
    · cases h
    · have := congrArg List.length h; simp at this
    · have := congrArg List.length h; simp at this

theorem no_record {b : Bool} {p : FPath} (h : TrackInput (cfg b) p) :
    ¬ Record ["out".toList] "T".toList "a.yaml".toList p := by
  intro hr
  refine (input_apart h).1 ?_
  cases hr <;> exact ⟨_, by simp, rfl⟩

theorem yaml_apart {b : Bool} : ¬ Below ["out".toList] ["a.yaml".toList] ∧
    ¬ ConfigFolder [] (file b).folders ["a.yaml".toList] := by
  constructor
  · intro h
    obtain ⟨a, r, h⟩ := below_out h
    have := congrArg List.length h; simp at this
  · intro h
    rcases folders_short h with h | h | h
    · cases h
    · exact absurd h (by decide +kernel)
    · exact absurd h (by decide +kernel)

theorem no_folder {p : FPath} (h : Below ["out".toList] p) : fs p ≠ some .dir := by
  obtain ⟨a, r, rfl⟩ := below_out h
  unfold fs
  rw [if_neg ?_]
  · split
    · simp
    · split <;> simp
  · rintro (h | h)
    · cases h
    · have := congrArg List.length h; simp at this

/-- killed when the output file had been opened -/
def crashed : FileSystem := applyChanges fs ((track false "T".toList fs).1.take 6)

end TrackDemo

open TrackDemo

local instance : NpTrig ℚ := DomainDemo.trig

/-- C109_forward_files, with C109_forward: one time step from the file in `/in` to the file in `/out` -/
example : ∃ s', fwdRun (cfg false).runConfig (fwdSource lib (cfg false) fs)
      (fun t => ["out".toList] ++ [outputName .standard false t]) (restartFile lib.readFwd fs) 1 = .finished s' ∧
    ∀ t o, s'.files = [(t, o)] →
      some (Node.file (lib.showFwd o)) = applyChanges fs (track false "T".toList fs).1 ("out".toList ::
        ["forwardtrack_".toList ++ minuteString (dateTimeOf .standard t) ++ ".nc".toList]) := by
  obtain ⟨s', h1, -, h2⟩ := C109_forward_files lib first_ok (fun _ => .ok (file false)) [] [] "a.yaml".toList fs
    "x".toList "T".toList (file false) (cfg false) (by decide +kernel) rfl (loaded false) rfl (by decide +kernel)
    (fun p h => ⟨(input_apart h).2, no_record h⟩) _ () track_ok
  refine ⟨s', h1, ?_⟩
  intro t o h
  rw [track_ok]
  exact (h2 [] t o [] h (fun y hy => by cases hy)).symm

/-- C109_backward_files, with C109_backward -/
example : ∃ s', bwdRun (cfg true).runConfig (bwdSource lib (cfg true) fs)
      (fun t => ["out".toList] ++ [outputName .standard true t]) (restartFile lib.readBwd fs) 1 = .finished s' ∧
    ∀ t o, s'.files = [(t, o)] →
      some (Node.file (lib.showBwd o)) = applyChanges fs (track true "T".toList fs).1 ("out".toList ::
        ["backtrack_".toList ++ minuteString (dateTimeOf .standard t) ++ ".nc".toList]) := by
  obtain ⟨s', h1, -, h2⟩ := C109_backward_files lib first_ok (fun _ => .ok (file true)) [] [] "a.yaml".toList fs
    "x".toList "T".toList (file true) (cfg true) (by decide +kernel) rfl (loaded true) rfl (by decide +kernel)
    (fun p h => ⟨(input_apart h).2, no_record h⟩) _ () track_back
  refine ⟨s', h1, ?_⟩
  intro t o h
  rw [track_back]
  exact (h2 [] t o [] h (fun y hy => by cases hy)).symm

/-- C109_tagging: the only `.nc` file of `/in` gives the axes for the shapefile `/a.yaml` -/
example : ∃ first, taggingOf { lib with first := first }
    { cfg false with config := { (cfg false).config with rest := { settings false with tagging_region := .shape ["a.yaml".toList] } } } fs =
      .file (lib.mask "x".toList "d".toList) := by
  classical
  let first : (List Char → Bool) → Option (List Char) := fun q => if h : ∃ name, q name = true then some h.choose else none
  refine ⟨first, ?_⟩
  obtain ⟨name, data, h1, h2⟩ := C109_tagging { lib with first := first }
    (fun q name h => by
      show q name = true
      have h : (if h : ∃ name, q name = true then some h.choose else none) = some name := h
      split at h
      · next hq => injection h with h; rw [← h]; exact hq.choose_spec
      · cases h)
    (fun q name h => by
      show (if h : ∃ name, q name = true then some h.choose else none) ≠ none
      rw [dif_pos ⟨name, h⟩]
      exact Option.some_ne_none _)
    { cfg false with config := { (cfg false).config with rest := { settings false with tagging_region := .shape ["a.yaml".toList] } } } fs
    "x".toList ["in".toList] (by decide +kernel) rfl ⟨"1970-01-01_fluxes_storages".toList, by decide +kernel⟩
    (fun name h => by
      unfold fs at h
      split at h
      · next hc => rcases hc with hc | hc <;> exact absurd (congrArg List.length hc) (by simp)
      · split at h
        · cases h
        · split at h
          · cases h
          · cases h)
  rw [h2]
  unfold fs at h1
  split at h1
  · cases h1
  · split at h1
    · next hc => exact absurd (congrArg List.length hc) (by simp)
    · split at h1
      · injection h1 with h1; injection h1 with h1; rw [← h1]
      · cases h1

/-- C109_grid: the data can be read at both ends of the period, here -/
example : (∃ ds, (loadData (dataFiles lib (cfg false) fs) (cfg false).ioConfig 0 .states = .ok ds ∧
      (fwdSource lib (cfg false) fs).grid = getGridInfo (fun i => ds.latitude.getD i (NpOps.ofRat 0))
        (fun j : Fin (0 + 2 + 1) => ds.longitude.getD j (NpOps.ofRat 0)))) ∧
    ∃ ds, loadData (dataFiles lib (cfg true) fs) (cfg true).ioConfig 3600000000 .states = .ok ds ∧
      (bwdSource lib (cfg true) fs).grid = getGridInfo (fun i => ds.latitude.getD i (NpOps.ofRat 0))
        (fun j : Fin (0 + 2 + 1) => ds.longitude.getD j (NpOps.ofRat 0)) := by
  have key : ∀ b t, (loadData (dataFiles lib (cfg b) fs) (cfg b).ioConfig t .states).toOption.isSome = true →
      ∃ ds, loadData (dataFiles lib (cfg b) fs) (cfg b).ioConfig t .states = .ok ds := by
    intro b t h
    rcases e : loadData (dataFiles lib (cfg b) fs) (cfg b).ioConfig t .states with _ | ds
    · rw [e] at h; cases h
    · exact ⟨ds, rfl⟩
  obtain ⟨ds, h⟩ := key false 0 (by decide +kernel)
  obtain ⟨ds', h'⟩ := key true 3600000000 (by decide +kernel)
  exact ⟨⟨ds, h, (C109_grid lib (cfg false) fs ds).1 h⟩, ds', h', (C109_grid lib (cfg true) fs ds').2 h'⟩

/-- C109_whole_run_forward and C109_whole_run_backward: one step, or a hundred -/
example : EndsLike lib.showFwd (fwdRun (cfg false).runConfig (fwdSource lib (cfg false) fs)
      (fun t => ["out".toList] ++ [outputName .standard false t]) (restartFile lib.readFwd fs) 100) (trackExperiment lib (cfg false) fs) ∧
    EndsLike lib.showBwd (bwdRun (cfg true).runConfig (bwdSource lib (cfg true) fs)
      (fun t => ["out".toList] ++ [outputName .standard true t]) (restartFile lib.readBwd fs) 100) (trackExperiment lib (cfg true) fs) :=
  ⟨C109_whole_run_forward lib (cfg false) fs rfl (by decide) 100 (by decide),
    C109_whole_run_backward lib (cfg true) fs rfl (by decide) 100 (by decide)⟩

/-- C108_tracking_again: `track` after a crash; C109_reads: it does not look at what the crash has left -/
example : crashed ["out".toList, "forwardtrack_1970-01-01T01-00.nc".toList] = some (.file []) ∧
    trackExperiment lib (cfg false) crashed = trackExperiment lib (cfg false) fs ∧
    (track false "T2".toList crashed).2 = .ok () ∧
    after (track false "T2".toList) crashed ["out".toList, "forwardtrack_1970-01-01T01-00.nc".toList] =
      some (.file "wet".toList) := by
  have h := C108_tracking_again lib first_ok (fun _ => .ok (file false)) [] [] "a".toList fs crashed "x".toList
    "T".toList "T2".toList (file false) (cfg false) wellFormed (by decide +kernel) rfl (loaded false)
    (by
      rintro p (h | rfl)
      · exact input_apart h
      · exact yaml_apart)
    (by
      intro p h h'
      obtain ⟨a, r, rfl⟩ := below_out h'
      rcases folders_short h with h | h | h
      · cases h
      · have := congrArg List.length h; simp at this
      · have := congrArg List.length h; simp at this)
    (by
      rintro p (⟨st, rfl⟩ | rfl | h)
      · exact no_folder ⟨_, by simp, rfl⟩
      · exact no_folder ⟨_, by simp, rfl⟩
      · refine no_folder ?_
        cases h <;> exact ⟨_, by simp, rfl⟩)
    (congrArg Prod.snd track_ok)
    (.next "T".toList (.start fs) ⟨6, rfl⟩)
  refine ⟨?_, ?_, h.1, ?_⟩
  · unfold crashed; rw [track_ok]; decide +kernel
  · refine C109_reads lib first_ok (cfg false) _ _ ?_
    intro p hp
    obtain ⟨name, rfl⟩ := input hp
    unfold crashed
    rw [track_ok]
    have hne : ∀ (chs : List Change) (f : FileSystem), (∀ c ∈ chs, c.1.head? = some "out".toList) →
        applyChanges f chs ["in".toList, name] = f ["in".toList, name] := by
      intro chs
      induction chs with
      | nil => intro f _; rfl
      | cons c chs ih =>
        intro f h
        have h1 := ih (Function.update f c.1 (some c.2)) (fun c hc => h c (List.mem_cons_of_mem _ hc))
        refine h1.trans (Function.update_of_ne ?_ _ _)
        intro e
        have h2 := h c (List.mem_cons_self ..)
        rw [← e] at h2
        exact absurd h2 (by show ¬ some "in".toList = some "out".toList; decide +kernel)
    exact hne _ _ (by decide +kernel)
  · refine (h.2 _ ?_).trans ?_
    · rintro ⟨st, h⟩
      injection h with _ h1
      injection h1 with h1
      have h2 : some 'f' = some 'w' := congrArg List.head? h1
      exact absurd h2 (by decide +kernel)
    · show applyChanges fs (track false "T".toList fs).1 _ = _
      rw [track_ok]; decide +kernel

end Wam
