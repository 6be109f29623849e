import Verif.Props.DiskMore

/-! # C106 on an example -/

set_option linter.unusedSectionVars false
set_option linter.unusedVariables false

namespace Wam
open Spec

namespace DiskDemo

/-- a configuration file in `/cases`, and the folder `/work` -/
def fs : FileSystem := fun p =>
  if p = [] ∨ p = ["cases".toList] ∨ p = ["work".toList] then some .dir
  else if p = ["cases".toList, "a.yaml".toList] then some (.file "x".toList)
  else if p = ["work".toList, "f".toList] then some (.file "y".toList)
  else none

/-- settings with given folders; the dates are the numbers given -/
def settings (pre : Option FileName) (out : FileName) (first last : ℤ) : FileSettings Unit :=
  { settings := { calendar := none
                  dates := fun
                    | .tracking_start_date => some (.date first)
                    | .tracking_end_date => some (.date last)
                    | .tagging_start_date => some (.date first)
                    | .tagging_end_date => some (.date last)
                    | .preprocess_start_date => some (.date first)
                    | .preprocess_end_date => some (.date last)
                  rest := .ok () }
    folders := { preprocessed := .ok pre, output := .ok out } }

/-- results in `data/out`, preprocessed data in `/work/pre` -/
def good : FileSettings Unit :=
  settings (some ⟨true, ["work".toList, "pre".toList]⟩) ⟨false, ["data".toList, "out".toList]⟩ 0 1

/-- writes a correction field and an output file -/
def tracking : Experiment Unit := fun _ _ =>
  ([.correction 0 "c".toList, .output 0 "o".toList], none)

/-- writes two times of one day -/
def preparing : Experiment Unit := fun _ _ => ([.day 0 "a".toList, .day 1 "b".toList], none)

/-- writes a figure, then fails -/
def drawing : Experiment Unit := fun _ _ => ([.figure "summary".toList "p".toList], some .valueError)

theorem wellFormed : WellFormed fs where
  root := rfl
  parent := by
    intro p c h
    unfold fs at h
    split at h
    · next hc =>
      rcases hc with hc | hc | hc
      · exact absurd hc (by simp)
      · have : p = [] := by
          have := congrArg List.length hc
          simp at this
          exact this
        subst this; rfl
      · have : p = [] := by
          have := congrArg List.length hc
          simp at this
          exact this
        subst this; rfl
    · split at h
      · next hc =>
        have : p = ["cases".toList] := by
          rw [show ["cases".toList, "a.yaml".toList] = ["cases".toList] ++ ["a.yaml".toList] from rfl] at hc
          exact (List.append_inj' hc rfl).1
        subst this; rfl
      · split at h
        · next hc =>
          have : p = ["work".toList] := by
            rw [show ["work".toList, "f".toList] = ["work".toList] ++ ["f".toList] from rfl] at hc
            exact (List.append_inj' hc rfl).1
          subst this; rfl
        · exact absurd rfl h

/-- where results go -/
abbrev out : FPath := ["work".toList, "data".toList, "out".toList]

/-- the `track` command -/
abbrev track : Act Unit :=
  command (fun _ => .ok good) ["work".toList] ["cases".toList, "a.yaml".toList] "T".toList (fun _ => false)
    (fun cfg => some cfg.output) tracking

/-- all the changes: three folders, then log, copy, `debug`, correction field, output -/
theorem track_changes : track fs =
    ([(["work".toList, "pre".toList], .dir), (["work".toList, "data".toList], .dir), (out, .dir),
      (out ++ ["wam2layers_T.log".toList], .file []), (out ++ ["wam2layers_T.log".toList], .file []),
      (out ++ ["a.yaml".toList], .file []), (out ++ ["a.yaml".toList], .file "x".toList),
      (out ++ ["debug".toList], .dir),
      (out ++ ["debug".toList, "stability_correction_19700101-000000.nc".toList], .file []),
      (out ++ ["debug".toList, "stability_correction_19700101-000000.nc".toList], .file "c".toList),
      (out ++ ["forwardtrack_1970-01-01T00-00.nc".toList], .file []),
      (out ++ ["forwardtrack_1970-01-01T00-00.nc".toList], .file "o".toList)], .ok ()) := by
  decide +kernel

end DiskDemo

open DiskDemo

/-- C106_track, C106_input_untouched, C106_other_files_kept, C106_configuration_kept: a crash after ten changes -/
example : ∃ fs', Moment track fs fs' ∧ fs' ≠ fs ∧
    ChangedOnly
      (fun p => ConfigFolder ["work".toList] good.folders p ∨ p = out ++ ["debug".toList])
      (fun p => Record out "T".toList "a.yaml".toList p ∨ TrackFile .standard out p) fs fs' ∧
    fs' ["work".toList, "f".toList] = fs ["work".toList, "f".toList] ∧
    fs' (out ++ ["a.yaml".toList]) = some (.file "x".toList) := by
  refine ⟨applyChanges fs ((track fs).1.take 10), ⟨10, rfl⟩, ?_, ?_, ?_, ?_⟩
  · intro h
    have := congrFun h out
    rw [track_changes] at this
    exact absurd this (by decide +kernel)
  · exact C106_track (fun _ => .ok good) ["work".toList] ["cases".toList] "a.yaml".toList fs _
      "x".toList "T".toList good .standard ⟨false, ["data".toList, "out".toList]⟩ (fun _ => false)
      tracking (by decide +kernel) rfl (by decide +kernel) rfl (by decide +kernel)
      (by
        intro cfg fs x hx
        rcases List.mem_cons.1 hx with rfl | hx
        · trivial
        · rcases List.mem_cons.1 hx with rfl | hx
          · trivial
          · cases hx) ⟨10, rfl⟩
  · exact C106_input_untouched (fun _ => .ok good) ["work".toList] ["cases".toList] "a.yaml".toList fs _
      "x".toList "T".toList good .standard ⟨false, ["data".toList, "out".toList]⟩ (fun _ => false)
      tracking (by decide +kernel) rfl (by decide +kernel) rfl (by decide +kernel)
      (by
        intro cfg fs x hx
        rcases List.mem_cons.1 hx with rfl | hx
        · trivial
        · rcases List.mem_cons.1 hx with rfl | hx
          · trivial
          · cases hx) ⟨10, rfl⟩ _ (by decide +kernel)
      (by
        rintro ⟨rest, _, h⟩
        have := congrArg (fun l => l.take 2) h
        rw [show resolve ["work".toList] ⟨false, ["data".toList, "out".toList]⟩ = out from rfl] at this
        exact absurd this (by
          show ¬ [ "work".toList, "f".toList] = ["work".toList, "data".toList]
          decide +kernel))
  · rw [track_changes]; decide +kernel

/-- C106_preprocess: the second time of the day is written -/
example : ∃ fs', Moment (command (fun _ => .ok good) ["work".toList] ["cases".toList, "a.yaml".toList]
      "T".toList (fun _ => false) (fun cfg => cfg.preprocessed) preparing) fs fs' ∧
    fs' ["work".toList, "pre".toList, "1970-01-01_fluxes_storages.nc".toList] =
      some (.file "b".toList) ∧
    ChangedOnly (ConfigFolder ["work".toList] good.folders)
      (fun p => Record ["work".toList, "pre".toList] "T".toList "a.yaml".toList p ∨
        DayFile .standard ["work".toList, "pre".toList] p) fs fs' := by
  refine ⟨_, ⟨100, rfl⟩, by decide +kernel, ?_⟩
  exact C106_preprocess (fun _ => .ok good) ["work".toList] ["cases".toList] "a.yaml".toList fs _
      "x".toList "T".toList good .standard ⟨true, ["work".toList, "pre".toList]⟩ (fun _ => false)
      preparing (by decide +kernel) rfl (by decide +kernel) rfl (by decide +kernel)
      (by
        intro cfg fs x hx
        rcases List.mem_cons.1 hx with rfl | hx
        · trivial
        · rcases List.mem_cons.1 hx with rfl | hx
          · trivial
          · cases hx) ⟨100, rfl⟩

/-- C106_visualize: the figure is there although the command failed -/
example : ∃ fs', Moment (command (fun _ => .ok good) ["work".toList] ["cases".toList, "a.yaml".toList]
      "T".toList (fun _ => false) (fun cfg => some cfg.output) drawing) fs fs' ∧
    fs' (out ++ ["figures".toList, "summary.png".toList]) = some (.file "p".toList) ∧
    ChangedOnly
      (fun p => ConfigFolder ["work".toList] good.folders p ∨ p = out ++ ["figures".toList])
      (fun p => Record out "T".toList "a.yaml".toList p ∨ FigureFile out p) fs fs' := by
  refine ⟨_, ⟨100, rfl⟩, by decide +kernel, ?_⟩
  exact C106_visualize (fun _ => .ok good) ["work".toList] ["cases".toList] "a.yaml".toList fs _
      "x".toList "T".toList good ⟨false, ["data".toList, "out".toList]⟩ (fun _ => false)
      drawing (by decide +kernel) rfl rfl (by decide +kernel)
      (by
        intro cfg fs x hx
        rcases List.mem_cons.1 hx with rfl | hx
        · trivial
        · cases hx) ⟨100, rfl⟩

/-- C106_unreadable: there is no such file -/
example : ∀ text s, fs ["nowhere".toList] = some (.file text) →
    (fun _ : List Char => Except.ok (ε := Err) good) text ≠ .ok s := by
  intro text s h
  exact absurd h (by rw [show fs ["nowhere".toList] = none by decide +kernel]; simp)

/-- C106_loading, C106_loading_again: the first reading makes three folders -/
example : ∃ chs cfg, fromYaml (fun _ => .ok good) ["work".toList] ["cases".toList, "a.yaml".toList] fs =
    (chs, .ok cfg) ∧ chs.length = 3 := by
  refine ⟨_, ⟨⟨_, _, _⟩, _, _⟩, rfl, rfl⟩

/-- C106_rejected_makes_folders: end before start -/
example : ∃ d, convertDates (settings none ⟨false, ["data".toList, "out".toList]⟩ 1 0).settings = .ok d ∧
    (∀ cfg, makeConfig (settings none ⟨false, ["data".toList, "out".toList]⟩ 1 0).settings ≠ .ok cfg) ∧
    ∀ p, OnTheWayTo out p → ∀ x, fs p ≠ some (.file x) := by
  refine ⟨_, rfl, ?_, ?_⟩
  · intro cfg h
    exact absurd (show makeConfig (settings none ⟨false, ["data".toList, "out".toList]⟩ 1 0).settings =
      .error .valueError from rfl) (by rw [h]; simp)
  · rintro p ⟨rest, h⟩ x hx
    unfold fs at hx
    split at hx
    · cases hx
    · split at hx
      · next hc =>
        subst hc
        have := congrArg (fun l => l.take 1) h
        exact absurd this (by
          show ¬ ["cases".toList] = ["work".toList]
          decide +kernel)
      · split at hx
        · next hc =>
          subst hc
          have := congrArg (fun l => l.take 2) h
          exact absurd this (by
            show ¬ ["work".toList, "f".toList] = ["work".toList, "data".toList]
            decide +kernel)
        · cases hx

/-- C106_tilde: home directory `/cases`, output in `~/out` -/
example : applyChanges fs
      (loadSettings ["work".toList] (settings none ⟨false, ["~".toList, "out".toList]⟩ 0 1) fs).1
      ["work".toList, "~".toList, "out".toList] = some .dir ∧
    applyChanges fs
      (loadSettings ["work".toList] (settings none ⟨false, ["~".toList, "out".toList]⟩ 0 1) fs).1
      ["cases".toList, "out".toList] = none := by
  refine C106_tilde ["work".toList] ["cases".toList] fs
    (settings none ⟨false, ["~".toList, "out".toList]⟩ 0 1) ["out".toList] (by decide) wellFormed _ rfl rfl rfl
    ?_ (by decide +kernel) ?_
  · rintro p ⟨rest, h⟩ x hx
    unfold fs at hx
    split at hx
    · cases hx
    · split at hx
      · next hc =>
        subst hc
        have := congrArg (fun l => l.take 1) h
        exact absurd this (by
          show ¬ ["cases".toList] = ["work".toList]
          decide +kernel)
      · split at hx
        · next hc =>
          subst hc
          have := congrArg (fun l => l.take 2) h
          exact absurd this (by
            show ¬ ["work".toList, "f".toList] = ["work".toList, "~".toList]
            decide +kernel)
        · cases hx
  · rintro ⟨rest, h⟩
    have := congrArg (fun l => l.take 1) h
    exact absurd this (by
      show ¬ ["cases".toList] = ["work".toList]
      decide +kernel)

/-- C106_file_as_folder: the output folder is the file `/work/f` -/
example : ∃ cfg, fromYaml (fun _ => .ok (settings none ⟨false, ["f".toList]⟩ 0 1)) ["work".toList]
      ["cases".toList, "a.yaml".toList] fs = ([], .ok cfg) ∧ fs cfg.output = some (.file "y".toList) := by
  refine ⟨⟨⟨_, _, _⟩, _, _⟩, rfl, ?_⟩
  show fs ["work".toList, "f".toList] = _
  decide +kernel

/-- C106_all_written: the command ends without an exception -/
example : ∃ chs u, track fs = (chs, .ok u) ∧ (tracking ⟨⟨[], fun _ => 0, ()⟩, none, []⟩ fs).1.length = 2 :=
  ⟨_, _, track_changes, rfl⟩

end Wam
