import Verif.Spec.Export
import Verif.Props.Split
import Verif.Props.Config

/-!
# C120: a run can be repeated from its exported configuration
-/

namespace Wam
open Spec

set_option linter.unusedSectionVars false
set_option linter.unusedVariables false

section
variable {ρ : Type}

private theorem foldl_plain (l acc : FPath) (h : "..".toList ∉ l) :
    l.foldl (fun p c => if c = "..".toList then p.dropLast else p ++ [c]) acc = acc ++ l := by
  induction l generalizing acc with
  | nil => simp
  | cons c l ih =>
    rw [List.mem_cons, not_or] at h
    rw [List.foldl_cons, if_neg (fun e => h.1 e.symm), ih _ h.2]
    simp

theorem resolve_absolute (cwd p : FPath) (h : "..".toList ∉ p) : resolve cwd ⟨true, p⟩ = p := by
  unfold resolve
  simp only [if_true]
  rw [foldl_plain _ _ h]
  rfl

theorem resolve_noDots (cwd : FPath) (name : FileName) (h : "..".toList ∉ cwd) : "..".toList ∉ resolve cwd name := by
  unfold resolve
  have : ∀ (l acc : FPath), "..".toList ∉ acc →
      "..".toList ∉ l.foldl (fun p c => if c = "..".toList then p.dropLast else p ++ [c]) acc := by
    intro l
    induction l with
    | nil => exact fun acc h => h
    | cons c l ih =>
      intro acc ha
      rw [List.foldl_cons]
      apply ih
      split
      · exact fun hh => ha (List.mem_of_mem_dropLast hh)
      · next hc =>
        rw [List.mem_append, List.mem_singleton]
        rintro (hh | hh)
        · exact ha hh
        · exact hc hh.symm
  apply this
  split
  · simp
  · exact h

private theorem calendar_some {cwd : FPath} {s : FileSettings ρ} {cfg : Loaded ρ} (h : LoadedFrom cwd s cfg) :
    calendarOfName cfg.config.calendar = some cfg.calendar := by
  obtain ⟨c, hc, -⟩ := (C45_accepted_is_ordered _ _ h.1).2
  unfold Loaded.calendar
  rw [hc]; rfl

/-- A configuration that was loaded, however, and is exported with `to_file` can be loaded again, from any working directory: it gives
the same configuration with its dates cut to the minute, so the very same configuration iff its dates are whole minutes.
Exporting changes nothing but that file. -/
theorem C120_loads_again (parse : List Char → Except Err (FileSettings ρ)) (dump : FileSettings ρ → List Char)
    (cwd : FPath) (s : FileSettings ρ) (cfg : Loaded ρ) (hcfg : LoadedFrom cwd s cfg) (hcwd : "..".toList ∉ cwd)
    (hy : FourDigitYears cfg) (hpd : parse (dump (exportSettings cfg)) = .ok (exportSettings cfg))
    (path : FPath) (fs : FileSystem) (hok : (toFile dump cfg path fs).2 = .ok ()) :
    (∃ text, after (toFile dump cfg path) fs path = some (.file text) ∧ parse text = .ok (exportSettings cfg)) ∧
      (∀ p, p ≠ path → after (toFile dump cfg path) fs p = fs p) ∧
      (∀ cwd', LoadedFrom cwd' (exportSettings cfg) (toTheMinute cfg)) ∧
      ((∀ cwd', LoadedFrom cwd' (exportSettings cfg) cfg) ↔ WholeMinutes cfg) := by
  have hsave : toFile dump cfg path fs =
      ([(path, .file []), (path, .file (dump (exportSettings cfg)))], .ok ()) := by
    rcases hq : toFile dump cfg path fs with ⟨chs, e | u⟩
    · rw [hq] at hok; cases hok
    · have := save_eq hq
      rw [this.1]
  have hafter : after (toFile dump cfg path) fs =
      Function.update fs path (some (.file (dump (exportSettings cfg)))) := by
    unfold after
    rw [hsave]
    exact save_apply _ _ _
  have hord := (C45_accepted_is_ordered _ _ hcfg.1).1
  have hround := C46_config_round_trip cfg.config cfg.calendar (calendar_some hcfg) hord hy
  have hout : "..".toList ∉ cfg.output := by
    obtain ⟨name, -, h⟩ := hcfg.2.1
    rw [h]; exact resolve_noDots _ _ hcwd
  have hpre : ∀ p, cfg.preprocessed = some p → "..".toList ∉ p := by
    obtain ⟨pre, -, h⟩ := hcfg.2.2
    intro p hp
    rw [h] at hp
    cases pre with
    | none => cases hp
    | some name =>
      simp only [Option.map_some, Option.some.injEq] at hp
      rw [← hp]; exact resolve_noDots _ _ hcwd
  have hfold : ∀ cwd', (∃ name, (exportSettings cfg).folders.output = .ok name ∧ cfg.output = resolve cwd' name) ∧
      (∃ pre, (exportSettings cfg).folders.preprocessed = .ok pre ∧ cfg.preprocessed = pre.map (resolve cwd')) := by
    intro cwd'
    refine ⟨⟨⟨true, cfg.output⟩, rfl, (resolve_absolute _ _ hout).symm⟩, _, rfl, ?_⟩
    rcases hp : cfg.preprocessed with _ | p
    · rfl
    · simp only [Option.map_some, Option.some.injEq]
      exact (resolve_absolute _ _ (hpre p hp)).symm
  have hmin : ∀ t : ℤ, floorTime t 60000000 = t / 60000000 * 60000000 := by
    intro t; unfold floorTime; omega
  have hmake : makeConfig (exportSettings cfg).settings = .ok (toTheMinute cfg).config := by
    have := hround.1
    simp only [hmin] at this
    exact this
  refine ⟨⟨_, by rw [hafter, Function.update_self], hpd⟩, ?_, fun cwd' => ⟨hmake, hfold cwd'⟩, ?_⟩
  · intro p hp
    rw [hafter, Function.update_of_ne hp]
  · constructor
    · intro h
      exact hround.2.1 (h []).1
    · intro h cwd'
      exact ⟨hround.2.2 h, hfold cwd'⟩

end

section
variable {ρ : Type}

/-- An output file is enough to know the configuration of its run: its attribute `WAM2Layers_config` is the text that `to_file` writes, and so
it loads, from any working directory, as the configuration of the run with its dates cut to the minute.  The history of the file is one
entry, and its source is unknown, whatever the input files say, and also after a restart. -/
theorem C120_attributes (parse : List Char → Except Err (FileSettings ρ)) (dump : FileSettings ρ → List Char)
    (cwd : FPath) (s : FileSettings ρ) (cfg : Loaded ρ) (hcfg : LoadedFrom cwd s cfg) (hcwd : "..".toList ∉ cwd)
    (hy : FourDigitYears cfg) (hpd : parse (dump (exportSettings cfg)) = .ok (exportSettings cfg))
    (backward : Bool) (now version : List Char) :
    (∃ text, (outputAttrs dump cfg backward now version).get? "WAM2Layers_config" = some text ∧
      (∀ path fs, (toFile dump cfg path fs).2 = .ok () → after (toFile dump cfg path) fs path = some (.file text)) ∧
      ∃ s', parse text = .ok s' ∧ ∀ cwd', LoadedFrom cwd' s' (toTheMinute cfg)) ∧
    (outputAttrs dump cfg backward now version).get? "history" =
      some ("created on ".toList ++ now ++ " using wam2layers version ".toList ++ version ++ "; ".toList) ∧
    (outputAttrs dump cfg backward now version).get? "source" =
      some "Moisture tracking applied to original data; UNKNOWN".toList := by
  have hsaved : ∀ path fs, (toFile dump cfg path fs).2 = .ok () →
      after (toFile dump cfg path) fs path = some (.file (dump (exportSettings cfg))) := by
    intro path fs hok
    rcases hq : toFile dump cfg path fs with ⟨chs, e | u⟩
    · rw [hq] at hok; cases hok
    · have := save_content hq
      unfold after
      rw [hq]
      exact this
  have hroot : (toFile dump cfg ["x".toList] (fun p => if p = [] then some .dir else none)).2 = .ok () := by
    unfold toFile
    rw [save_of (by rfl) (by decide +kernel)]
  have := C120_loads_again parse dump cwd s cfg hcfg hcwd hy hpd _ _ hroot
  exact ⟨⟨dump (exportSettings cfg), rfl, hsaved, _, hpd, this.2.2.1⟩, rfl, rfl⟩

/-- attributes that are there are kept: the history is extended at its beginning -/
theorem C120_history (attrs : Attrs) (backward : Bool) (now version text h src : List Char)
    (hh : attrs.get? "history" = some h) (hs : attrs.get? "source" = some src) :
    (getMainAttrs attrs backward now version text).get? "history" =
      some ("created on ".toList ++ now ++ " using wam2layers version ".toList ++ version ++ "; ".toList ++ h) ∧
    (getMainAttrs attrs backward now version text).get? "source" =
      some ("Moisture tracking applied to original data; ".toList ++ src) := by
  unfold getMainAttrs
  rw [hh, hs]
  exact ⟨rfl, rfl⟩

end

section
variable {m n : ℕ} {α : Type} [Add α] [Sub α] [Mul α] [Div α] [Neg α] [NpOps α] [LinearOrder α] [NpTrig α]

/-- Two `track` commands with the same configuration, which may be in different files, given in different directories and at different
times, leave the same output files (the same data; the global attributes tell when and with which configuration a file was made, see
`C120_attributes`), if the input files are the same. -/
theorem C120_same_output (lib : Library m n α) (hfirst : ∀ q name, lib.first q = some name → q name = true)
    (parse : List Char → Except Err (FileSettings (TrackSettings α))) (c d : TrackCall α) (fs gs : FileSystem)
    (cfg : Loaded (TrackSettings α)) (hc : c.Works lib parse fs cfg) (hd : d.Works lib parse gs cfg)
    (hsame : ∀ p, TrackInput cfg p → gs p = fs p) (t : ℤ)
    (ht : ∃ x, (t, x) ∈ outputs (trackExperiment lib cfg fs).1) :
    ∃ text, after (c.act lib parse) fs (cfg.output ++ [outputName cfg.calendar cfg.config.rest.backward t]) =
        some (.file text) ∧
      after (d.act lib parse) gs (cfg.output ++ [outputName cfg.calendar cfg.config.rest.backward t]) =
        some (.file text) := by
  have hexp : trackExperiment lib cfg gs = trackExperiment lib cfg fs :=
    C109_reads lib hfirst cfg gs fs hsame
  have hT : ∀ fs, ∀ x ∈ (trackExperiment lib cfg fs).1, IsTracking x := fun fs => by
    rcases hb : cfg.config.rest.backward with _ | _
    · exact (C109_forward lib cfg fs hb).2.2
    · exact (C109_backward lib cfg fs hb).2.2
  have key : ∀ (e : TrackCall α) (f : FileSystem), e.Works lib parse f cfg →
      ∀ before t x aft, outputs (trackExperiment lib cfg f).1 = before ++ (t, x) :: aft →
      (∀ y ∈ aft, outputName cfg.calendar cfg.config.rest.backward y.1 ≠
        outputName cfg.calendar cfg.config.rest.backward t) →
      after (e.act lib parse) f (cfg.output ++ [outputName cfg.calendar cfg.config.rest.backward t]) =
        some (.file x) := by
    intro e f w
    obtain ⟨⟨text, hf, hp⟩, hcfg, hlog⟩ := w.given
    have hends := w.ends
    unfold TrackCall.act at hends
    rcases hcmd : command parse e.cwd (e.dir ++ [e.stem ++ ".yaml".toList]) e.stamp (fun r => r.backward)
      (fun cfg => some cfg.output) (trackExperiment lib) f with ⟨chs, r⟩
    rw [hcmd] at hends
    simp only at hends
    subst hends
    have := (track_written lib hfirst parse e.cwd e.dir _ f text e.stamp e.settings cfg hf hp hcfg hlog w.input hT
      chs () hcmd).2
    unfold after TrackCall.act
    rw [hcmd]
    exact this
  -- the last output with the name of that for `t`
  obtain ⟨x, hx⟩ := ht
  set name := outputName cfg.calendar cfg.config.rest.backward with hname
  have hlast : ∀ l : List (ℤ × List Char), (∃ y ∈ l, name y.1 = name t) →
      ∃ before u z aft, l = before ++ (u, z) :: aft ∧ name u = name t ∧ ∀ y ∈ aft, name y.1 ≠ name u := by
    intro l
    induction l with
    | nil => rintro ⟨y, hy, -⟩; cases hy
    | cons a l ih =>
      rintro ⟨y, hy, hyn⟩
      by_cases hl : ∃ y ∈ l, name y.1 = name t
      · obtain ⟨b, u, z, aft, h1, h2, h3⟩ := ih hl
        exact ⟨a :: b, u, z, aft, by rw [h1]; rfl, h2, h3⟩
      · rcases List.mem_cons.1 hy with rfl | hy
        · exact ⟨[], y.1, y.2, l, rfl, hyn, fun w hw hh => hl ⟨w, hw, by rw [hh, hyn]⟩⟩
        · exact absurd ⟨y, hy, hyn⟩ hl
  obtain ⟨before, u, z, aft, h1, h2, h3⟩ := hlast _ ⟨_, hx, rfl⟩
  refine ⟨z, ?_, ?_⟩
  · rw [← h2]; exact key c fs hc before u z aft h1 h3
  · rw [← h2]; exact key d gs hd before u z aft (by rw [hexp]; exact h1) h3

/-- A run can be repeated from its exported configuration.  `c` is a `track` command that has ended normally; its configuration, with
dates in whole minutes, is exported with `to_file` to a file `dir/stem.yaml`, in any file system `gs` with the same input files
(before or after the run, or on another computer) and with room for the files of the run; then `track` is called with that file, from
any working directory.  It ends normally, and all its output files hold the same data as those of the first run. -/
theorem C120_run_repeated (lib : Library m n α) (hfirst : ∀ q name, lib.first q = some name → q name = true)
    (parse : List Char → Except Err (FileSettings (TrackSettings α))) (dump : FileSettings (TrackSettings α) → List Char)
    (c : TrackCall α) (fs gs : FileSystem) (cfg : Loaded (TrackSettings α)) (hc : c.Works lib parse fs cfg)
    (hcwd : "..".toList ∉ c.cwd) (hy : FourDigitYears cfg) (hmin : WholeMinutes cfg)
    (hpd : parse (dump (exportSettings cfg)) = .ok (exportSettings cfg))
    (cwd dir : FPath) (stem stamp : List Char)
    (hok : (toFile dump cfg (dir ++ [stem ++ ".yaml".toList]) gs).2 = .ok ())
    (hfile : ¬ TrackInput cfg (dir ++ [stem ++ ".yaml".toList]) ∧
      ¬ ConfigFolder cwd (exportSettings cfg).folders (dir ++ [stem ++ ".yaml".toList]))
    (hsame : ∀ p, TrackInput cfg p → gs p = fs p)
    (hun : Untouched cwd (exportSettings cfg) cfg.output stamp (stem ++ ".yaml".toList) (TrackInput cfg))
    (hroom : RoomForTracking cwd (exportSettings cfg) cfg dir stem stamp gs) :
    let second := TrackCall.mk cwd dir stem stamp (exportSettings cfg)
    let gs' := after (toFile dump cfg (dir ++ [stem ++ ".yaml".toList])) gs
    (second.act lib parse gs').2 = .ok () ∧
    ∀ t, (∃ x, (t, x) ∈ outputs (trackExperiment lib cfg fs).1) →
      ∃ text, after (c.act lib parse) fs (cfg.output ++ [outputName cfg.calendar cfg.config.rest.backward t]) =
          some (.file text) ∧
        after (second.act lib parse) gs' (cfg.output ++ [outputName cfg.calendar cfg.config.rest.backward t]) =
          some (.file text) := by
  intro second gs'
  obtain ⟨h1, h2, -, h4⟩ := C120_loads_again parse dump c.cwd c.settings cfg hc.given.loaded hcwd hy hpd _ gs hok
  have hsame' : ∀ p, TrackInput cfg p → gs' p = fs p := by
    intro p hp
    show after (toFile dump cfg (dir ++ [stem ++ ".yaml".toList])) gs p = _
    rw [h2 p (fun e => hfile.1 (e ▸ hp)), hsame p hp]
  have hg : GivenWith parse cwd dir (stem ++ ".yaml".toList) stamp gs' (exportSettings cfg) cfg :=
    ⟨h1, h4.2 hmin cwd, yaml_ne_log _ _⟩
  have hroom' : RoomForTracking cwd (exportSettings cfg) cfg dir stem stamp gs' := by
    have hne : ∀ p, Below cfg.output p → p ≠ dir ++ [stem ++ ".yaml".toList] := fun p hp e => hroom.own (e ▸ hp)
    refine ⟨?_, ?_, ?_, ?_, hroom.apart, hroom.own⟩
    · have hsolid : Solid (toFile dump cfg (dir ++ [stem ++ ".yaml".toList])) := solid_save _ _
      exact solid_ok hsolid hroom.wf rfl
    · intro p hp text
      show after (toFile dump cfg (dir ++ [stem ++ ".yaml".toList])) gs p ≠ _
      rw [h2 p (fun e => hfile.2 (e ▸ hp))]
      exact hroom.folders p hp text
    · intro text
      show after (toFile dump cfg (dir ++ [stem ++ ".yaml".toList])) gs _ ≠ _
      rw [h2 _ (hne _ ⟨_, by simp, rfl⟩)]
      exact hroom.debug text
    · intro p hp
      have hb : Below cfg.output p := by
        rcases hp with h | h
        · cases h <;> exact ⟨_, by simp, rfl⟩
        · exact below_of_trackFile h
      show after (toFile dump cfg (dir ++ [stem ++ ".yaml".toList])) gs p ≠ _
      rw [h2 p (hne p hb)]
      exact hroom.files p hp
  have hnone : (trackExperiment lib cfg fs).2 = none := by
    obtain ⟨⟨text, hf, hp⟩, hcfg, hlog⟩ := hc.given
    have hends := hc.ends
    unfold TrackCall.act at hends
    rcases hcmd : command parse c.cwd (c.dir ++ [c.stem ++ ".yaml".toList]) c.stamp (fun r => r.backward)
      (fun cfg => some cfg.output) (trackExperiment lib) fs with ⟨chs, r⟩
    rw [hcmd] at hends
    simp only at hends
    subst hends
    exact (track_written lib hfirst parse c.cwd c.dir _ fs text c.stamp c.settings cfg hf hp hcfg hlog hc.input
      (track_is lib cfg) chs () hcmd).1
  have hexp : trackExperiment lib cfg gs' = trackExperiment lib cfg fs := C109_reads lib hfirst cfg gs' fs hsame'
  have hends : (second.act lib parse gs').2 = .ok () := by
    refine (C112_tracking_ends parse cwd dir stem stamp gs' (exportSettings cfg) cfg (fun r => r.backward)
      (trackExperiment lib) hg (TrackInput cfg) (C109_reads lib hfirst cfg) hun (track_is lib cfg gs') hroom').1.2 ?_
    rw [hexp]; exact hnone
  exact ⟨hends, fun t ht => C120_same_output lib hfirst parse c second fs gs' cfg hc ⟨hg, hun, hends⟩ hsame' t ht⟩

end

end Wam
