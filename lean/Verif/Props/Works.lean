import Verif.Lemmas.Works
import Verif.Spec.Works
import Verif.Props.PrepCommand

/-!
# C112: commands succeed
-/

set_option linter.unusedSectionVars false
set_option linter.unusedVariables false

namespace Wam
open Spec

/-- A command ends as its experiment does on the files there are when it is given: normally, or with the same
exception.  Nothing else can fail, if nothing stands in its way. -/
theorem C112_ends {ρ : Type} (parse : List Char → Except Err (FileSettings ρ)) (cwd dir : FPath) (name stamp : List Char)
    (fs : FileSystem) (s : FileSettings ρ) (cfg : Loaded ρ) (backward : ρ → Bool) (folder : Loaded ρ → Option FPath)
    (experiment : Experiment ρ) (F : FPath) (hg : GivenWith parse cwd dir name stamp fs s cfg) (hF : folder cfg = some F)
    (hN : Named cwd s.folders F) (reads : FPath → Prop) (hreads : ReadsOnly experiment cfg reads)
    (hin : Untouched cwd s F stamp name reads)
    (hfree : NothingInTheWay cwd s.folders dir name F stamp cfg.calendar (backward cfg.config.rest) (experiment cfg fs).1 fs) :
    ((command parse cwd (dir ++ [name]) stamp backward folder experiment fs).2 = .ok () ↔ (experiment cfg fs).2 = none) ∧
    ∀ e, (command parse cwd (dir ++ [name]) stamp backward folder experiment fs).2 = .error e ↔
      (experiment cfg fs).2 = some e := by
  obtain ⟨⟨text, hf, hp⟩, hcfg, hlog⟩ := hg
  have key := goes_command (D := MayMake cwd s.folders F cfg.calendar (backward cfg.config.rest) (experiment cfg fs).1)
    (W := fun p => Record F stamp name p ∨ ∃ x ∈ (experiment cfg fs).1, p = x.path cfg.calendar (backward cfg.config.rest) F)
    (file := dir ++ [name]) (text := text) (stamp := stamp) (backward := backward) (folder := folder) (experiment := experiment)
    (name := name) hfree.apart hfree.own hp hcfg (fun p h => .inl h) hF hN (.inl .log) (by simp) (.inl .config)
    ⟨hfree.wf, hfree.folders, hfree.files, hf⟩ (experiment cfg fs) (by
      intro fs1 h1
      refine hreads fs1 fs (fun p hp => ?_)
      obtain ⟨a, b⟩ := hin p hp
      rcases h1 p with h | ⟨h, _⟩ | ⟨h, _⟩
      · exact h
      · exact absurd h a
      · exfalso
        apply b
        rcases h with h | h
        · rw [h]; exact .log
        · have : (dir ++ [name]).getLast?.toList = [name] := by simp
          rw [this] at h
          rw [h]; exact .config)
    (fun x hx => .inr ⟨x, hx, rfl⟩) (fun x hx sub hs => .inr ⟨x, hx, sub, hs, rfl⟩)
  rw [key]
  rcases (experiment cfg fs).2 with _ | e
  · simp
  · simp

private theorem record_below {F : FPath} {stamp name : List Char} {p : FPath} (h : Record F stamp name p) : Below F p := by
  cases h <;> exact ⟨_, by simp, rfl⟩

private theorem output_named {ρ : Type} {cwd : FPath} {s : FileSettings ρ} {cfg : Loaded ρ} (h : LoadedFrom cwd s cfg) :
    Named cwd s.folders cfg.output := by
  obtain ⟨_, ⟨name, h1, h2⟩, _⟩ := h
  exact .inr ⟨name, h1, h2⟩

private theorem preprocessed_named {ρ : Type} {cwd : FPath} {s : FileSettings ρ} {cfg : Loaded ρ} (h : LoadedFrom cwd s cfg)
    {F : FPath} (hF : cfg.preprocessed = some F) : Named cwd s.folders F := by
  obtain ⟨_, _, pre, h1, h2⟩ := h
  rcases pre with _ | name
  · rw [hF] at h2; cases h2
  · rw [hF] at h2
    injection h2 with h2
    exact .inl ⟨name, h1, h2⟩

/-- `track` with any experiment that writes what tracking writes -/
theorem C112_tracking_ends {ρ : Type} (parse : List Char → Except Err (FileSettings ρ)) (cwd dir : FPath) (stem stamp : List Char)
    (fs : FileSystem) (s : FileSettings ρ) (cfg : Loaded ρ) (backward : ρ → Bool) (experiment : Experiment ρ)
    (hg : GivenWith parse cwd dir (stem ++ ".yaml".toList) stamp fs s cfg)
    (reads : FPath → Prop) (hreads : ReadsOnly experiment cfg reads)
    (hin : Untouched cwd s cfg.output stamp (stem ++ ".yaml".toList) reads)
    (hexp : ∀ x ∈ (experiment cfg fs).1, IsTracking x) (hroom : RoomForTracking cwd s cfg dir stem stamp fs) :
    ((command parse cwd (dir ++ [stem ++ ".yaml".toList]) stamp backward (fun cfg => some cfg.output) experiment fs).2 = .ok () ↔
      (experiment cfg fs).2 = none) ∧
    ∀ e, (command parse cwd (dir ++ [stem ++ ".yaml".toList]) stamp backward (fun cfg => some cfg.output) experiment fs).2 = .error e ↔
      (experiment cfg fs).2 = some e := by
  have hmm : ∀ p, MayMake cwd s.folders cfg.output cfg.calendar (backward cfg.config.rest) (experiment cfg fs).1 p →
      ConfigFolder cwd s.folders p ∨ p = cfg.output ++ ["debug".toList] := by
    rintro p (h | ⟨x, hx, sub, h1, h2⟩)
    · exact .inl h
    · rw [(tracking_place (hexp x hx) _ _ cfg.output).2 sub h1] at h2
      exact .inr h2
  have hmw : ∀ p, Record cfg.output stamp (stem ++ ".yaml".toList) p ∨
      (∃ x ∈ (experiment cfg fs).1, p = x.path cfg.calendar (backward cfg.config.rest) cfg.output) →
      Record cfg.output stamp (stem ++ ".yaml".toList) p ∨ TrackFile cfg.calendar cfg.output p := by
    rintro p (h | ⟨x, hx, rfl⟩)
    · exact .inl h
    · exact .inr (tracking_place (hexp x hx) _ _ _).1
  have hbelow : ∀ p, Record cfg.output stamp (stem ++ ".yaml".toList) p ∨ TrackFile cfg.calendar cfg.output p →
      Below cfg.output p := by
    rintro p (h | h)
    · exact record_below h
    · exact below_of_trackFile h
  refine C112_ends parse cwd dir _ stamp fs s cfg backward _ experiment cfg.output hg rfl (output_named hg.loaded) reads hreads hin
    ⟨hroom.wf, ?_, ?_, ?_, ?_⟩
  · intro p h
    rcases hmm p h with h | rfl
    · exact hroom.folders p h
    · exact hroom.debug
  · exact fun p h => hroom.files p (hmw p h)
  · intro p h1 h2
    rcases hmm p h1 with h | rfl
    · exact hroom.apart p h (hbelow p (hmw p h2))
    · rcases hmw _ h2 with h | h
      · generalize hq : cfg.output ++ ["debug".toList] = q at h
        cases h with
        | log => exact debug_ne_log _ (append_last_eq hq)
        | config => exact debug_ne_yaml _ (append_last_eq hq)
      · exact track_not_debug h
  · exact fun h => hroom.own (hbelow _ (hmw _ h))

/-- `preprocess` with any experiment that writes what preprocessing writes -/
theorem C112_preprocessing_ends {ρ : Type} (parse : List Char → Except Err (FileSettings ρ)) (cwd dir : FPath) (stem stamp : List Char)
    (fs : FileSystem) (s : FileSettings ρ) (cfg : Loaded ρ) (F : FPath) (backward : ρ → Bool) (experiment : Experiment ρ)
    (hg : GivenWith parse cwd dir (stem ++ ".yaml".toList) stamp fs s cfg) (hF : cfg.preprocessed = some F)
    (reads : FPath → Prop) (hreads : ReadsOnly experiment cfg reads)
    (hin : Untouched cwd s F stamp (stem ++ ".yaml".toList) reads)
    (hexp : ∀ x ∈ (experiment cfg fs).1, IsPreprocessing x) (hroom : RoomForPreprocessing cwd s cfg dir F stem stamp fs) :
    ((command parse cwd (dir ++ [stem ++ ".yaml".toList]) stamp backward (fun cfg => cfg.preprocessed) experiment fs).2 = .ok () ↔
      (experiment cfg fs).2 = none) ∧
    ∀ e, (command parse cwd (dir ++ [stem ++ ".yaml".toList]) stamp backward (fun cfg => cfg.preprocessed) experiment fs).2 = .error e ↔
      (experiment cfg fs).2 = some e := by
  have hday : ∀ x, IsPreprocessing x → (x.place cfg.calendar (backward cfg.config.rest)).1 = none ∧
      ∃ t, x.path cfg.calendar (backward cfg.config.rest) F = F ++ [dayName cfg.calendar t] := by
    intro x hx
    cases x with
    | day t y =>
      refine ⟨rfl, t, ?_⟩
      show F ++ [] ++ [dayName cfg.calendar t] = _
      rw [List.append_nil]
    | output t y => exact hx.elim
    | correction t y => exact hx.elim
    | region y => exact hx.elim
    | figure a b => exact hx.elim
  have hmm : ∀ p, MayMake cwd s.folders F cfg.calendar (backward cfg.config.rest) (experiment cfg fs).1 p →
      ConfigFolder cwd s.folders p := by
    rintro p (h | ⟨x, hx, sub, h1, h2⟩)
    · exact h
    · rw [(hday x (hexp x hx)).1] at h1; cases h1
  have hmw : ∀ p, Record F stamp (stem ++ ".yaml".toList) p ∨
      (∃ x ∈ (experiment cfg fs).1, p = x.path cfg.calendar (backward cfg.config.rest) F) →
      Record F stamp (stem ++ ".yaml".toList) p ∨ DayFile cfg.calendar F p := by
    rintro p (h | ⟨x, hx, rfl⟩)
    · exact .inl h
    · obtain ⟨_, t, h⟩ := hday x (hexp x hx)
      rw [h]
      exact .inr (DayFile.day t)
  have hbelow : ∀ p, Record F stamp (stem ++ ".yaml".toList) p ∨ DayFile cfg.calendar F p → Below F p := by
    rintro p (h | h)
    · exact record_below h
    · cases h; exact ⟨_, by simp, rfl⟩
  exact C112_ends parse cwd dir _ stamp fs s cfg backward _ experiment F hg hF (preprocessed_named hg.loaded hF) reads hreads hin
    ⟨hroom.wf, fun p h => hroom.folders p (hmm p h), fun p h => hroom.files p (hmw p h),
      fun p h1 h2 => hroom.apart p (hmm p h1) (hbelow p (hmw p h2)), fun h => hroom.own (hbelow _ (hmw _ h))⟩

/-! ### The code of this package -/

section
variable {m n : ℕ} {α : Type} [LinearOrder α] [Add α] [Sub α] [Mul α] [Div α] [Neg α] [NpOps α] [NpTrig α]

theorem track_is (lib : Library m n α) (cfg : Loaded (TrackSettings α)) (fs : FileSystem) :
    ∀ x ∈ (trackExperiment lib cfg fs).1, IsTracking x := by
  rcases hb : cfg.config.rest.backward with _ | _
  · exact (C109_forward lib cfg fs hb).2.2
  · exact (C109_backward lib cfg fs hb).2.2

/-- forward `track` ends normally if the run does, and with the exception of the run if it raises one -/
theorem C112_forward (lib : Library m n α) (hfirst : ∀ q name, lib.first q = some name → q name = true)
    (parse : List Char → Except Err (FileSettings (TrackSettings α))) (cwd dir : FPath) (stem stamp : List Char)
    (fs : FileSystem) (s : FileSettings (TrackSettings α)) (cfg : Loaded (TrackSettings α))
    (hg : GivenWith parse cwd dir (stem ++ ".yaml".toList) stamp fs s cfg)
    (hin : Untouched cwd s cfg.output stamp (stem ++ ".yaml".toList) (TrackInput cfg))
    (hroom : RoomForTracking cwd s cfg dir stem stamp fs) (hb : cfg.config.rest.backward = false) :
    let run := fwdRun cfg.runConfig (fwdSource lib cfg fs) (fun t => cfg.output ++ [outputName cfg.calendar false t])
      (restartFile lib.readFwd fs) cfg.fuel
    let end' := (command parse cwd (dir ++ [stem ++ ".yaml".toList]) stamp (fun r => r.backward) (fun cfg => some cfg.output)
      (trackExperiment lib) fs).2
    (∀ s', run = .finished s' → end' = .ok ()) ∧ (∀ e s', run = .raised e s' → end' = .error e) := by
  obtain ⟨h1, h2⟩ := C112_tracking_ends parse cwd dir stem stamp fs s cfg (fun r => r.backward) (trackExperiment lib) hg
    (TrackInput cfg) (C109_reads lib hfirst cfg) hin (track_is lib cfg fs) hroom
  have h3 := (C109_forward lib cfg fs hb).2.1
  refine ⟨fun s' hs => ?_, fun e s' hs => ?_⟩
  · rw [hs] at h3; exact h1.2 h3.2
  · rw [hs] at h3; exact (h2 e).2 h3.2

/-- backward `track` ends normally if the run does, and with the exception of the run if it raises one -/
theorem C112_backward (lib : Library m n α) (hfirst : ∀ q name, lib.first q = some name → q name = true)
    (parse : List Char → Except Err (FileSettings (TrackSettings α))) (cwd dir : FPath) (stem stamp : List Char)
    (fs : FileSystem) (s : FileSettings (TrackSettings α)) (cfg : Loaded (TrackSettings α))
    (hg : GivenWith parse cwd dir (stem ++ ".yaml".toList) stamp fs s cfg)
    (hin : Untouched cwd s cfg.output stamp (stem ++ ".yaml".toList) (TrackInput cfg))
    (hroom : RoomForTracking cwd s cfg dir stem stamp fs) (hb : cfg.config.rest.backward = true) :
    let run := bwdRun cfg.runConfig (bwdSource lib cfg fs) (fun t => cfg.output ++ [outputName cfg.calendar true t])
      (restartFile lib.readBwd fs) cfg.fuel
    let end' := (command parse cwd (dir ++ [stem ++ ".yaml".toList]) stamp (fun r => r.backward) (fun cfg => some cfg.output)
      (trackExperiment lib) fs).2
    (∀ s', run = .finished s' → end' = .ok ()) ∧ (∀ e s', run = .raised e s' → end' = .error e) := by
  obtain ⟨h1, h2⟩ := C112_tracking_ends parse cwd dir stem stamp fs s cfg (fun r => r.backward) (trackExperiment lib) hg
    (TrackInput cfg) (C109_reads lib hfirst cfg) hin (track_is lib cfg fs) hroom
  have h3 := (C109_backward lib cfg fs hb).2.1
  refine ⟨fun s' hs => ?_, fun e s' hs => ?_⟩
  · rw [hs] at h3; exact h1.2 h3.2
  · rw [hs] at h3; exact (h2 e).2 h3.2

end

section
variable {α ρ : Type} (shw : DataFile α α → List Char) (freq : ρ → ℤ)
  (compute : Loaded ρ → FileSystem → ℤ → Except Err (Dataset α α))

/-- `preprocess` ends normally if and only if something can be computed for every input time of the period and fits into the file of
its day; else it ends with the exception of the first time at which this fails. -/
theorem C112_preprocess (backward : ρ → Bool) (parse : List Char → Except Err (FileSettings ρ)) (cwd dir : FPath)
    (stem stamp : List Char) (fs : FileSystem) (s : FileSettings ρ) (cfg : Loaded ρ) (pre : FPath)
    (hg : GivenWith parse cwd dir (stem ++ ".yaml".toList) stamp fs s cfg) (hpre : cfg.preprocessed = some pre)
    (reads : FPath → Prop) (hlook : LooksOnlyAt (compute cfg) reads)
    (hin : Untouched cwd s pre stamp (stem ++ ".yaml".toList) reads)
    (hroom : RoomForPreprocessing cwd s cfg dir pre stem stamp fs) :
    let prep := (prepExperiment (compute cfg fs) cfg.calendar [] (cfg.config.dates .preprocess_start_date)
        (cfg.config.dates .preprocess_end_date) (freq cfg.config.rest) (fun _ => none)).1
    let end' := (command parse cwd (dir ++ [stem ++ ".yaml".toList]) stamp backward (fun cfg => cfg.preprocessed)
      (preprocessExperiment shw freq compute) fs).2
    (end' = .ok () ↔ prep = none) ∧ ∀ e, end' = .error e ↔ prep = some e := by
  intro prep end'
  obtain ⟨folder, e1, e2, _⟩ := preprocessExperiment_writes shw freq compute cfg fs
  have hp : prep = (preprocessExperiment shw freq compute cfg fs).2 := by
    show (prepExperiment _ _ _ _ _ _ _).1 = _
    rw [e1]
  rw [hp]
  refine C112_preprocessing_ends parse cwd dir stem stamp fs s cfg pre backward (preprocessExperiment shw freq compute) hg hpre
    reads (fun fs₁ fs₂ h => preprocessExperiment_reads shw freq compute cfg reads hlook fs₁ fs₂ h) hin ?_ hroom
  intro x hx
  obtain ⟨t, y, rfl⟩ := e2 x hx
  trivial

end

section
variable {m n : ℕ} {K ρ : Type} [Field K] [LinearOrder K] [IsStrictOrderedRing K] [FloorRing K] [NpTrig K] (shw : DataFile K K → List Char)
  (freq : ρ → ℤ) (compute : Loaded ρ → FileSystem → ℤ → Except Err (Dataset K K))

/-- From raw data to output files: `preprocess` and then forward `track` both end normally, and the output files are there and
sound, if the raw data of every input time of the period can be preprocessed and make sense, the tracking period lies in the preprocessed
one, and nothing stands in the way of the files. -/
theorem C112_pipeline_forward (lib : Library m n K) (hfirst : ∀ q name, lib.first q = some name → q name = true)
    (backward : ρ → Bool) (parse₀ : List Char → Except Err (FileSettings ρ)) (cwd₀ dir₀ : FPath) (stem₀ stamp₀ : List Char)
    (fs₀ : FileSystem) (s₀ : FileSettings ρ) (cfg₀ : Loaded ρ) (pre : FPath)
    (hg₀ : GivenWith parse₀ cwd₀ dir₀ (stem₀ ++ ".yaml".toList) stamp₀ fs₀ s₀ cfg₀)
    (reads : FPath → Prop) (hlook : LooksOnlyAt (compute cfg₀) reads) (hin₀ : Untouched cwd₀ s₀ pre stamp₀ (stem₀ ++ ".yaml".toList) reads)
    (hroom₀ : RoomForPreprocessing cwd₀ s₀ cfg₀ dir₀ pre stem₀ stamp₀ fs₀)
    (fs : FileSystem) (cfg : Loaded (TrackSettings K))
    (hfs : ∀ p, DayFile cfg₀.calendar pre p → fs p = after (command parse₀ cwd₀ (dir₀ ++ [stem₀ ++ ".yaml".toList]) stamp₀ backward
      (fun cfg => cfg.preprocessed) (preprocessExperiment shw freq compute)) fs₀ p)
    (hfol : Follows shw lib freq (compute cfg₀ fs₀) cfg₀ pre cfg) (last : ℤ)
    (hper : PrepPeriod cfg₀.calendar (cfg₀.config.dates .preprocess_start_date) (cfg₀.config.dates .preprocess_end_date)
      (freq cfg₀.config.rest) last)
    (hrun : TracksWithin cfg.runConfig (cfg₀.config.dates .preprocess_start_date) last)
    (hmin : 60 ∣ cfg.config.rest.timestep)
    (parse : List Char → Except Err (FileSettings (TrackSettings K))) (cwd dir : FPath) (stem stamp : List Char)
    (s : FileSettings (TrackSettings K)) (hg : GivenWith parse cwd dir (stem ++ ".yaml".toList) stamp fs s cfg)
    (hin : Untouched cwd s cfg.output stamp (stem ++ ".yaml".toList) (TrackInput cfg)) (hb : cfg.config.rest.backward = false)
    (hroom : RoomForTracking cwd s cfg dir stem stamp fs)
    (hre : RestartFwd cfg.runConfig (fun t => cfg.output ++ [outputName cfg.calendar false t]) (restartFile lib.readFwd fs))
    {lat₀ lon₀ lat lon : List K} (hlat : lat.length = m + 2) (hlon : lon.length = n + 2)
    (hc : ∀ t ∈ inputDates (cfg₀.config.dates .preprocess_start_date) (cfg₀.config.dates .preprocess_end_date)
      (freq cfg₀.config.rest), ∃ ds, compute cfg₀ fs₀ t = .ok ds ∧ ds.latitude = lat₀ ∧ ds.longitude = lon₀ ∧
      ds.vars = allVars ∧ MoistData ds)
    (hfit : ∀ t ∈ inputDates (cfg₀.config.dates .preprocess_start_date) (cfg₀.config.dates .preprocess_end_date)
      (freq cfg₀.config.rest), ∀ ds, compute cfg₀ fs₀ t = .ok ds →
        FitsData cfg.config.rest.tracking_domain (taggingOf lib cfg fs) ds lat lon) :
    (command parse₀ cwd₀ (dir₀ ++ [stem₀ ++ ".yaml".toList]) stamp₀ backward (fun cfg => cfg.preprocessed)
      (preprocessExperiment shw freq compute) fs₀).2 = .ok () ∧
    (command parse cwd (dir ++ [stem ++ ".yaml".toList]) stamp (fun r => r.backward) (fun cfg => some cfg.output)
      (trackExperiment lib) fs).2 = .ok () ∧
    ForwardResult lib (compute cfg₀ fs₀) (freq cfg₀.config.rest) (cfg₀.config.dates .preprocess_start_date) last cfg fs
      (after (command parse cwd (dir ++ [stem ++ ".yaml".toList]) stamp (fun r => r.backward) (fun cfg => some cfg.output)
        (trackExperiment lib)) fs) := by
  have hw := (pipeline_works (m := m) (n := n) [] hper (fun _ => none) hlat hlon hc hrun hfit (fun t => cfg.output ++ [outputName cfg.calendar false t])).1
    (restartFile lib.readFwd fs) hre
  have hp : (command parse₀ cwd₀ (dir₀ ++ [stem₀ ++ ".yaml".toList]) stamp₀ backward (fun cfg => cfg.preprocessed)
      (preprocessExperiment shw freq compute) fs₀).2 = .ok () := by
    refine (C112_preprocess shw freq compute backward parse₀ cwd₀ dir₀ stem₀ stamp₀ fs₀ s₀ cfg₀ pre hg₀ hfol.folder₀ reads hlook
      hin₀ hroom₀).1.2 ?_
    obtain ⟨folder, _, _, _, w1, _⟩ := hw
    rw [w1]
  have ht : (command parse cwd (dir ++ [stem ++ ".yaml".toList]) stamp (fun r => r.backward) (fun cfg => some cfg.output)
      (trackExperiment lib) fs).2 = .ok () := by
    obtain ⟨inp, _, _, _, _, _, hR, _⟩ := ready_forward shw freq compute lib hfirst backward parse₀ cwd₀ dir₀ _ stamp₀
      fs₀ s₀ cfg₀ pre hg₀ reads hlook hin₀ hp fs cfg hfs hfol last hper hrun hmin hw
    obtain ⟨o, ho⟩ := fwd_init_ok cfg.runConfig _ inp (fun t => cfg.output ++ [outputName cfg.calendar false t])
      (restartFile lib.readFwd fs) hR (fun h => by
        obtain ⟨f, hf, -⟩ := hre h
        rw [hf]; rfl)
    obtain ⟨r, hr1, hr2, hall⟩ := fwd_run_eq cfg.runConfig _ inp _ _ hR o ho
    have hfin := hall cfg.fuel
    rw [if_neg (by show ¬ cfg.fuel < cfg.fuel; omega)] at hfin
    exact (C112_forward lib hfirst parse cwd dir stem stamp fs s cfg hg hin hroom hb).1 _ hfin
  exact ⟨hp, ht, C111_forward shw freq compute lib hfirst backward parse₀ cwd₀ dir₀ _ stamp₀ fs₀ s₀ cfg₀ pre hg₀ reads hlook hin₀ hp
    fs cfg hfs hfol last hper hrun hmin parse cwd dir _ stamp s hg hin hb hre ht hlat hlon hc hfit⟩

/-- From raw data to output files: `preprocess` and then backward `track` both end normally, and the output files are there and
sound, if the raw data of every input time of the period can be preprocessed and make sense, the tracking period lies in the preprocessed
one, and nothing stands in the way of the files. -/
theorem C112_pipeline_backward (lib : Library m n K) (hfirst : ∀ q name, lib.first q = some name → q name = true)
    (backward : ρ → Bool) (parse₀ : List Char → Except Err (FileSettings ρ)) (cwd₀ dir₀ : FPath) (stem₀ stamp₀ : List Char)
    (fs₀ : FileSystem) (s₀ : FileSettings ρ) (cfg₀ : Loaded ρ) (pre : FPath)
    (hg₀ : GivenWith parse₀ cwd₀ dir₀ (stem₀ ++ ".yaml".toList) stamp₀ fs₀ s₀ cfg₀)
    (reads : FPath → Prop) (hlook : LooksOnlyAt (compute cfg₀) reads) (hin₀ : Untouched cwd₀ s₀ pre stamp₀ (stem₀ ++ ".yaml".toList) reads)
    (hroom₀ : RoomForPreprocessing cwd₀ s₀ cfg₀ dir₀ pre stem₀ stamp₀ fs₀)
    (fs : FileSystem) (cfg : Loaded (TrackSettings K))
    (hfs : ∀ p, DayFile cfg₀.calendar pre p → fs p = after (command parse₀ cwd₀ (dir₀ ++ [stem₀ ++ ".yaml".toList]) stamp₀ backward
      (fun cfg => cfg.preprocessed) (preprocessExperiment shw freq compute)) fs₀ p)
    (hfol : Follows shw lib freq (compute cfg₀ fs₀) cfg₀ pre cfg) (last : ℤ)
    (hper : PrepPeriod cfg₀.calendar (cfg₀.config.dates .preprocess_start_date) (cfg₀.config.dates .preprocess_end_date)
      (freq cfg₀.config.rest) last)
    (hrun : TracksWithin cfg.runConfig (cfg₀.config.dates .preprocess_start_date) last)
    (hmin : 60 ∣ cfg.config.rest.timestep)
    (parse : List Char → Except Err (FileSettings (TrackSettings K))) (cwd dir : FPath) (stem stamp : List Char)
    (s : FileSettings (TrackSettings K)) (hg : GivenWith parse cwd dir (stem ++ ".yaml".toList) stamp fs s cfg)
    (hin : Untouched cwd s cfg.output stamp (stem ++ ".yaml".toList) (TrackInput cfg)) (hb : cfg.config.rest.backward = true)
    (hroom : RoomForTracking cwd s cfg dir stem stamp fs)
    (hre : RestartBwd cfg.runConfig (fun t => cfg.output ++ [outputName cfg.calendar true t]) (restartFile lib.readBwd fs))
    {lat₀ lon₀ lat lon : List K} (hlat : lat.length = m + 2) (hlon : lon.length = n + 2)
    (hc : ∀ t ∈ inputDates (cfg₀.config.dates .preprocess_start_date) (cfg₀.config.dates .preprocess_end_date)
      (freq cfg₀.config.rest), ∃ ds, compute cfg₀ fs₀ t = .ok ds ∧ ds.latitude = lat₀ ∧ ds.longitude = lon₀ ∧
      ds.vars = allVars ∧ MoistData ds)
    (hfit : ∀ t ∈ inputDates (cfg₀.config.dates .preprocess_start_date) (cfg₀.config.dates .preprocess_end_date)
      (freq cfg₀.config.rest), ∀ ds, compute cfg₀ fs₀ t = .ok ds →
        FitsData cfg.config.rest.tracking_domain (taggingOf lib cfg fs) ds lat lon) :
    (command parse₀ cwd₀ (dir₀ ++ [stem₀ ++ ".yaml".toList]) stamp₀ backward (fun cfg => cfg.preprocessed)
      (preprocessExperiment shw freq compute) fs₀).2 = .ok () ∧
    (command parse cwd (dir ++ [stem ++ ".yaml".toList]) stamp (fun r => r.backward) (fun cfg => some cfg.output)
      (trackExperiment lib) fs).2 = .ok () ∧
    BackwardResult lib (compute cfg₀ fs₀) (freq cfg₀.config.rest) (cfg₀.config.dates .preprocess_start_date) last cfg fs
      (after (command parse cwd (dir ++ [stem ++ ".yaml".toList]) stamp (fun r => r.backward) (fun cfg => some cfg.output)
        (trackExperiment lib)) fs) := by
  have hw := (pipeline_works (m := m) (n := n) [] hper (fun _ => none) hlat hlon hc hrun hfit (fun t => cfg.output ++ [outputName cfg.calendar true t])).2
    (restartFile lib.readBwd fs) hre
  have hp : (command parse₀ cwd₀ (dir₀ ++ [stem₀ ++ ".yaml".toList]) stamp₀ backward (fun cfg => cfg.preprocessed)
      (preprocessExperiment shw freq compute) fs₀).2 = .ok () := by
    refine (C112_preprocess shw freq compute backward parse₀ cwd₀ dir₀ stem₀ stamp₀ fs₀ s₀ cfg₀ pre hg₀ hfol.folder₀ reads hlook
      hin₀ hroom₀).1.2 ?_
    obtain ⟨folder, _, _, _, w1, _⟩ := hw
    rw [w1]
  have ht : (command parse cwd (dir ++ [stem ++ ".yaml".toList]) stamp (fun r => r.backward) (fun cfg => some cfg.output)
      (trackExperiment lib) fs).2 = .ok () := by
    obtain ⟨inp, _, _, _, _, _, hR, _⟩ := ready_backward shw freq compute lib hfirst backward parse₀ cwd₀ dir₀ _ stamp₀
      fs₀ s₀ cfg₀ pre hg₀ reads hlook hin₀ hp fs cfg hfs hfol last hper hrun hmin hw
    obtain ⟨o, ho⟩ := bwd_init_ok cfg.runConfig _ inp (fun t => cfg.output ++ [outputName cfg.calendar true t])
      (restartFile lib.readBwd fs) hR (fun h => by
        obtain ⟨f, hf, -⟩ := hre h
        rw [hf]; rfl)
    obtain ⟨r, hr1, hr2, hall⟩ := bwd_run_eq cfg.runConfig _ inp _ _ hR o ho
    have hfin := hall cfg.fuel
    rw [if_neg (by show ¬ cfg.fuel < cfg.fuel; omega)] at hfin
    exact (C112_backward lib hfirst parse cwd dir stem stamp fs s cfg hg hin hroom hb).1 _ hfin
  exact ⟨hp, ht, C111_backward shw freq compute lib hfirst backward parse₀ cwd₀ dir₀ _ stamp₀ fs₀ s₀ cfg₀ pre hg₀ reads hlook hin₀ hp
    fs cfg hfs hfol last hper hrun hmin parse cwd dir _ stamp s hg hin hb hre ht hlat hlon hc hfit⟩

end

section
variable {m n : ℕ} {ρ : Type} (shw : DataFile ℝ ℝ → List Char) (freq : ρ → ℤ) (icfg : Loaded ρ → InputConfig)
  (lay : Loaded ρ → LayerConfig ℝ) (raw : Loaded ρ → FileSystem → List Char → Except Err (RawFile ℝ ℝ))
  {argsort : List ℝ → List ℕ} (ha : IsArgsort argsort)

include ha in
/-- From ERA5 files on pressure levels to output files: with files that are complete and without unphysical numbers when `preprocess`
is given, `preprocess` and then forward `track` both end normally, and the output files are there and sound. -/
theorem C112_era5_forward (lib : Library m n ℝ) (hfirst : ∀ q name, lib.first q = some name → q name = true)
    (backward : ρ → Bool) (parse₀ : List Char → Except Err (FileSettings ρ)) (cwd₀ dir₀ : FPath) (stem₀ stamp₀ : List Char)
    (fs₀ : FileSystem) (s₀ : FileSettings ρ) (cfg₀ : Loaded ρ) (pre : FPath)
    (hg₀ : GivenWith parse₀ cwd₀ dir₀ (stem₀ ++ ".yaml".toList) stamp₀ fs₀ s₀ cfg₀)
    (reads : FPath → Prop) (hlook : LooksOnlyAt (raw cfg₀) reads) (hin₀ : Untouched cwd₀ s₀ pre stamp₀ (stem₀ ++ ".yaml".toList) reads)
    (hroom₀ : RoomForPreprocessing cwd₀ s₀ cfg₀ dir₀ pre stem₀ stamp₀ fs₀)
    (fs : FileSystem) (cfg : Loaded (TrackSettings ℝ))
    (hfs : ∀ p, DayFile cfg₀.calendar pre p → fs p = after (command parse₀ cwd₀ (dir₀ ++ [stem₀ ++ ".yaml".toList]) stamp₀ backward
      (fun cfg => cfg.preprocessed) (preprocessExperiment shw freq fun c fs => prepEra5 argsort (lay c) (icfg c) (raw c fs))) fs₀ p)
    (hfol : Follows shw lib freq (prepEra5 argsort (lay cfg₀) (icfg cfg₀) (raw cfg₀ fs₀)) cfg₀ pre cfg) (last : ℤ)
    (hper : PrepPeriod cfg₀.calendar (cfg₀.config.dates .preprocess_start_date) (cfg₀.config.dates .preprocess_end_date)
      (freq cfg₀.config.rest) last)
    (hrun : TracksWithin cfg.runConfig (cfg₀.config.dates .preprocess_start_date) last)
    (hmin : 60 ∣ cfg.config.rest.timestep)
    (parse : List Char → Except Err (FileSettings (TrackSettings ℝ))) (cwd dir : FPath) (stem stamp : List Char)
    (s : FileSettings (TrackSettings ℝ)) (hg : GivenWith parse cwd dir (stem ++ ".yaml".toList) stamp fs s cfg)
    (hin : Untouched cwd s cfg.output stamp (stem ++ ".yaml".toList) (TrackInput cfg)) (hb : cfg.config.rest.backward = false)
    (hroom : RoomForTracking cwd s cfg dir stem stamp fs)
    (hre : RestartFwd cfg.runConfig (fun t => cfg.output ++ [outputName cfg.calendar false t]) (restartFile lib.readFwd fs))
    {levels : List ℤ} {g : List ℝ × List ℝ} (hlt : (icfg cfg₀).levelType = .pressure_levels)
    (hL : (icfg cfg₀).levels = .list levels) (hne : levels ≠ []) (hpos : ∀ l ∈ levels, 0 < l) (hsec : 0 < (icfg cfg₀).nseconds)
    (hdata : ∀ t ∈ inputDates (cfg₀.config.dates .preprocess_start_date) (cfg₀.config.dates .preprocess_end_date)
      (freq cfg₀.config.rest), Era5Complete (icfg cfg₀) (raw cfg₀ fs₀) t levels g ∧
      MoistEra5 (icfg cfg₀) (raw cfg₀ fs₀) t (lay cfg₀) levels g)
    {lat lon : List ℝ} (hlat : lat.length = m + 2) (hlon : lon.length = n + 2)
    (hfit : ∀ t ∈ inputDates (cfg₀.config.dates .preprocess_start_date) (cfg₀.config.dates .preprocess_end_date)
      (freq cfg₀.config.rest), ∀ ds, prepEra5 argsort (lay cfg₀) (icfg cfg₀) (raw cfg₀ fs₀) t = .ok ds →
        FitsData cfg.config.rest.tracking_domain (taggingOf lib cfg fs) ds lat lon) :
    (command parse₀ cwd₀ (dir₀ ++ [stem₀ ++ ".yaml".toList]) stamp₀ backward (fun cfg => cfg.preprocessed)
      (preprocessExperiment shw freq fun c fs => prepEra5 argsort (lay c) (icfg c) (raw c fs)) fs₀).2 = .ok () ∧
    (command parse cwd (dir ++ [stem ++ ".yaml".toList]) stamp (fun r => r.backward) (fun cfg => some cfg.output)
      (trackExperiment lib) fs).2 = .ok () ∧
    ForwardResult lib (prepEra5 argsort (lay cfg₀) (icfg cfg₀) (raw cfg₀ fs₀)) (freq cfg₀.config.rest) (cfg₀.config.dates .preprocess_start_date) last cfg fs
      (after (command parse cwd (dir ++ [stem ++ ".yaml".toList]) stamp (fun r => r.backward) (fun cfg => some cfg.output)
        (trackExperiment lib)) fs) :=
  C112_pipeline_forward shw freq (fun c fs => prepEra5 argsort (lay c) (icfg c) (raw c fs)) lib hfirst backward parse₀ cwd₀ dir₀ stem₀
    stamp₀ fs₀ s₀ cfg₀ pre hg₀ reads (fun fs₁ fs₂ h => by simp only [hlook fs₁ fs₂ h]) hin₀ hroom₀ fs cfg hfs hfol last hper hrun hmin
    parse cwd dir stem stamp s hg hin hb hroom hre hlat hlon
    (fun t ht => era5_moist hlt hL hne hpos (hdata t ht).1 ha hsec (hdata t ht).2) hfit

include ha in
/-- From ERA5 files on pressure levels to output files: with files that are complete and without unphysical numbers when `preprocess`
is given, `preprocess` and then backward `track` both end normally, and the output files are there and sound. -/
theorem C112_era5_backward (lib : Library m n ℝ) (hfirst : ∀ q name, lib.first q = some name → q name = true)
    (backward : ρ → Bool) (parse₀ : List Char → Except Err (FileSettings ρ)) (cwd₀ dir₀ : FPath) (stem₀ stamp₀ : List Char)
    (fs₀ : FileSystem) (s₀ : FileSettings ρ) (cfg₀ : Loaded ρ) (pre : FPath)
    (hg₀ : GivenWith parse₀ cwd₀ dir₀ (stem₀ ++ ".yaml".toList) stamp₀ fs₀ s₀ cfg₀)
    (reads : FPath → Prop) (hlook : LooksOnlyAt (raw cfg₀) reads) (hin₀ : Untouched cwd₀ s₀ pre stamp₀ (stem₀ ++ ".yaml".toList) reads)
    (hroom₀ : RoomForPreprocessing cwd₀ s₀ cfg₀ dir₀ pre stem₀ stamp₀ fs₀)
    (fs : FileSystem) (cfg : Loaded (TrackSettings ℝ))
    (hfs : ∀ p, DayFile cfg₀.calendar pre p → fs p = after (command parse₀ cwd₀ (dir₀ ++ [stem₀ ++ ".yaml".toList]) stamp₀ backward
      (fun cfg => cfg.preprocessed) (preprocessExperiment shw freq fun c fs => prepEra5 argsort (lay c) (icfg c) (raw c fs))) fs₀ p)
    (hfol : Follows shw lib freq (prepEra5 argsort (lay cfg₀) (icfg cfg₀) (raw cfg₀ fs₀)) cfg₀ pre cfg) (last : ℤ)
    (hper : PrepPeriod cfg₀.calendar (cfg₀.config.dates .preprocess_start_date) (cfg₀.config.dates .preprocess_end_date)
      (freq cfg₀.config.rest) last)
    (hrun : TracksWithin cfg.runConfig (cfg₀.config.dates .preprocess_start_date) last)
    (hmin : 60 ∣ cfg.config.rest.timestep)
    (parse : List Char → Except Err (FileSettings (TrackSettings ℝ))) (cwd dir : FPath) (stem stamp : List Char)
    (s : FileSettings (TrackSettings ℝ)) (hg : GivenWith parse cwd dir (stem ++ ".yaml".toList) stamp fs s cfg)
    (hin : Untouched cwd s cfg.output stamp (stem ++ ".yaml".toList) (TrackInput cfg)) (hb : cfg.config.rest.backward = true)
    (hroom : RoomForTracking cwd s cfg dir stem stamp fs)
    (hre : RestartBwd cfg.runConfig (fun t => cfg.output ++ [outputName cfg.calendar true t]) (restartFile lib.readBwd fs))
    {levels : List ℤ} {g : List ℝ × List ℝ} (hlt : (icfg cfg₀).levelType = .pressure_levels)
    (hL : (icfg cfg₀).levels = .list levels) (hne : levels ≠ []) (hpos : ∀ l ∈ levels, 0 < l) (hsec : 0 < (icfg cfg₀).nseconds)
    (hdata : ∀ t ∈ inputDates (cfg₀.config.dates .preprocess_start_date) (cfg₀.config.dates .preprocess_end_date)
      (freq cfg₀.config.rest), Era5Complete (icfg cfg₀) (raw cfg₀ fs₀) t levels g ∧
      MoistEra5 (icfg cfg₀) (raw cfg₀ fs₀) t (lay cfg₀) levels g)
    {lat lon : List ℝ} (hlat : lat.length = m + 2) (hlon : lon.length = n + 2)
    (hfit : ∀ t ∈ inputDates (cfg₀.config.dates .preprocess_start_date) (cfg₀.config.dates .preprocess_end_date)
      (freq cfg₀.config.rest), ∀ ds, prepEra5 argsort (lay cfg₀) (icfg cfg₀) (raw cfg₀ fs₀) t = .ok ds →
        FitsData cfg.config.rest.tracking_domain (taggingOf lib cfg fs) ds lat lon) :
    (command parse₀ cwd₀ (dir₀ ++ [stem₀ ++ ".yaml".toList]) stamp₀ backward (fun cfg => cfg.preprocessed)
      (preprocessExperiment shw freq fun c fs => prepEra5 argsort (lay c) (icfg c) (raw c fs)) fs₀).2 = .ok () ∧
    (command parse cwd (dir ++ [stem ++ ".yaml".toList]) stamp (fun r => r.backward) (fun cfg => some cfg.output)
      (trackExperiment lib) fs).2 = .ok () ∧
    BackwardResult lib (prepEra5 argsort (lay cfg₀) (icfg cfg₀) (raw cfg₀ fs₀)) (freq cfg₀.config.rest) (cfg₀.config.dates .preprocess_start_date) last cfg fs
      (after (command parse cwd (dir ++ [stem ++ ".yaml".toList]) stamp (fun r => r.backward) (fun cfg => some cfg.output)
        (trackExperiment lib)) fs) :=
  C112_pipeline_backward shw freq (fun c fs => prepEra5 argsort (lay c) (icfg c) (raw c fs)) lib hfirst backward parse₀ cwd₀ dir₀ stem₀
    stamp₀ fs₀ s₀ cfg₀ pre hg₀ reads (fun fs₁ fs₂ h => by simp only [hlook fs₁ fs₂ h]) hin₀ hroom₀ fs cfg hfs hfol last hper hrun hmin
    parse cwd dir stem stamp s hg hin hb hroom hre hlat hlon
    (fun t ht => era5_moist hlt hL hne hpos (hdata t ht).1 ha hsec (hdata t ht).2) hfit

end

end Wam
