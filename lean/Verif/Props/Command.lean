import Verif.Lemmas.Command
import Verif.Props.Again
import Verif.Props.Complete

/-!
# C109: `track` from the files that are there to the files that it leaves; C108 for it
-/

set_option linter.unusedSectionVars false
set_option linter.unusedVariables false

namespace Wam
open Spec

variable {m n : ℕ} {α : Type} [LinearOrder α] [Add α] [Sub α] [Mul α] [Div α] [Neg α] [NpOps α] [NpTrig α]

/-- Tracking looks at its input files and at nothing else: two file systems in which these are the same give the
same output and the same end. -/
theorem C109_reads (lib : Library m n α) (hfirst : ∀ q name, lib.first q = some name → q name = true)
    (cfg : Loaded (TrackSettings α)) : ReadsOnly (trackExperiment lib) cfg (TrackInput cfg) := by
  intro fs₁ fs₂ h
  obtain ⟨h1, h2⟩ := taggingOf_congr lib cfg fs₁ fs₂ h hfirst
  have h3 : ∀ first, experimentSource (m := m) (n := n) (dataFiles lib cfg fs₁) cfg.ioConfig (taggingOf lib cfg fs₁)
      first = experimentSource (dataFiles lib cfg fs₂) cfg.ioConfig (taggingOf lib cfg fs₂) first := by
    intro first
    rw [h1]
    exact experimentSource_congr _ _ _ (dataFiles_congr lib cfg fs₁ fs₂ h) _ _
  unfold trackExperiment
  by_cases hb : cfg.config.rest.backward = true
  · rw [if_pos hb, if_pos hb, h2]
    have h4 : bwdSource lib cfg fs₁ = bwdSource lib cfg fs₂ := h3 _
    rw [h4]
    unfold bwdTracking
    rw [bwdInitialize_disk cfg.runConfig _ _ (restartFile lib.readBwd fs₁) (restartFile lib.readBwd fs₂)]
    intro hr
    have h5 := h _ (TrackInput.backward hr hb)
    unfold restartFile
    have h6 : cfg.output ++ [outputName cfg.calendar true cfg.runConfig.tracking_end_date] =
        cfg.output ++ ["backtrack_".toList ++
          minuteString (dateTimeOf cfg.calendar (cfg.config.dates .tracking_end_date)) ++ ".nc".toList] := by
      unfold outputName
      have h : "backtrack_".toList = modeString true ++ ['_'] := rfl
      rw [h]; simp only [List.append_assoc, List.cons_append, List.nil_append]; rfl
    rw [h6, h5]
  · rw [if_neg hb, if_neg hb, h2]
    have h4 : fwdSource lib cfg fs₁ = fwdSource lib cfg fs₂ := h3 _
    rw [h4]
    unfold fwdTracking
    rw [fwdInitialize_disk cfg.runConfig _ _ (restartFile lib.readFwd fs₁) (restartFile lib.readFwd fs₂)]
    intro hr
    have h5 := h _ (TrackInput.forward hr (by simpa using hb))
    unfold restartFile
    have h6 : cfg.output ++ [outputName cfg.calendar false cfg.runConfig.tracking_start_date] =
        cfg.output ++ ["forwardtrack_".toList ++
          minuteString (dateTimeOf cfg.calendar (cfg.config.dates .tracking_start_date)) ++ ".nc".toList] := by
      unfold outputName
      have h : "forwardtrack_".toList = modeString false ++ ['_'] := rfl
      rw [h]; simp only [List.append_assoc, List.cons_append, List.nil_append]; rfl
    rw [h6, h5]

/-- the settings that the configuration file gives are those of the run -/
theorem C109_settings (cfg : Loaded (TrackSettings α)) : AsConfigured cfg cfg.runConfig cfg.ioConfig :=
  ⟨rfl, rfl, rfl, rfl, rfl, rfl, rfl, rfl, rfl, rfl, rfl, rfl⟩

/-- The tagging region of the run is that of the configuration file; `lib.first` has to find a name if there is one. -/
theorem C109_tagging (lib : Library m n α) (hfirst : ∀ q name, lib.first q = some name → q name = true)
    (hsome : ∀ q name, q name = true → lib.first q ≠ none) (cfg : Loaded (TrackSettings α)) (fs : FileSystem) :
    TaggingRead lib cfg fs (taggingOf lib cfg fs) := by
  unfold TaggingRead taggingOf
  cases cfg.config.rest.tagging_region with
  | box box => rfl
  | file p =>
    intro text h
    simp only [h]
  | shape p =>
    intro shapes pre h1 h2 ⟨name, hn⟩ h3
    simp only [shapeMask, h2, someDataFile, h1]
    rcases e : lib.first fun name => (".nc".toList).isSuffixOf name && (fs (pre ++ [name])).isSome with _ | found
    · refine absurd e (hsome _ (name ++ ".nc".toList) ?_)
      rw [Bool.and_eq_true, List.isSuffixOf_iff_suffix, Option.isSome_iff_ne_none]
      exact ⟨List.suffix_append _ _, hn⟩
    · have := hfirst _ _ e
      rw [Bool.and_eq_true, List.isSuffixOf_iff_suffix, Option.isSome_iff_ne_none] at this
      obtain ⟨⟨stem, rfl⟩, h4⟩ := this
      rcases e2 : fs (pre ++ [stem ++ ".nc".toList]) with _ | (_ | text)
      · exact absurd e2 h4
      · exact absurd e2 (h3 stem)
      · exact ⟨stem, text, e2, by simp only [e2]⟩

/-- Forward tracking writes the output files of the run, in its order, besides correction fields and the mask of a
shapefile; it ends normally exactly if the run does. -/
theorem C109_forward (lib : Library m n α) (cfg : Loaded (TrackSettings α)) (fs : FileSystem)
    (hb : cfg.config.rest.backward = false) :
    AsConfigured cfg cfg.runConfig cfg.ioConfig ∧ EndsLike lib.showFwd
      (fwdRun cfg.runConfig (fwdSource lib cfg fs) (fun t => cfg.output ++ [outputName cfg.calendar false t])
        (restartFile lib.readFwd fs) cfg.fuel)
      (trackExperiment lib cfg fs) ∧
    ∀ x ∈ (trackExperiment lib cfg fs).1, IsTracking x := by
  unfold trackExperiment
  rw [if_neg (by simp [hb])]
  exact ⟨C109_settings cfg, fwdTracking_ends lib _ _ _ (maskSaving_only lib cfg fs) _ _ _⟩

/-- Backward tracking. -/
theorem C109_backward (lib : Library m n α) (cfg : Loaded (TrackSettings α)) (fs : FileSystem)
    (hb : cfg.config.rest.backward = true) :
    AsConfigured cfg cfg.runConfig cfg.ioConfig ∧ EndsLike lib.showBwd
      (bwdRun cfg.runConfig (bwdSource lib cfg fs) (fun t => cfg.output ++ [outputName cfg.calendar true t])
        (restartFile lib.readBwd fs) cfg.fuel)
      (trackExperiment lib cfg fs) ∧
    ∀ x ∈ (trackExperiment lib cfg fs).1, IsTracking x := by
  unfold trackExperiment
  rw [if_pos hb]
  exact ⟨C109_settings cfg, bwdTracking_ends lib _ _ _ (maskSaving_only lib cfg fs) _ _ _⟩

private theorem fwd_enough (cfg : RunConfig α) (hpos : 0 < cfg.timestep) (src : Source m n α) {P : Type} (path : ℤ → P)
    (disk : P → Option (FwdOutput (m + 2) (n + 2) α)) (fuel : ℕ) (hf : runSteps cfg ≤ fuel) :
    fwdRun cfg src path disk fuel = fwdRun cfg src path disk (runSteps cfg) := by
  unfold fwdRun
  cases fwdInitialize cfg src path disk with
  | error e => rfl
  | ok o =>
    cases src.region with
    | error e => rfl
    | ok r =>
      by_cases h : ∀ k < runSteps cfg, StepDataFwd cfg src r (timeFwd cfg k)
      · obtain ⟨s, -, hs⟩ := (fwd_fate cfg hpos src r o).1 h
        simp only
        rw [hs fuel hf, hs _ le_rfl]
      · obtain ⟨j, hj, hpre, hnj⟩ := first_failing _ _ h
        obtain ⟨e, s, -, hs⟩ := (fwd_fate cfg hpos src r o).2 j hj hpre hnj
        simp only
        rw [hs fuel hf, hs _ le_rfl]

/-- The whole run, however long it is allowed to be, is what forward `track` does. -/
theorem C109_whole_run_forward (lib : Library m n α) (cfg : Loaded (TrackSettings α)) (fs : FileSystem)
    (hb : cfg.config.rest.backward = false) (hpos : 0 < cfg.config.rest.timestep) (fuel : ℕ)
    (hf : ((cfg.config.dates .tracking_end_date - cfg.config.dates .tracking_start_date) /
      (cfg.config.rest.timestep * 1000000)).toNat ≤ fuel) :
    EndsLike lib.showFwd
      (fwdRun cfg.runConfig (fwdSource lib cfg fs) (fun t => cfg.output ++ [outputName cfg.calendar false t])
        (restartFile lib.readFwd fs) fuel)
      (trackExperiment lib cfg fs) := by
  have h1 := (C109_forward lib cfg fs hb).2.1
  have h2 : cfg.fuel = runSteps cfg.runConfig := rfl
  rw [fwd_enough cfg.runConfig hpos _ _ _ fuel hf, ← h2]
  exact h1

private theorem bwd_enough (cfg : RunConfig α) (hpos : 0 < cfg.timestep) (src : Source m n α) {P : Type} (path : ℤ → P)
    (disk : P → Option (BwdOutput (m + 2) (n + 2) α)) (fuel : ℕ) (hf : runSteps cfg ≤ fuel) :
    bwdRun cfg src path disk fuel = bwdRun cfg src path disk (runSteps cfg) := by
  unfold bwdRun
  cases bwdInitialize cfg src path disk with
  | error e => rfl
  | ok o =>
    cases src.region with
    | error e => rfl
    | ok r =>
      by_cases h : ∀ k < runSteps cfg, StepDataBwd cfg src r (timeBwd cfg k)
      · obtain ⟨s, -, hs⟩ := (bwd_fate cfg hpos src r o).1 h
        simp only
        rw [hs fuel hf, hs _ le_rfl]
      · obtain ⟨j, hj, hpre, hnj⟩ := first_failing _ _ h
        obtain ⟨e, s, -, hs⟩ := (bwd_fate cfg hpos src r o).2 j hj hpre hnj
        simp only
        rw [hs fuel hf, hs _ le_rfl]

/-- The whole run, however long it is allowed to be, is what backward `track` does. -/
theorem C109_whole_run_backward (lib : Library m n α) (cfg : Loaded (TrackSettings α)) (fs : FileSystem)
    (hb : cfg.config.rest.backward = true) (hpos : 0 < cfg.config.rest.timestep) (fuel : ℕ)
    (hf : ((cfg.config.dates .tracking_end_date - cfg.config.dates .tracking_start_date) /
      (cfg.config.rest.timestep * 1000000)).toNat ≤ fuel) :
    EndsLike lib.showBwd
      (bwdRun cfg.runConfig (bwdSource lib cfg fs) (fun t => cfg.output ++ [outputName cfg.calendar true t])
        (restartFile lib.readBwd fs) fuel)
      (trackExperiment lib cfg fs) := by
  have h1 := (C109_backward lib cfg fs hb).2.1
  have h2 : cfg.fuel = runSteps cfg.runConfig := rfl
  rw [bwd_enough cfg.runConfig hpos _ _ _ fuel hf, ← h2]
  exact h1

/-- The grid of the run, and the weights of its report, are those of the axes of the first states: at the start of the tracking
period forward, at its end backward. -/
theorem C109_grid (lib : Library m n α) (cfg : Loaded (TrackSettings α)) (fs : FileSystem) (ds : Dataset α α) :
    let lat : Fin (m + 2) → α := fun i => ds.latitude.getD i (NpOps.ofRat 0)
    let lon : Fin (n + 2) → α := fun j => ds.longitude.getD j (NpOps.ofRat 0)
    (loadData (dataFiles lib cfg fs) cfg.ioConfig (cfg.config.dates .tracking_start_date) .states = .ok ds →
      (fwdSource lib cfg fs).grid = getGridInfo lat lon) ∧
    (loadData (dataFiles lib cfg fs) cfg.ioConfig (cfg.config.dates .tracking_end_date) .states = .ok ds →
      (bwdSource lib cfg fs).grid = getGridInfo lat lon) := by
  intro lat lon
  constructor
  · intro h
    have h' : loadData (dataFiles lib cfg fs) cfg.ioConfig cfg.runConfig.tracking_start_date .states = .ok ds := h
    unfold fwdSource experimentSource
    rw [h']
    rfl
  · intro h
    have h' : loadData (dataFiles lib cfg fs) cfg.ioConfig cfg.runConfig.tracking_end_date .states = .ok ds := h
    unfold bwdSource experimentSource
    rw [h']
    rfl

private theorem outputs_split {t : ℤ} {x : List Char} {a : List (ℤ × List Char)} : ∀ (ss : List Saving)
    (b : List (ℤ × List Char)), outputs ss = b ++ (t, x) :: a →
    ∃ s1 s2, ss = s1 ++ .output t x :: s2 ∧ outputs s2 = a := by
  intro ss
  induction ss with
  | nil => intro b h; cases b <;> cases h
  | cons y ss ih =>
    intro b h
    have other : outputs ss = b ++ (t, x) :: a → ∃ s1 s2, y :: ss = s1 ++ .output t x :: s2 ∧ outputs s2 = a := by
      intro h
      obtain ⟨s1, s2, h1, h2⟩ := ih b h
      exact ⟨y :: s1, s2, by rw [h1]; rfl, h2⟩
    cases y with
    | output t' x' =>
      cases b with
      | nil =>
        injection h with h1 h2
        injection h1 with h3 h4
        subst h3; subst h4
        exact ⟨[], ss, rfl, h2⟩
      | cons z b =>
        injection h with h1 h2
        obtain ⟨s1, s2, h3, h4⟩ := ih b h2
        exact ⟨.output t' x' :: s1, s2, by rw [h3]; rfl, h4⟩
    | correction t' x' => exact other h
    | region x' => exact other h
    | day t' x' => exact other h
    | figure t' x' => exact other h

theorem outputs_mem {t : ℤ} {x : List Char} : ∀ (ss : List Saving), Saving.output t x ∈ ss →
    (t, x) ∈ outputs ss := by
  intro ss
  induction ss with
  | nil => intro h; cases h
  | cons y ss ih =>
    intro h
    rcases List.mem_cons.1 h with rfl | h
    · exact List.mem_cons_self ..
    · have := ih h
      cases y with
      | output t' x' => exact List.mem_cons_of_mem _ this
      | correction t' x' => exact this
      | region x' => exact this
      | day t' x' => exact this
      | figure t' x' => exact this

theorem output_path (c : Calendar) (b : Bool) (F : FPath) (t : ℤ) (x : List Char) :
    (Saving.output t x).path c b F = F ++ [outputName c b t] := by
  show F ++ [] ++ [outputName c b t] = _
  rw [List.append_nil]

theorem paths_differ {c : Calendar} {b : Bool} {F : FPath} {t : ℤ} {x : List Char} {s2 : List Saving}
    (hT : ∀ y ∈ s2, IsTracking y) (h : ∀ y ∈ outputs s2, outputName c b y.1 ≠ outputName c b t) :
    ∀ y ∈ s2, y.path c b F ≠ (Saving.output t x).path c b F := by
  intro y hy
  rw [output_path]
  have two : ∀ a e : List Char, F ++ [a] ++ [e] ≠ F ++ [outputName c b t] := by
    intro a e h; have := congrArg List.length h; simp at this
  cases y with
  | output t' x' =>
    rw [output_path]
    intro e
    have := List.append_cancel_left e
    injection this with this
    exact h _ (outputs_mem _ hy) this
  | correction t' x' => exact two _ _
  | region x' => exact two _ _
  | day t' x' => exact (hT _ hy).elim
  | figure a b => exact (hT _ hy).elim

/-- The heart of the two theorems below: when `track` has ended normally, what the experiment wrote as output is on
disk, computed from the input files that were there at the beginning. -/
theorem track_written (lib : Library m n α) (hfirst : ∀ q name, lib.first q = some name → q name = true)
    (parse : List Char → Except Err (FileSettings (TrackSettings α))) (cwd dir : FPath) (name : List Char)
    (fs : FileSystem) (text stamp : List Char) (s : FileSettings (TrackSettings α)) (cfg : Loaded (TrackSettings α))
    (hf : fs (dir ++ [name]) = some (.file text)) (hp : parse text = .ok s) (hcfg : LoadedFrom cwd s cfg)
    (hlog : name ≠ "wam2layers_".toList ++ stamp ++ ".log".toList)
    (hin : ∀ p, TrackInput cfg p → ¬ ConfigFolder cwd s.folders p ∧ ¬ Record cfg.output stamp name p)
    (hT : ∀ fs, ∀ x ∈ (trackExperiment lib cfg fs).1, IsTracking x)
    (chs : List Change) (u : Unit)
    (h : command parse cwd (dir ++ [name]) stamp (fun r => r.backward) (fun cfg => some cfg.output)
      (trackExperiment lib) fs = (chs, .ok u)) :
    (trackExperiment lib cfg fs).2 = none ∧
    ∀ before t x after, outputs (trackExperiment lib cfg fs).1 = before ++ (t, x) :: after →
      (∀ y ∈ after, outputName cfg.calendar cfg.config.rest.backward y.1 ≠
        outputName cfg.calendar cfg.config.rest.backward t) →
      applyChanges fs chs (cfg.output ++ [outputName cfg.calendar cfg.config.rest.backward t]) = some (.file x) := by
  have hlog' : cfg.output ++ ["wam2layers_".toList ++ stamp ++ ".log".toList] ≠ dir ++ [name] := by
    intro h
    have := List.append_inj_right' h rfl
    injection this with this
    exact hlog this.symm
  obtain ⟨cfg', fs1, h1, h2, h3, -, h4⟩ := C106_all_written parse cwd dir name fs text stamp s (fun r => r.backward)
    (fun cfg => some cfg.output) (trackExperiment lib) cfg.output hf hp
    (fun cfg' hl => by rw [loadedFrom_unique hl hcfg]) hlog' chs u h
  have hc := loadedFrom_unique h1 hcfg
  subst hc
  have hsame : trackExperiment lib cfg' fs1 = trackExperiment lib cfg' fs := by
    refine C109_reads lib hfirst cfg' fs1 fs ?_
    intro p hp
    obtain ⟨a, b⟩ := hin p hp
    rcases h2 p with h | ⟨h, _⟩ | ⟨h, _⟩
    · exact h
    · exact absurd h a
    · exact absurd h b
  rw [hsame] at h3 h4
  refine ⟨h3, ?_⟩
  intro before t x after h5 h6
  obtain ⟨s1, s2, h7, h8⟩ := outputs_split _ _ h5
  have h9 := h4 s1 (.output t x) s2 h7 ?_
  · rw [output_path] at h9; exact h9
  · refine paths_differ ?_ ?_
    · intro y hy
      exact hT fs y (by rw [h7]; exact List.mem_append_right _ (List.mem_cons_of_mem _ hy))
    · rw [h8]; exact h6

/-- Forward: when `track` has ended normally, the run from the input files that were there at the beginning is finished, and
every output of it is in the output folder, under the name of its time (unless a later output has the same name). -/
theorem C109_forward_files (lib : Library m n α) (hfirst : ∀ q name, lib.first q = some name → q name = true)
    (parse : List Char → Except Err (FileSettings (TrackSettings α))) (cwd dir : FPath) (name : List Char)
    (fs : FileSystem) (text stamp : List Char) (s : FileSettings (TrackSettings α)) (cfg : Loaded (TrackSettings α))
    (hf : fs (dir ++ [name]) = some (.file text)) (hp : parse text = .ok s) (hcfg : LoadedFrom cwd s cfg)
    (hb : cfg.config.rest.backward = false)
    (hlog : name ≠ "wam2layers_".toList ++ stamp ++ ".log".toList)
    (hin : ∀ p, TrackInput cfg p → ¬ ConfigFolder cwd s.folders p ∧ ¬ Record cfg.output stamp name p)
    (chs : List Change) (u : Unit)
    (h : command parse cwd (dir ++ [name]) stamp (fun r => r.backward) (fun cfg => some cfg.output)
      (trackExperiment lib) fs = (chs, .ok u)) :
    ∃ s', fwdRun cfg.runConfig (fwdSource lib cfg fs) (fun t => cfg.output ++ [outputName cfg.calendar false t])
        (restartFile lib.readFwd fs) cfg.fuel = .finished s' ∧ AsConfigured cfg cfg.runConfig cfg.ioConfig ∧
      ∀ before t o after, s'.files = before ++ (t, o) :: after →
        (∀ y ∈ after, minuteString (dateTimeOf cfg.calendar y.1) ≠ minuteString (dateTimeOf cfg.calendar t)) →
        applyChanges fs chs (cfg.output ++
          ["forwardtrack_".toList ++ minuteString (dateTimeOf cfg.calendar t) ++ ".nc".toList]) =
            some (.file (lib.showFwd o)) := by
  have hname : ∀ t, outputName cfg.calendar cfg.config.rest.backward t =
      "forwardtrack_".toList ++ minuteString (dateTimeOf cfg.calendar t) ++ ".nc".toList := by
    intro t
    rw [hb]; unfold outputName
    have h : "forwardtrack_".toList = modeString false ++ ['_'] := rfl
    rw [h]; simp only [List.append_assoc, List.cons_append, List.nil_append]
  obtain ⟨h1, h2⟩ := track_written lib hfirst parse cwd dir name fs text stamp s cfg hf hp hcfg hlog hin
    (fun fs => (C109_forward lib cfg fs hb).2.2) chs u h
  have h3 := (C109_forward lib cfg fs hb).2.1
  rcases hr : fwdRun cfg.runConfig (fwdSource lib cfg fs) (fun t => cfg.output ++ [outputName cfg.calendar false t])
        (restartFile lib.readFwd fs) cfg.fuel with s' | ⟨e, s'⟩ | s'
  · rw [hr] at h3
    refine ⟨s', rfl, C109_settings cfg, ?_⟩
    intro before t o after h4 h5
    have h6 := h2 (before.map fun x => (x.1, lib.showFwd x.2)) t (lib.showFwd o)
      (after.map fun x => (x.1, lib.showFwd x.2)) (by rw [h3.1, h4]; simp) ?_
    · rw [hname] at h6; exact h6
    · intro y hy
      obtain ⟨z, hz, rfl⟩ := List.mem_map.1 hy
      rw [hname, hname]
      intro e
      exact h5 z hz (List.append_cancel_left (List.append_cancel_right e))
  · rw [hr] at h3; rw [h3.2] at h1; cases h1
  · rw [hr] at h3; exact absurd h1 h3.2

/-- Backward. -/
theorem C109_backward_files (lib : Library m n α) (hfirst : ∀ q name, lib.first q = some name → q name = true)
    (parse : List Char → Except Err (FileSettings (TrackSettings α))) (cwd dir : FPath) (name : List Char)
    (fs : FileSystem) (text stamp : List Char) (s : FileSettings (TrackSettings α)) (cfg : Loaded (TrackSettings α))
    (hf : fs (dir ++ [name]) = some (.file text)) (hp : parse text = .ok s) (hcfg : LoadedFrom cwd s cfg)
    (hb : cfg.config.rest.backward = true)
    (hlog : name ≠ "wam2layers_".toList ++ stamp ++ ".log".toList)
    (hin : ∀ p, TrackInput cfg p → ¬ ConfigFolder cwd s.folders p ∧ ¬ Record cfg.output stamp name p)
    (chs : List Change) (u : Unit)
    (h : command parse cwd (dir ++ [name]) stamp (fun r => r.backward) (fun cfg => some cfg.output)
      (trackExperiment lib) fs = (chs, .ok u)) :
    ∃ s', bwdRun cfg.runConfig (bwdSource lib cfg fs) (fun t => cfg.output ++ [outputName cfg.calendar true t])
        (restartFile lib.readBwd fs) cfg.fuel = .finished s' ∧ AsConfigured cfg cfg.runConfig cfg.ioConfig ∧
      ∀ before t o after, s'.files = before ++ (t, o) :: after →
        (∀ y ∈ after, minuteString (dateTimeOf cfg.calendar y.1) ≠ minuteString (dateTimeOf cfg.calendar t)) →
        applyChanges fs chs (cfg.output ++
          ["backtrack_".toList ++ minuteString (dateTimeOf cfg.calendar t) ++ ".nc".toList]) =
            some (.file (lib.showBwd o)) := by
  have hname : ∀ t, outputName cfg.calendar cfg.config.rest.backward t =
      "backtrack_".toList ++ minuteString (dateTimeOf cfg.calendar t) ++ ".nc".toList := by
    intro t
    rw [hb]; unfold outputName
    have h : "backtrack_".toList = modeString true ++ ['_'] := rfl
    rw [h]; simp only [List.append_assoc, List.cons_append, List.nil_append]
  obtain ⟨h1, h2⟩ := track_written lib hfirst parse cwd dir name fs text stamp s cfg hf hp hcfg hlog hin
    (fun fs => (C109_backward lib cfg fs hb).2.2) chs u h
  have h3 := (C109_backward lib cfg fs hb).2.1
  rcases hr : bwdRun cfg.runConfig (bwdSource lib cfg fs) (fun t => cfg.output ++ [outputName cfg.calendar true t])
        (restartFile lib.readBwd fs) cfg.fuel with s' | ⟨e, s'⟩ | s'
  · rw [hr] at h3
    refine ⟨s', rfl, C109_settings cfg, ?_⟩
    intro before t o after h4 h5
    have h6 := h2 (before.map fun x => (x.1, lib.showBwd x.2)) t (lib.showBwd o)
      (after.map fun x => (x.1, lib.showBwd x.2)) (by rw [h3.1, h4]; simp) ?_
    · rw [hname] at h6; exact h6
    · intro y hy
      obtain ⟨z, hz, rfl⟩ := List.mem_map.1 hy
      rw [hname, hname]
      intro e
      exact h5 z hz (List.append_cancel_left (List.append_cancel_right e))
  · rw [hr] at h3; rw [h3.2] at h1; cases h1
  · rw [hr] at h3; exact absurd h1 h3.2

/-- `track` can be given again: if it would succeed, it does so after any number of interrupted attempts, with the same
result; the input has to be outside of the output folder, so this is not for a restart (which reads from
it). -/
theorem C108_tracking_again (lib : Library m n α) (hfirst : ∀ q name, lib.first q = some name → q name = true)
    (parse : List Char → Except Err (FileSettings (TrackSettings α))) (cwd dir : FPath) (stem : List Char)
    (fs fs' : FileSystem) (text stamp stamp' : List Char) (s : FileSettings (TrackSettings α))
    (cfg : Loaded (TrackSettings α)) (hw : WellFormed fs)
    (hf : fs (dir ++ [stem ++ ".yaml".toList]) = some (.file text)) (hp : parse text = .ok s)
    (hcfg : LoadedFrom cwd s cfg)
    (hin : ∀ p, TrackInput cfg p ∨ p = dir ++ [stem ++ ".yaml".toList] →
      ¬ Below cfg.output p ∧ ¬ ConfigFolder cwd s.folders p)
    (hfold : ∀ p, ConfigFolder cwd s.folders p → ¬ Below cfg.output p)
    (hplace : ∀ p, LogFile cfg.output p ∨ p = cfg.output ++ [stem ++ ".yaml".toList] ∨
      TrackFile cfg.calendar cfg.output p → fs p ≠ some .dir)
    (hok : (command parse cwd (dir ++ [stem ++ ".yaml".toList]) stamp (fun r => r.backward)
      (fun cfg => some cfg.output) (trackExperiment lib) fs).2 = .ok ())
    (hatt : Attempts (fun st => command parse cwd (dir ++ [stem ++ ".yaml".toList]) st (fun r => r.backward)
      (fun cfg => some cfg.output) (trackExperiment lib)) fs fs') :
    (command parse cwd (dir ++ [stem ++ ".yaml".toList]) stamp' (fun r => r.backward) (fun cfg => some cfg.output)
      (trackExperiment lib) fs').2 = .ok () ∧
    ∀ p, ¬ LogFile cfg.output p →
      after (command parse cwd (dir ++ [stem ++ ".yaml".toList]) stamp' (fun r => r.backward)
        (fun cfg => some cfg.output) (trackExperiment lib)) fs' p =
      after (command parse cwd (dir ++ [stem ++ ".yaml".toList]) stamp (fun r => r.backward)
        (fun cfg => some cfg.output) (trackExperiment lib)) fs p := by
  have hT : ∀ x ∈ (trackExperiment lib cfg fs).1, IsTracking x := by
    rcases hb : cfg.config.rest.backward with _ | _
    · exact (C109_forward lib cfg fs hb).2.2
    · exact (C109_backward lib cfg fs hb).2.2
  exact C108_track_again parse cwd dir stem fs fs' text stamp stamp' s cfg _ _ (TrackInput cfg) hw hf hp hcfg hT
    (C109_reads lib hfirst cfg) hin hfold hplace hok hatt

end Wam
