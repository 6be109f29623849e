import Verif.Spec.Split
import Verif.Props.PrepCommand
import Verif.Props.Restart
import Verif.Props.Works

/-!
# C115: tracking in two commands
-/

set_option linter.unusedSectionVars false
set_option linter.unusedVariables false

namespace Wam
open Spec

section
variable {m n : ℕ} {α : Type} [Add α] [Sub α] [Mul α] [Div α] [Neg α] [NpOps α] [LinearOrder α] [NpTrig α]

private theorem log_apart {c : TrackCall α} {cfg : Loaded (TrackSettings α)} {F : FPath}
    (h : c.stem ++ ".yaml".toList ≠ "wam2layers_".toList ++ c.stamp ++ ".log".toList) :
    F ++ ["wam2layers_".toList ++ c.stamp ++ ".log".toList] ≠ c.dir ++ [c.stem ++ ".yaml".toList] := by
  intro h'
  have := List.append_inj_right' h' rfl
  injection this with this
  exact h this.symm

/-- what a command has changed when it has ended: only what its own experiment writes -/
private theorem call_changes (lib : Library m n α) (hfirst : ∀ q name, lib.first q = some name → q name = true)
    (parse : List Char → Except Err (FileSettings (TrackSettings α))) (c : TrackCall α) (fs : FileSystem)
    (cfg : Loaded (TrackSettings α)) (w : c.Works lib parse fs cfg) :
    ChangedOnly (MayMake c.cwd c.settings.folders cfg.output cfg.calendar cfg.config.rest.backward
        (trackExperiment lib cfg fs).1)
      (fun p => Record cfg.output c.stamp (c.stem ++ ".yaml".toList) p ∨ ∃ x ∈ (trackExperiment lib cfg fs).1,
        p = x.path cfg.calendar cfg.config.rest.backward cfg.output) fs (after (c.act lib parse) fs) := by
  obtain ⟨⟨text, hf, hp⟩, hcfg, hlog⟩ := w.given
  have hends := w.ends
  unfold TrackCall.act at hends
  rcases hcmd : command parse c.cwd (c.dir ++ [c.stem ++ ".yaml".toList]) c.stamp (fun r => r.backward)
    (fun cfg => some cfg.output) (trackExperiment lib) fs with ⟨chs, r⟩
  rw [hcmd] at hends
  simp only at hends
  subst hends
  obtain ⟨cfg', fs1, h1, h2, -, h4, -⟩ := C106_all_written parse c.cwd c.dir (c.stem ++ ".yaml".toList) fs text c.stamp
    c.settings (fun r => r.backward) (fun cfg => some cfg.output) (trackExperiment lib) cfg.output hf hp
    (fun cfg' hl => by rw [loadedFrom_unique hl hcfg]) (log_apart (cfg := cfg) hlog) chs () hcmd
  have hc := loadedFrom_unique h1 hcfg
  subst hc
  have hsame : trackExperiment lib cfg' fs1 = trackExperiment lib cfg' fs := by
    refine C109_reads lib hfirst cfg' fs1 fs ?_
    intro p hp
    obtain ⟨a, b⟩ := w.input p hp
    rcases h2 p with h | ⟨h, _⟩ | ⟨h, _⟩
    · exact h
    · exact absurd h a
    · exact absurd h b
  rw [hsame] at h4
  unfold after TrackCall.act
  rw [hcmd]
  exact h4

private theorem call_tracking (lib : Library m n α) (cfg : Loaded (TrackSettings α)) (fs : FileSystem) :
    ∀ x ∈ (trackExperiment lib cfg fs).1, IsTracking x := by
  rcases hb : cfg.config.rest.backward with _ | _
  · exact (C109_forward lib cfg fs hb).2.2
  · exact (C109_backward lib cfg fs hb).2.2

/-- an output file of an earlier command is still there, if the command writes none with its name -/
theorem call_keeps (lib : Library m n α) (hfirst : ∀ q name, lib.first q = some name → q name = true)
    (parse : List Char → Except Err (FileSettings (TrackSettings α))) (c : TrackCall α) (fs : FileSystem)
    (cfg : Loaded (TrackSettings α)) (w : c.Works lib parse fs cfg) (t : ℤ) (x : List Char)
    (hold : fs (cfg.output ++ [outputName cfg.calendar cfg.config.rest.backward t]) = some (.file x))
    (hno : ∀ y ∈ outputs (trackExperiment lib cfg fs).1, outputName cfg.calendar cfg.config.rest.backward y.1 ≠
      outputName cfg.calendar cfg.config.rest.backward t) :
    after (c.act lib parse) fs (cfg.output ++ [outputName cfg.calendar cfg.config.rest.backward t]) = some (.file x) := by
  have hnc : ∃ a, outputName cfg.calendar cfg.config.rest.backward t = a ++ ".nc".toList := by
    unfold outputName
    exact ⟨modeString cfg.config.rest.backward ++ '_' :: minuteString (dateTimeOf cfg.calendar t), by simp⟩
  rcases call_changes lib hfirst parse c fs cfg w
    (cfg.output ++ [outputName cfg.calendar cfg.config.rest.backward t]) with h | ⟨-, h, -⟩ | ⟨h, -⟩
  · rw [h]; exact hold
  · rw [hold] at h; cases h
  · exfalso
    obtain ⟨a, ha⟩ := hnc
    rcases h with h | ⟨y, hy, h⟩
    · generalize hq : cfg.output ++ [outputName cfg.calendar cfg.config.rest.backward t] = q at h
      rw [ha] at hq
      rcases h with _ | _
      · exact nc_ne_log a _ (append_last_eq hq)
      · have := append_last_eq hq
        have h2 := congrArg List.getLast? this
        rw [show ".nc".toList = ['.', 'n'] ++ ['c'] from rfl, show ".yaml".toList = ['.', 'y', 'a', 'm'] ++ ['l'] from rfl,
          ← List.append_assoc, ← List.append_assoc, List.getLast?_concat, List.getLast?_concat] at h2
        injection h2 with h2
        revert h2
        decide
    · refine paths_differ (x := []) (s2 := (trackExperiment lib cfg fs).1) (F := cfg.output)
        (fun y hy => call_tracking lib cfg fs y hy) hno y hy ?_
      rw [← h, output_path]

/-- the input outside of the output folder is unchanged -/
theorem call_input (lib : Library m n α) (hfirst : ∀ q name, lib.first q = some name → q name = true)
    (parse : List Char → Except Err (FileSettings (TrackSettings α))) (c : TrackCall α) (fs : FileSystem)
    (cfg : Loaded (TrackSettings α)) (w : c.Works lib parse fs cfg) (p : FPath) (hp : TrackInput cfg p)
    (hb : ¬ Below cfg.output p) : after (c.act lib parse) fs p = fs p := by
  have below : ∀ r, r ≠ [] → p ≠ cfg.output ++ r := fun r hr h => hb ⟨r, hr, h⟩
  rcases call_changes lib hfirst parse c fs cfg w p with h | ⟨h | ⟨x, hx, sub, hs, h⟩, -⟩ | ⟨h | ⟨x, hx, h⟩, -⟩
  · exact h
  · exact absurd h (w.input p hp).1
  · exact absurd h (below _ (by simp))
  · exact absurd h (w.input p hp).2
  · have := below_of_trackFile (tracking_place (call_tracking lib cfg fs x hx) cfg.calendar
      cfg.config.rest.backward cfg.output).1
    rw [← h] at this
    exact absurd this hb

theorem input_of_plain {cfg cfg' : Loaded (TrackSettings α)} (h1 : cfg'.preprocessed = cfg.preprocessed)
    (h2 : cfg'.config.rest.tagging_region = cfg.config.rest.tagging_region) (h3 : cfg'.calendar = cfg.calendar)
    {p : FPath} (h : TrackInput (withRestart false cfg) p) : TrackInput cfg' p := by
  rcases h with ⟨pre, t, h⟩ | ⟨_, h⟩ | ⟨_, h⟩ | ⟨pre, q, name, hp, h⟩ | ⟨h, _⟩ | ⟨h, _⟩
  · have : TrackInput cfg' (pre ++ [dayString (dateTimeOf cfg'.calendar t).date ++ "_fluxes_storages.nc".toList]) :=
      TrackInput.data pre t (h1.trans h)
    rw [h3] at this
    exact this
  · exact TrackInput.tag _ (h2.trans h)
  · exact TrackInput.shape _ (h2.trans h)
  · exact TrackInput.axes pre q name (h1.trans hp) (h2.trans h)
  · cases h
  · cases h

theorem source_at (lib : Library m n α) (hfirst : ∀ q name, lib.first q = some name → q name = true)
    (cfg : Loaded (TrackSettings α)) (fs fs' : FileSystem)
    (h : ∀ p, TrackInput (withRestart false cfg) p → fs' p = fs p) (t u : ℤ) (hax : SameAxes lib cfg fs t u) :
    experimentSource (m := m) (n := n) (dataFiles lib cfg fs') cfg.ioConfig (taggingOf lib cfg fs') u =
      experimentSource (dataFiles lib cfg fs) cfg.ioConfig (taggingOf lib cfg fs) t := by
  have h1 : taggingOf lib cfg fs' = taggingOf lib cfg fs :=
    (taggingOf_congr lib (withRestart false cfg) fs' fs h hfirst).1
  rw [h1, experimentSource_congr (m := m) (n := n) (dataFiles lib cfg fs') (dataFiles lib cfg fs) cfg.ioConfig
    (dataFiles_congr lib (withRestart false cfg) fs' fs h) _ _]
  obtain ⟨d, e, hd, he, h2, h3⟩ := hax
  unfold experimentSource
  rw [hd, he]
  simp only [h2, h3]

/-- the second command is still ready when the first one has ended -/
theorem ready_after (lib : Library m n α) (hfirst : ∀ q name, lib.first q = some name → q name = true)
    (parse : List Char → Except Err (FileSettings (TrackSettings α))) (c d : TrackCall α) (fs : FileSystem)
    (cfg cfg' : Loaded (TrackSettings α)) (ho : cfg'.output = cfg.output) (hc : cfg'.calendar = cfg.calendar)
    (w : c.Works lib parse fs cfg) (r : c.Ready parse fs cfg) (r' : d.Ready parse fs cfg') :
    d.Ready parse (after (c.act lib parse) fs) cfg' := by
  have hch := call_changes lib hfirst parse c fs cfg w
  have hbelow : ∀ p, (Record cfg.output c.stamp (c.stem ++ ".yaml".toList) p ∨ ∃ x ∈ (trackExperiment lib cfg fs).1,
        p = x.path cfg.calendar cfg.config.rest.backward cfg.output) →
      Record cfg.output c.stamp (c.stem ++ ".yaml".toList) p ∨ TrackFile cfg.calendar cfg.output p := by
    rintro p (h | ⟨x, hx, rfl⟩)
    · exact .inl h
    · exact .inr (tracking_place (call_tracking lib cfg fs x hx) _ _ _).1
  have hb2 : ∀ (st nm : List Char) p, Record cfg.output st nm p ∨ TrackFile cfg.calendar cfg.output p → Below cfg.output p := by
    rintro st nm p (h | h)
    · cases h <;> exact ⟨_, by simp, rfl⟩
    · exact below_of_trackFile h
  have hdebug : ∀ p, MayMake c.cwd c.settings.folders cfg.output cfg.calendar cfg.config.rest.backward
      (trackExperiment lib cfg fs).1 p → ConfigFolder c.cwd c.settings.folders p ∨ p = cfg.output ++ ["debug".toList] := by
    rintro p (h | ⟨x, hx, sub, hs, rfl⟩)
    · exact .inl h
    · rw [(tracking_place (call_tracking lib cfg fs x hx) cfg.calendar cfg.config.rest.backward cfg.output).2 sub hs]
      exact .inr rfl
  have nodebug : ∀ st stem : List Char, ¬ (Record cfg.output st (stem ++ ".yaml".toList) (cfg.output ++ ["debug".toList]) ∨
      TrackFile cfg.calendar cfg.output (cfg.output ++ ["debug".toList])) := by
    rintro st stem (h | h)
    · generalize hq : cfg.output ++ ["debug".toList] = q at h
      rcases h with _ | _
      · exact debug_ne_log _ (append_last_eq hq)
      · exact debug_ne_yaml _ (append_last_eq hq)
    · exact track_not_debug h
  obtain ⟨⟨text, hf, hp⟩, hcfg, hlog⟩ := r'.given
  refine ⟨⟨⟨text, ?_, hp⟩, hcfg, hlog⟩, r'.input, ?_, ?_, ?_, ?_, r'.room.apart, r'.room.own⟩
  · rcases hch (d.dir ++ [d.stem ++ ".yaml".toList]) with h | ⟨-, h, -⟩ | ⟨h, -⟩
    · rw [h]; exact hf
    · rw [hf] at h; cases h
    · have := hb2 _ _ _ (hbelow _ h)
      rw [← ho] at this
      exact absurd this r'.room.own
  · exact solid_moment (solid_command _ _ _ _ _ _ _) r.room.wf ⟨_, by rw [List.take_length]; rfl⟩
  · intro p hpf text' hfile
    rcases hch p with h | ⟨-, -, h⟩ | ⟨h, -⟩
    · exact r'.room.folders p hpf text' (by rw [← h]; exact hfile)
    · rw [h] at hfile; cases hfile
    · have := hb2 _ _ _ (hbelow _ h)
      rw [← ho] at this
      exact r'.room.apart p hpf this
  · intro text' hfile
    rw [ho] at hfile
    rcases hch (cfg.output ++ ["debug".toList]) with h | ⟨-, -, h⟩ | ⟨h, -⟩
    · have := r'.room.debug text'
      rw [ho] at this
      exact this (by rw [← h]; exact hfile)
    · rw [h] at hfile; cases hfile
    · exact nodebug _ _ (hbelow _ h)
  · intro p hpr hdir
    rw [ho, hc] at hpr
    rcases hch p with h | ⟨h, -, -⟩ | ⟨h, -, text', h'⟩
    · have := r'.room.files p (by rw [ho, hc]; exact hpr)
      exact this (by rw [← h]; exact hdir)
    · rcases hdebug p h with h | rfl
      · exact r.room.apart p h (hb2 _ _ _ hpr)
      · exact nodebug _ _ hpr
    · rw [h'] at hdir; cases hdir

end

section
variable {m n : ℕ} {K : Type} [Field K] [LinearOrder K] [IsStrictOrderedRing K] [NpTrig K]

theorem fwd_finished {P : Type} {cfg : RunConfig K} {src : Source m n K} {inp : Input m n K} {path : ℤ → P}
    {disk : P → Option (FwdOutput (m + 2) (n + 2) K)} (h : Runnable cfg src inp) {fuel : ℕ} {s}
    (hs : fwdRun cfg src path disk fuel = .finished s) :
    ∃ o r, fwdInitialize cfg src path disk = .ok o ∧ s = fwdStateAt cfg src inp r o cfg.steps ∧
      EndsIn (fwdRun cfg src path disk) s := by
  rcases ho : fwdInitialize cfg src path disk with e | o
  · simp [fwdRun, ho] at hs
  · obtain ⟨r, -, -, hall⟩ := fwd_run_eq cfg src inp path disk h o ho
    rw [hall] at hs
    by_cases hf : fuel < cfg.steps
    · rw [if_pos hf] at hs; cases hs
    · rw [if_neg hf] at hs
      injection hs with hs
      subst hs
      exact ⟨o, r, rfl, rfl, cfg.steps, fun fuel hf => by rw [hall, if_neg (by omega)]⟩

theorem forward_name' (c : Calendar) (t : ℤ) : outputName c false t =
    "forwardtrack_".toList ++ minuteString (dateTimeOf c t) ++ ".nc".toList := by
  unfold outputName
  have h : "forwardtrack_".toList = modeString false ++ ['_'] := rfl
  rw [h]; simp only [List.append_assoc, List.cons_append, List.nil_append]

theorem call_files_fwd (lib : Library m n K) (hfirst : ∀ q name, lib.first q = some name → q name = true)
    (parse : List Char → Except Err (FileSettings (TrackSettings K))) (c : TrackCall K) (fs : FileSystem)
    (cfg : Loaded (TrackSettings K)) (w : c.Works lib parse fs cfg) (hb : cfg.config.rest.backward = false) :
    ∃ s', fwdRun cfg.runConfig (fwdSource lib cfg fs) (fun t => cfg.output ++ [outputName cfg.calendar false t])
        (restartFile lib.readFwd fs) cfg.fuel = .finished s' ∧
      ∀ before t o aft, s'.files = before ++ (t, o) :: aft →
        (∀ y ∈ aft, minuteString (dateTimeOf cfg.calendar y.1) ≠ minuteString (dateTimeOf cfg.calendar t)) →
        after (c.act lib parse) fs (forwardFile cfg t) = some (.file (lib.showFwd o)) := by
  obtain ⟨⟨text, hf, hp⟩, hcfg, hlog⟩ := w.given
  have hends := w.ends
  unfold TrackCall.act at hends
  rcases hcmd : command parse c.cwd (c.dir ++ [c.stem ++ ".yaml".toList]) c.stamp (fun r => r.backward)
    (fun cfg => some cfg.output) (trackExperiment lib) fs with ⟨chs, r⟩
  rw [hcmd] at hends
  simp only at hends
  subst hends
  obtain ⟨s1, k1, -, k2⟩ := C109_forward_files lib hfirst parse c.cwd c.dir _ fs text c.stamp c.settings cfg hf hp hcfg hb
    hlog w.input chs () hcmd
  refine ⟨s1, k1, ?_⟩
  unfold after TrackCall.act
  rw [hcmd]
  exact k2

/-- what the first command leaves: its files, and the source for the second -/
theorem first_part_fwd (lib : Library m n K) (hfirst : ∀ q name, lib.first q = some name → q name = true)
    (parse : List Char → Except Err (FileSettings (TrackSettings K))) (fs : FileSystem)
    (cfg : Loaded (TrackSettings K)) (hb : cfg.config.rest.backward = false)
    (inp : Input m n K) (hR : Runnable cfg.runConfig (fwdSource lib cfg fs) inp)
    (hapart : ∀ p, TrackInput (withRestart false cfg) p → ¬ Below cfg.output p)
    (b : ℕ) (hbN : b + 1 ≤ cfg.runConfig.steps)
    (hw : (fwdProc cfg.runConfig (fwdSource lib cfg fs).grid inp).write (b + 1) = true)
    (hax : SameAxes lib cfg fs (cfg.config.dates .tracking_start_date) (cfg.runConfig.fwdTime (b + 1)))
    (o : FwdOutput (m + 2) (n + 2) K) (ho : fwdInitialize cfg.runConfig (fwdSource lib cfg fs)
      (fun t => cfg.output ++ [outputName cfg.calendar false t]) (restartFile lib.readFwd fs) = .ok o)
    (first : TrackCall K) (h₁ : first.Works lib parse fs (endingAt (cfg.runConfig.fwdTime (b + 1)) cfg)) :
    (∀ before t o' aft, (fwdProc cfg.runConfig (fwdSource lib cfg fs).grid inp).files o (b + 1) = before ++ (t, o') :: aft →
      (∀ y ∈ aft, minuteString (dateTimeOf cfg.calendar y.1) ≠ minuteString (dateTimeOf cfg.calendar t)) →
      after (first.act lib parse) fs (forwardFile cfg t) = some (.file (lib.showFwd o'))) ∧
    after (first.act lib parse) fs (cfg.output ++ [outputName cfg.calendar false (cfg.runConfig.fwdTime (b + 1))]) =
      some (.file (lib.showFwd ((fwdProc cfg.runConfig (fwdSource lib cfg fs).grid inp).full o b))) ∧
    fwdSource lib (withRestart true (startingAt (cfg.runConfig.fwdTime (b + 1)) cfg)) (after (first.act lib parse) fs) =
      fwdSource lib cfg fs := by
  set src := fwdSource lib cfg fs with hsrc
  set path : ℤ → FPath := fun t => cfg.output ++ [outputName cfg.calendar false t] with hpath
  set fs1 := after (first.act lib parse) fs with hfs1
  set B : ℤ := cfg.runConfig.fwdTime (b + 1) with hBdef
  have hw' : writes cfg.runConfig.fwdTime cfg.runConfig.output_frequency cfg.runConfig.steps (b + 1) := of_decide_eq_true hw
  obtain ⟨s1, k1, f1⟩ := call_files_fwd lib hfirst parse first fs (endingAt B cfg) h₁ hb
  have e1 : (endingAt B cfg).runConfig = { cfg.runConfig with tracking_end_date := cfg.runConfig.fwdTime (b + 1) } := rfl
  have e1s : fwdSource lib (endingAt B cfg) fs = src := rfl
  have hR1 : Runnable (endingAt B cfg).runConfig (fwdSource lib (endingAt B cfg) fs) inp := hR.fwd_end (b + 1) hbN
  obtain ⟨o1, r1, ho1, hs1, -⟩ := fwd_finished hR1 k1
  have ho1' : fwdInitialize cfg.runConfig src path (restartFile lib.readFwd fs) = .ok o1 := ho1
  have hoo : o1 = o := by
    rw [ho] at ho1'
    injection ho1' with ho1'
    exact ho1'.symm
  rw [hoo] at hs1
  have hfiles1 : s1.files = (fwdProc cfg.runConfig src.grid inp).files o (b + 1) := by
    rw [hs1]
    have hst : (endingAt B cfg).runConfig.steps = b + 1 := cfg.runConfig.steps_fwd_end hR.timestep_pos (b + 1)
    rw [hst]
    exact (fwd_first_part cfg.runConfig src.grid inp o hR.timestep_pos (b + 1) hbN hw').1
  have hlast : fs1 (path B) = some (.file (lib.showFwd ((fwdProc cfg.runConfig src.grid inp).full o b))) := by
    have := f1 ((fwdProc cfg.runConfig src.grid inp).files o b) B ((fwdProc cfg.runConfig src.grid inp).full o b) []
      (by rw [hfiles1]; simp only [Proc.files, hw, if_true]; rfl) (by intro y hy; cases hy)
    rw [hpath]
    simp only
    rw [forward_name']
    exact this
  have e2s : fwdSource lib (withRestart true (startingAt B cfg)) fs1 = src := by
    refine source_at lib hfirst cfg fs fs1 ?_ _ B hax
    intro p hp
    exact call_input lib hfirst parse first fs (endingAt B cfg) h₁ p (input_of_plain (cfg := cfg) (cfg' := endingAt B cfg) rfl rfl rfl hp) (hapart p hp)
  refine ⟨fun before t o' aft h1 h2 => f1 before t o' aft (hfiles1.trans h1) h2, hlast, e2s⟩

/-- Forward.  One command tracks over the whole period; instead, one can track up to `B`, one of the times at which output is written, and then, with a
second command, restart from the file of `B`.  If the commands succeed, then afterwards the folder holds the same output,
at all times of the period, as it does after the one command. -/
theorem C115_same_output_forward (lib : Library m n K) (hfirst : ∀ q name, lib.first q = some name → q name = true)
    (parse : List Char → Except Err (FileSettings (TrackSettings K))) (fs : FileSystem)
    (cfg : Loaded (TrackSettings K)) (hb : cfg.config.rest.backward = false)
    (inp : Input m n K) (hR : Runnable cfg.runConfig (fwdSource lib cfg fs) inp) (hmin : 60 ∣ cfg.config.rest.timestep)
    (hy : ∀ t, cfg.config.dates .tracking_start_date ≤ t → t ≤ cfg.config.dates .tracking_end_date →
      FourDigitYear cfg.calendar t)
    (hapart : ∀ p, TrackInput (withRestart false cfg) p → ¬ Below cfg.output p)
    (B : ℤ) (hB : ForwardOutputTime cfg B) (hax : SameAxes lib cfg fs (cfg.config.dates .tracking_start_date) B)
    (whole first second : TrackCall K) (h₀ : whole.Works lib parse fs cfg) (h₁ : first.Works lib parse fs (endingAt B cfg))
    (h₂ : second.Works lib parse (after (first.act lib parse) fs) (withRestart true (startingAt B cfg)))
    (hback : ∀ o, after (first.act lib parse) fs (forwardFile cfg B) = some (.file (lib.showFwd o)) →
      lib.readFwd (lib.showFwd o) = some o) :
    ∀ t, ForwardOutputTime cfg t → ∃ o,
      after (whole.act lib parse) fs (forwardFile cfg t) = some (.file (lib.showFwd o)) ∧
      after (second.act lib parse) (after (first.act lib parse) fs) (forwardFile cfg t) = some (.file (lib.showFwd o)) := by
  set fs1 := after (first.act lib parse) fs with hfs1
  set src := fwdSource lib cfg fs with hsrc
  set path : ℤ → FPath := fun t => cfg.output ++ [outputName cfg.calendar false t] with hpath
  -- the whole
  obtain ⟨s0, k0, f0⟩ := call_files_fwd lib hfirst parse whole fs cfg h₀ hb
  obtain ⟨o, r, ho, hs0, -⟩ := fwd_finished hR k0
  have hfiles0 : s0.files = (fwdProc cfg.runConfig src.grid inp).files o cfg.runConfig.steps := by rw [hs0]; rfl
  have hpw := fwd_names_differ cfg.runConfig src.grid inp cfg.calendar hR.timestep_pos hmin hy o
  -- the first part
  obtain ⟨k, hk1, hkN, rfl, hkw⟩ := hB
  obtain ⟨b, rfl⟩ : ∃ b, k = b + 1 := ⟨k - 1, by omega⟩
  have hbN : b + 1 ≤ cfg.runConfig.steps := hkN
  have hw : (fwdProc cfg.runConfig src.grid inp).write (b + 1) = true := decide_eq_true hkw
  set B : ℤ := cfg.config.dates .tracking_start_date + ((b + 1 : ℕ) : ℤ) * (cfg.config.rest.timestep * 1000000) with hBdef
  have hBt : B = cfg.runConfig.fwdTime (b + 1) := rfl
  obtain ⟨f1, hlast, e2s⟩ := first_part_fwd lib hfirst parse fs cfg hb inp hR hapart b hbN hw hax o ho first h₁
  have e2s : fwdSource lib (withRestart true (startingAt B cfg)) fs1 = src := e2s
  have hlast : fs1 (path B) = _ := hlast
  have hlast' := hlast
  rw [hpath] at hlast'
  simp only at hlast'
  rw [forward_name'] at hlast'
  -- the second part
  obtain ⟨s2, k2, f2⟩ := call_files_fwd lib hfirst parse second fs1 (withRestart true (startingAt B cfg)) h₂ hb
  obtain ⟨s2', hs2', e2, -, -⟩ := fwd_restart cfg.runConfig src inp path hR o b hbN hw (restartFile lib.readFwd fs1) (by
    unfold restartFile
    have : fs1 (path (cfg.runConfig.fwdTime (b + 1))) = _ := hlast
    rw [this]
    exact hback _ hlast')
  have hR2 : Runnable (withRestart true (startingAt B cfg)).runConfig src inp := hR.fwd_start (b + 1) hbN
  rw [e2s] at k2
  have hs2e : s2 = s2' := by
    obtain ⟨o2, r2, ho2, hs2, N, hN⟩ := fwd_finished hR2 k2
    obtain ⟨N', hN'⟩ := hs2'
    have a := hN (max N N') (le_max_left _ _)
    have b := hN' (max N N') (le_max_right _ _)
    have : Outcome.finished s2 = Outcome.finished s2' := a.symm.trans b
    injection this
  subst hs2e
  rw [← hfiles0] at e2
  -- all of them
  intro t ht
  obtain ⟨k, hk1, hkN, htk, hkw⟩ := ht
  obtain ⟨i, rfl⟩ : ∃ i, k = i + 1 := ⟨k - 1, by omega⟩
  have hmem : (t, (fwdProc cfg.runConfig src.grid inp).full o i) ∈ s0.files := by
    rw [hfiles0]
    exact (Proc.mem_files _ _).2 ⟨i, hkN, decide_eq_true (by rw [htk] at hkw; exact hkw), by rw [htk]; rfl⟩
  set out := (fwdProc cfg.runConfig src.grid inp).full o i
  rw [← hfiles0] at hpw
  refine ⟨out, ?_, ?_⟩
  · obtain ⟨before, aft, hsplit⟩ := List.append_of_mem hmem
    refine f0 before t out aft hsplit ?_
    rw [hsplit] at hpw
    exact (List.pairwise_cons.1 (List.pairwise_append.1 hpw).2.1).1
  · rw [e2] at hmem hpw
    obtain ⟨hp1, hp2, hp3⟩ := List.pairwise_append.1 hpw
    rcases List.mem_append.1 hmem with hm | hm
    · have hold : fs1 (forwardFile cfg t) = some (.file (lib.showFwd out)) := by
        obtain ⟨before, aft, hsplit⟩ := List.append_of_mem hm
        refine f1 before t out aft hsplit ?_
        rw [hsplit] at hp1
        exact (List.pairwise_cons.1 (List.pairwise_append.1 hp1).2.1).1
      unfold forwardFile at hold ⊢
      rw [← forward_name'] at hold ⊢
      have hb2 : (withRestart true (startingAt B cfg)).config.rest.backward = false := hb
      have hout := (C109_forward lib (withRestart true (startingAt B cfg)) fs1 hb).2.1
      rw [e2s] at hout
      have k2' : fwdRun (withRestart true (startingAt B cfg)).runConfig src
        (fun t => (withRestart true (startingAt B cfg)).output ++
          [outputName (withRestart true (startingAt B cfg)).calendar false t])
        (restartFile lib.readFwd fs1) (withRestart true (startingAt B cfg)).fuel = .finished s2 := k2
      rw [k2'] at hout
      have := call_keeps lib hfirst parse second fs1 (withRestart true (startingAt B cfg)) h₂ t (lib.showFwd out)
      rw [hb2] at this
      refine this hold ?_
      intro y hy
      rw [hout.1] at hy
      obtain ⟨z, hz, rfl⟩ := List.mem_map.1 hy
      rw [forward_name', forward_name']
      intro e
      exact hp3 _ hm z hz (List.append_cancel_left (List.append_cancel_right e))
    · obtain ⟨before, aft, hsplit⟩ := List.append_of_mem hm
      refine f2 before t out aft hsplit ?_
      rw [hsplit] at hp2
      exact (List.pairwise_cons.1 (List.pairwise_append.1 hp2).2.1).1

/-- Forward.  Everything is there for the three commands: the configuration files, the data for the whole period (and the file from which the whole
run starts, if it is itself a restart), room for what they write.  Then all of them succeed, and tracking in two parts, with a restart from
the file of `B`, gives the same output as tracking over the whole period. -/
theorem C115_forward (lib : Library m n K) (hfirst : ∀ q name, lib.first q = some name → q name = true)
    (parse : List Char → Except Err (FileSettings (TrackSettings K))) (fs : FileSystem)
    (cfg : Loaded (TrackSettings K)) (hb : cfg.config.rest.backward = false)
    (inp : Input m n K) (hR : Runnable cfg.runConfig (fwdSource lib cfg fs) inp) (hmin : 60 ∣ cfg.config.rest.timestep)
    (hre : cfg.config.rest.restart = true →
      ∃ text o, fs (forwardFile cfg (cfg.config.dates .tracking_start_date)) = some (.file text) ∧ lib.readFwd text = some o)
    (hy : ∀ t, cfg.config.dates .tracking_start_date ≤ t → t ≤ cfg.config.dates .tracking_end_date →
      FourDigitYear cfg.calendar t)
    (hapart : ∀ p, TrackInput (withRestart false cfg) p → ¬ Below cfg.output p)
    (B : ℤ) (hB : ForwardOutputTime cfg B) (hax : SameAxes lib cfg fs (cfg.config.dates .tracking_start_date) B)
    (whole first second : TrackCall K) (h₀ : whole.Ready parse fs cfg) (h₁ : first.Ready parse fs (endingAt B cfg))
    (h₂ : second.Ready parse fs (withRestart true (startingAt B cfg)))
    (hback : ∀ o, after (first.act lib parse) fs (forwardFile cfg B) = some (.file (lib.showFwd o)) →
      lib.readFwd (lib.showFwd o) = some o) :
    (whole.act lib parse fs).2 = .ok () ∧ (first.act lib parse fs).2 = .ok () ∧
    (second.act lib parse (after (first.act lib parse) fs)).2 = .ok () ∧
    ∀ t, ForwardOutputTime cfg t → ∃ o,
      after (whole.act lib parse) fs (forwardFile cfg t) = some (.file (lib.showFwd o)) ∧
      after (second.act lib parse) (after (first.act lib parse) fs) (forwardFile cfg t) = some (.file (lib.showFwd o)) := by
  obtain ⟨o, ho⟩ := fwd_init_ok cfg.runConfig (fwdSource lib cfg fs) inp
    (fun t => cfg.output ++ [outputName cfg.calendar false t]) (restartFile lib.readFwd fs) hR (fun h => by
      obtain ⟨text, o, h1, h2⟩ := hre h
      unfold restartFile
      have : fs (cfg.output ++ [outputName cfg.calendar false cfg.runConfig.tracking_start_date]) = some (.file text) := by
        rw [forward_name']
        exact h1
      rw [this]
      simp only [h2]
      rfl)
  have w₀ : whole.Works lib parse fs cfg := by
    refine ⟨h₀.given, h₀.input, ?_⟩
    obtain ⟨r, -, -, hall⟩ := fwd_run_eq cfg.runConfig (fwdSource lib cfg fs) inp _ _ hR o ho
    refine (C112_forward lib hfirst parse whole.cwd whole.dir whole.stem whole.stamp fs whole.settings cfg h₀.given h₀.input
      h₀.room hb).1 _ ((hall cfg.fuel).trans (if_neg ?_))
    show ¬ cfg.fuel < cfg.fuel
    omega
  have hB' := hB
  obtain ⟨k, hk1, hkN, rfl, hkw⟩ := hB'
  obtain ⟨b, rfl⟩ : ∃ b, k = b + 1 := ⟨k - 1, by omega⟩
  have hbN : b + 1 ≤ cfg.runConfig.steps := hkN
  have hw : (fwdProc cfg.runConfig (fwdSource lib cfg fs).grid inp).write (b + 1) = true := decide_eq_true hkw
  have w₁ : first.Works lib parse fs (endingAt (cfg.runConfig.fwdTime (b + 1)) cfg) := by
    refine ⟨h₁.given, h₁.input, ?_⟩
    have hR1 : Runnable (endingAt (cfg.runConfig.fwdTime (b + 1)) cfg).runConfig
      (fwdSource lib (endingAt (cfg.runConfig.fwdTime (b + 1)) cfg) fs) inp := hR.fwd_end (b + 1) hbN
    obtain ⟨r, -, -, hall⟩ := fwd_run_eq _ _ inp (fun t => cfg.output ++ [outputName cfg.calendar false t])
      (restartFile lib.readFwd fs) hR1 o ho
    refine (C112_forward lib hfirst parse first.cwd first.dir first.stem first.stamp fs first.settings _ h₁.given h₁.input
      h₁.room hb).1 _ ((hall (endingAt (cfg.runConfig.fwdTime (b + 1)) cfg).fuel).trans (if_neg ?_))
    show ¬ (endingAt (cfg.runConfig.fwdTime (b + 1)) cfg).fuel < (endingAt (cfg.runConfig.fwdTime (b + 1)) cfg).fuel
    omega
  obtain ⟨-, hlast, e2s⟩ := first_part_fwd lib hfirst parse fs cfg hb inp hR hapart b hbN hw hax o ho first w₁
  have hlast' := hlast
  rw [forward_name'] at hlast'
  have w₂ : second.Works lib parse (after (first.act lib parse) fs)
      (withRestart true (startingAt (cfg.runConfig.fwdTime (b + 1)) cfg)) := by
    have r₂ := ready_after lib hfirst parse first second fs (endingAt (cfg.runConfig.fwdTime (b + 1)) cfg)
      (withRestart true (startingAt (cfg.runConfig.fwdTime (b + 1)) cfg)) rfl rfl w₁ h₁ h₂
    refine ⟨r₂.given, r₂.input, ?_⟩
    have hR2 : Runnable (withRestart true (startingAt (cfg.runConfig.fwdTime (b + 1)) cfg)).runConfig
      (fwdSource lib cfg fs) inp := hR.fwd_start (b + 1) hbN
    obtain ⟨o2, ho2⟩ := fwd_init_ok _ _ inp (fun t => cfg.output ++ [outputName cfg.calendar false t])
      (restartFile lib.readFwd (after (first.act lib parse) fs)) hR2 (fun _ => by
        unfold restartFile
        have : after (first.act lib parse) fs (cfg.output ++ [outputName cfg.calendar false
          (withRestart true (startingAt (cfg.runConfig.fwdTime (b + 1)) cfg)).runConfig.tracking_start_date]) = _ := hlast
        rw [this]
        simp only [hback _ hlast']
        rfl)
    obtain ⟨r, -, -, hall⟩ := fwd_run_eq _ _ inp _ _ hR2 o2 ho2
    rw [← e2s] at hall
    refine (C112_forward lib hfirst parse second.cwd second.dir second.stem second.stamp _ second.settings _ r₂.given r₂.input
      r₂.room hb).1 _ ((hall (withRestart true (startingAt (cfg.runConfig.fwdTime (b + 1)) cfg)).fuel).trans (if_neg ?_))
    show ¬ (withRestart true (startingAt (cfg.runConfig.fwdTime (b + 1)) cfg)).fuel <
      (withRestart true (startingAt (cfg.runConfig.fwdTime (b + 1)) cfg)).fuel
    omega
  exact ⟨w₀.ends, w₁.ends, w₂.ends, C115_same_output_forward lib hfirst parse fs cfg hb inp hR hmin hy hapart _ hB hax
    whole first second w₀ w₁ w₂ hback⟩

theorem bwd_finished {P : Type} {cfg : RunConfig K} {src : Source m n K} {inp : Input m n K} {path : ℤ → P}
    {disk : P → Option (BwdOutput (m + 2) (n + 2) K)} (h : Runnable cfg src inp) {fuel : ℕ} {s}
    (hs : bwdRun cfg src path disk fuel = .finished s) :
    ∃ o r, bwdInitialize cfg src path disk = .ok o ∧ s = bwdStateAt cfg src inp r o cfg.steps ∧
      EndsIn (bwdRun cfg src path disk) s := by
  rcases ho : bwdInitialize cfg src path disk with e | o
  · simp [bwdRun, ho] at hs
  · obtain ⟨r, -, -, hall⟩ := bwd_run_eq cfg src inp path disk h o ho
    rw [hall] at hs
    by_cases hf : fuel < cfg.steps
    · rw [if_pos hf] at hs; cases hs
    · rw [if_neg hf] at hs
      injection hs with hs
      subst hs
      exact ⟨o, r, rfl, rfl, cfg.steps, fun fuel hf => by rw [hall, if_neg (by omega)]⟩

theorem backward_name' (c : Calendar) (t : ℤ) : outputName c true t =
    "backtrack_".toList ++ minuteString (dateTimeOf c t) ++ ".nc".toList := by
  unfold outputName
  have h : "backtrack_".toList = modeString true ++ ['_'] := rfl
  rw [h]; simp only [List.append_assoc, List.cons_append, List.nil_append]

theorem call_files_bwd (lib : Library m n K) (hfirst : ∀ q name, lib.first q = some name → q name = true)
    (parse : List Char → Except Err (FileSettings (TrackSettings K))) (c : TrackCall K) (fs : FileSystem)
    (cfg : Loaded (TrackSettings K)) (w : c.Works lib parse fs cfg) (hb : cfg.config.rest.backward = true) :
    ∃ s', bwdRun cfg.runConfig (bwdSource lib cfg fs) (fun t => cfg.output ++ [outputName cfg.calendar true t])
        (restartFile lib.readBwd fs) cfg.fuel = .finished s' ∧
      ∀ before t o aft, s'.files = before ++ (t, o) :: aft →
        (∀ y ∈ aft, minuteString (dateTimeOf cfg.calendar y.1) ≠ minuteString (dateTimeOf cfg.calendar t)) →
        after (c.act lib parse) fs (backwardFile cfg t) = some (.file (lib.showBwd o)) := by
  obtain ⟨⟨text, hf, hp⟩, hcfg, hlog⟩ := w.given
  have hends := w.ends
  unfold TrackCall.act at hends
  rcases hcmd : command parse c.cwd (c.dir ++ [c.stem ++ ".yaml".toList]) c.stamp (fun r => r.backward)
    (fun cfg => some cfg.output) (trackExperiment lib) fs with ⟨chs, r⟩
  rw [hcmd] at hends
  simp only at hends
  subst hends
  obtain ⟨s1, k1, -, k2⟩ := C109_backward_files lib hfirst parse c.cwd c.dir _ fs text c.stamp c.settings cfg hf hp hcfg hb
    hlog w.input chs () hcmd
  refine ⟨s1, k1, ?_⟩
  unfold after TrackCall.act
  rw [hcmd]
  exact k2

/-- what the first command leaves: its files, and the source for the second -/
theorem first_part_bwd (lib : Library m n K) (hfirst : ∀ q name, lib.first q = some name → q name = true)
    (parse : List Char → Except Err (FileSettings (TrackSettings K))) (fs : FileSystem)
    (cfg : Loaded (TrackSettings K)) (hb : cfg.config.rest.backward = true)
    (inp : Input m n K) (hR : Runnable cfg.runConfig (bwdSource lib cfg fs) inp)
    (hapart : ∀ p, TrackInput (withRestart false cfg) p → ¬ Below cfg.output p)
    (b : ℕ) (hbN : b + 1 ≤ cfg.runConfig.steps)
    (hw : (bwdProc cfg.runConfig (bwdSource lib cfg fs).grid inp).write (b + 1) = true)
    (hax : SameAxes lib cfg fs (cfg.config.dates .tracking_end_date) (cfg.runConfig.bwdTime (b + 1)))
    (o : BwdOutput (m + 2) (n + 2) K) (ho : bwdInitialize cfg.runConfig (bwdSource lib cfg fs)
      (fun t => cfg.output ++ [outputName cfg.calendar true t]) (restartFile lib.readBwd fs) = .ok o)
    (first : TrackCall K) (h₁ : first.Works lib parse fs (startingAt (cfg.runConfig.bwdTime (b + 1)) cfg)) :
    (∀ before t o' aft, (bwdProc cfg.runConfig (bwdSource lib cfg fs).grid inp).files o (b + 1) = before ++ (t, o') :: aft →
      (∀ y ∈ aft, minuteString (dateTimeOf cfg.calendar y.1) ≠ minuteString (dateTimeOf cfg.calendar t)) →
      after (first.act lib parse) fs (backwardFile cfg t) = some (.file (lib.showBwd o'))) ∧
    after (first.act lib parse) fs (cfg.output ++ [outputName cfg.calendar true (cfg.runConfig.bwdTime (b + 1))]) =
      some (.file (lib.showBwd ((bwdProc cfg.runConfig (bwdSource lib cfg fs).grid inp).full o b))) ∧
    bwdSource lib (withRestart true (endingAt (cfg.runConfig.bwdTime (b + 1)) cfg)) (after (first.act lib parse) fs) =
      bwdSource lib cfg fs := by
  set src := bwdSource lib cfg fs with hsrc
  set path : ℤ → FPath := fun t => cfg.output ++ [outputName cfg.calendar true t] with hpath
  set fs1 := after (first.act lib parse) fs with hfs1
  set B : ℤ := cfg.runConfig.bwdTime (b + 1) with hBdef
  have hw' : writes cfg.runConfig.bwdTime cfg.runConfig.output_frequency cfg.runConfig.steps (b + 1) := of_decide_eq_true hw
  obtain ⟨s1, k1, f1⟩ := call_files_bwd lib hfirst parse first fs (startingAt B cfg) h₁ hb
  have e1 : (startingAt B cfg).runConfig = { cfg.runConfig with tracking_start_date := cfg.runConfig.bwdTime (b + 1) } := rfl
  have e1s : bwdSource lib (startingAt B cfg) fs = src := rfl
  have hR1 : Runnable (startingAt B cfg).runConfig (bwdSource lib (startingAt B cfg) fs) inp := hR.bwd_start (b + 1) hbN
  obtain ⟨o1, r1, ho1, hs1, -⟩ := bwd_finished hR1 k1
  have ho1' : bwdInitialize cfg.runConfig src path (restartFile lib.readBwd fs) = .ok o1 := ho1
  have hoo : o1 = o := by
    rw [ho] at ho1'
    injection ho1' with ho1'
    exact ho1'.symm
  rw [hoo] at hs1
  have hfiles1 : s1.files = (bwdProc cfg.runConfig src.grid inp).files o (b + 1) := by
    rw [hs1]
    have hst : (startingAt B cfg).runConfig.steps = b + 1 := cfg.runConfig.steps_bwd_start hR.timestep_pos (b + 1)
    rw [hst]
    exact (bwd_first_part cfg.runConfig src.grid inp o hR.timestep_pos (b + 1) hbN hw').1
  have hlast : fs1 (path B) = some (.file (lib.showBwd ((bwdProc cfg.runConfig src.grid inp).full o b))) := by
    have := f1 ((bwdProc cfg.runConfig src.grid inp).files o b) B ((bwdProc cfg.runConfig src.grid inp).full o b) []
      (by rw [hfiles1]; simp only [Proc.files, hw, if_true]; rfl) (by intro y hy; cases hy)
    rw [hpath]
    simp only
    rw [backward_name']
    exact this
  have e2s : bwdSource lib (withRestart true (endingAt B cfg)) fs1 = src := by
    refine source_at lib hfirst cfg fs fs1 ?_ _ B hax
    intro p hp
    exact call_input lib hfirst parse first fs (startingAt B cfg) h₁ p (input_of_plain (cfg := cfg) (cfg' := startingAt B cfg) rfl rfl rfl hp) (hapart p hp)
  refine ⟨fun before t o' aft h1 h2 => f1 before t o' aft (hfiles1.trans h1) h2, hlast, e2s⟩

/-- Backward: from the end back to `B`, and then with a second command from `B` back to the start. -/
theorem C115_same_output_backward (lib : Library m n K) (hfirst : ∀ q name, lib.first q = some name → q name = true)
    (parse : List Char → Except Err (FileSettings (TrackSettings K))) (fs : FileSystem)
    (cfg : Loaded (TrackSettings K)) (hb : cfg.config.rest.backward = true)
    (inp : Input m n K) (hR : Runnable cfg.runConfig (bwdSource lib cfg fs) inp) (hmin : 60 ∣ cfg.config.rest.timestep)
    (hy : ∀ t, cfg.config.dates .tracking_start_date ≤ t → t ≤ cfg.config.dates .tracking_end_date →
      FourDigitYear cfg.calendar t)
    (hapart : ∀ p, TrackInput (withRestart false cfg) p → ¬ Below cfg.output p)
    (B : ℤ) (hB : BackwardOutputTime cfg B) (hax : SameAxes lib cfg fs (cfg.config.dates .tracking_end_date) B)
    (whole first second : TrackCall K) (h₀ : whole.Works lib parse fs cfg) (h₁ : first.Works lib parse fs (startingAt B cfg))
    (h₂ : second.Works lib parse (after (first.act lib parse) fs) (withRestart true (endingAt B cfg)))
    (hback : ∀ o, after (first.act lib parse) fs (backwardFile cfg B) = some (.file (lib.showBwd o)) →
      lib.readBwd (lib.showBwd o) = some o) :
    ∀ t, BackwardOutputTime cfg t → ∃ o,
      after (whole.act lib parse) fs (backwardFile cfg t) = some (.file (lib.showBwd o)) ∧
      after (second.act lib parse) (after (first.act lib parse) fs) (backwardFile cfg t) = some (.file (lib.showBwd o)) := by
  set fs1 := after (first.act lib parse) fs with hfs1
  set src := bwdSource lib cfg fs with hsrc
  set path : ℤ → FPath := fun t => cfg.output ++ [outputName cfg.calendar true t] with hpath
  -- the whole
  obtain ⟨s0, k0, f0⟩ := call_files_bwd lib hfirst parse whole fs cfg h₀ hb
  obtain ⟨o, r, ho, hs0, -⟩ := bwd_finished hR k0
  have hfiles0 : s0.files = (bwdProc cfg.runConfig src.grid inp).files o cfg.runConfig.steps := by rw [hs0]; rfl
  have hpw := bwd_names_differ cfg.runConfig src.grid inp cfg.calendar hR.timestep_pos hmin hy o
  -- the first part
  obtain ⟨k, hk1, hkN, rfl, hkw⟩ := hB
  obtain ⟨b, rfl⟩ : ∃ b, k = b + 1 := ⟨k - 1, by omega⟩
  have hbN : b + 1 ≤ cfg.runConfig.steps := hkN
  have hw : (bwdProc cfg.runConfig src.grid inp).write (b + 1) = true := decide_eq_true hkw
  set B : ℤ := cfg.config.dates .tracking_end_date - ((b + 1 : ℕ) : ℤ) * (cfg.config.rest.timestep * 1000000) with hBdef
  have hBt : B = cfg.runConfig.bwdTime (b + 1) := rfl
  obtain ⟨f1, hlast, e2s⟩ := first_part_bwd lib hfirst parse fs cfg hb inp hR hapart b hbN hw hax o ho first h₁
  have e2s : bwdSource lib (withRestart true (endingAt B cfg)) fs1 = src := e2s
  have hlast : fs1 (path B) = _ := hlast
  have hlast' := hlast
  rw [hpath] at hlast'
  simp only at hlast'
  rw [backward_name'] at hlast'
  -- the second part
  obtain ⟨s2, k2, f2⟩ := call_files_bwd lib hfirst parse second fs1 (withRestart true (endingAt B cfg)) h₂ hb
  obtain ⟨s2', hs2', e2, -, -⟩ := bwd_restart cfg.runConfig src inp path hR o b hbN hw (restartFile lib.readBwd fs1) (by
    unfold restartFile
    have : fs1 (path (cfg.runConfig.bwdTime (b + 1))) = _ := hlast
    rw [this]
    exact hback _ hlast')
  have hR2 : Runnable (withRestart true (endingAt B cfg)).runConfig src inp := hR.bwd_end (b + 1) hbN
  rw [e2s] at k2
  have hs2e : s2 = s2' := by
    obtain ⟨o2, r2, ho2, hs2, N, hN⟩ := bwd_finished hR2 k2
    obtain ⟨N', hN'⟩ := hs2'
    have a := hN (max N N') (le_max_left _ _)
    have b := hN' (max N N') (le_max_right _ _)
    have : Outcome.finished s2 = Outcome.finished s2' := a.symm.trans b
    injection this
  subst hs2e
  rw [← hfiles0] at e2
  -- all of them
  intro t ht
  obtain ⟨k, hk1, hkN, htk, hkw⟩ := ht
  obtain ⟨i, rfl⟩ : ∃ i, k = i + 1 := ⟨k - 1, by omega⟩
  have hmem : (t, (bwdProc cfg.runConfig src.grid inp).full o i) ∈ s0.files := by
    rw [hfiles0]
    exact (Proc.mem_files _ _).2 ⟨i, hkN, decide_eq_true (by rw [htk] at hkw; exact hkw), by rw [htk]; rfl⟩
  set out := (bwdProc cfg.runConfig src.grid inp).full o i
  rw [← hfiles0] at hpw
  refine ⟨out, ?_, ?_⟩
  · obtain ⟨before, aft, hsplit⟩ := List.append_of_mem hmem
    refine f0 before t out aft hsplit ?_
    rw [hsplit] at hpw
    exact (List.pairwise_cons.1 (List.pairwise_append.1 hpw).2.1).1
  · rw [e2] at hmem hpw
    obtain ⟨hp1, hp2, hp3⟩ := List.pairwise_append.1 hpw
    rcases List.mem_append.1 hmem with hm | hm
    · have hold : fs1 (backwardFile cfg t) = some (.file (lib.showBwd out)) := by
        obtain ⟨before, aft, hsplit⟩ := List.append_of_mem hm
        refine f1 before t out aft hsplit ?_
        rw [hsplit] at hp1
        exact (List.pairwise_cons.1 (List.pairwise_append.1 hp1).2.1).1
      unfold backwardFile at hold ⊢
      rw [← backward_name'] at hold ⊢
      have hb2 : (withRestart true (endingAt B cfg)).config.rest.backward = true := hb
      have hout := (C109_backward lib (withRestart true (endingAt B cfg)) fs1 hb).2.1
      rw [e2s] at hout
      have k2' : bwdRun (withRestart true (endingAt B cfg)).runConfig src
        (fun t => (withRestart true (endingAt B cfg)).output ++
          [outputName (withRestart true (endingAt B cfg)).calendar true t])
        (restartFile lib.readBwd fs1) (withRestart true (endingAt B cfg)).fuel = .finished s2 := k2
      rw [k2'] at hout
      have := call_keeps lib hfirst parse second fs1 (withRestart true (endingAt B cfg)) h₂ t (lib.showBwd out)
      rw [hb2] at this
      refine this hold ?_
      intro y hy
      rw [hout.1] at hy
      obtain ⟨z, hz, rfl⟩ := List.mem_map.1 hy
      rw [backward_name', backward_name']
      intro e
      exact hp3 _ hm z hz (List.append_cancel_left (List.append_cancel_right e))
    · obtain ⟨before, aft, hsplit⟩ := List.append_of_mem hm
      refine f2 before t out aft hsplit ?_
      rw [hsplit] at hp2
      exact (List.pairwise_cons.1 (List.pairwise_append.1 hp2).2.1).1

/-- Backward: from the end back to `B`, and then with a second command from `B` back to the start; all commands succeed. -/
theorem C115_backward (lib : Library m n K) (hfirst : ∀ q name, lib.first q = some name → q name = true)
    (parse : List Char → Except Err (FileSettings (TrackSettings K))) (fs : FileSystem)
    (cfg : Loaded (TrackSettings K)) (hb : cfg.config.rest.backward = true)
    (inp : Input m n K) (hR : Runnable cfg.runConfig (bwdSource lib cfg fs) inp) (hmin : 60 ∣ cfg.config.rest.timestep)
    (hre : cfg.config.rest.restart = true →
      ∃ text o, fs (backwardFile cfg (cfg.config.dates .tracking_end_date)) = some (.file text) ∧ lib.readBwd text = some o)
    (hy : ∀ t, cfg.config.dates .tracking_start_date ≤ t → t ≤ cfg.config.dates .tracking_end_date →
      FourDigitYear cfg.calendar t)
    (hapart : ∀ p, TrackInput (withRestart false cfg) p → ¬ Below cfg.output p)
    (B : ℤ) (hB : BackwardOutputTime cfg B) (hax : SameAxes lib cfg fs (cfg.config.dates .tracking_end_date) B)
    (whole first second : TrackCall K) (h₀ : whole.Ready parse fs cfg) (h₁ : first.Ready parse fs (startingAt B cfg))
    (h₂ : second.Ready parse fs (withRestart true (endingAt B cfg)))
    (hback : ∀ o, after (first.act lib parse) fs (backwardFile cfg B) = some (.file (lib.showBwd o)) →
      lib.readBwd (lib.showBwd o) = some o) :
    (whole.act lib parse fs).2 = .ok () ∧ (first.act lib parse fs).2 = .ok () ∧
    (second.act lib parse (after (first.act lib parse) fs)).2 = .ok () ∧
    ∀ t, BackwardOutputTime cfg t → ∃ o,
      after (whole.act lib parse) fs (backwardFile cfg t) = some (.file (lib.showBwd o)) ∧
      after (second.act lib parse) (after (first.act lib parse) fs) (backwardFile cfg t) = some (.file (lib.showBwd o)) := by
  obtain ⟨o, ho⟩ := bwd_init_ok cfg.runConfig (bwdSource lib cfg fs) inp
    (fun t => cfg.output ++ [outputName cfg.calendar true t]) (restartFile lib.readBwd fs) hR (fun h => by
      obtain ⟨text, o, h1, h2⟩ := hre h
      unfold restartFile
      have : fs (cfg.output ++ [outputName cfg.calendar true cfg.runConfig.tracking_end_date]) = some (.file text) := by
        rw [backward_name']
        exact h1
      rw [this]
      simp only [h2]
      rfl)
  have w₀ : whole.Works lib parse fs cfg := by
    refine ⟨h₀.given, h₀.input, ?_⟩
    obtain ⟨r, -, -, hall⟩ := bwd_run_eq cfg.runConfig (bwdSource lib cfg fs) inp _ _ hR o ho
    refine (C112_backward lib hfirst parse whole.cwd whole.dir whole.stem whole.stamp fs whole.settings cfg h₀.given h₀.input
      h₀.room hb).1 _ ((hall cfg.fuel).trans (if_neg ?_))
    show ¬ cfg.fuel < cfg.fuel
    omega
  have hB' := hB
  obtain ⟨k, hk1, hkN, rfl, hkw⟩ := hB'
  obtain ⟨b, rfl⟩ : ∃ b, k = b + 1 := ⟨k - 1, by omega⟩
  have hbN : b + 1 ≤ cfg.runConfig.steps := hkN
  have hw : (bwdProc cfg.runConfig (bwdSource lib cfg fs).grid inp).write (b + 1) = true := decide_eq_true hkw
  have w₁ : first.Works lib parse fs (startingAt (cfg.runConfig.bwdTime (b + 1)) cfg) := by
    refine ⟨h₁.given, h₁.input, ?_⟩
    have hR1 : Runnable (startingAt (cfg.runConfig.bwdTime (b + 1)) cfg).runConfig
      (bwdSource lib (startingAt (cfg.runConfig.bwdTime (b + 1)) cfg) fs) inp := hR.bwd_start (b + 1) hbN
    obtain ⟨r, -, -, hall⟩ := bwd_run_eq _ _ inp (fun t => cfg.output ++ [outputName cfg.calendar true t])
      (restartFile lib.readBwd fs) hR1 o ho
    refine (C112_backward lib hfirst parse first.cwd first.dir first.stem first.stamp fs first.settings _ h₁.given h₁.input
      h₁.room hb).1 _ ((hall (startingAt (cfg.runConfig.bwdTime (b + 1)) cfg).fuel).trans (if_neg ?_))
    show ¬ (startingAt (cfg.runConfig.bwdTime (b + 1)) cfg).fuel < (startingAt (cfg.runConfig.bwdTime (b + 1)) cfg).fuel
    omega
  obtain ⟨-, hlast, e2s⟩ := first_part_bwd lib hfirst parse fs cfg hb inp hR hapart b hbN hw hax o ho first w₁
  have hlast' := hlast
  rw [backward_name'] at hlast'
  have w₂ : second.Works lib parse (after (first.act lib parse) fs)
      (withRestart true (endingAt (cfg.runConfig.bwdTime (b + 1)) cfg)) := by
    have r₂ := ready_after lib hfirst parse first second fs (startingAt (cfg.runConfig.bwdTime (b + 1)) cfg)
      (withRestart true (endingAt (cfg.runConfig.bwdTime (b + 1)) cfg)) rfl rfl w₁ h₁ h₂
    refine ⟨r₂.given, r₂.input, ?_⟩
    have hR2 : Runnable (withRestart true (endingAt (cfg.runConfig.bwdTime (b + 1)) cfg)).runConfig
      (bwdSource lib cfg fs) inp := hR.bwd_end (b + 1) hbN
    obtain ⟨o2, ho2⟩ := bwd_init_ok _ _ inp (fun t => cfg.output ++ [outputName cfg.calendar true t])
      (restartFile lib.readBwd (after (first.act lib parse) fs)) hR2 (fun _ => by
        unfold restartFile
        have : after (first.act lib parse) fs (cfg.output ++ [outputName cfg.calendar true
          (withRestart true (endingAt (cfg.runConfig.bwdTime (b + 1)) cfg)).runConfig.tracking_end_date]) = _ := hlast
        rw [this]
        simp only [hback _ hlast']
        rfl)
    obtain ⟨r, -, -, hall⟩ := bwd_run_eq _ _ inp _ _ hR2 o2 ho2
    rw [← e2s] at hall
    refine (C112_backward lib hfirst parse second.cwd second.dir second.stem second.stamp _ second.settings _ r₂.given r₂.input
      r₂.room hb).1 _ ((hall (withRestart true (endingAt (cfg.runConfig.bwdTime (b + 1)) cfg)).fuel).trans (if_neg ?_))
    show ¬ (withRestart true (endingAt (cfg.runConfig.bwdTime (b + 1)) cfg)).fuel <
      (withRestart true (endingAt (cfg.runConfig.bwdTime (b + 1)) cfg)).fuel
    omega
  exact ⟨w₀.ends, w₁.ends, w₂.ends, C115_same_output_backward lib hfirst parse fs cfg hb inp hR hmin hy hapart _ hB hax
    whole first second w₀ w₁ w₂ hback⟩

end

end Wam
