import Verif.Spec.SplitRounded
import Verif.Props.SplitMany
import Verif.Props.SplitSingle
import Verif.Props.Accuracy

/-!
# C128: tracking in any number of commands, with single-precision files
-/

set_option linter.unusedSectionVars false
set_option linter.unusedVariables false

namespace Wam
open Spec

section
variable {m n : ℕ} {K : Type} [Field K] [LinearOrder K] [IsStrictOrderedRing K] [NpTrig K] {P : Type}

/-- the run that restarts from the rounded file of `g`, against the uninterrupted one, at each time at which it writes -/
private theorem fwd_from_rounded (cfg : RunConfig K) (src : Source m n K) (inp : Input m n K) (path : ℤ → P)
    (h : Runnable cfg src inp)
    (hp : Physical inp cfg.tracking_start_date cfg.tracking_end_date) (ha : ∀ i, 0 < src.grid.a i)
    (hk : 0 ≤ cfg.kvf) (calm : CalmFwd cfg src.grid inp) (R : Rounding K) {u η : K} (hR : Accurate R u η)
    (o : FwdOutput (m + 2) (n + 2) K) (hs0 : ∀ i j, 0 ≤ o.s_track_lower i j ∧ 0 ≤ o.s_track_upper i j)
    (b : ℕ) (hb : b + 1 ≤ cfg.steps) (hw : (fwdProc cfg src.grid inp).write (b + 1) = true)
    (g : FwdOutput (m + 2) (n + 2) K) (hg : ∀ i j, 0 ≤ g.s_track_lower i j ∧ 0 ≤ g.s_track_upper i j)
    (disk' : P → Option (FwdOutput (m + 2) (n + 2) K))
    (hd' : disk' (path (cfg.fwdTime (b + 1))) = some (g.cast R.rnd))
    (cfg2 : RunConfig K) (hcfg2 : cfg2 = { cfg with tracking_start_date := cfg.fwdTime (b + 1), restart := true }) :
    ∃ o2 o2', fwdInitialize cfg2 src path disk' = .ok o2' ∧
      (∀ e, e + 1 ≤ cfg2.steps → ∀ i j, 0 ≤ ((fwdProc cfg2 src.grid inp).full o2' e).s_track_lower i j ∧
        0 ≤ ((fwdProc cfg2 src.grid inp).full o2' e).s_track_upper i j) ∧
      (fwdProc cfg src.grid inp).files o cfg.steps =
        (fwdProc cfg src.grid inp).files o (b + 1) ++ (fwdProc cfg2 src.grid inp).files o2 cfg2.steps ∧
      ∀ e, e + 1 ≤ cfg2.steps → (fwdProc cfg2 src.grid inp).write (e + 1) = true →
        fwdStorageGap src.grid.a ((fwdProc cfg2 src.grid inp).full o2 e) ((fwdProc cfg2 src.grid inp).full o2' e) +
          sumPairs ((fwdProc cfg2 src.grid inp).files o2 (e + 1)) ((fwdProc cfg2 src.grid inp).files o2' (e + 1))
            (fwdFateGap src.grid.a) ≤
        fwdStorageGap src.grid.a ((fwdProc cfg src.grid inp).full o b) g + fwdRoundingOf u η src.grid.a g := by
  set f := (fwdProc cfg src.grid inp).full o b with hf
  obtain ⟨s2, hs2, e1, -, -⟩ := fwd_restart cfg src inp path h o b hb hw (fun _ => some f) rfl
  rw [← hcfg2] at hs2
  have h2 : Runnable cfg2 src inp := by rw [hcfg2]; exact h.fwd_start (b + 1) hb
  obtain ⟨o2, r2, ho2, rfl⟩ := fwd_ends cfg2 src inp path _ h2 hs2
  have t2 : cfg2.tracking_start_date = cfg.fwdTime (b + 1) := by rw [hcfg2]
  have end2 : cfg2.tracking_end_date = cfg.tracking_end_date := by rw [hcfg2]
  have hr2 : cfg2.restart = true := by rw [hcfg2]
  obtain ⟨o2', ho2'⟩ := fwd_init_ok cfg2 src inp path disk' h2 (fun _ => by rw [t2, hd']; rfl)
  have hB1 : cfg.tracking_start_date ≤ cfg.fwdTime (b + 1) :=
    (cfg.fwdTime_mem h.timestep_pos h.ordered (b + 1) hb).1
  have hp2 : Physical inp cfg2.tracking_start_date cfg2.tracking_end_date :=
    { wet := fun t h0 h1 => hp.wet t (hB1.trans (t2 ▸ h0)) (end2 ▸ h1)
      precip := fun t h0 h1 => hp.precip t (hB1.trans (t2 ▸ h0)) (end2 ▸ h1)
      evap := fun t h0 h1 => hp.evap t (hB1.trans (t2 ▸ h0)) (end2 ▸ h1)
      region := fun t h0 h1 => hp.region t (hB1.trans (t2 ▸ h0)) (end2 ▸ h1) }
  have st' : startFwd cfg2 path disk' = (fun i j => R.rnd (g.s_track_lower i j), fun i j => R.rnd (g.s_track_upper i j)) := by
    unfold startFwd; rw [hr2, t2, hd']; rfl
  have n0' : ∀ i j, 0 ≤ o2'.s_track_lower i j ∧ 0 ≤ o2'.s_track_upper i j := by
    rw [fwd_init_eq cfg2 src path disk' o2' ho2']
    intro i j
    simp only
    rw [st']
    exact ⟨rnd_nonneg R (hg i j).1, rnd_nonneg R (hg i j).2⟩
  refine ⟨o2, o2', ho2', ?_, e1, ?_⟩
  · intro e he i j
    have := fwd_out_nonneg cfg2 src inp h2 hp2 o2' n0' (e + 1) he i j
    rw [(fwd_out_succ cfg2 inp src.grid o2' e).1, (fwd_out_succ cfg2 inp src.grid o2' e).2] at this
    exact this
  intro e he hwe
  set cfg3 : RunConfig K := { cfg2 with tracking_end_date := cfg2.fwdTime (e + 1) } with hc3
  have h3 : Runnable cfg3 src inp := h2.fwd_end (e + 1) he
  have hst : cfg3.steps = e + 1 := cfg2.steps_fwd_end h2.timestep_pos (e + 1)
  obtain ⟨q1, q2⟩ := fwd_first_part cfg2 src.grid inp o2 h2.timestep_pos (e + 1) he (of_decide_eq_true hwe)
  obtain ⟨q1', q2'⟩ := fwd_first_part cfg2 src.grid inp o2' h2.timestep_pos (e + 1) he (of_decide_eq_true hwe)
  have i3 : fwdInitialize cfg3 src path (fun _ => some f) = .ok o2 := ho2
  have i3' : fwdInitialize cfg3 src path disk' = .ok o2' := ho2'
  obtain ⟨r, -, -, hrun⟩ := fwd_run_eq cfg3 src inp path _ h3 o2 i3
  obtain ⟨r', -, -, hrun'⟩ := fwd_run_eq cfg3 src inp path _ h3 o2' i3'
  have hE1 : cfg3.tracking_end_date ≤ cfg2.tracking_end_date :=
    (cfg2.fwdTime_mem h2.timestep_pos h2.ordered (e + 1) he).2
  have hp3 : Physical inp cfg3.tracking_start_date cfg3.tracking_end_date :=
    { wet := fun t h0 h1 => hp2.wet t h0 (h1.trans hE1)
      precip := fun t h0 h1 => hp2.precip t h0 (h1.trans hE1)
      evap := fun t h0 h1 => hp2.evap t h0 (h1.trans hE1)
      region := fun t h0 h1 => hp2.region t h0 (h1.trans hE1) }
  have hnn : ∀ i j, 0 ≤ f.s_track_lower i j ∧ 0 ≤ f.s_track_upper i j := by
    intro i j
    have := fwd_out_nonneg cfg src inp h hp o hs0 (b + 1) hb i j
    rw [(fwd_out_succ cfg inp src.grid o b).1, (fwd_out_succ cfg inp src.grid o b).2] at this
    exact this
  have calm2 : CalmFwd cfg2 src.grid inp := by rw [hcfg2]; exact calm_fwd_start cfg src.grid inp calm (b + 1)
  have calm3 : CalmFwd cfg3 src.grid inp := by
    intro k hk
    exact calm2 k (le_trans hk hE1)
  have hk3 : 0 ≤ cfg3.kvf := by
    have : cfg3.kvf = cfg.kvf := by rw [hc3, hcfg2]
    rw [this]
    exact hk
  have e3 : startFwd cfg3 path (fun _ => some f) = (f.s_track_lower, f.s_track_upper) := by
    unfold startFwd; rw [show cfg3.restart = true from hr2]
  have e3' : startFwd cfg3 path disk' = (fun i j => R.rnd (g.s_track_lower i j), fun i j => R.rnd (g.s_track_upper i j)) := st'
  obtain ⟨-, k2⟩ := C90_run_forward cfg3 src src inp inp path path (fun _ => some f) disk' h3 h3 rfl ⟨rfl, rfl⟩ hp3 hp3 ha hk3
    calm3 (by rw [e3]; exact hnn) (by rw [e3']; exact fun i j => ⟨rnd_nonneg R (hg i j).1, rnd_nonneg R (hg i j).2⟩)
    ⟨cfg3.steps, fun fuel hf => (hrun fuel).trans (if_neg (not_lt.mpr hf))⟩
    ⟨cfg3.steps, fun fuel hf => (hrun' fuel).trans (if_neg (not_lt.mpr hf))⟩
  have z : tagGapFwd cfg3 src.grid.a inp inp = 0 := by simp [tagGapFwd, total]
  rw [z, e3, e3', add_zero] at k2
  have x1 : (fwdStateAt cfg3 src inp r o2 cfg3.steps).files = (fwdProc cfg2 src.grid inp).files o2 (e + 1) := by
    rw [hst]; exact q1
  have x1' : (fwdStateAt cfg3 src inp r' o2' cfg3.steps).files = (fwdProc cfg2 src.grid inp).files o2' (e + 1) := by
    rw [hst]; exact q1'
  have x2 : (fwdStateAt cfg3 src inp r o2 cfg3.steps).output = (fwdProc cfg2 src.grid inp).out o2 (e + 1) := by
    rw [hst]; exact q2
  have x2' : (fwdStateAt cfg3 src inp r' o2' cfg3.steps).output = (fwdProc cfg2 src.grid inp).out o2' (e + 1) := by
    rw [hst]; exact q2'
  rw [x1, x1', x2, x2'] at k2
  unfold fwdStorageGap at k2 ⊢
  rw [(fwd_out_succ cfg2 inp src.grid o2 e).1, (fwd_out_succ cfg2 inp src.grid o2 e).2,
    (fwd_out_succ cfg2 inp src.grid o2' e).1, (fwd_out_succ cfg2 inp src.grid o2' e).2] at k2
  refine k2.trans ?_
  have g1 := gap_cast src.grid.a ha R hR g.s_track_lower (fun i j => (hg i j).1)
  have g2 := gap_cast src.grid.a ha R hR g.s_track_upper (fun i j => (hg i j).2)
  have t1 := gap_triangle src.grid.a ha f.s_track_lower g.s_track_lower (fun i j => R.rnd (g.s_track_lower i j))
  have t2 := gap_triangle src.grid.a ha f.s_track_upper g.s_track_upper (fun i j => R.rnd (g.s_track_upper i j))
  unfold fwdRoundingOf
  simp only
  linarith

/-- a command that continues from the rounded file of `A` on to `B` -/
private theorem next_rounded_fwd (lib : Library m n K) (hfirst : ∀ q name, lib.first q = some name → q name = true)
    (parse : List Char → Except Err (FileSettings (TrackSettings K))) (fs : FileSystem)
    (cfg : Loaded (TrackSettings K)) (hb : cfg.config.rest.backward = false)
    (inp : Input m n K) (hR : Runnable cfg.runConfig (fwdSource lib cfg fs) inp) (hmin : 60 ∣ cfg.config.rest.timestep)
    (hph : Physical inp (cfg.config.dates .tracking_start_date) (cfg.config.dates .tracking_end_date))
    (ha : ∀ i, 0 < (fwdSource lib cfg fs).grid.a i) (hk : 0 ≤ cfg.config.rest.kvf)
    (calm : CalmFwd cfg.runConfig (fwdSource lib cfg fs).grid inp)
    (hy : ∀ t, cfg.config.dates .tracking_start_date ≤ t → t ≤ cfg.config.dates .tracking_end_date →
      FourDigitYear cfg.calendar t)
    (hapart : ∀ p, TrackInput (withRestart false cfg) p → ¬ Below cfg.output p)
    (R : Rounding K) {u η : K} (hA : Accurate R u η)
    (o : FwdOutput (m + 2) (n + 2) K) (hs0 : ∀ i j, 0 ≤ o.s_track_lower i j ∧ 0 ≤ o.s_track_upper i j)
    (p : Proc (FwdOutput (m + 2) (n + 2) K)) (hp : p = fwdProc cfg.runConfig (fwdSource lib cfg fs).grid inp)
    (a b : ℕ) (hab : a < b) (hbN : b + 1 ≤ cfg.runConfig.steps)
    (hwa : p.write (a + 1) = true) (hwb : p.write (b + 1) = true)
    (A B : ℤ) (hAt : A = cfg.runConfig.fwdTime (a + 1)) (hBt : B = cfg.runConfig.fwdTime (b + 1))
    (hax : SameAxes lib cfg fs (cfg.config.dates .tracking_start_date) A)
    (one two0 : ℤ → FwdOutput (m + 2) (n + 2) K) (hone : ∀ x ∈ p.files o (b + 1), one x.1 = x.2)
    (hnn : ∀ i j, 0 ≤ (two0 A).s_track_lower i j ∧ 0 ≤ (two0 A).s_track_upper i j)
    (hback : lib.readFwd (lib.showFwd (two0 A)) = some ((two0 A).cast R.rnd))
    (fsk : FileSystem) (hin : ∀ p, TrackInput (withRestart false cfg) p → fsk p = fs p)
    (hfiles : ∀ x ∈ p.files o (a + 1), fsk (forwardFile cfg x.1) = some (.file (lib.showFwd (two0 x.1))))
    (c : TrackCall K) (rc : c.Ready parse fsk (forwardPiece cfg (some A) B)) :
    c.Works lib parse fsk (forwardPiece cfg (some A) B) ∧
    (∀ p, TrackInput (withRestart false cfg) p → after (c.act lib parse) fsk p = fs p) ∧
    ∃ two1 : ℤ → FwdOutput (m + 2) (n + 2) K, (∀ t, t ≤ A → two1 t = two0 t) ∧
      (∀ x ∈ p.files o (b + 1), after (c.act lib parse) fsk (forwardFile cfg x.1) = some (.file (lib.showFwd (two1 x.1)))) ∧
      (∀ i j, 0 ≤ (two1 B).s_track_lower i j ∧ 0 ≤ (two1 B).s_track_upper i j) ∧
      ∀ E ∈ (p.files o (b + 1)).map Prod.fst, A < E → ∀ T : Finset ℤ,
        (∀ t ∈ T, t ∈ (p.files o (b + 1)).map Prod.fst ∧ A < t ∧ t ≤ E) →
        fwdStorageGap (fwdSource lib cfg fs).grid.a (one E) (two1 E) +
            ∑ t ∈ T, fwdFateGap (fwdSource lib cfg fs).grid.a (one t) (two1 t) ≤
          fwdStorageGap (fwdSource lib cfg fs).grid.a (one A) (two0 A) + fwdRoundingOf u η (fwdSource lib cfg fs).grid.a (two0 A) := by
  set src := fwdSource lib cfg fs with hsrc
  set path : ℤ → FPath := fun t => cfg.output ++ [outputName cfg.calendar false t] with hpath
  have hname : ∀ t, path t = forwardFile cfg t := fun t => by
    rw [hpath]
    simp only
    rw [forward_name']
    rfl
  subst hAt
  subst hBt
  set A := cfg.runConfig.fwdTime (a + 1) with hAt
  set B := cfg.runConfig.fwdTime (b + 1) with hBt
  set c' := forwardPiece cfg (some A) B with hc'
  set run : RunConfig K := { cfg.runConfig with tracking_end_date := cfg.runConfig.fwdTime (b + 1) } with hrun
  have RB : Runnable run src inp := hR.fwd_end (b + 1) hbN
  have stB : run.steps = b + 1 := cfg.runConfig.steps_fwd_end hR.timestep_pos (b + 1)
  rw [hp] at hwa hwb
  have hwa' : writes cfg.runConfig.fwdTime cfg.runConfig.output_frequency cfg.runConfig.steps (a + 1) := of_decide_eq_true hwa
  have hwB : writes run.fwdTime run.output_frequency run.steps (a + 1) := by
    rcases hwa' with h | h
    · exact .inl h
    · omega
  have e1 : (fwdProc run src.grid inp).files o (b + 1) = p.files o (b + 1) := by
    rw [hp]
    exact (fwd_first_part cfg.runConfig src.grid inp o hR.timestep_pos (b + 1) hbN (of_decide_eq_true hwb)).1
  have e2 : (fwdProc run src.grid inp).files o (a + 1) = p.files o (a + 1) := by
    have h1 := (fwd_first_part cfg.runConfig src.grid inp o hR.timestep_pos (a + 1) (by omega) hwa').1
    have h2 := (fwd_first_part run src.grid inp o hR.timestep_pos (a + 1) (by rw [stB]; omega) hwB).1
    rw [hp]
    exact h2.symm.trans h1
  have e3 : (fwdProc run src.grid inp).full o a = p.full o a := by
    have h := congrArg List.getLast? e2
    rw [hp] at h ⊢
    simp only [Proc.files, hwa, show (fwdProc run src.grid inp).write (a + 1) = true from decide_eq_true hwB, if_true,
      List.getLast?_concat] at h
    injection h with h
    exact (Prod.mk.injEq _ _ _ _ ▸ h).2
  have memA : (A, p.full o a) ∈ p.files o (a + 1) := by
    rw [hp]
    exact (Proc.mem_files _ _).2 ⟨a, Nat.lt_succ_self a, hwa, rfl⟩
  have hdisk : fsk (path A) = some (.file (lib.showFwd (two0 A))) := by
    rw [hname]
    exact hfiles (A, p.full o a) memA
  have hd : restartFile lib.readFwd fsk (path (run.fwdTime (a + 1))) = some ((two0 A).cast R.rnd) := by
    unfold restartFile
    have : fsk (path (run.fwdTime (a + 1))) = _ := hdisk
    rw [this]
    exact hback
  have hEnd : run.tracking_end_date ≤ cfg.config.dates .tracking_end_date :=
    (cfg.runConfig.fwdTime_mem hR.timestep_pos hR.ordered (b + 1) hbN).2
  have hpB : Physical inp run.tracking_start_date run.tracking_end_date :=
    { wet := fun t h0 h1 => hph.wet t h0 (h1.trans hEnd)
      precip := fun t h0 h1 => hph.precip t h0 (h1.trans hEnd)
      evap := fun t h0 h1 => hph.evap t h0 (h1.trans hEnd)
      region := fun t h0 h1 => hph.region t h0 (h1.trans hEnd) }
  have calmB : CalmFwd run src.grid inp := fun k hk => calm k (le_trans hk hEnd)
  obtain ⟨o2, o2', ho2', nn, hsplit, hgap⟩ := fwd_from_rounded run src inp path RB hpB ha hk calmB R hA o hs0 a
    (by omega) (decide_eq_true hwB) (two0 A) hnn (restartFile lib.readFwd fsk) hd c'.runConfig rfl
  rw [stB, e1, e2] at hsplit
  rw [e3] at hgap
  have hs : fwdSource lib c' fsk = src := source_at lib hfirst cfg fs fsk hin _ A hax
  have R2 : Runnable c'.runConfig src inp := RB.fwd_start (a + 1) (by rw [stB]; omega)
  have w : c.Works lib parse fsk c' := by
    refine ⟨rc.given, rc.input, ?_⟩
    obtain ⟨r, -, -, hall⟩ := fwd_run_eq _ _ inp _ _ R2 o2' ho2'
    rw [← hs] at hall
    refine (C112_forward lib hfirst parse c.cwd c.dir c.stem c.stamp _ c.settings _ rc.given rc.input
      rc.room hb).1 _ ((hall c'.fuel).trans (if_neg ?_))
    show ¬ c'.fuel < c'.fuel
    omega
  have hin' : ∀ p, TrackInput (withRestart false cfg) p → after (c.act lib parse) fsk p = fs p := by
    intro p hp
    rw [call_input lib hfirst parse c fsk c' w p (input_of_plain (cfg := cfg) (cfg' := c') rfl rfl rfl hp) (hapart p hp)]
    exact hin p hp
  refine ⟨w, hin', ?_⟩
  obtain ⟨s2, k2, f2⟩ := call_files_fwd lib hfirst parse c fsk c' w hb
  rw [hs] at k2
  obtain ⟨o3, r3, ho3, hs3, -⟩ := fwd_finished R2 k2
  have hoo : o3 = o2' := by
    have : fwdInitialize c'.runConfig src path (restartFile lib.readFwd fsk) = .ok o3 := ho3
    rw [ho2'] at this
    injection this with this
    exact this.symm
  subst hoo
  set cfg2 := c'.runConfig with hcfg2
  set p2 := fwdProc cfg2 src.grid inp with hp2
  have hfiles2 : s2.files = p2.files o3 cfg2.steps := by rw [hs3]; rfl
  have hpw : (p.files o (b + 1)).Pairwise fun x y =>
      minuteString (dateTimeOf cfg.calendar y.1) ≠ minuteString (dateTimeOf cfg.calendar x.1) := by
    have := fwd_names_differ run src.grid inp cfg.calendar hR.timestep_pos hmin
      (fun t h0 h1 => hy t h0 (h1.trans hEnd)) o
    rw [stB, e1] at this
    exact this
  have htimes2 : ∀ k, (p2.files o2 k).map Prod.fst = (p2.files o3 k).map Prod.fst := fun k => by
    rw [Proc.files_time, Proc.files_time]
  set two' := p.files o (a + 1) ++ p2.files o3 cfg2.steps with htwo'
  have htimes : (p.files o (b + 1)).map Prod.fst = two'.map Prod.fst := by
    rw [hsplit, htwo', List.map_append, List.map_append, htimes2]
  have hpw' : two'.Pairwise fun x y =>
      minuteString (dateTimeOf cfg.calendar y.1) ≠ minuteString (dateTimeOf cfg.calendar x.1) := by
    have h1 := (List.pairwise_map (f := Prod.fst) (R := fun x y =>
      minuteString (dateTimeOf cfg.calendar y) ≠ minuteString (dateTimeOf cfg.calendar x))).2 hpw
    rw [htimes] at h1
    exact List.pairwise_map.1 h1
  obtain ⟨-, hpb, hpc⟩ := List.pairwise_append.1 hpw'
  obtain ⟨f, hf⟩ := pick _ (hpb.imp (fun h e => h (by rw [e]))) o
  have hdt : 0 < cfg.runConfig.dt := by
    have := hR.timestep_pos
    unfold RunConfig.dt usPerSecond
    positivity
  have time1 : ∀ x ∈ p.files o (a + 1), x.1 ≤ A := by
    intro x hx
    rw [hp] at hx
    obtain ⟨i, hi, -, rfl⟩ := (Proc.mem_files _ _).1 hx
    show cfg.runConfig.fwdTime (i + 1) ≤ cfg.runConfig.fwdTime (a + 1)
    unfold RunConfig.fwdTime
    have : ((i + 1 : ℕ) : ℤ) ≤ ((a + 1 : ℕ) : ℤ) := by exact_mod_cast Nat.succ_le_succ (Nat.le_of_lt_succ hi)
    have := mul_le_mul_of_nonneg_right this hdt.le
    linarith
  have time2 : ∀ i, p2.time (i + 1) = A + ((i + 1 : ℕ) : ℤ) * cfg.runConfig.dt := fun i => rfl
  have timeP : ∀ i, A < p2.time (i + 1) := by
    intro i
    rw [time2]
    have : 0 < ((i + 1 : ℕ) : ℤ) * cfg.runConfig.dt := mul_pos (by exact_mod_cast Nat.succ_pos i) hdt
    omega
  have timeS : ∀ i i', p2.time (i + 1) ≤ p2.time (i' + 1) → i ≤ i' := by
    intro i i' h
    rw [time2, time2] at h
    have h1 : ((i + 1 : ℕ) : ℤ) * cfg.runConfig.dt ≤ ((i' + 1 : ℕ) : ℤ) * cfg.runConfig.dt := by linarith
    have h2 := le_of_mul_le_mul_right h1 hdt
    have h3 : i + 1 ≤ i' + 1 := by exact_mod_cast h2
    omega
  have later : ∀ t, t ∈ (p.files o (b + 1)).map Prod.fst → A < t →
      ∃ e, e + 1 ≤ cfg2.steps ∧ p2.write (e + 1) = true ∧ t = p2.time (e + 1) := by
    intro t ht hlt
    rw [hsplit, List.map_append] at ht
    rcases List.mem_append.1 ht with h | h
    · obtain ⟨x, hx, rfl⟩ := List.mem_map.1 h
      exact absurd (time1 x hx) (not_le.2 hlt)
    · obtain ⟨x, hx, rfl⟩ := List.mem_map.1 h
      obtain ⟨e, he, hwe, rfl⟩ := (Proc.mem_files _ _).1 hx
      exact ⟨e, he, hwe, rfl⟩
  set two1 : ℤ → FwdOutput (m + 2) (n + 2) K := fun t => if t ≤ A then two0 t else f t with htwo1
  have one2 : ∀ e, ∀ x ∈ p2.files o2 e, e ≤ cfg2.steps → one x.1 = x.2 := by
    intro e x hx he
    refine hone x ?_
    rw [hsplit]
    refine List.mem_append_right _ ?_
    obtain ⟨i, hi, hwi, rfl⟩ := (Proc.mem_files _ _).1 hx
    exact (Proc.mem_files _ _).2 ⟨i, lt_of_lt_of_le hi he, hwi, rfl⟩
  have two2 : ∀ e, ∀ x ∈ p2.files o3 e, e ≤ cfg2.steps → two1 x.1 = x.2 := by
    intro e x hx he
    obtain ⟨i, hi, hwi, rfl⟩ := (Proc.mem_files _ _).1 hx
    rw [htwo1]
    simp only
    rw [if_neg (not_le.2 (timeP i))]
    exact hf _ ((Proc.mem_files _ _).2 ⟨i, lt_of_lt_of_le hi he, hwi, rfl⟩)
  have oneA : one A = p.full o a := by
    refine hone (A, p.full o a) ?_
    rw [hsplit]
    exact List.mem_append_left _ memA
  refine ⟨two1, fun t h => if_pos h, ?_, ?_, ?_⟩
  · intro y hy
    have hy' := List.mem_map_of_mem (f := Prod.fst) hy
    rw [htimes] at hy'
    obtain ⟨x, hx, hxy⟩ := List.mem_map.1 hy'
    rw [← hxy]
    rcases List.mem_append.1 hx with hm | hm
    · have hold := hfiles x hm
      have et : two1 x.1 = two0 x.1 := if_pos (time1 x hm)
      rw [et]
      unfold forwardFile at hold ⊢
      rw [← forward_name'] at hold ⊢
      have hb2 : c'.config.rest.backward = false := hb
      have hout := (C109_forward lib c' fsk hb).2.1
      rw [hs] at hout
      have k2' : fwdRun c'.runConfig src (fun t => c'.output ++ [outputName c'.calendar false t])
        (restartFile lib.readFwd fsk) c'.fuel = .finished s2 := k2
      rw [k2'] at hout
      have := call_keeps lib hfirst parse c fsk c' w x.1 (lib.showFwd (two0 x.1))
      rw [hb2] at this
      refine this hold ?_
      intro y hy
      rw [hout.1] at hy
      obtain ⟨z, hz, rfl⟩ := List.mem_map.1 hy
      rw [forward_name', forward_name']
      intro e
      have hz' : z ∈ p2.files o3 cfg2.steps := by rw [← hfiles2]; exact hz
      exact hpc _ hm z hz' (List.append_cancel_left (List.append_cancel_right e))
    · rw [two2 _ x hm le_rfl]
      obtain ⟨before, aft, hs⟩ := List.append_of_mem hm
      refine f2 before x.1 x.2 aft (by rw [hfiles2, hs]) ?_
      rw [hs] at hpb
      exact (List.pairwise_cons.1 (List.pairwise_append.1 hpb).2.1).1
  · have hBm : B ∈ (p.files o (b + 1)).map Prod.fst := by
      rw [hp]
      exact List.mem_map.2 ⟨_, (Proc.mem_files _ _).2 ⟨b, Nat.lt_succ_self b, hwb, rfl⟩, rfl⟩
    have hAB : A < B := by
      show cfg.runConfig.fwdTime (a + 1) < cfg.runConfig.fwdTime (b + 1)
      unfold RunConfig.fwdTime
      have : ((a + 1 : ℕ) : ℤ) < ((b + 1 : ℕ) : ℤ) := by exact_mod_cast Nat.succ_lt_succ hab
      have := mul_lt_mul_of_pos_right this hdt
      linarith
    obtain ⟨e, he, hwe, hBe⟩ := later B hBm hAB
    intro i j
    have := two2 (e + 1) (p2.time (e + 1), p2.full o3 e) ((Proc.mem_files _ _).2 ⟨e, Nat.lt_succ_self e, hwe, rfl⟩) he
    simp only at this
    rw [← hBe] at this
    rw [this]
    exact nn e he i j
  · intro E hE hlt T hT
    obtain ⟨e, he, hwe, rfl⟩ := later E hE hlt
    have q1 := one2 (e + 1) (p2.time (e + 1), p2.full o2 e) ((Proc.mem_files _ _).2 ⟨e, Nat.lt_succ_self e, hwe, rfl⟩) he
    have q2 := two2 (e + 1) (p2.time (e + 1), p2.full o3 e) ((Proc.mem_files _ _).2 ⟨e, Nat.lt_succ_self e, hwe, rfl⟩) he
    simp only at q1 q2
    have hsum := sum_le_pairs (fwdFateGap src.grid.a) (fwdFate_nonneg src.grid.a ha) one two1 (p2.files o2 (e + 1))
      (p2.files o3 (e + 1)) T (htimes2 _) (fun x hx => one2 _ x hx he) (fun x hx => two2 _ x hx he) (by
        intro t ht
        obtain ⟨h1, h2, h3⟩ := hT t ht
        obtain ⟨i, hi, hwi, rfl⟩ := later t h1 h2
        exact List.mem_map.2 ⟨_, (Proc.mem_files _ _).2 ⟨i, Nat.lt_succ_of_le (timeS i e h3), hwi, rfl⟩, rfl⟩)
    have hg := hgap e he hwe
    rw [q1, q2, oneA]
    linarith

/-- adding one command: `T` is split at `B` -/
private theorem add_piece (S Q r : ℤ → K) (A B E : ℤ) (hBE : B < E) (T : Finset ℤ) (x : K)
    (h1 : S B + ∑ t ∈ T.filter (· ≤ B), Q t ≤ S A + r A)
    (h2 : S E + ∑ t ∈ T.filter (fun t => ¬ t ≤ B), Q t ≤ S B + r B + x) :
    S E + ∑ t ∈ T, Q t ≤ S A + r A + (r B + x) := by
  have := Finset.sum_filter_add_sum_filter_not T (· ≤ B) Q
  linarith

/-- several commands, of which the first continues from the rounded file of `A` -/
private theorem pieces_rounded_fwd (lib : Library m n K) (hfirst : ∀ q name, lib.first q = some name → q name = true)
    (parse : List Char → Except Err (FileSettings (TrackSettings K))) (fs : FileSystem)
    (cfg : Loaded (TrackSettings K)) (hb : cfg.config.rest.backward = false)
    (inp : Input m n K) (hR : Runnable cfg.runConfig (fwdSource lib cfg fs) inp) (hmin : 60 ∣ cfg.config.rest.timestep)
    (hph : Physical inp (cfg.config.dates .tracking_start_date) (cfg.config.dates .tracking_end_date))
    (ha : ∀ i, 0 < (fwdSource lib cfg fs).grid.a i) (hk : 0 ≤ cfg.config.rest.kvf)
    (calm : CalmFwd cfg.runConfig (fwdSource lib cfg fs).grid inp)
    (hy : ∀ t, cfg.config.dates .tracking_start_date ≤ t → t ≤ cfg.config.dates .tracking_end_date →
      FourDigitYear cfg.calendar t)
    (hapart : ∀ p, TrackInput (withRestart false cfg) p → ¬ Below cfg.output p)
    (R : Rounding K) {u η : K} (hA : Accurate R u η)
    (o : FwdOutput (m + 2) (n + 2) K) (hs0 : ∀ i j, 0 ≤ o.s_track_lower i j ∧ 0 ≤ o.s_track_upper i j)
    (p : Proc (FwdOutput (m + 2) (n + 2) K)) (hp : p = fwdProc cfg.runConfig (fwdSource lib cfg fs).grid inp)
    (one : ℤ → FwdOutput (m + 2) (n + 2) K) (hone : ∀ x ∈ p.files o cfg.runConfig.steps, one x.1 = x.2)
    (times : ℤ → Prop) (htimes : ∀ t, times t ↔ t ∈ (p.files o cfg.runConfig.steps).map Prod.fst)
    (parts : List (TrackCall K × ℤ)) :
    ∀ (a : ℕ) (A : ℤ) (hAt : A = cfg.runConfig.fwdTime (a + 1)) (two0 : ℤ → FwdOutput (m + 2) (n + 2) K) (fsk : FileSystem),
      a + 1 ≤ cfg.runConfig.steps → p.write (a + 1) = true →
      SameAxes lib cfg fs (cfg.config.dates .tracking_start_date) A →
      (∀ i j, 0 ≤ (two0 A).s_track_lower i j ∧ 0 ≤ (two0 A).s_track_upper i j) →
      lib.readFwd (lib.showFwd (two0 A)) = some ((two0 A).cast R.rnd) →
      (∀ p, TrackInput (withRestart false cfg) p → fsk p = fs p) →
      (∀ x ∈ p.files o (a + 1), fsk (forwardFile cfg x.1) = some (.file (lib.showFwd (two0 x.1)))) →
      (∀ x ∈ parts, A < x.2) → parts.Pairwise (fun x y => x.2 < y.2) →
      (∀ x ∈ parts, ForwardOutputTime cfg x.2 ∧ SameAxes lib cfg fs (cfg.config.dates .tracking_start_date) x.2) →
      ForwardReadsRounded lib parse cfg R fsk parts →
      PiecesReady (forwardPiece cfg) parse fsk (some A) parts →
      AllEnd (parts.map fun x => x.1.act lib parse) fsk ∧
      ∃ two : ℤ → FwdOutput (m + 2) (n + 2) K, (∀ t, t ≤ A → two t = two0 t) ∧
        (∀ t, times t → (t ≤ A ∨ ∃ y ∈ parts, t ≤ y.2) →
          afterAll (parts.map fun x => x.1.act lib parse) fsk (forwardFile cfg t) = some (.file (lib.showFwd (two t)))) ∧
        ∀ E, times E → A < E → (∃ y ∈ parts, E ≤ y.2) → ∀ T : Finset ℤ, (∀ t ∈ T, times t ∧ A < t ∧ t ≤ E) →
          fwdStorageGap (fwdSource lib cfg fs).grid.a (one E) (two E) +
              ∑ t ∈ T, fwdFateGap (fwdSource lib cfg fs).grid.a (one t) (two t) ≤
            fwdStorageGap (fwdSource lib cfg fs).grid.a (one A) (two A) +
              fwdRoundingOf u η (fwdSource lib cfg fs).grid.a (two A) +
              ((parts.filter fun x => decide (x.2 < E)).map fun x =>
                fwdRoundingOf u η (fwdSource lib cfg fs).grid.a (two x.2)).sum := by
  have hdt : 0 < cfg.runConfig.dt := by
    have := hR.timestep_pos
    unfold RunConfig.dt usPerSecond
    positivity
  have mono : ∀ i j : ℕ, cfg.runConfig.fwdTime (i + 1) ≤ cfg.runConfig.fwdTime (j + 1) → i ≤ j := by
    intro i j h
    unfold RunConfig.fwdTime at h
    have h1 : ((i + 1 : ℕ) : ℤ) * cfg.runConfig.dt ≤ ((j + 1 : ℕ) : ℤ) * cfg.runConfig.dt := by linarith
    have h2 := le_of_mul_le_mul_right h1 hdt
    have h3 : i + 1 ≤ j + 1 := by exact_mod_cast h2
    omega
  have early : ∀ (a : ℕ), ∀ t, times t → t ≤ cfg.runConfig.fwdTime (a + 1) → t ∈ (p.files o (a + 1)).map Prod.fst := by
    intro a t ht h
    obtain ⟨x, hx, rfl⟩ := List.mem_map.1 ((htimes t).1 ht)
    rw [hp] at hx ⊢
    obtain ⟨i, -, hwi, rfl⟩ := (Proc.mem_files _ _).1 hx
    exact List.mem_map.2 ⟨_, (Proc.mem_files _ _).2 ⟨i, Nat.lt_succ_of_le (mono i a h), hwi, rfl⟩, rfl⟩
  induction parts with
  | nil =>
    intro a A hAt two0 fsk haN hwa hax hnn hback hin hfiles _ _ _ _ _
    refine ⟨trivial, two0, fun _ _ => rfl, ?_, ?_⟩
    · rintro t ht (h | ⟨y, hy, -⟩)
      · obtain ⟨x, hx, rfl⟩ := List.mem_map.1 (early a t ht (hAt ▸ h))
        exact hfiles x hx
      · cases hy
    · rintro E _ _ ⟨y, hy, -⟩
      cases hy
  | cons d rest ih =>
    intro a A hAt two0 fsk haN hwa hax hnn hback hin hfiles hlt hsorted hout hreads hready
    obtain ⟨c, B⟩ := d
    obtain ⟨k, hk1, hkN, hBk, hkw⟩ := (hout (c, B) List.mem_cons_self).1
    have hBk : B = cfg.config.dates .tracking_start_date + (k : ℤ) * (cfg.config.rest.timestep * 1000000) := hBk
    obtain ⟨b, rfl⟩ : ∃ b, k = b + 1 := ⟨k - 1, by omega⟩
    have hBt : B = cfg.runConfig.fwdTime (b + 1) := hBk
    have hbN : b + 1 ≤ cfg.runConfig.steps := hkN
    have hwb : p.write (b + 1) = true := by
      have hkw : cfg.runConfig.output_frequency ∣ B ∨ _ := hkw
      rw [hBt] at hkw
      rw [hp]
      exact decide_eq_true hkw
    have hAB : A < B := hlt _ List.mem_cons_self
    have hab : a < b := by
      by_contra h
      have h1 : ((b + 1 : ℕ) : ℤ) ≤ ((a + 1 : ℕ) : ℤ) := by exact_mod_cast (by omega : b + 1 ≤ a + 1)
      have h2 := mul_le_mul_of_nonneg_right h1 hdt.le
      rw [hAt, hBt] at hAB
      unfold RunConfig.fwdTime at hAB
      linarith
    have hone' : ∀ x ∈ p.files o (b + 1), one x.1 = x.2 := by
      intro x hx
      refine hone x ?_
      obtain ⟨i, hi, hwi, rfl⟩ := (Proc.mem_files _ _).1 hx
      exact (Proc.mem_files _ _).2 ⟨i, lt_of_lt_of_le hi hbN, hwi, rfl⟩
    obtain ⟨w, hin', two1, hkeep, hfiles', hnn', hgap⟩ := next_rounded_fwd lib hfirst parse fs cfg hb inp hR hmin hph ha hk calm hy
      hapart R hA o hs0 p hp a b hab hbN hwa hwb A B hAt hBt hax one two0 hone' hnn hback fsk hin hfiles c hready.1
    obtain ⟨h1, h2⟩ := List.pairwise_cons.1 hsorted
    have hBm : B ∈ (p.files o (b + 1)).map Prod.fst := by
      rw [hp] at hwb ⊢
      exact List.mem_map.2 ⟨_, (Proc.mem_files _ _).2 ⟨b, Nat.lt_succ_self b, hwb, rfl⟩, hBt.symm⟩
    have hback' : lib.readFwd (lib.showFwd (two1 B)) = some ((two1 B).cast R.rnd) := by
      obtain ⟨x, hx, hxB⟩ := List.mem_map.1 hBm
      have hd := hfiles' x hx
      rw [hxB] at hd
      exact hreads.1 _ hd
    obtain ⟨g1, two, gkeep, gfiles, ggap⟩ := ih b B hBt two1 (after (c.act lib parse) fsk) hbN hwb (hout _ List.mem_cons_self).2 hnn'
      hback' hin' hfiles' (fun x hx => h1 x hx) h2 (fun x hx => hout x (List.mem_cons_of_mem _ hx)) hreads.2
      (pieces_keep lib hfirst parse cfg c fsk _ (forwardPiece cfg) (fun x y => by cases x <;> exact ⟨rfl, rfl⟩) w hready.1 rest _ hready.2)
    have kA : two A = two0 A := (gkeep A hAB.le).trans (hkeep A le_rfl)
    have step : ∀ E, times E → A < E → E ≤ B → ∀ T : Finset ℤ, (∀ t ∈ T, times t ∧ A < t ∧ t ≤ E) →
        fwdStorageGap (fwdSource lib cfg fs).grid.a (one E) (two E) +
            ∑ t ∈ T, fwdFateGap (fwdSource lib cfg fs).grid.a (one t) (two t) ≤
          fwdStorageGap (fwdSource lib cfg fs).grid.a (one A) (two A) + fwdRoundingOf u η (fwdSource lib cfg fs).grid.a (two A) := by
      intro E hE hAE hEB T hT
      have h := hgap E (early b E hE (hBt ▸ hEB)) hAE T (fun t ht =>
        ⟨early b t (hT t ht).1 (hBt ▸ (hT t ht).2.2.trans hEB), (hT t ht).2⟩)
      rw [kA, gkeep E hEB]
      refine le_trans (le_of_eq ?_) h
      congr 1
      exact Finset.sum_congr rfl fun t ht => by rw [gkeep t ((hT t ht).2.2.trans hEB)]
    refine ⟨⟨w.ends, g1⟩, two, fun t h => (gkeep t (h.trans hAB.le)).trans (hkeep t h), ?_, ?_⟩
    · intro t ht hx
      refine gfiles t ht ?_
      rcases hx with h | ⟨y, hy, h⟩
      · exact .inl (h.trans hAB.le)
      · rcases List.mem_cons.1 hy with rfl | hy
        · exact .inl h
        · exact .inr ⟨y, hy, h⟩
    · intro E hE hAE hr T hT
      rcases le_or_gt E B with hEB | hBE
      · have hf : ((c, B) :: rest).filter (fun x => decide (x.2 < E)) = [] := by
          rw [List.filter_eq_nil_iff]
          intro x hx
          rcases List.mem_cons.1 hx with rfl | hx
          · simpa using hEB
          · have := h1 x hx
            simp only [decide_eq_true_eq, not_lt]
            exact hEB.trans this.le
        rw [hf]
        simp only [List.map_nil, List.sum_nil, add_zero]
        exact step E hE hAE hEB T hT
      · have hf : ((c, B) :: rest).filter (fun x => decide (x.2 < E)) = (c, B) :: rest.filter (fun x => decide (x.2 < E)) :=
          List.filter_cons_of_pos (by simpa using hBE)
        rw [hf, List.map_cons, List.sum_cons]
        have hBtimes : times B := (htimes B).2 (by
          obtain ⟨x, hx, hxB⟩ := List.mem_map.1 hBm
          obtain ⟨i, hi, hwi, rfl⟩ := (Proc.mem_files _ _).1 hx
          exact List.mem_map.2 ⟨_, (Proc.mem_files _ _).2 ⟨i, lt_of_lt_of_le hi hbN, hwi, rfl⟩, hxB⟩)
        refine add_piece (fun t => fwdStorageGap (fwdSource lib cfg fs).grid.a (one t) (two t))
          (fun t => fwdFateGap (fwdSource lib cfg fs).grid.a (one t) (two t))
          (fun t => fwdRoundingOf u η (fwdSource lib cfg fs).grid.a (two t)) A B E hBE T _
          (step B hBtimes hAB le_rfl _ ?_) (ggap E hE hBE ?_ _ ?_)
        · intro t ht
          obtain ⟨ht1, ht2⟩ := Finset.mem_filter.1 ht
          exact ⟨(hT t ht1).1, (hT t ht1).2.1, ht2⟩
        · obtain ⟨y, hy, h⟩ := hr
          rcases List.mem_cons.1 hy with rfl | hy
          · exact absurd h (not_le.2 hBE)
          · exact ⟨y, hy, h⟩
        · intro t ht
          obtain ⟨ht1, ht2⟩ := Finset.mem_filter.1 ht
          exact ⟨(hT t ht1).1, not_le.1 ht2, (hT t ht1).2.2⟩

/-- Forward, with files in single precision: the last file of each command reads back with its numbers rounded (`R`, with unit roundoff `u`; `η` is the underflow
threshold).  The run over the whole period is divided, at any of the times at which output is written, among any number of commands; each continues from the last file of the
one before it.  All of them succeed.  Up to the end of the first command the output is that of the one command.  In weather in which no cell loses more water than it
holds, at every output time `E` that the commands reach, the tracked storage, and the tracked precipitation and losses of any of the files up to `E` taken
together, differ from those of the one command by at most the sum, over the files that were read back before `E`, of the fraction `u` of the tracked storage in them. -/
theorem C128_forward (lib : Library m n K) (hfirst : ∀ q name, lib.first q = some name → q name = true)
    (parse : List Char → Except Err (FileSettings (TrackSettings K))) (fs : FileSystem)
    (cfg : Loaded (TrackSettings K)) (hb : cfg.config.rest.backward = false)
    (inp : Input m n K) (hR : Runnable cfg.runConfig (fwdSource lib cfg fs) inp) (hmin : 60 ∣ cfg.config.rest.timestep)
    (hp : Physical inp (cfg.config.dates .tracking_start_date) (cfg.config.dates .tracking_end_date))
    (ha : ∀ i, 0 < (fwdSource lib cfg fs).grid.a i) (hk : 0 ≤ cfg.config.rest.kvf)
    (calm : CalmFwd cfg.runConfig (fwdSource lib cfg fs).grid inp)
    (hre : cfg.config.rest.restart = true → ∃ text o,
      fs (forwardFile cfg (cfg.config.dates .tracking_start_date)) = some (.file text) ∧ lib.readFwd text = some o ∧
      ∀ i j, 0 ≤ o.s_track_lower i j ∧ 0 ≤ o.s_track_upper i j)
    (hy : ∀ t, cfg.config.dates .tracking_start_date ≤ t → t ≤ cfg.config.dates .tracking_end_date →
      FourDigitYear cfg.calendar t)
    (hapart : ∀ p, TrackInput (withRestart false cfg) p → ¬ Below cfg.output p)
    (whole : TrackCall K) (h₀ : whole.Ready parse fs cfg)
    (parts : List (TrackCall K × ℤ)) (hsorted : parts.Pairwise fun x y => x.2 < y.2)
    (hout : ∀ x ∈ parts, ForwardOutputTime cfg x.2 ∧ SameAxes lib cfg fs (cfg.config.dates .tracking_start_date) x.2)
    (hready : PiecesReady (forwardPiece cfg) parse fs none parts)
    (R : Rounding K) {u η : K} (hA : Accurate R u η) (hreads : ForwardReadsRounded lib parse cfg R fs parts) :
    (whole.act lib parse fs).2 = .ok () ∧ AllEnd (parts.map fun x => x.1.act lib parse) fs ∧
    ∃ one many : ℤ → FwdOutput (m + 2) (n + 2) K,
      (∀ t, ForwardOutputTime cfg t →
        after (whole.act lib parse) fs (forwardFile cfg t) = some (.file (lib.showFwd (one t)))) ∧
      (∀ t, ForwardOutputTime cfg t → (∃ x ∈ parts, t ≤ x.2) →
        afterAll (parts.map fun x => x.1.act lib parse) fs (forwardFile cfg t) = some (.file (lib.showFwd (many t)))) ∧
      (∀ t, (∀ x ∈ parts, t ≤ x.2) → many t = one t) ∧
      ∀ E, ForwardOutputTime cfg E → (∃ x ∈ parts, E ≤ x.2) → ∀ T : Finset ℤ, (∀ t ∈ T, ForwardOutputTime cfg t ∧ t ≤ E) →
        fwdStorageGap (fwdSource lib cfg fs).grid.a (one E) (many E) +
            ∑ t ∈ T, fwdFateGap (fwdSource lib cfg fs).grid.a (one t) (many t) ≤
          ((parts.filter fun x => decide (x.2 < E)).map fun x =>
            fwdRoundingOf u η (fwdSource lib cfg fs).grid.a (many x.2)).sum := by
  set src := fwdSource lib cfg fs with hsrc
  set path : ℤ → FPath := fun t => cfg.output ++ [outputName cfg.calendar false t] with hpath
  have hname : ∀ t, path t = forwardFile cfg t := fun t => by
    rw [hpath]
    simp only
    rw [forward_name']
    rfl
  obtain ⟨o, ho⟩ := fwd_init_ok cfg.runConfig src inp path (restartFile lib.readFwd fs) hR (fun h => by
      obtain ⟨text, o, h1, h2, -⟩ := hre h
      unfold restartFile
      have : fs (path cfg.runConfig.tracking_start_date) = some (.file text) := by
        rw [hname]
        exact h1
      rw [this]
      simp only [h2]
      rfl)
  have hs0 : ∀ i j, 0 ≤ o.s_track_lower i j ∧ 0 ≤ o.s_track_upper i j := by
    have e := fwd_init_eq cfg.runConfig src path _ o ho
    rw [e]
    intro i j
    simp only
    unfold startFwd
    rcases hr : cfg.runConfig.restart with _ | _
    · exact ⟨le_rfl, le_rfl⟩
    · obtain ⟨text, o', h1, h2, h3⟩ := hre hr
      have : restartFile lib.readFwd fs (path cfg.runConfig.tracking_start_date) = some o' := by
        unfold restartFile
        have : fs (path cfg.runConfig.tracking_start_date) = some (.file text) := by
          rw [hname]
          exact h1
        rw [this]
        exact h2
      rw [this]
      exact h3 i j
  have w₀ : whole.Works lib parse fs cfg := by
    refine ⟨h₀.given, h₀.input, ?_⟩
    obtain ⟨r, -, -, hall⟩ := fwd_run_eq cfg.runConfig src inp _ _ hR o ho
    refine (C112_forward lib hfirst parse whole.cwd whole.dir whole.stem whole.stamp fs whole.settings cfg h₀.given h₀.input
      h₀.room hb).1 _ ((hall cfg.fuel).trans (if_neg ?_))
    show ¬ cfg.fuel < cfg.fuel
    omega
  obtain ⟨s0, k0, f0⟩ := call_files_fwd lib hfirst parse whole fs cfg w₀ hb
  obtain ⟨o', r, ho', hs0', -⟩ := fwd_finished hR k0
  have hoo : o' = o := by
    have : fwdInitialize cfg.runConfig src path (restartFile lib.readFwd fs) = .ok o' := ho'
    rw [ho] at this
    injection this with this
    exact this.symm
  subst hoo
  obtain ⟨p, hp'⟩ : ∃ p, p = fwdProc cfg.runConfig src.grid inp := ⟨_, rfl⟩
  have hfiles0 : s0.files = p.files o' cfg.runConfig.steps := by rw [hs0', hp']; rfl
  have hpw : (p.files o' cfg.runConfig.steps).Pairwise fun x y =>
      minuteString (dateTimeOf cfg.calendar y.1) ≠ minuteString (dateTimeOf cfg.calendar x.1) := by
    rw [hp']
    exact fwd_names_differ cfg.runConfig src.grid inp cfg.calendar hR.timestep_pos hmin hy o'
  have disk0 : ∀ x ∈ p.files o' cfg.runConfig.steps,
      after (whole.act lib parse) fs (forwardFile cfg x.1) = some (.file (lib.showFwd x.2)) := by
    intro x hx
    obtain ⟨before, aft, hs⟩ := List.append_of_mem hx
    refine f0 before x.1 x.2 aft (by rw [hfiles0, hs]) ?_
    rw [hs] at hpw
    exact (List.pairwise_cons.1 (List.pairwise_append.1 hpw).2.1).1
  obtain ⟨one, hone⟩ := pick _ (hpw.imp (fun h e => h (by rw [e]))) o'
  have mem : ∀ t, ForwardOutputTime cfg t → t ∈ (p.files o' cfg.runConfig.steps).map Prod.fst := by
    rintro t ⟨k, hk1, hkN, rfl, hkw⟩
    obtain ⟨i, rfl⟩ : ∃ i, k = i + 1 := ⟨k - 1, by omega⟩
    rw [hp']
    exact List.mem_map.2 ⟨_, (Proc.mem_files _ _).2 ⟨i, hkN, decide_eq_true hkw, rfl⟩, rfl⟩
  have disk1 : ∀ t, ForwardOutputTime cfg t →
      after (whole.act lib parse) fs (forwardFile cfg t) = some (.file (lib.showFwd (one t))) := by
    intro t ht
    obtain ⟨x, hx, rfl⟩ := List.mem_map.1 (mem t ht)
    rw [hone x hx]
    exact disk0 x hx
  refine ⟨w₀.ends, ?_⟩
  have zS : ∀ f : FwdOutput (m + 2) (n + 2) K, fwdStorageGap src.grid.a f f = 0 := fun f => by
    simp [fwdStorageGap, gap, total]
  have zF : ∀ f : FwdOutput (m + 2) (n + 2) K, fwdFateGap src.grid.a f f = 0 := fun f => by
    simp [fwdFateGap, gap, total]
  rcases parts with _ | ⟨⟨c, B⟩, rest⟩
  · refine ⟨trivial, one, one, disk1, ?_, fun _ _ => rfl, ?_⟩
    · rintro t _ ⟨x, hx, -⟩
      cases hx
    · rintro t _ ⟨x, hx, -⟩
      cases hx
  obtain ⟨⟨k, hk1, hkN, hBk, hkw⟩, hax⟩ := hout (c, B) List.mem_cons_self
  have hBk : B = cfg.config.dates .tracking_start_date + (k : ℤ) * (cfg.config.rest.timestep * 1000000) := hBk
  obtain ⟨b, rfl⟩ : ∃ b, k = b + 1 := ⟨k - 1, by omega⟩
  have hBt : B = cfg.runConfig.fwdTime (b + 1) := hBk
  have hbN : b + 1 ≤ cfg.runConfig.steps := hkN
  have hwb : p.write (b + 1) = true := by
    have hkw : cfg.runConfig.output_frequency ∣ B ∨ _ := hkw
    rw [hBt] at hkw
    rw [hp']
    exact decide_eq_true hkw
  have hwb' := hwb
  rw [hp'] at hwb'
  have rc : c.Ready parse fs (endingAt B cfg) := hready.1
  have w₁ : c.Works lib parse fs (endingAt B cfg) := by
    refine ⟨rc.given, rc.input, ?_⟩
    have hR1 : Runnable (endingAt B cfg).runConfig (fwdSource lib (endingAt B cfg) fs) inp := hBt ▸ hR.fwd_end (b + 1) hbN
    obtain ⟨r, -, -, hall⟩ := fwd_run_eq _ _ inp path (restartFile lib.readFwd fs) hR1 o' ho
    refine (C112_forward lib hfirst parse c.cwd c.dir c.stem c.stamp fs c.settings _ rc.given rc.input
      rc.room hb).1 _ ((hall (endingAt B cfg).fuel).trans (if_neg ?_))
    show ¬ (endingAt B cfg).fuel < (endingAt B cfg).fuel
    omega
  have hin : ∀ p, TrackInput (withRestart false cfg) p → after (c.act lib parse) fs p = fs p := fun p hp =>
    call_input lib hfirst parse c fs (endingAt B cfg) w₁ p
      (input_of_plain (cfg := cfg) (cfg' := endingAt B cfg) rfl rfl rfl hp) (hapart p hp)
  have hsub : ∀ x ∈ p.files o' (b + 1), x ∈ p.files o' cfg.runConfig.steps := by
    intro x hx
    obtain ⟨i, hi, hwi, rfl⟩ := (Proc.mem_files _ _).1 hx
    exact (Proc.mem_files _ _).2 ⟨i, lt_of_lt_of_le hi hbN, hwi, rfl⟩
  have hpre : (p.files o' (b + 1)).Pairwise fun x y =>
      minuteString (dateTimeOf cfg.calendar y.1) ≠ minuteString (dateTimeOf cfg.calendar x.1) := by
    obtain ⟨d, hd⟩ : ∃ d, b + 1 + d = cfg.runConfig.steps := ⟨cfg.runConfig.steps - (b + 1), by omega⟩
    have := Proc.shift_files p o' (b + 1) d
    rw [hd] at this
    rw [this] at hpw
    exact (List.pairwise_append.1 hpw).1
  have hfiles : ∀ x ∈ p.files o' (b + 1), after (c.act lib parse) fs (forwardFile cfg x.1) = some (.file (lib.showFwd (one x.1))) := by
    subst hBt
    obtain ⟨f1, -, -⟩ := first_part_fwd lib hfirst parse fs cfg hb inp hR hapart b hbN hwb' hax o' ho c w₁
    intro x hx
    rw [hone x (hsub x hx)]
    obtain ⟨before, aft, hs⟩ := List.append_of_mem hx
    refine f1 before x.1 x.2 aft (by rw [← hsrc, ← hp', hs]) ?_
    rw [hs] at hpre
    exact (List.pairwise_cons.1 (List.pairwise_append.1 hpre).2.1).1
  obtain ⟨h1, h2⟩ := List.pairwise_cons.1 hsorted
  have hBone : one B = p.full o' b := by
    refine hone (B, p.full o' b) (hsub _ ?_)
    rw [hp', hBt]
    exact (Proc.mem_files _ _).2 ⟨b, Nat.lt_succ_self b, hwb', rfl⟩
  have hnn : ∀ i j, 0 ≤ (one B).s_track_lower i j ∧ 0 ≤ (one B).s_track_upper i j := by
    rw [hBone, hp']
    intro i j
    have := fwd_out_nonneg cfg.runConfig src inp hR hp o' hs0 (b + 1) hbN i j
    rw [(fwd_out_succ cfg.runConfig inp src.grid o' b).1, (fwd_out_succ cfg.runConfig inp src.grid o' b).2] at this
    exact this
  have hback : lib.readFwd (lib.showFwd (one B)) = some ((one B).cast R.rnd) := by
    have hd := hfiles (B, p.full o' b) (by
      rw [hp', hBt]
      exact (Proc.mem_files _ _).2 ⟨b, Nat.lt_succ_self b, hwb', rfl⟩)
    exact hreads.1 _ hd
  obtain ⟨g1, two, gkeep, gfiles, ggap⟩ := pieces_rounded_fwd lib hfirst parse fs cfg hb inp hR hmin hp ha hk calm hy hapart R hA o' hs0
    p hp' one hone (fun t => t ∈ (p.files o' cfg.runConfig.steps).map Prod.fst) (fun t => Iff.rfl) rest b B hBt one
    (after (c.act lib parse) fs) hbN hwb hax hnn hback hin hfiles (fun x hx => h1 x hx) h2
    (fun x hx => hout x (List.mem_cons_of_mem _ hx)) hreads.2
    (pieces_keep lib hfirst parse cfg c fs _ (forwardPiece cfg) (fun x y => by cases x <;> exact ⟨rfl, rfl⟩) w₁ rc rest _ hready.2)
  refine ⟨⟨w₁.ends, g1⟩, one, two, disk1, ?_, fun t h => gkeep t (h _ List.mem_cons_self), ?_⟩
  · rintro t ht ⟨x, hx, h⟩
    refine gfiles t (mem t ht) ?_
    rcases List.mem_cons.1 hx with rfl | hx
    · exact .inl h
    · exact .inr ⟨x, hx, h⟩
  · intro E hE hr T hT
    have low : ∀ t, t ≤ B → fwdFateGap src.grid.a (one t) (two t) = 0 := fun t h => by rw [gkeep t h]; exact zF _
    rcases le_or_gt E B with hEB | hBE
    · have hf : ((c, B) :: rest).filter (fun x => decide (x.2 < E)) = [] := by
        rw [List.filter_eq_nil_iff]
        intro x hx
        rcases List.mem_cons.1 hx with rfl | hx
        · simpa using hEB
        · have := h1 x hx
          simp only [decide_eq_true_eq, not_lt]
          exact hEB.trans this.le
      rw [hf, gkeep E hEB, zS, Finset.sum_eq_zero fun t ht => low t ((hT t ht).2.trans hEB)]
      simp
    · have hf : ((c, B) :: rest).filter (fun x => decide (x.2 < E)) = (c, B) :: rest.filter (fun x => decide (x.2 < E)) :=
        List.filter_cons_of_pos (by simpa using hBE)
      rw [hf, List.map_cons, List.sum_cons]
      have h := ggap E (mem E hE) hBE (by
        obtain ⟨y, hy, h⟩ := hr
        rcases List.mem_cons.1 hy with rfl | hy
        · exact absurd h (not_le.2 hBE)
        · exact ⟨y, hy, h⟩) (T.filter fun t => ¬ t ≤ B) (fun t ht => by
          obtain ⟨ht1, ht2⟩ := Finset.mem_filter.1 ht
          exact ⟨mem t (hT t ht1).1, not_le.1 ht2, (hT t ht1).2⟩)
      have hz : ∑ t ∈ T.filter (· ≤ B), fwdFateGap src.grid.a (one t) (two t) = 0 :=
        Finset.sum_eq_zero fun t ht => low t (Finset.mem_filter.1 ht).2
      have hsum := Finset.sum_filter_add_sum_filter_not T (· ≤ B) fun t => fwdFateGap src.grid.a (one t) (two t)
      have hzB : fwdStorageGap src.grid.a (one B) (two B) = 0 := by rw [gkeep B le_rfl]; exact zS _
      rw [hzB] at h
      simp only at hsum ⊢
      linarith

/-- the run that restarts from the rounded file of `g`, against the uninterrupted one, at each time at which it writes -/
private theorem bwd_from_rounded (cfg : RunConfig K) (src : Source m n K) (inp : Input m n K) (path : ℤ → P)
    (h : Runnable cfg src inp)
    (hp : Physical inp cfg.tracking_start_date cfg.tracking_end_date) (ha : ∀ i, 0 < src.grid.a i)
    (hk : 0 ≤ cfg.kvf) (calm : CalmBwd cfg src.grid inp) (R : Rounding K) {u η : K} (hR : Accurate R u η)
    (o : BwdOutput (m + 2) (n + 2) K) (hs0 : ∀ i j, 0 ≤ o.s_track_lower i j ∧ 0 ≤ o.s_track_upper i j)
    (b : ℕ) (hb : b + 1 ≤ cfg.steps) (hw : (bwdProc cfg src.grid inp).write (b + 1) = true)
    (g : BwdOutput (m + 2) (n + 2) K) (hg : ∀ i j, 0 ≤ g.s_track_lower i j ∧ 0 ≤ g.s_track_upper i j)
    (disk' : P → Option (BwdOutput (m + 2) (n + 2) K))
    (hd' : disk' (path (cfg.bwdTime (b + 1))) = some (g.cast R.rnd))
    (cfg2 : RunConfig K) (hcfg2 : cfg2 = { cfg with tracking_end_date := cfg.bwdTime (b + 1), restart := true }) :
    ∃ o2 o2', bwdInitialize cfg2 src path disk' = .ok o2' ∧
      (∀ e, e + 1 ≤ cfg2.steps → ∀ i j, 0 ≤ ((bwdProc cfg2 src.grid inp).full o2' e).s_track_lower i j ∧
        0 ≤ ((bwdProc cfg2 src.grid inp).full o2' e).s_track_upper i j) ∧
      (bwdProc cfg src.grid inp).files o cfg.steps =
        (bwdProc cfg src.grid inp).files o (b + 1) ++ (bwdProc cfg2 src.grid inp).files o2 cfg2.steps ∧
      ∀ e, e + 1 ≤ cfg2.steps → (bwdProc cfg2 src.grid inp).write (e + 1) = true →
        bwdStorageGap src.grid.a ((bwdProc cfg2 src.grid inp).full o2 e) ((bwdProc cfg2 src.grid inp).full o2' e) +
          sumPairs ((bwdProc cfg2 src.grid inp).files o2 (e + 1)) ((bwdProc cfg2 src.grid inp).files o2' (e + 1))
            (bwdFateGap src.grid.a) ≤
        bwdStorageGap src.grid.a ((bwdProc cfg src.grid inp).full o b) g + bwdRoundingOf u η src.grid.a g := by
  set f := (bwdProc cfg src.grid inp).full o b with hf
  obtain ⟨s2, hs2, e1, -, -⟩ := bwd_restart cfg src inp path h o b hb hw (fun _ => some f) rfl
  rw [← hcfg2] at hs2
  have h2 : Runnable cfg2 src inp := by rw [hcfg2]; exact h.bwd_end (b + 1) hb
  obtain ⟨o2, r2, ho2, rfl⟩ := bwd_ends cfg2 src inp path _ h2 hs2
  have t2 : cfg2.tracking_end_date = cfg.bwdTime (b + 1) := by rw [hcfg2]
  have end2 : cfg2.tracking_start_date = cfg.tracking_start_date := by rw [hcfg2]
  have hr2 : cfg2.restart = true := by rw [hcfg2]
  obtain ⟨o2', ho2'⟩ := bwd_init_ok cfg2 src inp path disk' h2 (fun _ => by rw [t2, hd']; rfl)
  have hB1 : cfg.bwdTime (b + 1) ≤ cfg.tracking_end_date :=
    (cfg.bwdTime_mem h.timestep_pos h.ordered (b + 1) hb).2
  have hp2 : Physical inp cfg2.tracking_start_date cfg2.tracking_end_date :=
    { wet := fun t h0 h1 => hp.wet t (end2 ▸ h0) ((t2 ▸ h1 : t ≤ cfg.bwdTime (b + 1)).trans hB1)
      precip := fun t h0 h1 => hp.precip t (end2 ▸ h0) ((t2 ▸ h1 : t ≤ cfg.bwdTime (b + 1)).trans hB1)
      evap := fun t h0 h1 => hp.evap t (end2 ▸ h0) ((t2 ▸ h1 : t ≤ cfg.bwdTime (b + 1)).trans hB1)
      region := fun t h0 h1 => hp.region t (end2 ▸ h0) ((t2 ▸ h1 : t ≤ cfg.bwdTime (b + 1)).trans hB1) }
  have st' : startBwd cfg2 path disk' = (fun i j => R.rnd (g.s_track_lower i j), fun i j => R.rnd (g.s_track_upper i j)) := by
    unfold startBwd; rw [hr2, t2, hd']; rfl
  have n0' : ∀ i j, 0 ≤ o2'.s_track_lower i j ∧ 0 ≤ o2'.s_track_upper i j := by
    rw [bwd_init_eq cfg2 src path disk' o2' ho2']
    intro i j
    simp only
    rw [st']
    exact ⟨rnd_nonneg R (hg i j).1, rnd_nonneg R (hg i j).2⟩
  refine ⟨o2, o2', ho2', ?_, e1, ?_⟩
  · intro e he i j
    have := bwd_out_nonneg cfg2 src inp h2 hp2 o2' n0' (e + 1) he i j
    rw [(bwd_out_succ cfg2 inp src.grid o2' e).1, (bwd_out_succ cfg2 inp src.grid o2' e).2] at this
    exact this
  intro e he hwe
  set cfg3 : RunConfig K := { cfg2 with tracking_start_date := cfg2.bwdTime (e + 1) } with hc3
  have h3 : Runnable cfg3 src inp := h2.bwd_start (e + 1) he
  have hst : cfg3.steps = e + 1 := cfg2.steps_bwd_start h2.timestep_pos (e + 1)
  obtain ⟨q1, q2⟩ := bwd_first_part cfg2 src.grid inp o2 h2.timestep_pos (e + 1) he (of_decide_eq_true hwe)
  obtain ⟨q1', q2'⟩ := bwd_first_part cfg2 src.grid inp o2' h2.timestep_pos (e + 1) he (of_decide_eq_true hwe)
  have i3 : bwdInitialize cfg3 src path (fun _ => some f) = .ok o2 := ho2
  have i3' : bwdInitialize cfg3 src path disk' = .ok o2' := ho2'
  obtain ⟨r, -, -, hrun⟩ := bwd_run_eq cfg3 src inp path _ h3 o2 i3
  obtain ⟨r', -, -, hrun'⟩ := bwd_run_eq cfg3 src inp path _ h3 o2' i3'
  have hE1 : cfg2.tracking_start_date ≤ cfg3.tracking_start_date :=
    (cfg2.bwdTime_mem h2.timestep_pos h2.ordered (e + 1) he).1
  have hp3 : Physical inp cfg3.tracking_start_date cfg3.tracking_end_date :=
    { wet := fun t h0 h1 => hp2.wet t (hE1.trans h0) h1
      precip := fun t h0 h1 => hp2.precip t (hE1.trans h0) h1
      evap := fun t h0 h1 => hp2.evap t (hE1.trans h0) h1
      region := fun t h0 h1 => hp2.region t (hE1.trans h0) h1 }
  have hnn : ∀ i j, 0 ≤ f.s_track_lower i j ∧ 0 ≤ f.s_track_upper i j := by
    intro i j
    have := bwd_out_nonneg cfg src inp h hp o hs0 (b + 1) hb i j
    rw [(bwd_out_succ cfg inp src.grid o b).1, (bwd_out_succ cfg inp src.grid o b).2] at this
    exact this
  have calm2 : CalmBwd cfg2 src.grid inp := by rw [hcfg2]; exact calm_bwd_end cfg src.grid inp calm (b + 1)
  have calm3 : CalmBwd cfg3 src.grid inp := by
    intro k hk
    refine calm2 k (le_trans ?_ hk)
    show cfg2.tracking_start_date + _ ≤ cfg3.tracking_start_date + _
    exact add_le_add hE1 le_rfl
  have hk3 : 0 ≤ cfg3.kvf := by
    have : cfg3.kvf = cfg.kvf := by rw [hc3, hcfg2]
    rw [this]
    exact hk
  have e3 : startBwd cfg3 path (fun _ => some f) = (f.s_track_lower, f.s_track_upper) := by
    unfold startBwd; rw [show cfg3.restart = true from hr2]
  have e3' : startBwd cfg3 path disk' = (fun i j => R.rnd (g.s_track_lower i j), fun i j => R.rnd (g.s_track_upper i j)) := st'
  obtain ⟨-, k2⟩ := C90_run_backward cfg3 src src inp inp path path (fun _ => some f) disk' h3 h3 rfl ⟨rfl, rfl⟩ hp3 hp3 ha hk3
    calm3 (by rw [e3]; exact hnn) (by rw [e3']; exact fun i j => ⟨rnd_nonneg R (hg i j).1, rnd_nonneg R (hg i j).2⟩)
    ⟨cfg3.steps, fun fuel hf => (hrun fuel).trans (if_neg (not_lt.mpr hf))⟩
    ⟨cfg3.steps, fun fuel hf => (hrun' fuel).trans (if_neg (not_lt.mpr hf))⟩
  have z : tagGapBwd cfg3 src.grid.a inp inp = 0 := by simp [tagGapBwd, total]
  rw [z, e3, e3', add_zero] at k2
  have x1 : (bwdStateAt cfg3 src inp r o2 cfg3.steps).files = (bwdProc cfg2 src.grid inp).files o2 (e + 1) := by
    rw [hst]; exact q1
  have x1' : (bwdStateAt cfg3 src inp r' o2' cfg3.steps).files = (bwdProc cfg2 src.grid inp).files o2' (e + 1) := by
    rw [hst]; exact q1'
  have x2 : (bwdStateAt cfg3 src inp r o2 cfg3.steps).output = (bwdProc cfg2 src.grid inp).out o2 (e + 1) := by
    rw [hst]; exact q2
  have x2' : (bwdStateAt cfg3 src inp r' o2' cfg3.steps).output = (bwdProc cfg2 src.grid inp).out o2' (e + 1) := by
    rw [hst]; exact q2'
  rw [x1, x1', x2, x2'] at k2
  unfold bwdStorageGap at k2 ⊢
  rw [(bwd_out_succ cfg2 inp src.grid o2 e).1, (bwd_out_succ cfg2 inp src.grid o2 e).2,
    (bwd_out_succ cfg2 inp src.grid o2' e).1, (bwd_out_succ cfg2 inp src.grid o2' e).2] at k2
  refine k2.trans ?_
  have g1 := gap_cast src.grid.a ha R hR g.s_track_lower (fun i j => (hg i j).1)
  have g2 := gap_cast src.grid.a ha R hR g.s_track_upper (fun i j => (hg i j).2)
  have t1 := gap_triangle src.grid.a ha f.s_track_lower g.s_track_lower (fun i j => R.rnd (g.s_track_lower i j))
  have t2 := gap_triangle src.grid.a ha f.s_track_upper g.s_track_upper (fun i j => R.rnd (g.s_track_upper i j))
  unfold bwdRoundingOf
  simp only
  linarith

/-- a command that continues from the rounded file of `A` on to `B` -/
private theorem next_rounded_bwd (lib : Library m n K) (hfirst : ∀ q name, lib.first q = some name → q name = true)
    (parse : List Char → Except Err (FileSettings (TrackSettings K))) (fs : FileSystem)
    (cfg : Loaded (TrackSettings K)) (hb : cfg.config.rest.backward = true)
    (inp : Input m n K) (hR : Runnable cfg.runConfig (bwdSource lib cfg fs) inp) (hmin : 60 ∣ cfg.config.rest.timestep)
    (hph : Physical inp (cfg.config.dates .tracking_start_date) (cfg.config.dates .tracking_end_date))
    (ha : ∀ i, 0 < (bwdSource lib cfg fs).grid.a i) (hk : 0 ≤ cfg.config.rest.kvf)
    (calm : CalmBwd cfg.runConfig (bwdSource lib cfg fs).grid inp)
    (hy : ∀ t, cfg.config.dates .tracking_start_date ≤ t → t ≤ cfg.config.dates .tracking_end_date →
      FourDigitYear cfg.calendar t)
    (hapart : ∀ p, TrackInput (withRestart false cfg) p → ¬ Below cfg.output p)
    (R : Rounding K) {u η : K} (hA : Accurate R u η)
    (o : BwdOutput (m + 2) (n + 2) K) (hs0 : ∀ i j, 0 ≤ o.s_track_lower i j ∧ 0 ≤ o.s_track_upper i j)
    (p : Proc (BwdOutput (m + 2) (n + 2) K)) (hp : p = bwdProc cfg.runConfig (bwdSource lib cfg fs).grid inp)
    (a b : ℕ) (hab : a < b) (hbN : b + 1 ≤ cfg.runConfig.steps)
    (hwa : p.write (a + 1) = true) (hwb : p.write (b + 1) = true)
    (A B : ℤ) (hAt : A = cfg.runConfig.bwdTime (a + 1)) (hBt : B = cfg.runConfig.bwdTime (b + 1))
    (hax : SameAxes lib cfg fs (cfg.config.dates .tracking_end_date) A)
    (one two0 : ℤ → BwdOutput (m + 2) (n + 2) K) (hone : ∀ x ∈ p.files o (b + 1), one x.1 = x.2)
    (hnn : ∀ i j, 0 ≤ (two0 A).s_track_lower i j ∧ 0 ≤ (two0 A).s_track_upper i j)
    (hback : lib.readBwd (lib.showBwd (two0 A)) = some ((two0 A).cast R.rnd))
    (fsk : FileSystem) (hin : ∀ p, TrackInput (withRestart false cfg) p → fsk p = fs p)
    (hfiles : ∀ x ∈ p.files o (a + 1), fsk (backwardFile cfg x.1) = some (.file (lib.showBwd (two0 x.1))))
    (c : TrackCall K) (rc : c.Ready parse fsk (backwardPiece cfg (some A) B)) :
    c.Works lib parse fsk (backwardPiece cfg (some A) B) ∧
    (∀ p, TrackInput (withRestart false cfg) p → after (c.act lib parse) fsk p = fs p) ∧
    ∃ two1 : ℤ → BwdOutput (m + 2) (n + 2) K, (∀ t, A ≤ t → two1 t = two0 t) ∧
      (∀ x ∈ p.files o (b + 1), after (c.act lib parse) fsk (backwardFile cfg x.1) = some (.file (lib.showBwd (two1 x.1)))) ∧
      (∀ i j, 0 ≤ (two1 B).s_track_lower i j ∧ 0 ≤ (two1 B).s_track_upper i j) ∧
      ∀ E ∈ (p.files o (b + 1)).map Prod.fst, E < A → ∀ T : Finset ℤ,
        (∀ t ∈ T, t ∈ (p.files o (b + 1)).map Prod.fst ∧ t < A ∧ E ≤ t) →
        bwdStorageGap (bwdSource lib cfg fs).grid.a (one E) (two1 E) +
            ∑ t ∈ T, bwdFateGap (bwdSource lib cfg fs).grid.a (one t) (two1 t) ≤
          bwdStorageGap (bwdSource lib cfg fs).grid.a (one A) (two0 A) + bwdRoundingOf u η (bwdSource lib cfg fs).grid.a (two0 A) := by
  set src := bwdSource lib cfg fs with hsrc
  set path : ℤ → FPath := fun t => cfg.output ++ [outputName cfg.calendar true t] with hpath
  have hname : ∀ t, path t = backwardFile cfg t := fun t => by
    rw [hpath]
    simp only
    rw [backward_name']
    rfl
  subst hAt
  subst hBt
  set A := cfg.runConfig.bwdTime (a + 1) with hAt
  set B := cfg.runConfig.bwdTime (b + 1) with hBt
  set c' := backwardPiece cfg (some A) B with hc'
  set run : RunConfig K := { cfg.runConfig with tracking_start_date := cfg.runConfig.bwdTime (b + 1) } with hrun
  have RB : Runnable run src inp := hR.bwd_start (b + 1) hbN
  have stB : run.steps = b + 1 := cfg.runConfig.steps_bwd_start hR.timestep_pos (b + 1)
  rw [hp] at hwa hwb
  have hwa' : writes cfg.runConfig.bwdTime cfg.runConfig.output_frequency cfg.runConfig.steps (a + 1) := of_decide_eq_true hwa
  have hwB : writes run.bwdTime run.output_frequency run.steps (a + 1) := by
    rcases hwa' with h | h
    · exact .inl h
    · omega
  have e1 : (bwdProc run src.grid inp).files o (b + 1) = p.files o (b + 1) := by
    rw [hp]
    exact (bwd_first_part cfg.runConfig src.grid inp o hR.timestep_pos (b + 1) hbN (of_decide_eq_true hwb)).1
  have e2 : (bwdProc run src.grid inp).files o (a + 1) = p.files o (a + 1) := by
    have h1 := (bwd_first_part cfg.runConfig src.grid inp o hR.timestep_pos (a + 1) (by omega) hwa').1
    have h2 := (bwd_first_part run src.grid inp o hR.timestep_pos (a + 1) (by rw [stB]; omega) hwB).1
    rw [hp]
    exact h2.symm.trans h1
  have e3 : (bwdProc run src.grid inp).full o a = p.full o a := by
    have h := congrArg List.getLast? e2
    rw [hp] at h ⊢
    simp only [Proc.files, hwa, show (bwdProc run src.grid inp).write (a + 1) = true from decide_eq_true hwB, if_true,
      List.getLast?_concat] at h
    injection h with h
    exact (Prod.mk.injEq _ _ _ _ ▸ h).2
  have memA : (A, p.full o a) ∈ p.files o (a + 1) := by
    rw [hp]
    exact (Proc.mem_files _ _).2 ⟨a, Nat.lt_succ_self a, hwa, rfl⟩
  have hdisk : fsk (path A) = some (.file (lib.showBwd (two0 A))) := by
    rw [hname]
    exact hfiles (A, p.full o a) memA
  have hd : restartFile lib.readBwd fsk (path (run.bwdTime (a + 1))) = some ((two0 A).cast R.rnd) := by
    unfold restartFile
    have : fsk (path (run.bwdTime (a + 1))) = _ := hdisk
    rw [this]
    exact hback
  have hEnd : cfg.config.dates .tracking_start_date ≤ run.tracking_start_date :=
    (cfg.runConfig.bwdTime_mem hR.timestep_pos hR.ordered (b + 1) hbN).1
  have hpB : Physical inp run.tracking_start_date run.tracking_end_date :=
    { wet := fun t h0 h1 => hph.wet t (hEnd.trans h0) h1
      precip := fun t h0 h1 => hph.precip t (hEnd.trans h0) h1
      evap := fun t h0 h1 => hph.evap t (hEnd.trans h0) h1
      region := fun t h0 h1 => hph.region t (hEnd.trans h0) h1 }
  have calmB : CalmBwd run src.grid inp := fun k hk => calm k (le_trans (add_le_add hEnd le_rfl) hk)
  obtain ⟨o2, o2', ho2', nn, hsplit, hgap⟩ := bwd_from_rounded run src inp path RB hpB ha hk calmB R hA o hs0 a
    (by omega) (decide_eq_true hwB) (two0 A) hnn (restartFile lib.readBwd fsk) hd c'.runConfig rfl
  rw [stB, e1, e2] at hsplit
  rw [e3] at hgap
  have hs : bwdSource lib c' fsk = src := source_at lib hfirst cfg fs fsk hin _ A hax
  have R2 : Runnable c'.runConfig src inp := RB.bwd_end (a + 1) (by rw [stB]; omega)
  have w : c.Works lib parse fsk c' := by
    refine ⟨rc.given, rc.input, ?_⟩
    obtain ⟨r, -, -, hall⟩ := bwd_run_eq _ _ inp _ _ R2 o2' ho2'
    rw [← hs] at hall
    refine (C112_backward lib hfirst parse c.cwd c.dir c.stem c.stamp _ c.settings _ rc.given rc.input
      rc.room hb).1 _ ((hall c'.fuel).trans (if_neg ?_))
    show ¬ c'.fuel < c'.fuel
    omega
  have hin' : ∀ p, TrackInput (withRestart false cfg) p → after (c.act lib parse) fsk p = fs p := by
    intro p hp
    rw [call_input lib hfirst parse c fsk c' w p (input_of_plain (cfg := cfg) (cfg' := c') rfl rfl rfl hp) (hapart p hp)]
    exact hin p hp
  refine ⟨w, hin', ?_⟩
  obtain ⟨s2, k2, f2⟩ := call_files_bwd lib hfirst parse c fsk c' w hb
  rw [hs] at k2
  obtain ⟨o3, r3, ho3, hs3, -⟩ := bwd_finished R2 k2
  have hoo : o3 = o2' := by
    have : bwdInitialize c'.runConfig src path (restartFile lib.readBwd fsk) = .ok o3 := ho3
    rw [ho2'] at this
    injection this with this
    exact this.symm
  subst hoo
  set cfg2 := c'.runConfig with hcfg2
  set p2 := bwdProc cfg2 src.grid inp with hp2
  have hfiles2 : s2.files = p2.files o3 cfg2.steps := by rw [hs3]; rfl
  have hpw : (p.files o (b + 1)).Pairwise fun x y =>
      minuteString (dateTimeOf cfg.calendar y.1) ≠ minuteString (dateTimeOf cfg.calendar x.1) := by
    have := bwd_names_differ run src.grid inp cfg.calendar hR.timestep_pos hmin
      (fun t h0 h1 => hy t (hEnd.trans h0) h1) o
    rw [stB, e1] at this
    exact this
  have htimes2 : ∀ k, (p2.files o2 k).map Prod.fst = (p2.files o3 k).map Prod.fst := fun k => by
    rw [Proc.files_time, Proc.files_time]
  set two' := p.files o (a + 1) ++ p2.files o3 cfg2.steps with htwo'
  have htimes : (p.files o (b + 1)).map Prod.fst = two'.map Prod.fst := by
    rw [hsplit, htwo', List.map_append, List.map_append, htimes2]
  have hpw' : two'.Pairwise fun x y =>
      minuteString (dateTimeOf cfg.calendar y.1) ≠ minuteString (dateTimeOf cfg.calendar x.1) := by
    have h1 := (List.pairwise_map (f := Prod.fst) (R := fun x y =>
      minuteString (dateTimeOf cfg.calendar y) ≠ minuteString (dateTimeOf cfg.calendar x))).2 hpw
    rw [htimes] at h1
    exact List.pairwise_map.1 h1
  obtain ⟨-, hpb, hpc⟩ := List.pairwise_append.1 hpw'
  obtain ⟨f, hf⟩ := pick _ (hpb.imp (fun h e => h (by rw [e]))) o
  have hdt : 0 < cfg.runConfig.dt := by
    have := hR.timestep_pos
    unfold RunConfig.dt usPerSecond
    positivity
  have time1 : ∀ x ∈ p.files o (a + 1), A ≤ x.1 := by
    intro x hx
    rw [hp] at hx
    obtain ⟨i, hi, -, rfl⟩ := (Proc.mem_files _ _).1 hx
    show cfg.runConfig.bwdTime (a + 1) ≤ cfg.runConfig.bwdTime (i + 1)
    unfold RunConfig.bwdTime
    have : ((i + 1 : ℕ) : ℤ) ≤ ((a + 1 : ℕ) : ℤ) := by exact_mod_cast Nat.succ_le_succ (Nat.le_of_lt_succ hi)
    have := mul_le_mul_of_nonneg_right this hdt.le
    linarith
  have time2 : ∀ i, p2.time (i + 1) = A - ((i + 1 : ℕ) : ℤ) * cfg.runConfig.dt := fun i => rfl
  have timeP : ∀ i, p2.time (i + 1) < A := by
    intro i
    rw [time2]
    have : 0 < ((i + 1 : ℕ) : ℤ) * cfg.runConfig.dt := mul_pos (by exact_mod_cast Nat.succ_pos i) hdt
    omega
  have timeS : ∀ i i', p2.time (i' + 1) ≤ p2.time (i + 1) → i ≤ i' := by
    intro i i' h
    rw [time2, time2] at h
    have h1 : ((i + 1 : ℕ) : ℤ) * cfg.runConfig.dt ≤ ((i' + 1 : ℕ) : ℤ) * cfg.runConfig.dt := by linarith
    have h2 := le_of_mul_le_mul_right h1 hdt
    have h3 : i + 1 ≤ i' + 1 := by exact_mod_cast h2
    omega
  have later : ∀ t, t ∈ (p.files o (b + 1)).map Prod.fst → t < A →
      ∃ e, e + 1 ≤ cfg2.steps ∧ p2.write (e + 1) = true ∧ t = p2.time (e + 1) := by
    intro t ht hlt
    rw [hsplit, List.map_append] at ht
    rcases List.mem_append.1 ht with h | h
    · obtain ⟨x, hx, rfl⟩ := List.mem_map.1 h
      exact absurd (time1 x hx) (not_le.2 hlt)
    · obtain ⟨x, hx, rfl⟩ := List.mem_map.1 h
      obtain ⟨e, he, hwe, rfl⟩ := (Proc.mem_files _ _).1 hx
      exact ⟨e, he, hwe, rfl⟩
  set two1 : ℤ → BwdOutput (m + 2) (n + 2) K := fun t => if A ≤ t then two0 t else f t with htwo1
  have one2 : ∀ e, ∀ x ∈ p2.files o2 e, e ≤ cfg2.steps → one x.1 = x.2 := by
    intro e x hx he
    refine hone x ?_
    rw [hsplit]
    refine List.mem_append_right _ ?_
    obtain ⟨i, hi, hwi, rfl⟩ := (Proc.mem_files _ _).1 hx
    exact (Proc.mem_files _ _).2 ⟨i, lt_of_lt_of_le hi he, hwi, rfl⟩
  have two2 : ∀ e, ∀ x ∈ p2.files o3 e, e ≤ cfg2.steps → two1 x.1 = x.2 := by
    intro e x hx he
    obtain ⟨i, hi, hwi, rfl⟩ := (Proc.mem_files _ _).1 hx
    rw [htwo1]
    simp only
    rw [if_neg (not_le.2 (timeP i))]
    exact hf _ ((Proc.mem_files _ _).2 ⟨i, lt_of_lt_of_le hi he, hwi, rfl⟩)
  have oneA : one A = p.full o a := by
    refine hone (A, p.full o a) ?_
    rw [hsplit]
    exact List.mem_append_left _ memA
  refine ⟨two1, fun t h => if_pos h, ?_, ?_, ?_⟩
  · intro y hy
    have hy' := List.mem_map_of_mem (f := Prod.fst) hy
    rw [htimes] at hy'
    obtain ⟨x, hx, hxy⟩ := List.mem_map.1 hy'
    rw [← hxy]
    rcases List.mem_append.1 hx with hm | hm
    · have hold := hfiles x hm
      have et : two1 x.1 = two0 x.1 := if_pos (time1 x hm)
      rw [et]
      unfold backwardFile at hold ⊢
      rw [← backward_name'] at hold ⊢
      have hb2 : c'.config.rest.backward = true := hb
      have hout := (C109_backward lib c' fsk hb).2.1
      rw [hs] at hout
      have k2' : bwdRun c'.runConfig src (fun t => c'.output ++ [outputName c'.calendar true t])
        (restartFile lib.readBwd fsk) c'.fuel = .finished s2 := k2
      rw [k2'] at hout
      have := call_keeps lib hfirst parse c fsk c' w x.1 (lib.showBwd (two0 x.1))
      rw [hb2] at this
      refine this hold ?_
      intro y hy
      rw [hout.1] at hy
      obtain ⟨z, hz, rfl⟩ := List.mem_map.1 hy
      rw [backward_name', backward_name']
      intro e
      have hz' : z ∈ p2.files o3 cfg2.steps := by rw [← hfiles2]; exact hz
      exact hpc _ hm z hz' (List.append_cancel_left (List.append_cancel_right e))
    · rw [two2 _ x hm le_rfl]
      obtain ⟨before, aft, hs⟩ := List.append_of_mem hm
      refine f2 before x.1 x.2 aft (by rw [hfiles2, hs]) ?_
      rw [hs] at hpb
      exact (List.pairwise_cons.1 (List.pairwise_append.1 hpb).2.1).1
  · have hBm : B ∈ (p.files o (b + 1)).map Prod.fst := by
      rw [hp]
      exact List.mem_map.2 ⟨_, (Proc.mem_files _ _).2 ⟨b, Nat.lt_succ_self b, hwb, rfl⟩, rfl⟩
    have hAB : B < A := by
      show cfg.runConfig.bwdTime (b + 1) < cfg.runConfig.bwdTime (a + 1)
      unfold RunConfig.bwdTime
      have : ((a + 1 : ℕ) : ℤ) < ((b + 1 : ℕ) : ℤ) := by exact_mod_cast Nat.succ_lt_succ hab
      have := mul_lt_mul_of_pos_right this hdt
      linarith
    obtain ⟨e, he, hwe, hBe⟩ := later B hBm hAB
    intro i j
    have := two2 (e + 1) (p2.time (e + 1), p2.full o3 e) ((Proc.mem_files _ _).2 ⟨e, Nat.lt_succ_self e, hwe, rfl⟩) he
    simp only at this
    rw [← hBe] at this
    rw [this]
    exact nn e he i j
  · intro E hE hlt T hT
    obtain ⟨e, he, hwe, rfl⟩ := later E hE hlt
    have q1 := one2 (e + 1) (p2.time (e + 1), p2.full o2 e) ((Proc.mem_files _ _).2 ⟨e, Nat.lt_succ_self e, hwe, rfl⟩) he
    have q2 := two2 (e + 1) (p2.time (e + 1), p2.full o3 e) ((Proc.mem_files _ _).2 ⟨e, Nat.lt_succ_self e, hwe, rfl⟩) he
    simp only at q1 q2
    have hsum := sum_le_pairs (bwdFateGap src.grid.a) (bwdFate_nonneg src.grid.a ha) one two1 (p2.files o2 (e + 1))
      (p2.files o3 (e + 1)) T (htimes2 _) (fun x hx => one2 _ x hx he) (fun x hx => two2 _ x hx he) (by
        intro t ht
        obtain ⟨h1, h2, h3⟩ := hT t ht
        obtain ⟨i, hi, hwi, rfl⟩ := later t h1 h2
        exact List.mem_map.2 ⟨_, (Proc.mem_files _ _).2 ⟨i, Nat.lt_succ_of_le (timeS i e h3), hwi, rfl⟩, rfl⟩)
    have hg := hgap e he hwe
    rw [q1, q2, oneA]
    linarith

/-- adding one command: `T` is split at `B` -/
private theorem add_piece_down (S Q r : ℤ → K) (A B E : ℤ) (hBE : E < B) (T : Finset ℤ) (x : K)
    (h1 : S B + ∑ t ∈ T.filter (B ≤ ·), Q t ≤ S A + r A)
    (h2 : S E + ∑ t ∈ T.filter (fun t => ¬ B ≤ t), Q t ≤ S B + r B + x) :
    S E + ∑ t ∈ T, Q t ≤ S A + r A + (r B + x) := by
  have := Finset.sum_filter_add_sum_filter_not T (B ≤ ·) Q
  linarith

/-- several commands, of which the first continues from the rounded file of `A` -/
private theorem pieces_rounded_bwd (lib : Library m n K) (hfirst : ∀ q name, lib.first q = some name → q name = true)
    (parse : List Char → Except Err (FileSettings (TrackSettings K))) (fs : FileSystem)
    (cfg : Loaded (TrackSettings K)) (hb : cfg.config.rest.backward = true)
    (inp : Input m n K) (hR : Runnable cfg.runConfig (bwdSource lib cfg fs) inp) (hmin : 60 ∣ cfg.config.rest.timestep)
    (hph : Physical inp (cfg.config.dates .tracking_start_date) (cfg.config.dates .tracking_end_date))
    (ha : ∀ i, 0 < (bwdSource lib cfg fs).grid.a i) (hk : 0 ≤ cfg.config.rest.kvf)
    (calm : CalmBwd cfg.runConfig (bwdSource lib cfg fs).grid inp)
    (hy : ∀ t, cfg.config.dates .tracking_start_date ≤ t → t ≤ cfg.config.dates .tracking_end_date →
      FourDigitYear cfg.calendar t)
    (hapart : ∀ p, TrackInput (withRestart false cfg) p → ¬ Below cfg.output p)
    (R : Rounding K) {u η : K} (hA : Accurate R u η)
    (o : BwdOutput (m + 2) (n + 2) K) (hs0 : ∀ i j, 0 ≤ o.s_track_lower i j ∧ 0 ≤ o.s_track_upper i j)
    (p : Proc (BwdOutput (m + 2) (n + 2) K)) (hp : p = bwdProc cfg.runConfig (bwdSource lib cfg fs).grid inp)
    (one : ℤ → BwdOutput (m + 2) (n + 2) K) (hone : ∀ x ∈ p.files o cfg.runConfig.steps, one x.1 = x.2)
    (times : ℤ → Prop) (htimes : ∀ t, times t ↔ t ∈ (p.files o cfg.runConfig.steps).map Prod.fst)
    (parts : List (TrackCall K × ℤ)) :
    ∀ (a : ℕ) (A : ℤ) (hAt : A = cfg.runConfig.bwdTime (a + 1)) (two0 : ℤ → BwdOutput (m + 2) (n + 2) K) (fsk : FileSystem),
      a + 1 ≤ cfg.runConfig.steps → p.write (a + 1) = true →
      SameAxes lib cfg fs (cfg.config.dates .tracking_end_date) A →
      (∀ i j, 0 ≤ (two0 A).s_track_lower i j ∧ 0 ≤ (two0 A).s_track_upper i j) →
      lib.readBwd (lib.showBwd (two0 A)) = some ((two0 A).cast R.rnd) →
      (∀ p, TrackInput (withRestart false cfg) p → fsk p = fs p) →
      (∀ x ∈ p.files o (a + 1), fsk (backwardFile cfg x.1) = some (.file (lib.showBwd (two0 x.1)))) →
      (∀ x ∈ parts, x.2 < A) → parts.Pairwise (fun x y => y.2 < x.2) →
      (∀ x ∈ parts, BackwardOutputTime cfg x.2 ∧ SameAxes lib cfg fs (cfg.config.dates .tracking_end_date) x.2) →
      BackwardReadsRounded lib parse cfg R fsk parts →
      PiecesReady (backwardPiece cfg) parse fsk (some A) parts →
      AllEnd (parts.map fun x => x.1.act lib parse) fsk ∧
      ∃ two : ℤ → BwdOutput (m + 2) (n + 2) K, (∀ t, A ≤ t → two t = two0 t) ∧
        (∀ t, times t → (A ≤ t ∨ ∃ y ∈ parts, y.2 ≤ t) →
          afterAll (parts.map fun x => x.1.act lib parse) fsk (backwardFile cfg t) = some (.file (lib.showBwd (two t)))) ∧
        ∀ E, times E → E < A → (∃ y ∈ parts, y.2 ≤ E) → ∀ T : Finset ℤ, (∀ t ∈ T, times t ∧ t < A ∧ E ≤ t) →
          bwdStorageGap (bwdSource lib cfg fs).grid.a (one E) (two E) +
              ∑ t ∈ T, bwdFateGap (bwdSource lib cfg fs).grid.a (one t) (two t) ≤
            bwdStorageGap (bwdSource lib cfg fs).grid.a (one A) (two A) +
              bwdRoundingOf u η (bwdSource lib cfg fs).grid.a (two A) +
              ((parts.filter fun x => decide (E < x.2)).map fun x =>
                bwdRoundingOf u η (bwdSource lib cfg fs).grid.a (two x.2)).sum := by
  have hdt : 0 < cfg.runConfig.dt := by
    have := hR.timestep_pos
    unfold RunConfig.dt usPerSecond
    positivity
  have mono : ∀ i j : ℕ, cfg.runConfig.bwdTime (j + 1) ≤ cfg.runConfig.bwdTime (i + 1) → i ≤ j := by
    intro i j h
    unfold RunConfig.bwdTime at h
    have h1 : ((i + 1 : ℕ) : ℤ) * cfg.runConfig.dt ≤ ((j + 1 : ℕ) : ℤ) * cfg.runConfig.dt := by linarith
    have h2 := le_of_mul_le_mul_right h1 hdt
    have h3 : i + 1 ≤ j + 1 := by exact_mod_cast h2
    omega
  have early : ∀ (a : ℕ), ∀ t, times t → cfg.runConfig.bwdTime (a + 1) ≤ t → t ∈ (p.files o (a + 1)).map Prod.fst := by
    intro a t ht h
    obtain ⟨x, hx, rfl⟩ := List.mem_map.1 ((htimes t).1 ht)
    rw [hp] at hx ⊢
    obtain ⟨i, -, hwi, rfl⟩ := (Proc.mem_files _ _).1 hx
    exact List.mem_map.2 ⟨_, (Proc.mem_files _ _).2 ⟨i, Nat.lt_succ_of_le (mono i a h), hwi, rfl⟩, rfl⟩
  induction parts with
  | nil =>
    intro a A hAt two0 fsk haN hwa hax hnn hback hin hfiles _ _ _ _ _
    refine ⟨trivial, two0, fun _ _ => rfl, ?_, ?_⟩
    · rintro t ht (h | ⟨y, hy, -⟩)
      · obtain ⟨x, hx, rfl⟩ := List.mem_map.1 (early a t ht (hAt ▸ h))
        exact hfiles x hx
      · cases hy
    · rintro E _ _ ⟨y, hy, -⟩
      cases hy
  | cons d rest ih =>
    intro a A hAt two0 fsk haN hwa hax hnn hback hin hfiles hlt hsorted hout hreads hready
    obtain ⟨c, B⟩ := d
    obtain ⟨k, hk1, hkN, hBk, hkw⟩ := (hout (c, B) List.mem_cons_self).1
    have hBk : B = cfg.config.dates .tracking_end_date - (k : ℤ) * (cfg.config.rest.timestep * 1000000) := hBk
    obtain ⟨b, rfl⟩ : ∃ b, k = b + 1 := ⟨k - 1, by omega⟩
    have hBt : B = cfg.runConfig.bwdTime (b + 1) := hBk
    have hbN : b + 1 ≤ cfg.runConfig.steps := hkN
    have hwb : p.write (b + 1) = true := by
      have hkw : cfg.runConfig.output_frequency ∣ B ∨ _ := hkw
      rw [hBt] at hkw
      rw [hp]
      exact decide_eq_true hkw
    have hAB : B < A := hlt _ List.mem_cons_self
    have hab : a < b := by
      by_contra h
      have h1 : ((b + 1 : ℕ) : ℤ) ≤ ((a + 1 : ℕ) : ℤ) := by exact_mod_cast (by omega : b + 1 ≤ a + 1)
      have h2 := mul_le_mul_of_nonneg_right h1 hdt.le
      rw [hAt, hBt] at hAB
      unfold RunConfig.bwdTime at hAB
      linarith
    have hone' : ∀ x ∈ p.files o (b + 1), one x.1 = x.2 := by
      intro x hx
      refine hone x ?_
      obtain ⟨i, hi, hwi, rfl⟩ := (Proc.mem_files _ _).1 hx
      exact (Proc.mem_files _ _).2 ⟨i, lt_of_lt_of_le hi hbN, hwi, rfl⟩
    obtain ⟨w, hin', two1, hkeep, hfiles', hnn', hgap⟩ := next_rounded_bwd lib hfirst parse fs cfg hb inp hR hmin hph ha hk calm hy
      hapart R hA o hs0 p hp a b hab hbN hwa hwb A B hAt hBt hax one two0 hone' hnn hback fsk hin hfiles c hready.1
    obtain ⟨h1, h2⟩ := List.pairwise_cons.1 hsorted
    have hBm : B ∈ (p.files o (b + 1)).map Prod.fst := by
      rw [hp] at hwb ⊢
      exact List.mem_map.2 ⟨_, (Proc.mem_files _ _).2 ⟨b, Nat.lt_succ_self b, hwb, rfl⟩, hBt.symm⟩
    have hback' : lib.readBwd (lib.showBwd (two1 B)) = some ((two1 B).cast R.rnd) := by
      obtain ⟨x, hx, hxB⟩ := List.mem_map.1 hBm
      have hd := hfiles' x hx
      rw [hxB] at hd
      exact hreads.1 _ hd
    obtain ⟨g1, two, gkeep, gfiles, ggap⟩ := ih b B hBt two1 (after (c.act lib parse) fsk) hbN hwb (hout _ List.mem_cons_self).2 hnn'
      hback' hin' hfiles' (fun x hx => h1 x hx) h2 (fun x hx => hout x (List.mem_cons_of_mem _ hx)) hreads.2
      (pieces_keep lib hfirst parse cfg c fsk _ (backwardPiece cfg) (fun x y => by cases x <;> exact ⟨rfl, rfl⟩) w hready.1 rest _ hready.2)
    have kA : two A = two0 A := (gkeep A hAB.le).trans (hkeep A le_rfl)
    have step : ∀ E, times E → E < A → B ≤ E → ∀ T : Finset ℤ, (∀ t ∈ T, times t ∧ t < A ∧ E ≤ t) →
        bwdStorageGap (bwdSource lib cfg fs).grid.a (one E) (two E) +
            ∑ t ∈ T, bwdFateGap (bwdSource lib cfg fs).grid.a (one t) (two t) ≤
          bwdStorageGap (bwdSource lib cfg fs).grid.a (one A) (two A) + bwdRoundingOf u η (bwdSource lib cfg fs).grid.a (two A) := by
      intro E hE hAE hEB T hT
      have h := hgap E (early b E hE (hBt ▸ hEB)) hAE T (fun t ht =>
        ⟨early b t (hT t ht).1 (hBt ▸ hEB.trans (hT t ht).2.2), (hT t ht).2⟩)
      rw [kA, gkeep E hEB]
      refine le_trans (le_of_eq ?_) h
      congr 1
      exact Finset.sum_congr rfl fun t ht => by rw [gkeep t (hEB.trans (hT t ht).2.2)]
    refine ⟨⟨w.ends, g1⟩, two, fun t h => (gkeep t (hAB.le.trans h)).trans (hkeep t h), ?_, ?_⟩
    · intro t ht hx
      refine gfiles t ht ?_
      rcases hx with h | ⟨y, hy, h⟩
      · exact .inl (hAB.le.trans h)
      · rcases List.mem_cons.1 hy with rfl | hy
        · exact .inl h
        · exact .inr ⟨y, hy, h⟩
    · intro E hE hAE hr T hT
      rcases le_or_gt B E with hEB | hBE
      · have hf : ((c, B) :: rest).filter (fun x => decide (E < x.2)) = [] := by
          rw [List.filter_eq_nil_iff]
          intro x hx
          rcases List.mem_cons.1 hx with rfl | hx
          · simpa using hEB
          · have := h1 x hx
            simp only [decide_eq_true_eq, not_lt]
            exact this.le.trans hEB
        rw [hf]
        simp only [List.map_nil, List.sum_nil, add_zero]
        exact step E hE hAE hEB T hT
      · have hf : ((c, B) :: rest).filter (fun x => decide (E < x.2)) = (c, B) :: rest.filter (fun x => decide (E < x.2)) :=
          List.filter_cons_of_pos (by simpa using hBE)
        rw [hf, List.map_cons, List.sum_cons]
        have hBtimes : times B := (htimes B).2 (by
          obtain ⟨x, hx, hxB⟩ := List.mem_map.1 hBm
          obtain ⟨i, hi, hwi, rfl⟩ := (Proc.mem_files _ _).1 hx
          exact List.mem_map.2 ⟨_, (Proc.mem_files _ _).2 ⟨i, lt_of_lt_of_le hi hbN, hwi, rfl⟩, hxB⟩)
        refine add_piece_down (fun t => bwdStorageGap (bwdSource lib cfg fs).grid.a (one t) (two t))
          (fun t => bwdFateGap (bwdSource lib cfg fs).grid.a (one t) (two t))
          (fun t => bwdRoundingOf u η (bwdSource lib cfg fs).grid.a (two t)) A B E hBE T _
          (step B hBtimes hAB le_rfl _ ?_) (ggap E hE hBE ?_ _ ?_)
        · intro t ht
          obtain ⟨ht1, ht2⟩ := Finset.mem_filter.1 ht
          exact ⟨(hT t ht1).1, (hT t ht1).2.1, ht2⟩
        · obtain ⟨y, hy, h⟩ := hr
          rcases List.mem_cons.1 hy with rfl | hy
          · exact absurd h (not_le.2 hBE)
          · exact ⟨y, hy, h⟩
        · intro t ht
          obtain ⟨ht1, ht2⟩ := Finset.mem_filter.1 ht
          exact ⟨(hT t ht1).1, not_le.1 ht2, (hT t ht1).2.2⟩

/-- Backward, with files in single precision: the last file of each command reads back with its numbers rounded (`R`, with unit roundoff `u`; `η` is the underflow
threshold).  The run over the whole period is divided, at any of the times at which output is written, among any number of commands; each continues from the last file of the
one before it.  All of them succeed.  Back to where the first command stops the output is that of the one command.  In weather in which no cell loses more water than it
holds, at every output time `E` that the commands reach, the tracked storage, and the tracked evaporation and losses of any of the files back to `E` taken
together, differ from those of the one command by at most the sum, over the files that were read back on the way to `E`, of the fraction `u` of the tracked storage in them. -/
theorem C128_backward (lib : Library m n K) (hfirst : ∀ q name, lib.first q = some name → q name = true)
    (parse : List Char → Except Err (FileSettings (TrackSettings K))) (fs : FileSystem)
    (cfg : Loaded (TrackSettings K)) (hb : cfg.config.rest.backward = true)
    (inp : Input m n K) (hR : Runnable cfg.runConfig (bwdSource lib cfg fs) inp) (hmin : 60 ∣ cfg.config.rest.timestep)
    (hp : Physical inp (cfg.config.dates .tracking_start_date) (cfg.config.dates .tracking_end_date))
    (ha : ∀ i, 0 < (bwdSource lib cfg fs).grid.a i) (hk : 0 ≤ cfg.config.rest.kvf)
    (calm : CalmBwd cfg.runConfig (bwdSource lib cfg fs).grid inp)
    (hre : cfg.config.rest.restart = true → ∃ text o,
      fs (backwardFile cfg (cfg.config.dates .tracking_end_date)) = some (.file text) ∧ lib.readBwd text = some o ∧
      ∀ i j, 0 ≤ o.s_track_lower i j ∧ 0 ≤ o.s_track_upper i j)
    (hy : ∀ t, cfg.config.dates .tracking_start_date ≤ t → t ≤ cfg.config.dates .tracking_end_date →
      FourDigitYear cfg.calendar t)
    (hapart : ∀ p, TrackInput (withRestart false cfg) p → ¬ Below cfg.output p)
    (whole : TrackCall K) (h₀ : whole.Ready parse fs cfg)
    (parts : List (TrackCall K × ℤ)) (hsorted : parts.Pairwise fun x y => y.2 < x.2)
    (hout : ∀ x ∈ parts, BackwardOutputTime cfg x.2 ∧ SameAxes lib cfg fs (cfg.config.dates .tracking_end_date) x.2)
    (hready : PiecesReady (backwardPiece cfg) parse fs none parts)
    (R : Rounding K) {u η : K} (hA : Accurate R u η) (hreads : BackwardReadsRounded lib parse cfg R fs parts) :
    (whole.act lib parse fs).2 = .ok () ∧ AllEnd (parts.map fun x => x.1.act lib parse) fs ∧
    ∃ one many : ℤ → BwdOutput (m + 2) (n + 2) K,
      (∀ t, BackwardOutputTime cfg t →
        after (whole.act lib parse) fs (backwardFile cfg t) = some (.file (lib.showBwd (one t)))) ∧
      (∀ t, BackwardOutputTime cfg t → (∃ x ∈ parts, x.2 ≤ t) →
        afterAll (parts.map fun x => x.1.act lib parse) fs (backwardFile cfg t) = some (.file (lib.showBwd (many t)))) ∧
      (∀ t, (∀ x ∈ parts, x.2 ≤ t) → many t = one t) ∧
      ∀ E, BackwardOutputTime cfg E → (∃ x ∈ parts, x.2 ≤ E) → ∀ T : Finset ℤ, (∀ t ∈ T, BackwardOutputTime cfg t ∧ E ≤ t) →
        bwdStorageGap (bwdSource lib cfg fs).grid.a (one E) (many E) +
            ∑ t ∈ T, bwdFateGap (bwdSource lib cfg fs).grid.a (one t) (many t) ≤
          ((parts.filter fun x => decide (E < x.2)).map fun x =>
            bwdRoundingOf u η (bwdSource lib cfg fs).grid.a (many x.2)).sum := by
  set src := bwdSource lib cfg fs with hsrc
  set path : ℤ → FPath := fun t => cfg.output ++ [outputName cfg.calendar true t] with hpath
  have hname : ∀ t, path t = backwardFile cfg t := fun t => by
    rw [hpath]
    simp only
    rw [backward_name']
    rfl
  obtain ⟨o, ho⟩ := bwd_init_ok cfg.runConfig src inp path (restartFile lib.readBwd fs) hR (fun h => by
      obtain ⟨text, o, h1, h2, -⟩ := hre h
      unfold restartFile
      have : fs (path cfg.runConfig.tracking_end_date) = some (.file text) := by
        rw [hname]
        exact h1
      rw [this]
      simp only [h2]
      rfl)
  have hs0 : ∀ i j, 0 ≤ o.s_track_lower i j ∧ 0 ≤ o.s_track_upper i j := by
    have e := bwd_init_eq cfg.runConfig src path _ o ho
    rw [e]
    intro i j
    simp only
    unfold startBwd
    rcases hr : cfg.runConfig.restart with _ | _
    · exact ⟨le_rfl, le_rfl⟩
    · obtain ⟨text, o', h1, h2, h3⟩ := hre hr
      have : restartFile lib.readBwd fs (path cfg.runConfig.tracking_end_date) = some o' := by
        unfold restartFile
        have : fs (path cfg.runConfig.tracking_end_date) = some (.file text) := by
          rw [hname]
          exact h1
        rw [this]
        exact h2
      rw [this]
      exact h3 i j
  have w₀ : whole.Works lib parse fs cfg := by
    refine ⟨h₀.given, h₀.input, ?_⟩
    obtain ⟨r, -, -, hall⟩ := bwd_run_eq cfg.runConfig src inp _ _ hR o ho
    refine (C112_backward lib hfirst parse whole.cwd whole.dir whole.stem whole.stamp fs whole.settings cfg h₀.given h₀.input
      h₀.room hb).1 _ ((hall cfg.fuel).trans (if_neg ?_))
    show ¬ cfg.fuel < cfg.fuel
    omega
  obtain ⟨s0, k0, f0⟩ := call_files_bwd lib hfirst parse whole fs cfg w₀ hb
  obtain ⟨o', r, ho', hs0', -⟩ := bwd_finished hR k0
  have hoo : o' = o := by
    have : bwdInitialize cfg.runConfig src path (restartFile lib.readBwd fs) = .ok o' := ho'
    rw [ho] at this
    injection this with this
    exact this.symm
  subst hoo
  obtain ⟨p, hp'⟩ : ∃ p, p = bwdProc cfg.runConfig src.grid inp := ⟨_, rfl⟩
  have hfiles0 : s0.files = p.files o' cfg.runConfig.steps := by rw [hs0', hp']; rfl
  have hpw : (p.files o' cfg.runConfig.steps).Pairwise fun x y =>
      minuteString (dateTimeOf cfg.calendar y.1) ≠ minuteString (dateTimeOf cfg.calendar x.1) := by
    rw [hp']
    exact bwd_names_differ cfg.runConfig src.grid inp cfg.calendar hR.timestep_pos hmin hy o'
  have disk0 : ∀ x ∈ p.files o' cfg.runConfig.steps,
      after (whole.act lib parse) fs (backwardFile cfg x.1) = some (.file (lib.showBwd x.2)) := by
    intro x hx
    obtain ⟨before, aft, hs⟩ := List.append_of_mem hx
    refine f0 before x.1 x.2 aft (by rw [hfiles0, hs]) ?_
    rw [hs] at hpw
    exact (List.pairwise_cons.1 (List.pairwise_append.1 hpw).2.1).1
  obtain ⟨one, hone⟩ := pick _ (hpw.imp (fun h e => h (by rw [e]))) o'
  have mem : ∀ t, BackwardOutputTime cfg t → t ∈ (p.files o' cfg.runConfig.steps).map Prod.fst := by
    rintro t ⟨k, hk1, hkN, rfl, hkw⟩
    obtain ⟨i, rfl⟩ : ∃ i, k = i + 1 := ⟨k - 1, by omega⟩
    rw [hp']
    exact List.mem_map.2 ⟨_, (Proc.mem_files _ _).2 ⟨i, hkN, decide_eq_true hkw, rfl⟩, rfl⟩
  have disk1 : ∀ t, BackwardOutputTime cfg t →
      after (whole.act lib parse) fs (backwardFile cfg t) = some (.file (lib.showBwd (one t))) := by
    intro t ht
    obtain ⟨x, hx, rfl⟩ := List.mem_map.1 (mem t ht)
    rw [hone x hx]
    exact disk0 x hx
  refine ⟨w₀.ends, ?_⟩
  have zS : ∀ f : BwdOutput (m + 2) (n + 2) K, bwdStorageGap src.grid.a f f = 0 := fun f => by
    simp [bwdStorageGap, gap, total]
  have zF : ∀ f : BwdOutput (m + 2) (n + 2) K, bwdFateGap src.grid.a f f = 0 := fun f => by
    simp [bwdFateGap, gap, total]
  rcases parts with _ | ⟨⟨c, B⟩, rest⟩
  · refine ⟨trivial, one, one, disk1, ?_, fun _ _ => rfl, ?_⟩
    · rintro t _ ⟨x, hx, -⟩
      cases hx
    · rintro t _ ⟨x, hx, -⟩
      cases hx
  obtain ⟨⟨k, hk1, hkN, hBk, hkw⟩, hax⟩ := hout (c, B) List.mem_cons_self
  have hBk : B = cfg.config.dates .tracking_end_date - (k : ℤ) * (cfg.config.rest.timestep * 1000000) := hBk
  obtain ⟨b, rfl⟩ : ∃ b, k = b + 1 := ⟨k - 1, by omega⟩
  have hBt : B = cfg.runConfig.bwdTime (b + 1) := hBk
  have hbN : b + 1 ≤ cfg.runConfig.steps := hkN
  have hwb : p.write (b + 1) = true := by
    have hkw : cfg.runConfig.output_frequency ∣ B ∨ _ := hkw
    rw [hBt] at hkw
    rw [hp']
    exact decide_eq_true hkw
  have hwb' := hwb
  rw [hp'] at hwb'
  have rc : c.Ready parse fs (startingAt B cfg) := hready.1
  have w₁ : c.Works lib parse fs (startingAt B cfg) := by
    refine ⟨rc.given, rc.input, ?_⟩
    have hR1 : Runnable (startingAt B cfg).runConfig (bwdSource lib (startingAt B cfg) fs) inp := hBt ▸ hR.bwd_start (b + 1) hbN
    obtain ⟨r, -, -, hall⟩ := bwd_run_eq _ _ inp path (restartFile lib.readBwd fs) hR1 o' ho
    refine (C112_backward lib hfirst parse c.cwd c.dir c.stem c.stamp fs c.settings _ rc.given rc.input
      rc.room hb).1 _ ((hall (startingAt B cfg).fuel).trans (if_neg ?_))
    show ¬ (startingAt B cfg).fuel < (startingAt B cfg).fuel
    omega
  have hin : ∀ p, TrackInput (withRestart false cfg) p → after (c.act lib parse) fs p = fs p := fun p hp =>
    call_input lib hfirst parse c fs (startingAt B cfg) w₁ p
      (input_of_plain (cfg := cfg) (cfg' := startingAt B cfg) rfl rfl rfl hp) (hapart p hp)
  have hsub : ∀ x ∈ p.files o' (b + 1), x ∈ p.files o' cfg.runConfig.steps := by
    intro x hx
    obtain ⟨i, hi, hwi, rfl⟩ := (Proc.mem_files _ _).1 hx
    exact (Proc.mem_files _ _).2 ⟨i, lt_of_lt_of_le hi hbN, hwi, rfl⟩
  have hpre : (p.files o' (b + 1)).Pairwise fun x y =>
      minuteString (dateTimeOf cfg.calendar y.1) ≠ minuteString (dateTimeOf cfg.calendar x.1) := by
    obtain ⟨d, hd⟩ : ∃ d, b + 1 + d = cfg.runConfig.steps := ⟨cfg.runConfig.steps - (b + 1), by omega⟩
    have := Proc.shift_files p o' (b + 1) d
    rw [hd] at this
    rw [this] at hpw
    exact (List.pairwise_append.1 hpw).1
  have hfiles : ∀ x ∈ p.files o' (b + 1), after (c.act lib parse) fs (backwardFile cfg x.1) = some (.file (lib.showBwd (one x.1))) := by
    subst hBt
    obtain ⟨f1, -, -⟩ := first_part_bwd lib hfirst parse fs cfg hb inp hR hapart b hbN hwb' hax o' ho c w₁
    intro x hx
    rw [hone x (hsub x hx)]
    obtain ⟨before, aft, hs⟩ := List.append_of_mem hx
    refine f1 before x.1 x.2 aft (by rw [← hsrc, ← hp', hs]) ?_
    rw [hs] at hpre
    exact (List.pairwise_cons.1 (List.pairwise_append.1 hpre).2.1).1
  obtain ⟨h1, h2⟩ := List.pairwise_cons.1 hsorted
  have hBone : one B = p.full o' b := by
    refine hone (B, p.full o' b) (hsub _ ?_)
    rw [hp', hBt]
    exact (Proc.mem_files _ _).2 ⟨b, Nat.lt_succ_self b, hwb', rfl⟩
  have hnn : ∀ i j, 0 ≤ (one B).s_track_lower i j ∧ 0 ≤ (one B).s_track_upper i j := by
    rw [hBone, hp']
    intro i j
    have := bwd_out_nonneg cfg.runConfig src inp hR hp o' hs0 (b + 1) hbN i j
    rw [(bwd_out_succ cfg.runConfig inp src.grid o' b).1, (bwd_out_succ cfg.runConfig inp src.grid o' b).2] at this
    exact this
  have hback : lib.readBwd (lib.showBwd (one B)) = some ((one B).cast R.rnd) := by
    have hd := hfiles (B, p.full o' b) (by
      rw [hp', hBt]
      exact (Proc.mem_files _ _).2 ⟨b, Nat.lt_succ_self b, hwb', rfl⟩)
    exact hreads.1 _ hd
  obtain ⟨g1, two, gkeep, gfiles, ggap⟩ := pieces_rounded_bwd lib hfirst parse fs cfg hb inp hR hmin hp ha hk calm hy hapart R hA o' hs0
    p hp' one hone (fun t => t ∈ (p.files o' cfg.runConfig.steps).map Prod.fst) (fun t => Iff.rfl) rest b B hBt one
    (after (c.act lib parse) fs) hbN hwb hax hnn hback hin hfiles (fun x hx => h1 x hx) h2
    (fun x hx => hout x (List.mem_cons_of_mem _ hx)) hreads.2
    (pieces_keep lib hfirst parse cfg c fs _ (backwardPiece cfg) (fun x y => by cases x <;> exact ⟨rfl, rfl⟩) w₁ rc rest _ hready.2)
  refine ⟨⟨w₁.ends, g1⟩, one, two, disk1, ?_, fun t h => gkeep t (h _ List.mem_cons_self), ?_⟩
  · rintro t ht ⟨x, hx, h⟩
    refine gfiles t (mem t ht) ?_
    rcases List.mem_cons.1 hx with rfl | hx
    · exact .inl h
    · exact .inr ⟨x, hx, h⟩
  · intro E hE hr T hT
    have low : ∀ t, B ≤ t → bwdFateGap src.grid.a (one t) (two t) = 0 := fun t h => by rw [gkeep t h]; exact zF _
    rcases le_or_gt B E with hEB | hBE
    · have hf : ((c, B) :: rest).filter (fun x => decide (E < x.2)) = [] := by
        rw [List.filter_eq_nil_iff]
        intro x hx
        rcases List.mem_cons.1 hx with rfl | hx
        · simpa using hEB
        · have := h1 x hx
          simp only [decide_eq_true_eq, not_lt]
          exact this.le.trans hEB
      rw [hf, gkeep E hEB, zS, Finset.sum_eq_zero fun t ht => low t (hEB.trans (hT t ht).2)]
      simp
    · have hf : ((c, B) :: rest).filter (fun x => decide (E < x.2)) = (c, B) :: rest.filter (fun x => decide (E < x.2)) :=
        List.filter_cons_of_pos (by simpa using hBE)
      rw [hf, List.map_cons, List.sum_cons]
      have h := ggap E (mem E hE) hBE (by
        obtain ⟨y, hy, h⟩ := hr
        rcases List.mem_cons.1 hy with rfl | hy
        · exact absurd h (not_le.2 hBE)
        · exact ⟨y, hy, h⟩) (T.filter fun t => ¬ B ≤ t) (fun t ht => by
          obtain ⟨ht1, ht2⟩ := Finset.mem_filter.1 ht
          exact ⟨mem t (hT t ht1).1, not_le.1 ht2, (hT t ht1).2⟩)
      have hz : ∑ t ∈ T.filter (B ≤ ·), bwdFateGap src.grid.a (one t) (two t) = 0 :=
        Finset.sum_eq_zero fun t ht => low t (Finset.mem_filter.1 ht).2
      have hsum := Finset.sum_filter_add_sum_filter_not T (B ≤ ·) fun t => bwdFateGap src.grid.a (one t) (two t)
      have hzB : bwdStorageGap src.grid.a (one B) (two B) = 0 := by rw [gkeep B le_rfl]; exact zS _
      rw [hzB] at h
      simp only at hsum ⊢
      linarith

end

end Wam
