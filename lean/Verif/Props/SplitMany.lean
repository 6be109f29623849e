import Verif.Spec.SplitMany
import Verif.Props.Split

/-!
# C118: tracking in any number of commands
-/

set_option linter.unusedSectionVars false
set_option linter.unusedVariables false

namespace Wam
open Spec

section
variable {m n : ℕ} {K : Type} [Field K] [LinearOrder K] [IsStrictOrderedRing K] [NpTrig K]

theorem pieces_keep (lib : Library m n K) (hfirst : ∀ q name, lib.first q = some name → q name = true)
    (parse : List Char → Except Err (FileSettings (TrackSettings K))) (cfg : Loaded (TrackSettings K)) (c : TrackCall K) (fs : FileSystem)
    (cfg' : Loaded (TrackSettings K)) (piece : Option ℤ → ℤ → Loaded (TrackSettings K))
    (hp : ∀ x y, (piece x y).output = cfg'.output ∧ (piece x y).calendar = cfg'.calendar)
    (w : c.Works lib parse fs cfg') (r : c.Ready parse fs cfg') :
    ∀ (parts : List (TrackCall K × ℤ)) (from? : Option ℤ), PiecesReady piece parse fs from? parts →
      PiecesReady piece parse (after (c.act lib parse) fs) from? parts := by
  intro parts
  induction parts with
  | nil => intro _ _; trivial
  | cons x rest ih =>
    intro from? h
    exact ⟨ready_after lib hfirst parse c x.1 fs cfg' _ (hp _ _).1 (hp _ _).2 w r h.1, ih _ h.2⟩

/-- a command that continues from `A` on to `B` -/
private theorem next_piece_fwd (lib : Library m n K) (hfirst : ∀ q name, lib.first q = some name → q name = true)
    (parse : List Char → Except Err (FileSettings (TrackSettings K))) (fs : FileSystem)
    (cfg : Loaded (TrackSettings K)) (hb : cfg.config.rest.backward = false)
    (inp : Input m n K) (hR : Runnable cfg.runConfig (fwdSource lib cfg fs) inp) (hmin : 60 ∣ cfg.config.rest.timestep)
    (hy : ∀ t, cfg.config.dates .tracking_start_date ≤ t → t ≤ cfg.config.dates .tracking_end_date →
      FourDigitYear cfg.calendar t)
    (hapart : ∀ p, TrackInput (withRestart false cfg) p → ¬ Below cfg.output p)
    (o : FwdOutput (m + 2) (n + 2) K) (a b : ℕ) (hab : a < b) (hbN : b + 1 ≤ cfg.runConfig.steps)
    (hwa : (fwdProc cfg.runConfig (fwdSource lib cfg fs).grid inp).write (a + 1) = true)
    (hwb : (fwdProc cfg.runConfig (fwdSource lib cfg fs).grid inp).write (b + 1) = true)
    (hax : SameAxes lib cfg fs (cfg.config.dates .tracking_start_date) (cfg.runConfig.fwdTime (a + 1)))
    (hback : lib.readFwd (lib.showFwd ((fwdProc cfg.runConfig (fwdSource lib cfg fs).grid inp).full o a)) =
      some ((fwdProc cfg.runConfig (fwdSource lib cfg fs).grid inp).full o a))
    (fsk : FileSystem) (hin : ∀ p, TrackInput (withRestart false cfg) p → fsk p = fs p)
    (hfiles : ∀ x ∈ (fwdProc cfg.runConfig (fwdSource lib cfg fs).grid inp).files o (a + 1),
      fsk (forwardFile cfg x.1) = some (.file (lib.showFwd x.2)))
    (c : TrackCall K)
    (rc : c.Ready parse fsk (forwardPiece cfg (some (cfg.runConfig.fwdTime (a + 1))) (cfg.runConfig.fwdTime (b + 1)))) :
    c.Works lib parse fsk (forwardPiece cfg (some (cfg.runConfig.fwdTime (a + 1))) (cfg.runConfig.fwdTime (b + 1))) ∧
    (∀ p, TrackInput (withRestart false cfg) p → after (c.act lib parse) fsk p = fs p) ∧
    ∀ x ∈ (fwdProc cfg.runConfig (fwdSource lib cfg fs).grid inp).files o (b + 1),
      after (c.act lib parse) fsk (forwardFile cfg x.1) = some (.file (lib.showFwd x.2)) := by
  set src := fwdSource lib cfg fs with hsrc
  set path : ℤ → FPath := fun t => cfg.output ++ [outputName cfg.calendar false t] with hpath
  have hname : ∀ t, path t = forwardFile cfg t := fun t => by
    rw [hpath]
    simp only
    rw [forward_name']
    rfl
  set A := cfg.runConfig.fwdTime (a + 1) with hA
  set B := cfg.runConfig.fwdTime (b + 1) with hB
  set c' := forwardPiece cfg (some A) B with hc'
  set p := fwdProc cfg.runConfig src.grid inp with hp
  -- the run up to `B`
  set run : RunConfig K := { cfg.runConfig with tracking_end_date := cfg.runConfig.fwdTime (b + 1) } with hrun
  have RB : Runnable run src inp := hR.fwd_end (b + 1) hbN
  have stB : run.steps = b + 1 := cfg.runConfig.steps_fwd_end hR.timestep_pos (b + 1)
  have hwa' : writes cfg.runConfig.fwdTime cfg.runConfig.output_frequency cfg.runConfig.steps (a + 1) := of_decide_eq_true hwa
  have hwB : writes run.fwdTime run.output_frequency run.steps (a + 1) := by
    rcases hwa' with h | h
    · exact .inl h
    · omega
  have e1 : (fwdProc run src.grid inp).files o (b + 1) = p.files o (b + 1) :=
    (fwd_first_part cfg.runConfig src.grid inp o hR.timestep_pos (b + 1) hbN (of_decide_eq_true hwb)).1
  have e2 : (fwdProc run src.grid inp).files o (a + 1) = p.files o (a + 1) := by
    have h1 := (fwd_first_part cfg.runConfig src.grid inp o hR.timestep_pos (a + 1) (by omega) hwa').1
    have h2 := (fwd_first_part run src.grid inp o hR.timestep_pos (a + 1) (by rw [stB]; omega) hwB).1
    exact h2.symm.trans h1
  have e3 : (fwdProc run src.grid inp).full o a = p.full o a := by
    have h := congrArg List.getLast? e2
    simp only [Proc.files, hwa, show (fwdProc run src.grid inp).write (a + 1) = true from decide_eq_true hwB, if_true,
      List.getLast?_concat] at h
    injection h with h
    exact (Prod.mk.injEq _ _ _ _ ▸ h).2
  have hA' : fsk (path A) = some (.file (lib.showFwd (p.full o a))) := by
    rw [hname]
    exact hfiles (A, p.full o a) ((Proc.mem_files _ _).2 ⟨a, Nat.lt_succ_self a, hwa, rfl⟩)
  have hd : restartFile lib.readFwd fsk (path (run.fwdTime (a + 1))) = some ((fwdProc run src.grid inp).full o a) := by
    unfold restartFile
    have : fsk (path (run.fwdTime (a + 1))) = _ := hA'
    rw [this, e3]
    exact hback
  obtain ⟨s2', hs2', e4, -, -⟩ := fwd_restart run src inp path RB o a (by omega) (decide_eq_true hwB)
    (restartFile lib.readFwd fsk) hd
  rw [stB, e1, e2] at e4
  have hs : fwdSource lib c' fsk = src := source_at lib hfirst cfg fs fsk hin _ A hax
  have R2 : Runnable c'.runConfig src inp := RB.fwd_start (a + 1) (by rw [stB]; omega)
  have w : c.Works lib parse fsk c' := by
    refine ⟨rc.given, rc.input, ?_⟩
    obtain ⟨o2, ho2⟩ := fwd_init_ok c'.runConfig src inp path (restartFile lib.readFwd fsk) R2 (fun _ => by
      have : restartFile lib.readFwd fsk (path c'.runConfig.tracking_start_date) = _ := hd
      rw [this]
      rfl)
    obtain ⟨r, -, -, hall⟩ := fwd_run_eq _ _ inp _ _ R2 o2 ho2
    rw [← hs] at hall
    refine (C112_forward lib hfirst parse c.cwd c.dir c.stem c.stamp _ c.settings _ rc.given rc.input
      rc.room hb).1 _ ((hall c'.fuel).trans (if_neg ?_))
    show ¬ c'.fuel < c'.fuel
    omega
  have hin' : ∀ p, TrackInput (withRestart false cfg) p → after (c.act lib parse) fsk p = fs p := by
    intro p hp
    rw [call_input lib hfirst parse c fsk c' w p (input_of_plain (cfg := cfg) (cfg' := c') rfl rfl rfl hp) (hapart p hp)]
    exact hin p hp
  refine ⟨w, hin', ?_⟩
  obtain ⟨s2, k2, f2⟩ := call_files_fwd lib hfirst parse c fsk c' w hb
  rw [hs] at k2
  have hs2e : s2 = s2' := by
    obtain ⟨o2, r2, ho2, hs2, N, hN⟩ := fwd_finished R2 k2
    obtain ⟨N', hN'⟩ := hs2'
    have a := hN (max N N') (le_max_left _ _)
    have b := hN' (max N N') (le_max_right _ _)
    have : Outcome.finished s2 = Outcome.finished s2' := a.symm.trans b
    injection this
  subst hs2e
  have hpw : (p.files o (b + 1)).Pairwise fun x y =>
      minuteString (dateTimeOf cfg.calendar y.1) ≠ minuteString (dateTimeOf cfg.calendar x.1) := by
    have := fwd_names_differ run src.grid inp cfg.calendar hR.timestep_pos hmin
      (fun t h0 h1 => hy t h0 (h1.trans (cfg.runConfig.fwdTime_mem hR.timestep_pos hR.ordered (b + 1) hbN).2)) o
    rw [stB, e1] at this
    exact this
  rw [e4] at hpw ⊢
  obtain ⟨-, hpb, hpc⟩ := List.pairwise_append.1 hpw
  intro x hx
  rcases List.mem_append.1 hx with hm | hm
  · have hold := hfiles x hm
    unfold forwardFile at hold ⊢
    rw [← forward_name'] at hold ⊢
    have hb2 : c'.config.rest.backward = false := hb
    have hout := (C109_forward lib c' fsk hb).2.1
    rw [hs] at hout
    have k2' : fwdRun c'.runConfig src (fun t => c'.output ++ [outputName c'.calendar false t])
      (restartFile lib.readFwd fsk) c'.fuel = .finished s2 := k2
    rw [k2'] at hout
    have := call_keeps lib hfirst parse c fsk c' w x.1 (lib.showFwd x.2)
    rw [hb2] at this
    refine this hold ?_
    intro y hy
    rw [hout.1] at hy
    obtain ⟨z, hz, rfl⟩ := List.mem_map.1 hy
    rw [forward_name', forward_name']
    intro e
    exact hpc _ hm z hz (List.append_cancel_left (List.append_cancel_right e))
  · obtain ⟨before, aft, hs⟩ := List.append_of_mem hm
    refine f2 before x.1 x.2 aft hs ?_
    rw [hs] at hpb
    exact (List.pairwise_cons.1 (List.pairwise_append.1 hpb).2.1).1

/-- several commands, of which the first continues from `A` -/
private theorem pieces_fwd (lib : Library m n K) (hfirst : ∀ q name, lib.first q = some name → q name = true)
    (parse : List Char → Except Err (FileSettings (TrackSettings K))) (fs : FileSystem)
    (cfg : Loaded (TrackSettings K)) (hb : cfg.config.rest.backward = false)
    (inp : Input m n K) (hR : Runnable cfg.runConfig (fwdSource lib cfg fs) inp) (hmin : 60 ∣ cfg.config.rest.timestep)
    (hy : ∀ t, cfg.config.dates .tracking_start_date ≤ t → t ≤ cfg.config.dates .tracking_end_date →
      FourDigitYear cfg.calendar t)
    (hapart : ∀ p, TrackInput (withRestart false cfg) p → ¬ Below cfg.output p)
    (o : FwdOutput (m + 2) (n + 2) K) (parts : List (TrackCall K × ℤ)) :
    ∀ (a : ℕ) (fsk : FileSystem), a + 1 ≤ cfg.runConfig.steps →
      (fwdProc cfg.runConfig (fwdSource lib cfg fs).grid inp).write (a + 1) = true →
      SameAxes lib cfg fs (cfg.config.dates .tracking_start_date) (cfg.runConfig.fwdTime (a + 1)) →
      lib.readFwd (lib.showFwd ((fwdProc cfg.runConfig (fwdSource lib cfg fs).grid inp).full o a)) =
        some ((fwdProc cfg.runConfig (fwdSource lib cfg fs).grid inp).full o a) →
      (∀ p, TrackInput (withRestart false cfg) p → fsk p = fs p) →
      (∀ x ∈ (fwdProc cfg.runConfig (fwdSource lib cfg fs).grid inp).files o (a + 1),
        fsk (forwardFile cfg x.1) = some (.file (lib.showFwd x.2))) →
      (∀ x ∈ parts, cfg.runConfig.fwdTime (a + 1) < x.2) → parts.Pairwise (fun x y => x.2 < y.2) →
      (∀ x ∈ parts, ForwardOutputTime cfg x.2 ∧ SameAxes lib cfg fs (cfg.config.dates .tracking_start_date) x.2) →
      (∀ x ∈ parts, ∀ y ∈ (fwdProc cfg.runConfig (fwdSource lib cfg fs).grid inp).files o cfg.runConfig.steps, y.1 = x.2 →
        lib.readFwd (lib.showFwd y.2) = some y.2) →
      PiecesReady (forwardPiece cfg) parse fsk (some (cfg.runConfig.fwdTime (a + 1))) parts →
      AllEnd (parts.map fun x => x.1.act lib parse) fsk ∧
      ∀ x ∈ (fwdProc cfg.runConfig (fwdSource lib cfg fs).grid inp).files o cfg.runConfig.steps,
        (x.1 ≤ cfg.runConfig.fwdTime (a + 1) ∨ ∃ y ∈ parts, x.1 ≤ y.2) →
        afterAll (parts.map fun x => x.1.act lib parse) fsk (forwardFile cfg x.1) = some (.file (lib.showFwd x.2)) := by
  have hdt : 0 < cfg.runConfig.dt := by
    have := hR.timestep_pos
    unfold RunConfig.dt usPerSecond
    positivity
  have mono : ∀ i j : ℕ, cfg.runConfig.fwdTime (i + 1) ≤ cfg.runConfig.fwdTime (j + 1) → i ≤ j := by
    intro i j h
    unfold RunConfig.fwdTime at h
    have h1 : ((i + 1 : ℕ) : ℤ) * cfg.runConfig.dt ≤ ((j + 1 : ℕ) : ℤ) * cfg.runConfig.dt := by linarith
    have h2 := le_of_mul_le_mul_right h1 hdt
    have h3 : i + 1 ≤ j + 1 := by exact_mod_cast h2
    omega
  have early : ∀ (a : ℕ), ∀ x ∈ (fwdProc cfg.runConfig (fwdSource lib cfg fs).grid inp).files o cfg.runConfig.steps,
      x.1 ≤ cfg.runConfig.fwdTime (a + 1) →
      x ∈ (fwdProc cfg.runConfig (fwdSource lib cfg fs).grid inp).files o (a + 1) := by
    intro a x hx h
    obtain ⟨i, -, hwi, rfl⟩ := (Proc.mem_files _ _).1 hx
    exact (Proc.mem_files _ _).2 ⟨i, Nat.lt_succ_of_le (mono i a h), hwi, rfl⟩
  induction parts with
  | nil =>
    intro a fsk haN hwa hax hback hin hfiles _ _ _ _ _
    refine ⟨trivial, ?_⟩
    rintro x hx (h | ⟨y, hy, -⟩)
    · exact hfiles x (early a x hx h)
    · cases hy
  | cons d rest ih =>
    intro a fsk haN hwa hax hback hin hfiles hlt hsorted hout hbacks hready
    obtain ⟨c, B⟩ := d
    obtain ⟨k, hk1, hkN, hBk, hkw⟩ := (hout (c, B) List.mem_cons_self).1
    have hBk : B = cfg.config.dates .tracking_start_date + (k : ℤ) * (cfg.config.rest.timestep * 1000000) := hBk
    obtain ⟨b, rfl⟩ : ∃ b, k = b + 1 := ⟨k - 1, by omega⟩
    have hBk : B = cfg.runConfig.fwdTime (b + 1) := hBk
    subst hBk
    have hbN : b + 1 ≤ cfg.runConfig.steps := hkN
    have hwb : (fwdProc cfg.runConfig (fwdSource lib cfg fs).grid inp).write (b + 1) = true := decide_eq_true hkw
    have hab : a < b := by
      by_contra h
      have h1 : ((b + 1 : ℕ) : ℤ) ≤ ((a + 1 : ℕ) : ℤ) := by exact_mod_cast (by omega : b + 1 ≤ a + 1)
      have h2 := mul_le_mul_of_nonneg_right h1 hdt.le
      have h3 := hlt _ List.mem_cons_self
      simp only at h3
      unfold RunConfig.fwdTime at h3
      linarith
    obtain ⟨w, hin', hfiles'⟩ := next_piece_fwd lib hfirst parse fs cfg hb inp hR hmin hy hapart o a b hab hbN hwa hwb hax hback
      fsk hin hfiles c hready.1
    obtain ⟨h1, h2⟩ := List.pairwise_cons.1 hsorted
    have hb' := hbacks _ List.mem_cons_self
      (cfg.runConfig.fwdTime (b + 1), (fwdProc cfg.runConfig (fwdSource lib cfg fs).grid inp).full o b)
      ((Proc.mem_files _ _).2 ⟨b, hbN, hwb, rfl⟩) rfl
    obtain ⟨g1, g2⟩ := ih b (after (c.act lib parse) fsk) hbN hwb (hout _ List.mem_cons_self).2 hb' hin' hfiles'
      (fun x hx => h1 x hx) h2 (fun x hx => hout x (List.mem_cons_of_mem _ hx)) (fun x hx => hbacks x (List.mem_cons_of_mem _ hx))
      (pieces_keep lib hfirst parse cfg c fsk _ (forwardPiece cfg) (fun x y => by cases x <;> exact ⟨rfl, rfl⟩) w hready.1 rest _ hready.2)
    refine ⟨⟨w.ends, g1⟩, ?_⟩
    intro x hx hxt
    refine g2 x hx ?_
    rcases hxt with h | ⟨y, hy, h⟩
    · exact .inl (h.trans (hlt _ List.mem_cons_self).le)
    · rcases List.mem_cons.1 hy with rfl | hy
      · exact .inl h
      · exact .inr ⟨y, hy, h⟩

/-- several commands, of which the first starts as the whole run does -/
private theorem start_pieces_fwd (lib : Library m n K) (hfirst : ∀ q name, lib.first q = some name → q name = true)
    (parse : List Char → Except Err (FileSettings (TrackSettings K))) (fs : FileSystem)
    (cfg : Loaded (TrackSettings K)) (hb : cfg.config.rest.backward = false)
    (inp : Input m n K) (hR : Runnable cfg.runConfig (fwdSource lib cfg fs) inp) (hmin : 60 ∣ cfg.config.rest.timestep)
    (hy : ∀ t, cfg.config.dates .tracking_start_date ≤ t → t ≤ cfg.config.dates .tracking_end_date →
      FourDigitYear cfg.calendar t)
    (hapart : ∀ p, TrackInput (withRestart false cfg) p → ¬ Below cfg.output p)
    (o' : FwdOutput (m + 2) (n + 2) K) (path : ℤ → FPath) (hpath : path = fun t => cfg.output ++ [outputName cfg.calendar false t])
    (ho : fwdInitialize cfg.runConfig (fwdSource lib cfg fs) path (restartFile lib.readFwd fs) = .ok o')
    (p : Proc (FwdOutput (m + 2) (n + 2) K)) (hp : p = fwdProc cfg.runConfig (fwdSource lib cfg fs).grid inp)
    (hpw : (p.files o' cfg.runConfig.steps).Pairwise fun x y =>
      minuteString (dateTimeOf cfg.calendar y.1) ≠ minuteString (dateTimeOf cfg.calendar x.1))
    (parts : List (TrackCall K × ℤ)) (hsorted : parts.Pairwise fun x y => x.2 < y.2)
    (hout : ∀ x ∈ parts, ForwardOutputTime cfg x.2 ∧ SameAxes lib cfg fs (cfg.config.dates .tracking_start_date) x.2)
    (hready : PiecesReady (forwardPiece cfg) parse fs none parts)
    (hbacks : ∀ x ∈ parts, ∀ y ∈ p.files o' cfg.runConfig.steps, y.1 = x.2 → lib.readFwd (lib.showFwd y.2) = some y.2) :
    AllEnd (parts.map fun x => x.1.act lib parse) fs ∧
      ∀ x ∈ p.files o' cfg.runConfig.steps, (∃ y ∈ parts, x.1 ≤ y.2) →
        afterAll (parts.map fun x => x.1.act lib parse) fs (forwardFile cfg x.1) = some (.file (lib.showFwd x.2)) := by
  subst hp
  subst hpath
  rcases parts with _ | ⟨⟨c, B⟩, rest⟩
  · refine ⟨trivial, ?_⟩
    rintro x _ ⟨y, hy, -⟩
    cases hy
  · obtain ⟨⟨k, hk1, hkN, hBk, hkw⟩, hax⟩ := hout (c, B) List.mem_cons_self
    have hBk : B = cfg.config.dates .tracking_start_date + (k : ℤ) * (cfg.config.rest.timestep * 1000000) := hBk
    obtain ⟨b, rfl⟩ : ∃ b, k = b + 1 := ⟨k - 1, by omega⟩
    have hBk : B = cfg.runConfig.fwdTime (b + 1) := hBk
    subst hBk
    have hbN : b + 1 ≤ cfg.runConfig.steps := hkN
    have hwb : (fwdProc cfg.runConfig (fwdSource lib cfg fs).grid inp).write (b + 1) = true := decide_eq_true hkw
    have rc : c.Ready parse fs (endingAt (cfg.runConfig.fwdTime (b + 1)) cfg) := hready.1
    have w₁ : c.Works lib parse fs (endingAt (cfg.runConfig.fwdTime (b + 1)) cfg) := by
      refine ⟨rc.given, rc.input, ?_⟩
      have hR1 : Runnable (endingAt (cfg.runConfig.fwdTime (b + 1)) cfg).runConfig
        (fwdSource lib (endingAt (cfg.runConfig.fwdTime (b + 1)) cfg) fs) inp := hR.fwd_end (b + 1) hbN
      obtain ⟨r, -, -, hall⟩ := fwd_run_eq _ _ inp (fun t => cfg.output ++ [outputName cfg.calendar false t]) (restartFile lib.readFwd fs) hR1 o' ho
      refine (C112_forward lib hfirst parse c.cwd c.dir c.stem c.stamp fs c.settings _ rc.given rc.input
        rc.room hb).1 _ ((hall (endingAt (cfg.runConfig.fwdTime (b + 1)) cfg).fuel).trans (if_neg ?_))
      show ¬ (endingAt (cfg.runConfig.fwdTime (b + 1)) cfg).fuel < (endingAt (cfg.runConfig.fwdTime (b + 1)) cfg).fuel
      omega
    obtain ⟨f1, -, -⟩ := first_part_fwd lib hfirst parse fs cfg hb inp hR hapart b hbN hwb hax o' ho c w₁
    have hin : ∀ p, TrackInput (withRestart false cfg) p → after (c.act lib parse) fs p = fs p := fun p hp =>
      call_input lib hfirst parse c fs (endingAt (cfg.runConfig.fwdTime (b + 1)) cfg) w₁ p
        (input_of_plain (cfg := cfg) (cfg' := endingAt (cfg.runConfig.fwdTime (b + 1)) cfg) rfl rfl rfl hp) (hapart p hp)
    have hpre : ((fwdProc cfg.runConfig (fwdSource lib cfg fs).grid inp).files o' (b + 1)).Pairwise fun x y =>
        minuteString (dateTimeOf cfg.calendar y.1) ≠ minuteString (dateTimeOf cfg.calendar x.1) := by
      obtain ⟨d, hd⟩ : ∃ d, b + 1 + d = cfg.runConfig.steps := ⟨cfg.runConfig.steps - (b + 1), by omega⟩
      have := Proc.shift_files (fwdProc cfg.runConfig (fwdSource lib cfg fs).grid inp) o' (b + 1) d
      rw [hd] at this
      rw [this] at hpw
      exact (List.pairwise_append.1 hpw).1
    have hfiles : ∀ x ∈ (fwdProc cfg.runConfig (fwdSource lib cfg fs).grid inp).files o' (b + 1), after (c.act lib parse) fs (forwardFile cfg x.1) = some (.file (lib.showFwd x.2)) := by
      intro x hx
      obtain ⟨before, aft, hs⟩ := List.append_of_mem hx
      refine f1 before x.1 x.2 aft hs ?_
      rw [hs] at hpre
      exact (List.pairwise_cons.1 (List.pairwise_append.1 hpre).2.1).1
    obtain ⟨h1, h2⟩ := List.pairwise_cons.1 hsorted
    obtain ⟨g1, g2⟩ := pieces_fwd lib hfirst parse fs cfg hb inp hR hmin hy hapart o' rest b (after (c.act lib parse) fs) hbN hwb
      hax (hbacks _ List.mem_cons_self (cfg.runConfig.fwdTime (b + 1), (fwdProc cfg.runConfig (fwdSource lib cfg fs).grid inp).full o' b) ((Proc.mem_files _ _).2 ⟨b, hbN, hwb, rfl⟩) rfl)
      hin hfiles (fun x hx => h1 x hx) h2 (fun x hx => hout x (List.mem_cons_of_mem _ hx))
      (fun x hx => hbacks x (List.mem_cons_of_mem _ hx))
      (pieces_keep lib hfirst parse cfg c fs _ (forwardPiece cfg) (fun x y => by cases x <;> exact ⟨rfl, rfl⟩) w₁ rc rest _ hready.2)
    refine ⟨⟨w₁.ends, g1⟩, ?_⟩
    rintro x hx ⟨y, hy, h⟩
    refine g2 x hx ?_
    rcases List.mem_cons.1 hy with rfl | hy
    · exact .inl h
    · exact .inr ⟨y, hy, h⟩

/-- Forward.  The run over the whole period is divided, at any of the times at which output is written, among any number of commands; each continues from the last
file of the one before it.  All of them succeed, and at each moment that they reach the folder holds the same output as after the one command. -/
theorem C118_forward (lib : Library m n K) (hfirst : ∀ q name, lib.first q = some name → q name = true)
    (parse : List Char → Except Err (FileSettings (TrackSettings K))) (fs : FileSystem)
    (cfg : Loaded (TrackSettings K)) (hb : cfg.config.rest.backward = false)
    (inp : Input m n K) (hR : Runnable cfg.runConfig (fwdSource lib cfg fs) inp) (hmin : 60 ∣ cfg.config.rest.timestep)
    (hre : cfg.config.rest.restart = true →
      ∃ text o, fs (forwardFile cfg (cfg.config.dates .tracking_start_date)) = some (.file text) ∧ lib.readFwd text = some o)
    (hy : ∀ t, cfg.config.dates .tracking_start_date ≤ t → t ≤ cfg.config.dates .tracking_end_date →
      FourDigitYear cfg.calendar t)
    (hapart : ∀ p, TrackInput (withRestart false cfg) p → ¬ Below cfg.output p)
    (whole : TrackCall K) (h₀ : whole.Ready parse fs cfg)
    (parts : List (TrackCall K × ℤ)) (hsorted : parts.Pairwise fun x y => x.2 < y.2)
    (hout : ∀ x ∈ parts, ForwardOutputTime cfg x.2 ∧ SameAxes lib cfg fs (cfg.config.dates .tracking_start_date) x.2)
    (hready : PiecesReady (forwardPiece cfg) parse fs none parts)
    (hback : ∀ x ∈ parts, ∀ o, after (whole.act lib parse) fs (forwardFile cfg x.2) = some (.file (lib.showFwd o)) →
      lib.readFwd (lib.showFwd o) = some o) :
    (whole.act lib parse fs).2 = .ok () ∧ AllEnd (parts.map fun x => x.1.act lib parse) fs ∧
    ∀ t, ForwardOutputTime cfg t → (∃ x ∈ parts, t ≤ x.2) → ∃ o,
      after (whole.act lib parse) fs (forwardFile cfg t) = some (.file (lib.showFwd o)) ∧
      afterAll (parts.map fun x => x.1.act lib parse) fs (forwardFile cfg t) = some (.file (lib.showFwd o)) := by
  set src := fwdSource lib cfg fs with hsrc
  set path : ℤ → FPath := fun t => cfg.output ++ [outputName cfg.calendar false t] with hpath
  have hname : ∀ t, path t = forwardFile cfg t := fun t => by
    rw [hpath]
    simp only
    rw [forward_name']
    rfl
  obtain ⟨o, ho⟩ := fwd_init_ok cfg.runConfig src inp path (restartFile lib.readFwd fs) hR (fun h => by
      obtain ⟨text, o, h1, h2⟩ := hre h
      unfold restartFile
      have : fs (path cfg.runConfig.tracking_start_date) = some (.file text) := by
        rw [hname]
        exact h1
      rw [this]
      simp only [h2]
      rfl)
  have w₀ : whole.Works lib parse fs cfg := by
    refine ⟨h₀.given, h₀.input, ?_⟩
    obtain ⟨r, -, -, hall⟩ := fwd_run_eq cfg.runConfig src inp _ _ hR o ho
    refine (C112_forward lib hfirst parse whole.cwd whole.dir whole.stem whole.stamp fs whole.settings cfg h₀.given h₀.input
      h₀.room hb).1 _ ((hall cfg.fuel).trans (if_neg ?_))
    show ¬ cfg.fuel < cfg.fuel
    omega
  obtain ⟨s0, k0, f0⟩ := call_files_fwd lib hfirst parse whole fs cfg w₀ hb
  obtain ⟨o', r, ho', hs0', -⟩ := fwd_finished hR k0
  have hoo : o' = o := by
    have : fwdInitialize cfg.runConfig src path (restartFile lib.readFwd fs) = .ok o' := ho'
    rw [ho] at this
    injection this with this
    exact this.symm
  subst hoo
  set p := fwdProc cfg.runConfig src.grid inp with hp
  have hfiles0 : s0.files = p.files o' cfg.runConfig.steps := by rw [hs0']; rfl
  have hpw : (p.files o' cfg.runConfig.steps).Pairwise fun x y =>
      minuteString (dateTimeOf cfg.calendar y.1) ≠ minuteString (dateTimeOf cfg.calendar x.1) :=
    fwd_names_differ cfg.runConfig src.grid inp cfg.calendar hR.timestep_pos hmin hy o'
  have disk0 : ∀ x ∈ p.files o' cfg.runConfig.steps,
      after (whole.act lib parse) fs (forwardFile cfg x.1) = some (.file (lib.showFwd x.2)) := by
    intro x hx
    obtain ⟨before, aft, hs⟩ := List.append_of_mem hx
    refine f0 before x.1 x.2 aft (by rw [hfiles0, hs]) ?_
    rw [hs] at hpw
    exact (List.pairwise_cons.1 (List.pairwise_append.1 hpw).2.1).1
  refine ⟨w₀.ends, ?_⟩
  have h := start_pieces_fwd lib hfirst parse fs cfg hb inp hR hmin hy hapart o' path hpath ho p hp hpw parts hsorted hout hready (by
    intro x hx y hy e
    refine hback x hx y.2 ?_
    rw [← e]
    exact disk0 y hy)
  refine ⟨h.1, fun t ht hx => ?_⟩
  have mem : t ∈ (p.files o' cfg.runConfig.steps).map Prod.fst := by
    obtain ⟨k, hk1, hkN, htk, hkw⟩ := ht
    obtain ⟨i, rfl⟩ : ∃ i, k = i + 1 := ⟨k - 1, by omega⟩
    rw [htk] at hkw
    rw [htk]
    exact List.mem_map.2 ⟨_, (Proc.mem_files _ _).2 ⟨i, hkN, decide_eq_true hkw, rfl⟩, rfl⟩
  obtain ⟨x, hxm, rfl⟩ := List.mem_map.1 mem
  exact ⟨x.2, disk0 x hxm, h.2 x hxm hx⟩

/-- a command that continues from `A` on to `B` -/
private theorem next_piece_bwd (lib : Library m n K) (hfirst : ∀ q name, lib.first q = some name → q name = true)
    (parse : List Char → Except Err (FileSettings (TrackSettings K))) (fs : FileSystem)
    (cfg : Loaded (TrackSettings K)) (hb : cfg.config.rest.backward = true)
    (inp : Input m n K) (hR : Runnable cfg.runConfig (bwdSource lib cfg fs) inp) (hmin : 60 ∣ cfg.config.rest.timestep)
    (hy : ∀ t, cfg.config.dates .tracking_start_date ≤ t → t ≤ cfg.config.dates .tracking_end_date →
      FourDigitYear cfg.calendar t)
    (hapart : ∀ p, TrackInput (withRestart false cfg) p → ¬ Below cfg.output p)
    (o : BwdOutput (m + 2) (n + 2) K) (a b : ℕ) (hab : a < b) (hbN : b + 1 ≤ cfg.runConfig.steps)
    (hwa : (bwdProc cfg.runConfig (bwdSource lib cfg fs).grid inp).write (a + 1) = true)
    (hwb : (bwdProc cfg.runConfig (bwdSource lib cfg fs).grid inp).write (b + 1) = true)
    (hax : SameAxes lib cfg fs (cfg.config.dates .tracking_end_date) (cfg.runConfig.bwdTime (a + 1)))
    (hback : lib.readBwd (lib.showBwd ((bwdProc cfg.runConfig (bwdSource lib cfg fs).grid inp).full o a)) =
      some ((bwdProc cfg.runConfig (bwdSource lib cfg fs).grid inp).full o a))
    (fsk : FileSystem) (hin : ∀ p, TrackInput (withRestart false cfg) p → fsk p = fs p)
    (hfiles : ∀ x ∈ (bwdProc cfg.runConfig (bwdSource lib cfg fs).grid inp).files o (a + 1),
      fsk (backwardFile cfg x.1) = some (.file (lib.showBwd x.2)))
    (c : TrackCall K)
    (rc : c.Ready parse fsk (backwardPiece cfg (some (cfg.runConfig.bwdTime (a + 1))) (cfg.runConfig.bwdTime (b + 1)))) :
    c.Works lib parse fsk (backwardPiece cfg (some (cfg.runConfig.bwdTime (a + 1))) (cfg.runConfig.bwdTime (b + 1))) ∧
    (∀ p, TrackInput (withRestart false cfg) p → after (c.act lib parse) fsk p = fs p) ∧
    ∀ x ∈ (bwdProc cfg.runConfig (bwdSource lib cfg fs).grid inp).files o (b + 1),
      after (c.act lib parse) fsk (backwardFile cfg x.1) = some (.file (lib.showBwd x.2)) := by
  set src := bwdSource lib cfg fs with hsrc
  set path : ℤ → FPath := fun t => cfg.output ++ [outputName cfg.calendar true t] with hpath
  have hname : ∀ t, path t = backwardFile cfg t := fun t => by
    rw [hpath]
    simp only
    rw [backward_name']
    rfl
  set A := cfg.runConfig.bwdTime (a + 1) with hA
  set B := cfg.runConfig.bwdTime (b + 1) with hB
  set c' := backwardPiece cfg (some A) B with hc'
  set p := bwdProc cfg.runConfig src.grid inp with hp
  -- the run up to `B`
  set run : RunConfig K := { cfg.runConfig with tracking_start_date := cfg.runConfig.bwdTime (b + 1) } with hrun
  have RB : Runnable run src inp := hR.bwd_start (b + 1) hbN
  have stB : run.steps = b + 1 := cfg.runConfig.steps_bwd_start hR.timestep_pos (b + 1)
  have hwa' : writes cfg.runConfig.bwdTime cfg.runConfig.output_frequency cfg.runConfig.steps (a + 1) := of_decide_eq_true hwa
  have hwB : writes run.bwdTime run.output_frequency run.steps (a + 1) := by
    rcases hwa' with h | h
    · exact .inl h
    · omega
  have e1 : (bwdProc run src.grid inp).files o (b + 1) = p.files o (b + 1) :=
    (bwd_first_part cfg.runConfig src.grid inp o hR.timestep_pos (b + 1) hbN (of_decide_eq_true hwb)).1
  have e2 : (bwdProc run src.grid inp).files o (a + 1) = p.files o (a + 1) := by
    have h1 := (bwd_first_part cfg.runConfig src.grid inp o hR.timestep_pos (a + 1) (by omega) hwa').1
    have h2 := (bwd_first_part run src.grid inp o hR.timestep_pos (a + 1) (by rw [stB]; omega) hwB).1
    exact h2.symm.trans h1
  have e3 : (bwdProc run src.grid inp).full o a = p.full o a := by
    have h := congrArg List.getLast? e2
    simp only [Proc.files, hwa, show (bwdProc run src.grid inp).write (a + 1) = true from decide_eq_true hwB, if_true,
      List.getLast?_concat] at h
    injection h with h
    exact (Prod.mk.injEq _ _ _ _ ▸ h).2
  have hA' : fsk (path A) = some (.file (lib.showBwd (p.full o a))) := by
    rw [hname]
    exact hfiles (A, p.full o a) ((Proc.mem_files _ _).2 ⟨a, Nat.lt_succ_self a, hwa, rfl⟩)
  have hd : restartFile lib.readBwd fsk (path (run.bwdTime (a + 1))) = some ((bwdProc run src.grid inp).full o a) := by
    unfold restartFile
    have : fsk (path (run.bwdTime (a + 1))) = _ := hA'
    rw [this, e3]
    exact hback
  obtain ⟨s2', hs2', e4, -, -⟩ := bwd_restart run src inp path RB o a (by omega) (decide_eq_true hwB)
    (restartFile lib.readBwd fsk) hd
  rw [stB, e1, e2] at e4
  have hs : bwdSource lib c' fsk = src := source_at lib hfirst cfg fs fsk hin _ A hax
  have R2 : Runnable c'.runConfig src inp := RB.bwd_end (a + 1) (by rw [stB]; omega)
  have w : c.Works lib parse fsk c' := by
    refine ⟨rc.given, rc.input, ?_⟩
    obtain ⟨o2, ho2⟩ := bwd_init_ok c'.runConfig src inp path (restartFile lib.readBwd fsk) R2 (fun _ => by
      have : restartFile lib.readBwd fsk (path c'.runConfig.tracking_end_date) = _ := hd
      rw [this]
      rfl)
    obtain ⟨r, -, -, hall⟩ := bwd_run_eq _ _ inp _ _ R2 o2 ho2
    rw [← hs] at hall
    refine (C112_backward lib hfirst parse c.cwd c.dir c.stem c.stamp _ c.settings _ rc.given rc.input
      rc.room hb).1 _ ((hall c'.fuel).trans (if_neg ?_))
    show ¬ c'.fuel < c'.fuel
    omega
  have hin' : ∀ p, TrackInput (withRestart false cfg) p → after (c.act lib parse) fsk p = fs p := by
    intro p hp
    rw [call_input lib hfirst parse c fsk c' w p (input_of_plain (cfg := cfg) (cfg' := c') rfl rfl rfl hp) (hapart p hp)]
    exact hin p hp
  refine ⟨w, hin', ?_⟩
  obtain ⟨s2, k2, f2⟩ := call_files_bwd lib hfirst parse c fsk c' w hb
  rw [hs] at k2
  have hs2e : s2 = s2' := by
    obtain ⟨o2, r2, ho2, hs2, N, hN⟩ := bwd_finished R2 k2
    obtain ⟨N', hN'⟩ := hs2'
    have a := hN (max N N') (le_max_left _ _)
    have b := hN' (max N N') (le_max_right _ _)
    have : Outcome.finished s2 = Outcome.finished s2' := a.symm.trans b
    injection this
  subst hs2e
  have hpw : (p.files o (b + 1)).Pairwise fun x y =>
      minuteString (dateTimeOf cfg.calendar y.1) ≠ minuteString (dateTimeOf cfg.calendar x.1) := by
    have := bwd_names_differ run src.grid inp cfg.calendar hR.timestep_pos hmin
      (fun t h0 h1 => hy t ((cfg.runConfig.bwdTime_mem hR.timestep_pos hR.ordered (b + 1) hbN).1.trans h0) h1) o
    rw [stB, e1] at this
    exact this
  rw [e4] at hpw ⊢
  obtain ⟨-, hpb, hpc⟩ := List.pairwise_append.1 hpw
  intro x hx
  rcases List.mem_append.1 hx with hm | hm
  · have hold := hfiles x hm
    unfold backwardFile at hold ⊢
    rw [← backward_name'] at hold ⊢
    have hb2 : c'.config.rest.backward = true := hb
    have hout := (C109_backward lib c' fsk hb).2.1
    rw [hs] at hout
    have k2' : bwdRun c'.runConfig src (fun t => c'.output ++ [outputName c'.calendar true t])
      (restartFile lib.readBwd fsk) c'.fuel = .finished s2 := k2
    rw [k2'] at hout
    have := call_keeps lib hfirst parse c fsk c' w x.1 (lib.showBwd x.2)
    rw [hb2] at this
    refine this hold ?_
    intro y hy
    rw [hout.1] at hy
    obtain ⟨z, hz, rfl⟩ := List.mem_map.1 hy
    rw [backward_name', backward_name']
    intro e
    exact hpc _ hm z hz (List.append_cancel_left (List.append_cancel_right e))
  · obtain ⟨before, aft, hs⟩ := List.append_of_mem hm
    refine f2 before x.1 x.2 aft hs ?_
    rw [hs] at hpb
    exact (List.pairwise_cons.1 (List.pairwise_append.1 hpb).2.1).1

/-- several commands, of which the first continues from `A` -/
private theorem pieces_bwd (lib : Library m n K) (hfirst : ∀ q name, lib.first q = some name → q name = true)
    (parse : List Char → Except Err (FileSettings (TrackSettings K))) (fs : FileSystem)
    (cfg : Loaded (TrackSettings K)) (hb : cfg.config.rest.backward = true)
    (inp : Input m n K) (hR : Runnable cfg.runConfig (bwdSource lib cfg fs) inp) (hmin : 60 ∣ cfg.config.rest.timestep)
    (hy : ∀ t, cfg.config.dates .tracking_start_date ≤ t → t ≤ cfg.config.dates .tracking_end_date →
      FourDigitYear cfg.calendar t)
    (hapart : ∀ p, TrackInput (withRestart false cfg) p → ¬ Below cfg.output p)
    (o : BwdOutput (m + 2) (n + 2) K) (parts : List (TrackCall K × ℤ)) :
    ∀ (a : ℕ) (fsk : FileSystem), a + 1 ≤ cfg.runConfig.steps →
      (bwdProc cfg.runConfig (bwdSource lib cfg fs).grid inp).write (a + 1) = true →
      SameAxes lib cfg fs (cfg.config.dates .tracking_end_date) (cfg.runConfig.bwdTime (a + 1)) →
      lib.readBwd (lib.showBwd ((bwdProc cfg.runConfig (bwdSource lib cfg fs).grid inp).full o a)) =
        some ((bwdProc cfg.runConfig (bwdSource lib cfg fs).grid inp).full o a) →
      (∀ p, TrackInput (withRestart false cfg) p → fsk p = fs p) →
      (∀ x ∈ (bwdProc cfg.runConfig (bwdSource lib cfg fs).grid inp).files o (a + 1),
        fsk (backwardFile cfg x.1) = some (.file (lib.showBwd x.2))) →
      (∀ x ∈ parts, x.2 < cfg.runConfig.bwdTime (a + 1)) → parts.Pairwise (fun x y => y.2 < x.2) →
      (∀ x ∈ parts, BackwardOutputTime cfg x.2 ∧ SameAxes lib cfg fs (cfg.config.dates .tracking_end_date) x.2) →
      (∀ x ∈ parts, ∀ y ∈ (bwdProc cfg.runConfig (bwdSource lib cfg fs).grid inp).files o cfg.runConfig.steps, y.1 = x.2 →
        lib.readBwd (lib.showBwd y.2) = some y.2) →
      PiecesReady (backwardPiece cfg) parse fsk (some (cfg.runConfig.bwdTime (a + 1))) parts →
      AllEnd (parts.map fun x => x.1.act lib parse) fsk ∧
      ∀ x ∈ (bwdProc cfg.runConfig (bwdSource lib cfg fs).grid inp).files o cfg.runConfig.steps,
        (cfg.runConfig.bwdTime (a + 1) ≤ x.1 ∨ ∃ y ∈ parts, y.2 ≤ x.1) →
        afterAll (parts.map fun x => x.1.act lib parse) fsk (backwardFile cfg x.1) = some (.file (lib.showBwd x.2)) := by
  have hdt : 0 < cfg.runConfig.dt := by
    have := hR.timestep_pos
    unfold RunConfig.dt usPerSecond
    positivity
  have mono : ∀ i j : ℕ, cfg.runConfig.bwdTime (j + 1) ≤ cfg.runConfig.bwdTime (i + 1) → i ≤ j := by
    intro i j h
    unfold RunConfig.bwdTime at h
    have h1 : ((i + 1 : ℕ) : ℤ) * cfg.runConfig.dt ≤ ((j + 1 : ℕ) : ℤ) * cfg.runConfig.dt := by linarith
    have h2 := le_of_mul_le_mul_right h1 hdt
    have h3 : i + 1 ≤ j + 1 := by exact_mod_cast h2
    omega
  have early : ∀ (a : ℕ), ∀ x ∈ (bwdProc cfg.runConfig (bwdSource lib cfg fs).grid inp).files o cfg.runConfig.steps,
      cfg.runConfig.bwdTime (a + 1) ≤ x.1 →
      x ∈ (bwdProc cfg.runConfig (bwdSource lib cfg fs).grid inp).files o (a + 1) := by
    intro a x hx h
    obtain ⟨i, -, hwi, rfl⟩ := (Proc.mem_files _ _).1 hx
    exact (Proc.mem_files _ _).2 ⟨i, Nat.lt_succ_of_le (mono i a h), hwi, rfl⟩
  induction parts with
  | nil =>
    intro a fsk haN hwa hax hback hin hfiles _ _ _ _ _
    refine ⟨trivial, ?_⟩
    rintro x hx (h | ⟨y, hy, -⟩)
    · exact hfiles x (early a x hx h)
    · cases hy
  | cons d rest ih =>
    intro a fsk haN hwa hax hback hin hfiles hlt hsorted hout hbacks hready
    obtain ⟨c, B⟩ := d
    obtain ⟨k, hk1, hkN, hBk, hkw⟩ := (hout (c, B) List.mem_cons_self).1
    have hBk : B = cfg.config.dates .tracking_end_date - (k : ℤ) * (cfg.config.rest.timestep * 1000000) := hBk
    obtain ⟨b, rfl⟩ : ∃ b, k = b + 1 := ⟨k - 1, by omega⟩
    have hBk : B = cfg.runConfig.bwdTime (b + 1) := hBk
    subst hBk
    have hbN : b + 1 ≤ cfg.runConfig.steps := hkN
    have hwb : (bwdProc cfg.runConfig (bwdSource lib cfg fs).grid inp).write (b + 1) = true := decide_eq_true hkw
    have hab : a < b := by
      by_contra h
      have h1 : ((b + 1 : ℕ) : ℤ) ≤ ((a + 1 : ℕ) : ℤ) := by exact_mod_cast (by omega : b + 1 ≤ a + 1)
      have h2 := mul_le_mul_of_nonneg_right h1 hdt.le
      have h3 := hlt _ List.mem_cons_self
      simp only at h3
      unfold RunConfig.bwdTime at h3
      linarith
    obtain ⟨w, hin', hfiles'⟩ := next_piece_bwd lib hfirst parse fs cfg hb inp hR hmin hy hapart o a b hab hbN hwa hwb hax hback
      fsk hin hfiles c hready.1
    obtain ⟨h1, h2⟩ := List.pairwise_cons.1 hsorted
    have hb' := hbacks _ List.mem_cons_self
      (cfg.runConfig.bwdTime (b + 1), (bwdProc cfg.runConfig (bwdSource lib cfg fs).grid inp).full o b)
      ((Proc.mem_files _ _).2 ⟨b, hbN, hwb, rfl⟩) rfl
    obtain ⟨g1, g2⟩ := ih b (after (c.act lib parse) fsk) hbN hwb (hout _ List.mem_cons_self).2 hb' hin' hfiles'
      (fun x hx => h1 x hx) h2 (fun x hx => hout x (List.mem_cons_of_mem _ hx)) (fun x hx => hbacks x (List.mem_cons_of_mem _ hx))
      (pieces_keep lib hfirst parse cfg c fsk _ (backwardPiece cfg) (fun x y => by cases x <;> exact ⟨rfl, rfl⟩) w hready.1 rest _ hready.2)
    refine ⟨⟨w.ends, g1⟩, ?_⟩
    intro x hx hxt
    refine g2 x hx ?_
    rcases hxt with h | ⟨y, hy, h⟩
    · exact .inl ((hlt _ List.mem_cons_self).le.trans h)
    · rcases List.mem_cons.1 hy with rfl | hy
      · exact .inl h
      · exact .inr ⟨y, hy, h⟩

/-- several commands, of which the first starts as the whole run does -/
private theorem start_pieces_bwd (lib : Library m n K) (hfirst : ∀ q name, lib.first q = some name → q name = true)
    (parse : List Char → Except Err (FileSettings (TrackSettings K))) (fs : FileSystem)
    (cfg : Loaded (TrackSettings K)) (hb : cfg.config.rest.backward = true)
    (inp : Input m n K) (hR : Runnable cfg.runConfig (bwdSource lib cfg fs) inp) (hmin : 60 ∣ cfg.config.rest.timestep)
    (hy : ∀ t, cfg.config.dates .tracking_start_date ≤ t → t ≤ cfg.config.dates .tracking_end_date →
      FourDigitYear cfg.calendar t)
    (hapart : ∀ p, TrackInput (withRestart false cfg) p → ¬ Below cfg.output p)
    (o' : BwdOutput (m + 2) (n + 2) K) (path : ℤ → FPath) (hpath : path = fun t => cfg.output ++ [outputName cfg.calendar true t])
    (ho : bwdInitialize cfg.runConfig (bwdSource lib cfg fs) path (restartFile lib.readBwd fs) = .ok o')
    (p : Proc (BwdOutput (m + 2) (n + 2) K)) (hp : p = bwdProc cfg.runConfig (bwdSource lib cfg fs).grid inp)
    (hpw : (p.files o' cfg.runConfig.steps).Pairwise fun x y =>
      minuteString (dateTimeOf cfg.calendar y.1) ≠ minuteString (dateTimeOf cfg.calendar x.1))
    (parts : List (TrackCall K × ℤ)) (hsorted : parts.Pairwise fun x y => y.2 < x.2)
    (hout : ∀ x ∈ parts, BackwardOutputTime cfg x.2 ∧ SameAxes lib cfg fs (cfg.config.dates .tracking_end_date) x.2)
    (hready : PiecesReady (backwardPiece cfg) parse fs none parts)
    (hbacks : ∀ x ∈ parts, ∀ y ∈ p.files o' cfg.runConfig.steps, y.1 = x.2 → lib.readBwd (lib.showBwd y.2) = some y.2) :
    AllEnd (parts.map fun x => x.1.act lib parse) fs ∧
      ∀ x ∈ p.files o' cfg.runConfig.steps, (∃ y ∈ parts, y.2 ≤ x.1) →
        afterAll (parts.map fun x => x.1.act lib parse) fs (backwardFile cfg x.1) = some (.file (lib.showBwd x.2)) := by
  subst hp
  subst hpath
  rcases parts with _ | ⟨⟨c, B⟩, rest⟩
  · refine ⟨trivial, ?_⟩
    rintro x _ ⟨y, hy, -⟩
    cases hy
  · obtain ⟨⟨k, hk1, hkN, hBk, hkw⟩, hax⟩ := hout (c, B) List.mem_cons_self
    have hBk : B = cfg.config.dates .tracking_end_date - (k : ℤ) * (cfg.config.rest.timestep * 1000000) := hBk
    obtain ⟨b, rfl⟩ : ∃ b, k = b + 1 := ⟨k - 1, by omega⟩
    have hBk : B = cfg.runConfig.bwdTime (b + 1) := hBk
    subst hBk
    have hbN : b + 1 ≤ cfg.runConfig.steps := hkN
    have hwb : (bwdProc cfg.runConfig (bwdSource lib cfg fs).grid inp).write (b + 1) = true := decide_eq_true hkw
    have rc : c.Ready parse fs (startingAt (cfg.runConfig.bwdTime (b + 1)) cfg) := hready.1
    have w₁ : c.Works lib parse fs (startingAt (cfg.runConfig.bwdTime (b + 1)) cfg) := by
      refine ⟨rc.given, rc.input, ?_⟩
      have hR1 : Runnable (startingAt (cfg.runConfig.bwdTime (b + 1)) cfg).runConfig
        (bwdSource lib (startingAt (cfg.runConfig.bwdTime (b + 1)) cfg) fs) inp := hR.bwd_start (b + 1) hbN
      obtain ⟨r, -, -, hall⟩ := bwd_run_eq _ _ inp (fun t => cfg.output ++ [outputName cfg.calendar true t]) (restartFile lib.readBwd fs) hR1 o' ho
      refine (C112_backward lib hfirst parse c.cwd c.dir c.stem c.stamp fs c.settings _ rc.given rc.input
        rc.room hb).1 _ ((hall (startingAt (cfg.runConfig.bwdTime (b + 1)) cfg).fuel).trans (if_neg ?_))
      show ¬ (startingAt (cfg.runConfig.bwdTime (b + 1)) cfg).fuel < (startingAt (cfg.runConfig.bwdTime (b + 1)) cfg).fuel
      omega
    obtain ⟨f1, -, -⟩ := first_part_bwd lib hfirst parse fs cfg hb inp hR hapart b hbN hwb hax o' ho c w₁
    have hin : ∀ p, TrackInput (withRestart false cfg) p → after (c.act lib parse) fs p = fs p := fun p hp =>
      call_input lib hfirst parse c fs (startingAt (cfg.runConfig.bwdTime (b + 1)) cfg) w₁ p
        (input_of_plain (cfg := cfg) (cfg' := startingAt (cfg.runConfig.bwdTime (b + 1)) cfg) rfl rfl rfl hp) (hapart p hp)
    have hpre : ((bwdProc cfg.runConfig (bwdSource lib cfg fs).grid inp).files o' (b + 1)).Pairwise fun x y =>
        minuteString (dateTimeOf cfg.calendar y.1) ≠ minuteString (dateTimeOf cfg.calendar x.1) := by
      obtain ⟨d, hd⟩ : ∃ d, b + 1 + d = cfg.runConfig.steps := ⟨cfg.runConfig.steps - (b + 1), by omega⟩
      have := Proc.shift_files (bwdProc cfg.runConfig (bwdSource lib cfg fs).grid inp) o' (b + 1) d
      rw [hd] at this
      rw [this] at hpw
      exact (List.pairwise_append.1 hpw).1
    have hfiles : ∀ x ∈ (bwdProc cfg.runConfig (bwdSource lib cfg fs).grid inp).files o' (b + 1), after (c.act lib parse) fs (backwardFile cfg x.1) = some (.file (lib.showBwd x.2)) := by
      intro x hx
      obtain ⟨before, aft, hs⟩ := List.append_of_mem hx
      refine f1 before x.1 x.2 aft hs ?_
      rw [hs] at hpre
      exact (List.pairwise_cons.1 (List.pairwise_append.1 hpre).2.1).1
    obtain ⟨h1, h2⟩ := List.pairwise_cons.1 hsorted
    obtain ⟨g1, g2⟩ := pieces_bwd lib hfirst parse fs cfg hb inp hR hmin hy hapart o' rest b (after (c.act lib parse) fs) hbN hwb
      hax (hbacks _ List.mem_cons_self (cfg.runConfig.bwdTime (b + 1), (bwdProc cfg.runConfig (bwdSource lib cfg fs).grid inp).full o' b) ((Proc.mem_files _ _).2 ⟨b, hbN, hwb, rfl⟩) rfl)
      hin hfiles (fun x hx => h1 x hx) h2 (fun x hx => hout x (List.mem_cons_of_mem _ hx))
      (fun x hx => hbacks x (List.mem_cons_of_mem _ hx))
      (pieces_keep lib hfirst parse cfg c fs _ (backwardPiece cfg) (fun x y => by cases x <;> exact ⟨rfl, rfl⟩) w₁ rc rest _ hready.2)
    refine ⟨⟨w₁.ends, g1⟩, ?_⟩
    rintro x hx ⟨y, hy, h⟩
    refine g2 x hx ?_
    rcases List.mem_cons.1 hy with rfl | hy
    · exact .inl h
    · exact .inr ⟨y, hy, h⟩

/-- Backward.  The run over the whole period is divided, at any of the times at which output is written, among any number of commands; each continues from the last
file of the one before it.  All of them succeed, and at each moment that they reach the folder holds the same output as after the one command. -/
theorem C118_backward (lib : Library m n K) (hfirst : ∀ q name, lib.first q = some name → q name = true)
    (parse : List Char → Except Err (FileSettings (TrackSettings K))) (fs : FileSystem)
    (cfg : Loaded (TrackSettings K)) (hb : cfg.config.rest.backward = true)
    (inp : Input m n K) (hR : Runnable cfg.runConfig (bwdSource lib cfg fs) inp) (hmin : 60 ∣ cfg.config.rest.timestep)
    (hre : cfg.config.rest.restart = true →
      ∃ text o, fs (backwardFile cfg (cfg.config.dates .tracking_end_date)) = some (.file text) ∧ lib.readBwd text = some o)
    (hy : ∀ t, cfg.config.dates .tracking_start_date ≤ t → t ≤ cfg.config.dates .tracking_end_date →
      FourDigitYear cfg.calendar t)
    (hapart : ∀ p, TrackInput (withRestart false cfg) p → ¬ Below cfg.output p)
    (whole : TrackCall K) (h₀ : whole.Ready parse fs cfg)
    (parts : List (TrackCall K × ℤ)) (hsorted : parts.Pairwise fun x y => y.2 < x.2)
    (hout : ∀ x ∈ parts, BackwardOutputTime cfg x.2 ∧ SameAxes lib cfg fs (cfg.config.dates .tracking_end_date) x.2)
    (hready : PiecesReady (backwardPiece cfg) parse fs none parts)
    (hback : ∀ x ∈ parts, ∀ o, after (whole.act lib parse) fs (backwardFile cfg x.2) = some (.file (lib.showBwd o)) →
      lib.readBwd (lib.showBwd o) = some o) :
    (whole.act lib parse fs).2 = .ok () ∧ AllEnd (parts.map fun x => x.1.act lib parse) fs ∧
    ∀ t, BackwardOutputTime cfg t → (∃ x ∈ parts, x.2 ≤ t) → ∃ o,
      after (whole.act lib parse) fs (backwardFile cfg t) = some (.file (lib.showBwd o)) ∧
      afterAll (parts.map fun x => x.1.act lib parse) fs (backwardFile cfg t) = some (.file (lib.showBwd o)) := by
  set src := bwdSource lib cfg fs with hsrc
  set path : ℤ → FPath := fun t => cfg.output ++ [outputName cfg.calendar true t] with hpath
  have hname : ∀ t, path t = backwardFile cfg t := fun t => by
    rw [hpath]
    simp only
    rw [backward_name']
    rfl
  obtain ⟨o, ho⟩ := bwd_init_ok cfg.runConfig src inp path (restartFile lib.readBwd fs) hR (fun h => by
      obtain ⟨text, o, h1, h2⟩ := hre h
      unfold restartFile
      have : fs (path cfg.runConfig.tracking_end_date) = some (.file text) := by
        rw [hname]
        exact h1
      rw [this]
      simp only [h2]
      rfl)
  have w₀ : whole.Works lib parse fs cfg := by
    refine ⟨h₀.given, h₀.input, ?_⟩
    obtain ⟨r, -, -, hall⟩ := bwd_run_eq cfg.runConfig src inp _ _ hR o ho
    refine (C112_backward lib hfirst parse whole.cwd whole.dir whole.stem whole.stamp fs whole.settings cfg h₀.given h₀.input
      h₀.room hb).1 _ ((hall cfg.fuel).trans (if_neg ?_))
    show ¬ cfg.fuel < cfg.fuel
    omega
  obtain ⟨s0, k0, f0⟩ := call_files_bwd lib hfirst parse whole fs cfg w₀ hb
  obtain ⟨o', r, ho', hs0', -⟩ := bwd_finished hR k0
  have hoo : o' = o := by
    have : bwdInitialize cfg.runConfig src path (restartFile lib.readBwd fs) = .ok o' := ho'
    rw [ho] at this
    injection this with this
    exact this.symm
  subst hoo
  set p := bwdProc cfg.runConfig src.grid inp with hp
  have hfiles0 : s0.files = p.files o' cfg.runConfig.steps := by rw [hs0']; rfl
  have hpw : (p.files o' cfg.runConfig.steps).Pairwise fun x y =>
      minuteString (dateTimeOf cfg.calendar y.1) ≠ minuteString (dateTimeOf cfg.calendar x.1) :=
    bwd_names_differ cfg.runConfig src.grid inp cfg.calendar hR.timestep_pos hmin hy o'
  have disk0 : ∀ x ∈ p.files o' cfg.runConfig.steps,
      after (whole.act lib parse) fs (backwardFile cfg x.1) = some (.file (lib.showBwd x.2)) := by
    intro x hx
    obtain ⟨before, aft, hs⟩ := List.append_of_mem hx
    refine f0 before x.1 x.2 aft (by rw [hfiles0, hs]) ?_
    rw [hs] at hpw
    exact (List.pairwise_cons.1 (List.pairwise_append.1 hpw).2.1).1
  refine ⟨w₀.ends, ?_⟩
  have h := start_pieces_bwd lib hfirst parse fs cfg hb inp hR hmin hy hapart o' path hpath ho p hp hpw parts hsorted hout hready (by
    intro x hx y hy e
    refine hback x hx y.2 ?_
    rw [← e]
    exact disk0 y hy)
  refine ⟨h.1, fun t ht hx => ?_⟩
  have mem : t ∈ (p.files o' cfg.runConfig.steps).map Prod.fst := by
    obtain ⟨k, hk1, hkN, htk, hkw⟩ := ht
    obtain ⟨i, rfl⟩ : ∃ i, k = i + 1 := ⟨k - 1, by omega⟩
    rw [htk] at hkw
    rw [htk]
    exact List.mem_map.2 ⟨_, (Proc.mem_files _ _).2 ⟨i, hkN, decide_eq_true hkw, rfl⟩, rfl⟩
  obtain ⟨x, hxm, rfl⟩ := List.mem_map.1 mem
  exact ⟨x.2, disk0 x hxm, h.2 x hxm hx⟩

end

end Wam
