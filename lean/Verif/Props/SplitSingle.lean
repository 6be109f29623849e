import Verif.Props.Split
import Verif.Props.Single

/-!
# C117: tracking in two commands, with single-precision files
-/

set_option linter.unusedSectionVars false
set_option linter.unusedVariables false

namespace Wam
open Spec

section
variable {K : Type} [Field K] [LinearOrder K] [IsStrictOrderedRing K] {ω : Type}

theorem pick (l : List (ℤ × ω)) (hl : l.Pairwise fun x y => y.1 ≠ x.1) (d : ω) :
    ∃ f : ℤ → ω, ∀ x ∈ l, f x.1 = x.2 := by
  induction l with
  | nil => exact ⟨fun _ => d, fun x hx => by cases hx⟩
  | cons y l ih =>
    obtain ⟨h1, h2⟩ := List.pairwise_cons.1 hl
    obtain ⟨f, hf⟩ := ih h2
    refine ⟨fun t => if t = y.1 then y.2 else f t, ?_⟩
    intro x hx
    rcases List.mem_cons.1 hx with rfl | hx
    · exact if_pos rfl
    · simp only [if_neg (h1 x hx)]
      exact hf x hx

theorem sum_le_pairs (q : ω → ω → K) (hq : ∀ x y, 0 ≤ q x y) (f f' : ℤ → ω) :
    ∀ (l l' : List (ℤ × ω)) (T : Finset ℤ), l.map Prod.fst = l'.map Prod.fst → (∀ x ∈ l, f x.1 = x.2) →
      (∀ x ∈ l', f' x.1 = x.2) → (∀ t ∈ T, t ∈ l.map Prod.fst) → ∑ t ∈ T, q (f t) (f' t) ≤ sumPairs l l' q := by
  intro l
  induction l with
  | nil =>
    intro l' T ht _ _ hT
    have : T = ∅ := Finset.eq_empty_of_forall_notMem fun t h => by have := hT t h; simp at this
    subst this
    simp [sumPairs]
  | cons x l ih =>
    intro l' T ht hf hf' hT
    rcases l' with _ | ⟨y, l'⟩
    · simp at ht
    · simp only [List.map_cons, List.cons.injEq] at ht
      have h := ih l' (T.erase x.1) ht.2 (fun z hz => hf z (List.mem_cons_of_mem _ hz))
        (fun z hz => hf' z (List.mem_cons_of_mem _ hz)) (by
          intro t h
          obtain ⟨h1, h2⟩ := Finset.mem_erase.1 h
          have := hT t h2
          simp only [List.map_cons, List.mem_cons] at this
          exact this.resolve_left h1)
      have e : sumPairs (x :: l) (y :: l') q = q x.2 y.2 + sumPairs l l' q := by simp [sumPairs]
      rw [e]
      have e1 := hf x List.mem_cons_self
      have e2 := hf' y List.mem_cons_self
      have h3 : ∑ t ∈ T, q (f t) (f' t) ≤ q (f x.1) (f' x.1) + ∑ t ∈ T.erase x.1, q (f t) (f' t) := by
        by_cases hx : x.1 ∈ T
        · rw [Finset.add_sum_erase _ (fun t => q (f t) (f' t)) hx]
        · rw [Finset.erase_eq_of_notMem hx]
          exact le_add_of_nonneg_left (hq _ _)
      rw [← ht.1] at e2
      rw [e1, e2] at h3
      linarith

end

section
variable {m n : ℕ} {K : Type} [Field K] [LinearOrder K] [IsStrictOrderedRing K] [NpTrig K] {P : Type}

private theorem gap_nonneg' (a : Fin (m + 2) → K) (ha : ∀ i, 0 < a i) (f f' : Arr (m + 2) (n + 2) K) : 0 ≤ gap a f f' := by
  unfold gap total
  exact
    Finset.sum_nonneg fun i _ => Finset.sum_nonneg fun j _ => mul_nonneg (ha i).le (abs_nonneg _)

theorem fwdFate_nonneg (a : Fin (m + 2) → K) (ha : ∀ i, 0 < a i) (o o' : FwdOutput (m + 2) (n + 2) K) :
    0 ≤ fwdFateGap a o o' := by
  have := fun f f' => gap_nonneg' (n := n) a ha f f'
  unfold fwdFateGap
  exact add_nonneg (add_nonneg (this _ _) (this _ _)) (this _ _)

theorem bwdFate_nonneg (a : Fin (m + 2) → K) (ha : ∀ i, 0 < a i) (o o' : BwdOutput (m + 2) (n + 2) K) :
    0 ≤ bwdFateGap a o o' := by
  have := fun f f' => gap_nonneg' (n := n) a ha f f'
  unfold bwdFateGap
  exact add_nonneg (this _ _) (this _ _)

/-- the run that restarts from the rounded file, against the uninterrupted one, at each time at which it writes -/
private theorem fwd_rounded (cfg : RunConfig K) (src : Source m n K) (inp : Input m n K) (path : ℤ → P)
    (h : Runnable cfg src inp)
    (hp : Physical inp cfg.tracking_start_date cfg.tracking_end_date) (ha : ∀ i, 0 < src.grid.a i)
    (hk : 0 ≤ cfg.kvf) (calm : CalmFwd cfg src.grid inp) (R : Rounding K) {u η : K} (hR : Accurate R u η)
    (o : FwdOutput (m + 2) (n + 2) K) (hs0 : ∀ i j, 0 ≤ o.s_track_lower i j ∧ 0 ≤ o.s_track_upper i j)
    (b : ℕ) (hb : b + 1 ≤ cfg.steps) (hw : (fwdProc cfg src.grid inp).write (b + 1) = true)
    (disk' : P → Option (FwdOutput (m + 2) (n + 2) K))
    (hd' : disk' (path (cfg.fwdTime (b + 1))) = some (((fwdProc cfg src.grid inp).full o b).cast R.rnd))
    (cfg2 : RunConfig K) (hcfg2 : cfg2 = { cfg with tracking_start_date := cfg.fwdTime (b + 1), restart := true }) :
    ∃ o2 o2', fwdInitialize cfg2 src path disk' = .ok o2' ∧
      (fwdProc cfg src.grid inp).files o cfg.steps =
        (fwdProc cfg src.grid inp).files o (b + 1) ++ (fwdProc cfg2 src.grid inp).files o2 cfg2.steps ∧
      ∀ e, e + 1 ≤ cfg2.steps → (fwdProc cfg2 src.grid inp).write (e + 1) = true →
        fwdStorageGap src.grid.a ((fwdProc cfg2 src.grid inp).full o2 e) ((fwdProc cfg2 src.grid inp).full o2' e) +
          sumPairs ((fwdProc cfg2 src.grid inp).files o2 (e + 1)) ((fwdProc cfg2 src.grid inp).files o2' (e + 1))
            (fwdFateGap src.grid.a) ≤
        u * (total src.grid.a ((fwdProc cfg src.grid inp).full o b).s_track_lower +
            total src.grid.a ((fwdProc cfg src.grid inp).full o b).s_track_upper) +
          2 * η * total src.grid.a (fun _ (_ : Fin (n + 2)) => (1 : K)) := by
  set f := (fwdProc cfg src.grid inp).full o b with hf
  obtain ⟨s2, hs2, e1, -, -⟩ := fwd_restart cfg src inp path h o b hb hw (fun _ => some f) rfl
  rw [← hcfg2] at hs2
  have h2 : Runnable cfg2 src inp := by rw [hcfg2]; exact h.fwd_start (b + 1) hb
  obtain ⟨o2, r2, ho2, rfl⟩ := fwd_ends cfg2 src inp path _ h2 hs2
  have t2 : cfg2.tracking_start_date = cfg.fwdTime (b + 1) := by rw [hcfg2]
  obtain ⟨o2', ho2'⟩ := fwd_init_ok cfg2 src inp path disk' h2 (fun _ => by rw [t2, hd']; rfl)
  refine ⟨o2, o2', ho2', e1, ?_⟩
  intro e he hwe
  set cfg3 : RunConfig K := { cfg2 with tracking_end_date := cfg2.fwdTime (e + 1) } with hc3
  have h3 : Runnable cfg3 src inp := h2.fwd_end (e + 1) he
  have hst : cfg3.steps = e + 1 := cfg2.steps_fwd_end h2.timestep_pos (e + 1)
  obtain ⟨q1, q2⟩ := fwd_first_part cfg2 src.grid inp o2 h2.timestep_pos (e + 1) he (of_decide_eq_true hwe)
  obtain ⟨q1', q2'⟩ := fwd_first_part cfg2 src.grid inp o2' h2.timestep_pos (e + 1) he (of_decide_eq_true hwe)
  have i3 : fwdInitialize cfg3 src path (fun _ => some f) = .ok o2 := ho2
  have i3' : fwdInitialize cfg3 src path disk' = .ok o2' := ho2'
  obtain ⟨r, -, -, hrun⟩ := fwd_run_eq cfg3 src inp path _ h3 o2 i3
  obtain ⟨r', -, -, hrun'⟩ := fwd_run_eq cfg3 src inp path _ h3 o2' i3'
  have hB1 : cfg.tracking_start_date ≤ cfg.fwdTime (b + 1) :=
    (cfg.fwdTime_mem h.timestep_pos h.ordered (b + 1) hb).1
  have hE1 : cfg3.tracking_end_date ≤ cfg.tracking_end_date := by
    have := (cfg2.fwdTime_mem h2.timestep_pos h2.ordered (e + 1) he).2
    have t : cfg2.tracking_end_date = cfg.tracking_end_date := by rw [hcfg2]
    rw [← t]
    exact this
  have hS3 : cfg3.tracking_start_date = cfg.fwdTime (b + 1) := t2
  have hp3 : Physical inp cfg3.tracking_start_date cfg3.tracking_end_date :=
    { wet := fun t h0 h1 => hp.wet t (hB1.trans (hS3 ▸ h0)) (h1.trans hE1)
      precip := fun t h0 h1 => hp.precip t (hB1.trans (hS3 ▸ h0)) (h1.trans hE1)
      evap := fun t h0 h1 => hp.evap t (hB1.trans (hS3 ▸ h0)) (h1.trans hE1)
      region := fun t h0 h1 => hp.region t (hB1.trans (hS3 ▸ h0)) (h1.trans hE1) }
  have hnn : ∀ i j, 0 ≤ f.s_track_lower i j ∧ 0 ≤ f.s_track_upper i j := by
    intro i j
    have := fwd_out_nonneg cfg src inp h hp o hs0 (b + 1) hb i j
    rw [(fwd_out_succ cfg inp src.grid o b).1, (fwd_out_succ cfg inp src.grid o b).2] at this
    exact this
  have calm2 : CalmFwd cfg2 src.grid inp := by rw [hcfg2]; exact calm_fwd_start cfg src.grid inp calm (b + 1)
  have calm3 : CalmFwd cfg3 src.grid inp := by
    intro k hk
    refine calm2 k (le_trans hk ?_)
    exact (cfg2.fwdTime_mem h2.timestep_pos h2.ordered (e + 1) he).2
  have hk3 : 0 ≤ cfg3.kvf := by
    have : cfg3.kvf = cfg.kvf := by rw [hc3, hcfg2]
    rw [this]
    exact hk
  have hr3 : cfg3.restart = true := by rw [hc3, hcfg2]
  obtain ⟨-, k2⟩ := fwd_restart_gap cfg3 src inp path (fun _ => some f) disk' h3 hp3 ha hk3 calm3 R hR hr3 f rfl
    (by rw [hS3]; exact hd') hnn
    ⟨cfg3.steps, fun fuel hf => (hrun fuel).trans (if_neg (not_lt.mpr hf))⟩
    ⟨cfg3.steps, fun fuel hf => (hrun' fuel).trans (if_neg (not_lt.mpr hf))⟩
  have x1 : (fwdStateAt cfg3 src inp r o2 cfg3.steps).files = (fwdProc cfg2 src.grid inp).files o2 (e + 1) := by
    rw [hst]; exact q1
  have x1' : (fwdStateAt cfg3 src inp r' o2' cfg3.steps).files = (fwdProc cfg2 src.grid inp).files o2' (e + 1) := by
    rw [hst]; exact q1'
  have x2 : (fwdStateAt cfg3 src inp r o2 cfg3.steps).output = (fwdProc cfg2 src.grid inp).out o2 (e + 1) := by
    rw [hst]; exact q2
  have x2' : (fwdStateAt cfg3 src inp r' o2' cfg3.steps).output = (fwdProc cfg2 src.grid inp).out o2' (e + 1) := by
    rw [hst]; exact q2'
  rw [x1, x1', x2, x2'] at k2
  unfold fwdStorageGap at k2 ⊢
  rw [(fwd_out_succ cfg2 inp src.grid o2 e).1, (fwd_out_succ cfg2 inp src.grid o2 e).2,
    (fwd_out_succ cfg2 inp src.grid o2' e).1, (fwd_out_succ cfg2 inp src.grid o2' e).2] at k2
  exact k2

/-- Forward, with files in single precision: reading back the file of `B` gives its numbers rounded (`R`, with unit roundoff `u`; `η` is the underflow
threshold).  All three commands succeed.  Up to `B` the two commands give the same output as the one command over the whole period.  In weather in which no cell
loses more water than it holds, at every output time `E` after `B` the tracked storage, and the tracked precipitation and losses of any of the files from `B` to `E` taken
together, differ from those of the one command by at most the fraction `u` of the tracked storage at `B`. -/
theorem C117_forward (lib : Library m n K) (hfirst : ∀ q name, lib.first q = some name → q name = true)
    (parse : List Char → Except Err (FileSettings (TrackSettings K))) (fs : FileSystem)
    (cfg : Loaded (TrackSettings K)) (hb : cfg.config.rest.backward = false)
    (inp : Input m n K) (hR : Runnable cfg.runConfig (fwdSource lib cfg fs) inp) (hmin : 60 ∣ cfg.config.rest.timestep)
    (hp : Physical inp (cfg.config.dates .tracking_start_date) (cfg.config.dates .tracking_end_date))
    (ha : ∀ i, 0 < (fwdSource lib cfg fs).grid.a i) (hk : 0 ≤ cfg.config.rest.kvf)
    (calm : CalmFwd cfg.runConfig (fwdSource lib cfg fs).grid inp)
    (hre : cfg.config.rest.restart = true → ∃ text o,
      fs (forwardFile cfg (cfg.config.dates .tracking_start_date)) = some (.file text) ∧ lib.readFwd text = some o ∧
      ∀ i j, 0 ≤ o.s_track_lower i j ∧ 0 ≤ o.s_track_upper i j)
    (hy : ∀ t, cfg.config.dates .tracking_start_date ≤ t → t ≤ cfg.config.dates .tracking_end_date →
      FourDigitYear cfg.calendar t)
    (hapart : ∀ p, TrackInput (withRestart false cfg) p → ¬ Below cfg.output p)
    (B : ℤ) (hB : ForwardOutputTime cfg B) (hax : SameAxes lib cfg fs (cfg.config.dates .tracking_start_date) B)
    (whole first second : TrackCall K) (h₀ : whole.Ready parse fs cfg) (h₁ : first.Ready parse fs (endingAt B cfg))
    (h₂ : second.Ready parse fs (withRestart true (startingAt B cfg)))
    (R : Rounding K) {u η : K} (hA : Accurate R u η)
    (hback : ∀ o, after (first.act lib parse) fs (forwardFile cfg B) = some (.file (lib.showFwd o)) →
      lib.readFwd (lib.showFwd o) = some (o.cast R.rnd)) :
    (whole.act lib parse fs).2 = .ok () ∧ (first.act lib parse fs).2 = .ok () ∧
    (second.act lib parse (after (first.act lib parse) fs)).2 = .ok () ∧
    ∃ one two : ℤ → FwdOutput (m + 2) (n + 2) K,
      (∀ t, ForwardOutputTime cfg t →
        after (whole.act lib parse) fs (forwardFile cfg t) = some (.file (lib.showFwd (one t))) ∧
        after (second.act lib parse) (after (first.act lib parse) fs) (forwardFile cfg t) =
          some (.file (lib.showFwd (two t)))) ∧
      (∀ t, ForwardOutputTime cfg t → t ≤ B → two t = one t) ∧
      ∀ E, ForwardOutputTime cfg E → B < E → ∀ between : Finset ℤ,
        (∀ t ∈ between, ForwardOutputTime cfg t ∧ B < t ∧ t ≤ E) →
        fwdStorageGap (fwdSource lib cfg fs).grid.a (one E) (two E) +
            ∑ t ∈ between, fwdFateGap (fwdSource lib cfg fs).grid.a (one t) (two t) ≤
          u * (total (fwdSource lib cfg fs).grid.a (one B).s_track_lower +
              total (fwdSource lib cfg fs).grid.a (one B).s_track_upper) +
            2 * η * total (fwdSource lib cfg fs).grid.a (fun _ (_ : Fin (n + 2)) => (1 : K)) := by
  set src := fwdSource lib cfg fs with hsrc
  set path : ℤ → FPath := fun t => cfg.output ++ [outputName cfg.calendar false t] with hpath
  have hname : ∀ t, path t = forwardFile cfg t := fun t => by
    rw [hpath]
    simp only
    rw [forward_name']
    rfl
  obtain ⟨o, ho⟩ := fwd_init_ok cfg.runConfig src inp path (restartFile lib.readFwd fs) hR (fun h => by
      obtain ⟨text, o, h1, h2, -⟩ := hre h
      unfold restartFile
      have : fs (path cfg.runConfig.tracking_start_date) = some (.file text) := by
        rw [hname]
        exact h1
      rw [this]
      simp only [h2]
      rfl)
  have hs0 : ∀ i j, 0 ≤ o.s_track_lower i j ∧ 0 ≤ o.s_track_upper i j := by
    have e := fwd_init_eq cfg.runConfig src path _ o ho
    rw [e]
    intro i j
    simp only
    unfold startFwd
    rcases hr : cfg.runConfig.restart with _ | _
    · exact ⟨le_rfl, le_rfl⟩
    · obtain ⟨text, o', h1, h2, h3⟩ := hre hr
      have : restartFile lib.readFwd fs (path cfg.runConfig.tracking_start_date) = some o' := by
        unfold restartFile
        have : fs (path cfg.runConfig.tracking_start_date) = some (.file text) := by
          rw [hname]
          exact h1
        rw [this]
        exact h2
      rw [this]
      exact h3 i j
  have w₀ : whole.Works lib parse fs cfg := by
    refine ⟨h₀.given, h₀.input, ?_⟩
    obtain ⟨r, -, -, hall⟩ := fwd_run_eq cfg.runConfig src inp _ _ hR o ho
    refine (C112_forward lib hfirst parse whole.cwd whole.dir whole.stem whole.stamp fs whole.settings cfg h₀.given h₀.input
      h₀.room hb).1 _ ((hall cfg.fuel).trans (if_neg ?_))
    show ¬ cfg.fuel < cfg.fuel
    omega
  obtain ⟨k, hk1, hkN, rfl, hkw⟩ := hB
  obtain ⟨b, rfl⟩ : ∃ b, k = b + 1 := ⟨k - 1, by omega⟩
  have hbN : b + 1 ≤ cfg.runConfig.steps := hkN
  have hw : (fwdProc cfg.runConfig src.grid inp).write (b + 1) = true := decide_eq_true hkw
  set B : ℤ := cfg.config.dates .tracking_start_date + ((b + 1 : ℕ) : ℤ) * (cfg.config.rest.timestep * 1000000) with hBdef
  have hBt : B = cfg.runConfig.fwdTime (b + 1) := rfl
  have w₁ : first.Works lib parse fs (endingAt B cfg) := by
    refine ⟨h₁.given, h₁.input, ?_⟩
    have hR1 : Runnable (endingAt B cfg).runConfig (fwdSource lib (endingAt B cfg) fs) inp := hR.fwd_end (b + 1) hbN
    obtain ⟨r, -, -, hall⟩ := fwd_run_eq _ _ inp path (restartFile lib.readFwd fs) hR1 o ho
    refine (C112_forward lib hfirst parse first.cwd first.dir first.stem first.stamp fs first.settings _ h₁.given h₁.input
      h₁.room hb).1 _ ((hall (endingAt B cfg).fuel).trans (if_neg ?_))
    show ¬ (endingAt B cfg).fuel < (endingAt B cfg).fuel
    omega
  obtain ⟨f1, hlast, e2s⟩ := first_part_fwd lib hfirst parse fs cfg hb inp hR hapart b hbN hw hax o ho first w₁
  set fs1 := after (first.act lib parse) fs with hfs1
  have e2s : fwdSource lib (withRestart true (startingAt B cfg)) fs1 = src := e2s
  have hlast : fs1 (path B) = some (.file (lib.showFwd ((fwdProc cfg.runConfig src.grid inp).full o b))) := hlast
  set cfg2 := (withRestart true (startingAt B cfg)).runConfig with hcfg2
  have hR2 : Runnable cfg2 src inp := hR.fwd_start (b + 1) hbN
  have hd' : restartFile lib.readFwd fs1 (path (cfg.runConfig.fwdTime (b + 1))) =
      some (((fwdProc cfg.runConfig src.grid inp).full o b).cast R.rnd) := by
    unfold restartFile
    have : fs1 (path (cfg.runConfig.fwdTime (b + 1))) = _ := hlast
    rw [this]
    rw [hname] at hlast
    exact hback _ hlast
  obtain ⟨o2, o2', ho2', hsplit, hgap⟩ := fwd_rounded cfg.runConfig src inp path hR hp ha hk calm R hA o hs0 b hbN hw
    (restartFile lib.readFwd fs1) hd' cfg2 rfl
  have w₂ : second.Works lib parse fs1 (withRestart true (startingAt B cfg)) := by
    have r₂ := ready_after lib hfirst parse first second fs (endingAt B cfg) (withRestart true (startingAt B cfg)) rfl rfl w₁ h₁ h₂
    refine ⟨r₂.given, r₂.input, ?_⟩
    obtain ⟨r, -, -, hall⟩ := fwd_run_eq _ _ inp _ _ hR2 o2' ho2'
    rw [← e2s] at hall
    refine (C112_forward lib hfirst parse second.cwd second.dir second.stem second.stamp _ second.settings _ r₂.given r₂.input
      r₂.room hb).1 _ ((hall (withRestart true (startingAt B cfg)).fuel).trans (if_neg ?_))
    show ¬ (withRestart true (startingAt B cfg)).fuel < (withRestart true (startingAt B cfg)).fuel
    omega
  refine ⟨w₀.ends, w₁.ends, w₂.ends, ?_⟩
  -- the files
  obtain ⟨s0, k0, f0⟩ := call_files_fwd lib hfirst parse whole fs cfg w₀ hb
  obtain ⟨o', r, ho', hs0', -⟩ := fwd_finished hR k0
  have hoo : o' = o := by
    have : fwdInitialize cfg.runConfig src path (restartFile lib.readFwd fs) = .ok o' := ho'
    rw [ho] at this
    injection this with this
    exact this.symm
  subst hoo
  have hfiles0 : s0.files = (fwdProc cfg.runConfig src.grid inp).files o' cfg.runConfig.steps := by rw [hs0']; rfl
  obtain ⟨s2, k2, f2⟩ := call_files_fwd lib hfirst parse second fs1 (withRestart true (startingAt B cfg)) w₂ hb
  rw [e2s] at k2
  obtain ⟨o3, r3, ho3, hs3, -⟩ := fwd_finished hR2 k2
  have hoo : o3 = o2' := by
    have : fwdInitialize cfg2 src path (restartFile lib.readFwd fs1) = .ok o3 := ho3
    rw [ho2'] at this
    injection this with this
    exact this.symm
  subst hoo
  set p1 := fwdProc cfg.runConfig src.grid inp with hp1
  set p2 := fwdProc cfg2 src.grid inp with hp2
  have hfiles2 : s2.files = p2.files o3 cfg2.steps := by rw [hs3]; rfl
  have hpw : (p1.files o' cfg.runConfig.steps).Pairwise fun x y =>
      minuteString (dateTimeOf cfg.calendar y.1) ≠ minuteString (dateTimeOf cfg.calendar x.1) :=
    fwd_names_differ cfg.runConfig src.grid inp cfg.calendar hR.timestep_pos hmin hy o'
  set two' := p1.files o' (b + 1) ++ p2.files o3 cfg2.steps with htwo'
  have htimes2 : ∀ k, (p2.files o2 k).map Prod.fst = (p2.files o3 k).map Prod.fst := fun k => by
    rw [Proc.files_time, Proc.files_time]
  have htimes : (p1.files o' cfg.runConfig.steps).map Prod.fst = two'.map Prod.fst := by
    rw [hsplit, htwo', List.map_append, List.map_append, htimes2]
  have hpw' : two'.Pairwise fun x y =>
      minuteString (dateTimeOf cfg.calendar y.1) ≠ minuteString (dateTimeOf cfg.calendar x.1) := by
    have h1 := (List.pairwise_map (f := Prod.fst) (R := fun x y =>
      minuteString (dateTimeOf cfg.calendar y) ≠ minuteString (dateTimeOf cfg.calendar x))).2 hpw
    rw [htimes] at h1
    exact List.pairwise_map.1 h1
  obtain ⟨one, hone⟩ := pick _ (hpw.imp (fun h e => h (by rw [e]))) o'
  obtain ⟨two, htwo⟩ := pick _ (hpw'.imp (fun h e => h (by rw [e]))) o'
  have mem : ∀ t, ForwardOutputTime cfg t → t ∈ (p1.files o' cfg.runConfig.steps).map Prod.fst := by
    rintro t ⟨k, hk1, hkN, rfl, hkw⟩
    obtain ⟨i, rfl⟩ : ∃ i, k = i + 1 := ⟨k - 1, by omega⟩
    exact List.mem_map.2 ⟨_, (Proc.mem_files _ _).2 ⟨i, hkN, decide_eq_true hkw, rfl⟩, rfl⟩
  have hdt : 0 < cfg.runConfig.dt := by
    have := hR.timestep_pos
    unfold RunConfig.dt usPerSecond
    positivity
  have time1 : ∀ x ∈ p1.files o' (b + 1), x.1 ≤ B := by
    intro x hx
    obtain ⟨i, hi, -, rfl⟩ := (Proc.mem_files _ _).1 hx
    show cfg.runConfig.fwdTime (i + 1) ≤ cfg.runConfig.fwdTime (b + 1)
    unfold RunConfig.fwdTime
    have : ((i + 1 : ℕ) : ℤ) ≤ ((b + 1 : ℕ) : ℤ) := by exact_mod_cast Nat.succ_le_succ (Nat.le_of_lt_succ hi)
    have := mul_le_mul_of_nonneg_right this hdt.le
    linarith
  have time2 : ∀ i, p2.time (i + 1) = B + ((i + 1 : ℕ) : ℤ) * cfg.runConfig.dt := fun i => rfl
  have timeS : ∀ i i', p2.time (i + 1) ≤ p2.time (i' + 1) → i ≤ i' := by
    intro i i' h
    rw [time2, time2] at h
    have h1 : ((i + 1 : ℕ) : ℤ) * cfg.runConfig.dt ≤ ((i' + 1 : ℕ) : ℤ) * cfg.runConfig.dt := by linarith
    have h2 := le_of_mul_le_mul_right h1 hdt
    have h3 : i + 1 ≤ i' + 1 := by exact_mod_cast h2
    omega
  have later : ∀ t, ForwardOutputTime cfg t → B < t → ∃ e, e + 1 ≤ cfg2.steps ∧ p2.write (e + 1) = true ∧ t = p2.time (e + 1) := by
    intro t ht hlt
    have := mem t ht
    rw [hsplit, List.map_append] at this
    rcases List.mem_append.1 this with h | h
    · obtain ⟨x, hx, rfl⟩ := List.mem_map.1 h
      exact absurd (time1 x hx) (not_le.2 hlt)
    · obtain ⟨x, hx, rfl⟩ := List.mem_map.1 h
      obtain ⟨e, he, hwe, rfl⟩ := (Proc.mem_files _ _).1 hx
      exact ⟨e, he, hwe, rfl⟩
  have one2 : ∀ e, ∀ x ∈ p2.files o2 e, e ≤ cfg2.steps → one x.1 = x.2 := by
    intro e x hx he
    refine hone x ?_
    rw [hsplit]
    refine List.mem_append_right _ ?_
    obtain ⟨i, hi, hwi, rfl⟩ := (Proc.mem_files _ _).1 hx
    exact (Proc.mem_files _ _).2 ⟨i, lt_of_lt_of_le hi he, hwi, rfl⟩
  have two2 : ∀ e, ∀ x ∈ p2.files o3 e, e ≤ cfg2.steps → two x.1 = x.2 := by
    intro e x hx he
    refine htwo x (List.mem_append_right _ ?_)
    obtain ⟨i, hi, hwi, rfl⟩ := (Proc.mem_files _ _).1 hx
    exact (Proc.mem_files _ _).2 ⟨i, lt_of_lt_of_le hi he, hwi, rfl⟩
  have hBone : one B = p1.full o' b := by
    refine hone (B, p1.full o' b) ?_
    exact (Proc.mem_files _ _).2 ⟨b, hbN, hw, rfl⟩
  refine ⟨one, two, ?_, ?_, ?_⟩
  · intro t ht
    refine ⟨?_, ?_⟩
    · obtain ⟨x, hx, rfl⟩ := List.mem_map.1 (mem t ht)
      rw [hone x hx]
      obtain ⟨before, aft, hs⟩ := List.append_of_mem hx
      refine f0 before x.1 x.2 aft (by rw [hfiles0, hs]) ?_
      rw [hs] at hpw
      exact (List.pairwise_cons.1 (List.pairwise_append.1 hpw).2.1).1
    · have := mem t ht
      rw [htimes] at this
      obtain ⟨x, hx, rfl⟩ := List.mem_map.1 this
      rw [htwo x hx]
      obtain ⟨hpa, hpb, hpc⟩ := List.pairwise_append.1 hpw'
      rcases List.mem_append.1 hx with hm | hm
      · have hold : fs1 (forwardFile cfg x.1) = some (.file (lib.showFwd x.2)) := by
          obtain ⟨before, aft, hs⟩ := List.append_of_mem hm
          refine f1 before x.1 x.2 aft hs ?_
          rw [hs] at hpa
          exact (List.pairwise_cons.1 (List.pairwise_append.1 hpa).2.1).1
        unfold forwardFile at hold ⊢
        rw [← forward_name'] at hold ⊢
        have hb2 : (withRestart true (startingAt B cfg)).config.rest.backward = false := hb
        have hout := (C109_forward lib (withRestart true (startingAt B cfg)) fs1 hb).2.1
        rw [e2s] at hout
        have k2' : fwdRun (withRestart true (startingAt B cfg)).runConfig src
          (fun t => (withRestart true (startingAt B cfg)).output ++
            [outputName (withRestart true (startingAt B cfg)).calendar false t])
          (restartFile lib.readFwd fs1) (withRestart true (startingAt B cfg)).fuel = .finished s2 := k2
        rw [k2'] at hout
        have := call_keeps lib hfirst parse second fs1 (withRestart true (startingAt B cfg)) w₂ x.1 (lib.showFwd x.2)
        rw [hb2] at this
        refine this hold ?_
        intro y hy
        rw [hout.1] at hy
        obtain ⟨z, hz, rfl⟩ := List.mem_map.1 hy
        rw [forward_name', forward_name']
        intro e
        have hz' : z ∈ p2.files o3 cfg2.steps := by rw [← hfiles2]; exact hz
        exact hpc _ hm z hz' (List.append_cancel_left (List.append_cancel_right e))
      · obtain ⟨before, aft, hs⟩ := List.append_of_mem hm
        refine f2 before x.1 x.2 aft (by rw [hfiles2, hs]) ?_
        rw [hs] at hpb
        exact (List.pairwise_cons.1 (List.pairwise_append.1 hpb).2.1).1
  · intro t ht hle
    have := mem t ht
    rw [hsplit, List.map_append] at this
    rcases List.mem_append.1 this with h | h
    · obtain ⟨x, hx, rfl⟩ := List.mem_map.1 h
      rw [hone x (by rw [hsplit]; exact List.mem_append_left _ hx), htwo x (List.mem_append_left _ hx)]
    · obtain ⟨x, hx, rfl⟩ := List.mem_map.1 h
      obtain ⟨e, he, hwe, rfl⟩ := (Proc.mem_files _ _).1 hx
      exfalso
      have hle : p2.time (e + 1) ≤ B := hle
      rw [time2] at hle
      have : 0 < ((e + 1 : ℕ) : ℤ) * cfg.runConfig.dt := mul_pos (by exact_mod_cast Nat.succ_pos e) hdt
      linarith
  · intro E hE hBE between hbet
    obtain ⟨e, he, hwe, rfl⟩ := later E hE hBE
    have g := hgap e he hwe
    have m1 : one (p2.time (e + 1)) = p2.full o2 e :=
      one2 (e + 1) (p2.time (e + 1), p2.full o2 e) ((Proc.mem_files _ _).2 ⟨e, Nat.lt_succ_self e, hwe, rfl⟩) he
    have m2 : two (p2.time (e + 1)) = p2.full o3 e :=
      two2 (e + 1) (p2.time (e + 1), p2.full o3 e) ((Proc.mem_files _ _).2 ⟨e, Nat.lt_succ_self e, hwe, rfl⟩) he
    rw [m1, m2, hBone]
    refine le_trans (add_le_add le_rfl ?_) g
    refine sum_le_pairs _ (fwdFate_nonneg src.grid.a ha) one two _ _ between (htimes2 _) (fun x hx => one2 _ x hx he)
      (fun x hx => two2 _ x hx he) ?_
    intro t ht
    obtain ⟨h1, h2, h3⟩ := hbet t ht
    obtain ⟨i, hi, hwi, rfl⟩ := later t h1 h2
    exact List.mem_map.2 ⟨_, (Proc.mem_files _ _).2 ⟨i, Nat.lt_succ_of_le (timeS i e h3), hwi, rfl⟩, rfl⟩

/-- the run that restarts from the rounded file, against the uninterrupted one, at each time at which it writes -/
private theorem bwd_rounded (cfg : RunConfig K) (src : Source m n K) (inp : Input m n K) (path : ℤ → P)
    (h : Runnable cfg src inp)
    (hp : Physical inp cfg.tracking_start_date cfg.tracking_end_date) (ha : ∀ i, 0 < src.grid.a i)
    (hk : 0 ≤ cfg.kvf) (calm : CalmBwd cfg src.grid inp) (R : Rounding K) {u η : K} (hR : Accurate R u η)
    (o : BwdOutput (m + 2) (n + 2) K) (hs0 : ∀ i j, 0 ≤ o.s_track_lower i j ∧ 0 ≤ o.s_track_upper i j)
    (b : ℕ) (hb : b + 1 ≤ cfg.steps) (hw : (bwdProc cfg src.grid inp).write (b + 1) = true)
    (disk' : P → Option (BwdOutput (m + 2) (n + 2) K))
    (hd' : disk' (path (cfg.bwdTime (b + 1))) = some (((bwdProc cfg src.grid inp).full o b).cast R.rnd))
    (cfg2 : RunConfig K) (hcfg2 : cfg2 = { cfg with tracking_end_date := cfg.bwdTime (b + 1), restart := true }) :
    ∃ o2 o2', bwdInitialize cfg2 src path disk' = .ok o2' ∧
      (bwdProc cfg src.grid inp).files o cfg.steps =
        (bwdProc cfg src.grid inp).files o (b + 1) ++ (bwdProc cfg2 src.grid inp).files o2 cfg2.steps ∧
      ∀ e, e + 1 ≤ cfg2.steps → (bwdProc cfg2 src.grid inp).write (e + 1) = true →
        bwdStorageGap src.grid.a ((bwdProc cfg2 src.grid inp).full o2 e) ((bwdProc cfg2 src.grid inp).full o2' e) +
          sumPairs ((bwdProc cfg2 src.grid inp).files o2 (e + 1)) ((bwdProc cfg2 src.grid inp).files o2' (e + 1))
            (bwdFateGap src.grid.a) ≤
        u * (total src.grid.a ((bwdProc cfg src.grid inp).full o b).s_track_lower +
            total src.grid.a ((bwdProc cfg src.grid inp).full o b).s_track_upper) +
          2 * η * total src.grid.a (fun _ (_ : Fin (n + 2)) => (1 : K)) := by
  set f := (bwdProc cfg src.grid inp).full o b with hf
  obtain ⟨s2, hs2, e1, -, -⟩ := bwd_restart cfg src inp path h o b hb hw (fun _ => some f) rfl
  rw [← hcfg2] at hs2
  have h2 : Runnable cfg2 src inp := by rw [hcfg2]; exact h.bwd_end (b + 1) hb
  obtain ⟨o2, r2, ho2, rfl⟩ := bwd_ends cfg2 src inp path _ h2 hs2
  have t2 : cfg2.tracking_end_date = cfg.bwdTime (b + 1) := by rw [hcfg2]
  obtain ⟨o2', ho2'⟩ := bwd_init_ok cfg2 src inp path disk' h2 (fun _ => by rw [t2, hd']; rfl)
  refine ⟨o2, o2', ho2', e1, ?_⟩
  intro e he hwe
  set cfg3 : RunConfig K := { cfg2 with tracking_start_date := cfg2.bwdTime (e + 1) } with hc3
  have h3 : Runnable cfg3 src inp := h2.bwd_start (e + 1) he
  have hst : cfg3.steps = e + 1 := cfg2.steps_bwd_start h2.timestep_pos (e + 1)
  obtain ⟨q1, q2⟩ := bwd_first_part cfg2 src.grid inp o2 h2.timestep_pos (e + 1) he (of_decide_eq_true hwe)
  obtain ⟨q1', q2'⟩ := bwd_first_part cfg2 src.grid inp o2' h2.timestep_pos (e + 1) he (of_decide_eq_true hwe)
  have i3 : bwdInitialize cfg3 src path (fun _ => some f) = .ok o2 := ho2
  have i3' : bwdInitialize cfg3 src path disk' = .ok o2' := ho2'
  obtain ⟨r, -, -, hrun⟩ := bwd_run_eq cfg3 src inp path _ h3 o2 i3
  obtain ⟨r', -, -, hrun'⟩ := bwd_run_eq cfg3 src inp path _ h3 o2' i3'
  have hB1 : cfg.bwdTime (b + 1) ≤ cfg.tracking_end_date :=
    (cfg.bwdTime_mem h.timestep_pos h.ordered (b + 1) hb).2
  have hE1 : cfg.tracking_start_date ≤ cfg3.tracking_start_date := by
    have := (cfg2.bwdTime_mem h2.timestep_pos h2.ordered (e + 1) he).1
    have t : cfg2.tracking_start_date = cfg.tracking_start_date := by rw [hcfg2]
    rw [← t]
    exact this
  have hS3 : cfg3.tracking_end_date = cfg.bwdTime (b + 1) := t2
  have hp3 : Physical inp cfg3.tracking_start_date cfg3.tracking_end_date :=
    { wet := fun t h0 h1 => hp.wet t (hE1.trans h0) ((hS3 ▸ h1 : t ≤ cfg.bwdTime (b + 1)).trans hB1)
      precip := fun t h0 h1 => hp.precip t (hE1.trans h0) ((hS3 ▸ h1 : t ≤ cfg.bwdTime (b + 1)).trans hB1)
      evap := fun t h0 h1 => hp.evap t (hE1.trans h0) ((hS3 ▸ h1 : t ≤ cfg.bwdTime (b + 1)).trans hB1)
      region := fun t h0 h1 => hp.region t (hE1.trans h0) ((hS3 ▸ h1 : t ≤ cfg.bwdTime (b + 1)).trans hB1) }
  have hnn : ∀ i j, 0 ≤ f.s_track_lower i j ∧ 0 ≤ f.s_track_upper i j := by
    intro i j
    have := bwd_out_nonneg cfg src inp h hp o hs0 (b + 1) hb i j
    rw [(bwd_out_succ cfg inp src.grid o b).1, (bwd_out_succ cfg inp src.grid o b).2] at this
    exact this
  have calm2 : CalmBwd cfg2 src.grid inp := by rw [hcfg2]; exact calm_bwd_end cfg src.grid inp calm (b + 1)
  have calm3 : CalmBwd cfg3 src.grid inp := by
    intro k hk
    refine calm2 k (le_trans ?_ hk)
    have := (cfg2.bwdTime_mem h2.timestep_pos h2.ordered (e + 1) he).1
    show cfg2.tracking_start_date + _ ≤ cfg3.tracking_start_date + _
    exact add_le_add this le_rfl
  have hk3 : 0 ≤ cfg3.kvf := by
    have : cfg3.kvf = cfg.kvf := by rw [hc3, hcfg2]
    rw [this]
    exact hk
  have hr3 : cfg3.restart = true := by rw [hc3, hcfg2]
  obtain ⟨-, k2⟩ := bwd_restart_gap cfg3 src inp path (fun _ => some f) disk' h3 hp3 ha hk3 calm3 R hR hr3 f rfl
    (by rw [hS3]; exact hd') hnn
    ⟨cfg3.steps, fun fuel hf => (hrun fuel).trans (if_neg (not_lt.mpr hf))⟩
    ⟨cfg3.steps, fun fuel hf => (hrun' fuel).trans (if_neg (not_lt.mpr hf))⟩
  have x1 : (bwdStateAt cfg3 src inp r o2 cfg3.steps).files = (bwdProc cfg2 src.grid inp).files o2 (e + 1) := by
    rw [hst]; exact q1
  have x1' : (bwdStateAt cfg3 src inp r' o2' cfg3.steps).files = (bwdProc cfg2 src.grid inp).files o2' (e + 1) := by
    rw [hst]; exact q1'
  have x2 : (bwdStateAt cfg3 src inp r o2 cfg3.steps).output = (bwdProc cfg2 src.grid inp).out o2 (e + 1) := by
    rw [hst]; exact q2
  have x2' : (bwdStateAt cfg3 src inp r' o2' cfg3.steps).output = (bwdProc cfg2 src.grid inp).out o2' (e + 1) := by
    rw [hst]; exact q2'
  rw [x1, x1', x2, x2'] at k2
  unfold bwdStorageGap at k2 ⊢
  rw [(bwd_out_succ cfg2 inp src.grid o2 e).1, (bwd_out_succ cfg2 inp src.grid o2 e).2,
    (bwd_out_succ cfg2 inp src.grid o2' e).1, (bwd_out_succ cfg2 inp src.grid o2' e).2] at k2
  exact k2

/-- Backward, with files in single precision: reading back the file of `B` gives its numbers rounded (`R`, with unit roundoff `u`; `η` is the underflow
threshold).  All three commands succeed.  From the end back to `B` the two commands give the same output as the one command over the whole period.  In weather in which no cell
loses more water than it holds, at every output time `E` before `B` the tracked storage, and the tracked evaporation and losses of any of the files from `B` to `E` taken
together, differ from those of the one command by at most the fraction `u` of the tracked storage at `B`. -/
theorem C117_backward (lib : Library m n K) (hfirst : ∀ q name, lib.first q = some name → q name = true)
    (parse : List Char → Except Err (FileSettings (TrackSettings K))) (fs : FileSystem)
    (cfg : Loaded (TrackSettings K)) (hb : cfg.config.rest.backward = true)
    (inp : Input m n K) (hR : Runnable cfg.runConfig (bwdSource lib cfg fs) inp) (hmin : 60 ∣ cfg.config.rest.timestep)
    (hp : Physical inp (cfg.config.dates .tracking_start_date) (cfg.config.dates .tracking_end_date))
    (ha : ∀ i, 0 < (bwdSource lib cfg fs).grid.a i) (hk : 0 ≤ cfg.config.rest.kvf)
    (calm : CalmBwd cfg.runConfig (bwdSource lib cfg fs).grid inp)
    (hre : cfg.config.rest.restart = true → ∃ text o,
      fs (backwardFile cfg (cfg.config.dates .tracking_end_date)) = some (.file text) ∧ lib.readBwd text = some o ∧
      ∀ i j, 0 ≤ o.s_track_lower i j ∧ 0 ≤ o.s_track_upper i j)
    (hy : ∀ t, cfg.config.dates .tracking_start_date ≤ t → t ≤ cfg.config.dates .tracking_end_date →
      FourDigitYear cfg.calendar t)
    (hapart : ∀ p, TrackInput (withRestart false cfg) p → ¬ Below cfg.output p)
    (B : ℤ) (hB : BackwardOutputTime cfg B) (hax : SameAxes lib cfg fs (cfg.config.dates .tracking_end_date) B)
    (whole first second : TrackCall K) (h₀ : whole.Ready parse fs cfg) (h₁ : first.Ready parse fs (startingAt B cfg))
    (h₂ : second.Ready parse fs (withRestart true (endingAt B cfg)))
    (R : Rounding K) {u η : K} (hA : Accurate R u η)
    (hback : ∀ o, after (first.act lib parse) fs (backwardFile cfg B) = some (.file (lib.showBwd o)) →
      lib.readBwd (lib.showBwd o) = some (o.cast R.rnd)) :
    (whole.act lib parse fs).2 = .ok () ∧ (first.act lib parse fs).2 = .ok () ∧
    (second.act lib parse (after (first.act lib parse) fs)).2 = .ok () ∧
    ∃ one two : ℤ → BwdOutput (m + 2) (n + 2) K,
      (∀ t, BackwardOutputTime cfg t →
        after (whole.act lib parse) fs (backwardFile cfg t) = some (.file (lib.showBwd (one t))) ∧
        after (second.act lib parse) (after (first.act lib parse) fs) (backwardFile cfg t) =
          some (.file (lib.showBwd (two t)))) ∧
      (∀ t, BackwardOutputTime cfg t → B ≤ t → two t = one t) ∧
      ∀ E, BackwardOutputTime cfg E → E < B → ∀ between : Finset ℤ,
        (∀ t ∈ between, BackwardOutputTime cfg t ∧ t < B ∧ E ≤ t) →
        bwdStorageGap (bwdSource lib cfg fs).grid.a (one E) (two E) +
            ∑ t ∈ between, bwdFateGap (bwdSource lib cfg fs).grid.a (one t) (two t) ≤
          u * (total (bwdSource lib cfg fs).grid.a (one B).s_track_lower +
              total (bwdSource lib cfg fs).grid.a (one B).s_track_upper) +
            2 * η * total (bwdSource lib cfg fs).grid.a (fun _ (_ : Fin (n + 2)) => (1 : K)) := by
  set src := bwdSource lib cfg fs with hsrc
  set path : ℤ → FPath := fun t => cfg.output ++ [outputName cfg.calendar true t] with hpath
  have hname : ∀ t, path t = backwardFile cfg t := fun t => by
    rw [hpath]
    simp only
    rw [backward_name']
    rfl
  obtain ⟨o, ho⟩ := bwd_init_ok cfg.runConfig src inp path (restartFile lib.readBwd fs) hR (fun h => by
      obtain ⟨text, o, h1, h2, -⟩ := hre h
      unfold restartFile
      have : fs (path cfg.runConfig.tracking_end_date) = some (.file text) := by
        rw [hname]
        exact h1
      rw [this]
      simp only [h2]
      rfl)
  have hs0 : ∀ i j, 0 ≤ o.s_track_lower i j ∧ 0 ≤ o.s_track_upper i j := by
    have e := bwd_init_eq cfg.runConfig src path _ o ho
    rw [e]
    intro i j
    simp only
    unfold startBwd
    rcases hr : cfg.runConfig.restart with _ | _
    · exact ⟨le_rfl, le_rfl⟩
    · obtain ⟨text, o', h1, h2, h3⟩ := hre hr
      have : restartFile lib.readBwd fs (path cfg.runConfig.tracking_end_date) = some o' := by
        unfold restartFile
        have : fs (path cfg.runConfig.tracking_end_date) = some (.file text) := by
          rw [hname]
          exact h1
        rw [this]
        exact h2
      rw [this]
      exact h3 i j
  have w₀ : whole.Works lib parse fs cfg := by
    refine ⟨h₀.given, h₀.input, ?_⟩
    obtain ⟨r, -, -, hall⟩ := bwd_run_eq cfg.runConfig src inp _ _ hR o ho
    refine (C112_backward lib hfirst parse whole.cwd whole.dir whole.stem whole.stamp fs whole.settings cfg h₀.given h₀.input
      h₀.room hb).1 _ ((hall cfg.fuel).trans (if_neg ?_))
    show ¬ cfg.fuel < cfg.fuel
    omega
  obtain ⟨k, hk1, hkN, rfl, hkw⟩ := hB
  obtain ⟨b, rfl⟩ : ∃ b, k = b + 1 := ⟨k - 1, by omega⟩
  have hbN : b + 1 ≤ cfg.runConfig.steps := hkN
  have hw : (bwdProc cfg.runConfig src.grid inp).write (b + 1) = true := decide_eq_true hkw
  set B : ℤ := cfg.config.dates .tracking_end_date - ((b + 1 : ℕ) : ℤ) * (cfg.config.rest.timestep * 1000000) with hBdef
  have hBt : B = cfg.runConfig.bwdTime (b + 1) := rfl
  have w₁ : first.Works lib parse fs (startingAt B cfg) := by
    refine ⟨h₁.given, h₁.input, ?_⟩
    have hR1 : Runnable (startingAt B cfg).runConfig (bwdSource lib (startingAt B cfg) fs) inp := hR.bwd_start (b + 1) hbN
    obtain ⟨r, -, -, hall⟩ := bwd_run_eq _ _ inp path (restartFile lib.readBwd fs) hR1 o ho
    refine (C112_backward lib hfirst parse first.cwd first.dir first.stem first.stamp fs first.settings _ h₁.given h₁.input
      h₁.room hb).1 _ ((hall (startingAt B cfg).fuel).trans (if_neg ?_))
    show ¬ (startingAt B cfg).fuel < (startingAt B cfg).fuel
    omega
  obtain ⟨f1, hlast, e2s⟩ := first_part_bwd lib hfirst parse fs cfg hb inp hR hapart b hbN hw hax o ho first w₁
  set fs1 := after (first.act lib parse) fs with hfs1
  have e2s : bwdSource lib (withRestart true (endingAt B cfg)) fs1 = src := e2s
  have hlast : fs1 (path B) = some (.file (lib.showBwd ((bwdProc cfg.runConfig src.grid inp).full o b))) := hlast
  set cfg2 := (withRestart true (endingAt B cfg)).runConfig with hcfg2
  have hR2 : Runnable cfg2 src inp := hR.bwd_end (b + 1) hbN
  have hd' : restartFile lib.readBwd fs1 (path (cfg.runConfig.bwdTime (b + 1))) =
      some (((bwdProc cfg.runConfig src.grid inp).full o b).cast R.rnd) := by
    unfold restartFile
    have : fs1 (path (cfg.runConfig.bwdTime (b + 1))) = _ := hlast
    rw [this]
    rw [hname] at hlast
    exact hback _ hlast
  obtain ⟨o2, o2', ho2', hsplit, hgap⟩ := bwd_rounded cfg.runConfig src inp path hR hp ha hk calm R hA o hs0 b hbN hw
    (restartFile lib.readBwd fs1) hd' cfg2 rfl
  have w₂ : second.Works lib parse fs1 (withRestart true (endingAt B cfg)) := by
    have r₂ := ready_after lib hfirst parse first second fs (startingAt B cfg) (withRestart true (endingAt B cfg)) rfl rfl w₁ h₁ h₂
    refine ⟨r₂.given, r₂.input, ?_⟩
    obtain ⟨r, -, -, hall⟩ := bwd_run_eq _ _ inp _ _ hR2 o2' ho2'
    rw [← e2s] at hall
    refine (C112_backward lib hfirst parse second.cwd second.dir second.stem second.stamp _ second.settings _ r₂.given r₂.input
      r₂.room hb).1 _ ((hall (withRestart true (endingAt B cfg)).fuel).trans (if_neg ?_))
    show ¬ (withRestart true (endingAt B cfg)).fuel < (withRestart true (endingAt B cfg)).fuel
    omega
  refine ⟨w₀.ends, w₁.ends, w₂.ends, ?_⟩
  -- the files
  obtain ⟨s0, k0, f0⟩ := call_files_bwd lib hfirst parse whole fs cfg w₀ hb
  obtain ⟨o', r, ho', hs0', -⟩ := bwd_finished hR k0
  have hoo : o' = o := by
    have : bwdInitialize cfg.runConfig src path (restartFile lib.readBwd fs) = .ok o' := ho'
    rw [ho] at this
    injection this with this
    exact this.symm
  subst hoo
  have hfiles0 : s0.files = (bwdProc cfg.runConfig src.grid inp).files o' cfg.runConfig.steps := by rw [hs0']; rfl
  obtain ⟨s2, k2, f2⟩ := call_files_bwd lib hfirst parse second fs1 (withRestart true (endingAt B cfg)) w₂ hb
  rw [e2s] at k2
  obtain ⟨o3, r3, ho3, hs3, -⟩ := bwd_finished hR2 k2
  have hoo : o3 = o2' := by
    have : bwdInitialize cfg2 src path (restartFile lib.readBwd fs1) = .ok o3 := ho3
    rw [ho2'] at this
    injection this with this
    exact this.symm
  subst hoo
  set p1 := bwdProc cfg.runConfig src.grid inp with hp1
  set p2 := bwdProc cfg2 src.grid inp with hp2
  have hfiles2 : s2.files = p2.files o3 cfg2.steps := by rw [hs3]; rfl
  have hpw : (p1.files o' cfg.runConfig.steps).Pairwise fun x y =>
      minuteString (dateTimeOf cfg.calendar y.1) ≠ minuteString (dateTimeOf cfg.calendar x.1) :=
    bwd_names_differ cfg.runConfig src.grid inp cfg.calendar hR.timestep_pos hmin hy o'
  set two' := p1.files o' (b + 1) ++ p2.files o3 cfg2.steps with htwo'
  have htimes2 : ∀ k, (p2.files o2 k).map Prod.fst = (p2.files o3 k).map Prod.fst := fun k => by
    rw [Proc.files_time, Proc.files_time]
  have htimes : (p1.files o' cfg.runConfig.steps).map Prod.fst = two'.map Prod.fst := by
    rw [hsplit, htwo', List.map_append, List.map_append, htimes2]
  have hpw' : two'.Pairwise fun x y =>
      minuteString (dateTimeOf cfg.calendar y.1) ≠ minuteString (dateTimeOf cfg.calendar x.1) := by
    have h1 := (List.pairwise_map (f := Prod.fst) (R := fun x y =>
      minuteString (dateTimeOf cfg.calendar y) ≠ minuteString (dateTimeOf cfg.calendar x))).2 hpw
    rw [htimes] at h1
    exact List.pairwise_map.1 h1
  obtain ⟨one, hone⟩ := pick _ (hpw.imp (fun h e => h (by rw [e]))) o'
  obtain ⟨two, htwo⟩ := pick _ (hpw'.imp (fun h e => h (by rw [e]))) o'
  have mem : ∀ t, BackwardOutputTime cfg t → t ∈ (p1.files o' cfg.runConfig.steps).map Prod.fst := by
    rintro t ⟨k, hk1, hkN, rfl, hkw⟩
    obtain ⟨i, rfl⟩ : ∃ i, k = i + 1 := ⟨k - 1, by omega⟩
    exact List.mem_map.2 ⟨_, (Proc.mem_files _ _).2 ⟨i, hkN, decide_eq_true hkw, rfl⟩, rfl⟩
  have hdt : 0 < cfg.runConfig.dt := by
    have := hR.timestep_pos
    unfold RunConfig.dt usPerSecond
    positivity
  have time1 : ∀ x ∈ p1.files o' (b + 1), B ≤ x.1 := by
    intro x hx
    obtain ⟨i, hi, -, rfl⟩ := (Proc.mem_files _ _).1 hx
    show cfg.runConfig.bwdTime (b + 1) ≤ cfg.runConfig.bwdTime (i + 1)
    unfold RunConfig.bwdTime
    have : ((i + 1 : ℕ) : ℤ) ≤ ((b + 1 : ℕ) : ℤ) := by exact_mod_cast Nat.succ_le_succ (Nat.le_of_lt_succ hi)
    have := mul_le_mul_of_nonneg_right this hdt.le
    linarith
  have time2 : ∀ i, p2.time (i + 1) = B - ((i + 1 : ℕ) : ℤ) * cfg.runConfig.dt := fun i => rfl
  have timeS : ∀ i i', p2.time (i' + 1) ≤ p2.time (i + 1) → i ≤ i' := by
    intro i i' h
    rw [time2, time2] at h
    have h1 : ((i + 1 : ℕ) : ℤ) * cfg.runConfig.dt ≤ ((i' + 1 : ℕ) : ℤ) * cfg.runConfig.dt := by linarith
    have h2 := le_of_mul_le_mul_right h1 hdt
    have h3 : i + 1 ≤ i' + 1 := by exact_mod_cast h2
    omega
  have later : ∀ t, BackwardOutputTime cfg t → t < B → ∃ e, e + 1 ≤ cfg2.steps ∧ p2.write (e + 1) = true ∧ t = p2.time (e + 1) := by
    intro t ht hlt
    have := mem t ht
    rw [hsplit, List.map_append] at this
    rcases List.mem_append.1 this with h | h
    · obtain ⟨x, hx, rfl⟩ := List.mem_map.1 h
      exact absurd (time1 x hx) (not_le.2 hlt)
    · obtain ⟨x, hx, rfl⟩ := List.mem_map.1 h
      obtain ⟨e, he, hwe, rfl⟩ := (Proc.mem_files _ _).1 hx
      exact ⟨e, he, hwe, rfl⟩
  have one2 : ∀ e, ∀ x ∈ p2.files o2 e, e ≤ cfg2.steps → one x.1 = x.2 := by
    intro e x hx he
    refine hone x ?_
    rw [hsplit]
    refine List.mem_append_right _ ?_
    obtain ⟨i, hi, hwi, rfl⟩ := (Proc.mem_files _ _).1 hx
    exact (Proc.mem_files _ _).2 ⟨i, lt_of_lt_of_le hi he, hwi, rfl⟩
  have two2 : ∀ e, ∀ x ∈ p2.files o3 e, e ≤ cfg2.steps → two x.1 = x.2 := by
    intro e x hx he
    refine htwo x (List.mem_append_right _ ?_)
    obtain ⟨i, hi, hwi, rfl⟩ := (Proc.mem_files _ _).1 hx
    exact (Proc.mem_files _ _).2 ⟨i, lt_of_lt_of_le hi he, hwi, rfl⟩
  have hBone : one B = p1.full o' b := by
    refine hone (B, p1.full o' b) ?_
    exact (Proc.mem_files _ _).2 ⟨b, hbN, hw, rfl⟩
  refine ⟨one, two, ?_, ?_, ?_⟩
  · intro t ht
    refine ⟨?_, ?_⟩
    · obtain ⟨x, hx, rfl⟩ := List.mem_map.1 (mem t ht)
      rw [hone x hx]
      obtain ⟨before, aft, hs⟩ := List.append_of_mem hx
      refine f0 before x.1 x.2 aft (by rw [hfiles0, hs]) ?_
      rw [hs] at hpw
      exact (List.pairwise_cons.1 (List.pairwise_append.1 hpw).2.1).1
    · have := mem t ht
      rw [htimes] at this
      obtain ⟨x, hx, rfl⟩ := List.mem_map.1 this
      rw [htwo x hx]
      obtain ⟨hpa, hpb, hpc⟩ := List.pairwise_append.1 hpw'
      rcases List.mem_append.1 hx with hm | hm
      · have hold : fs1 (backwardFile cfg x.1) = some (.file (lib.showBwd x.2)) := by
          obtain ⟨before, aft, hs⟩ := List.append_of_mem hm
          refine f1 before x.1 x.2 aft hs ?_
          rw [hs] at hpa
          exact (List.pairwise_cons.1 (List.pairwise_append.1 hpa).2.1).1
        unfold backwardFile at hold ⊢
        rw [← backward_name'] at hold ⊢
        have hb2 : (withRestart true (endingAt B cfg)).config.rest.backward = true := hb
        have hout := (C109_backward lib (withRestart true (endingAt B cfg)) fs1 hb).2.1
        rw [e2s] at hout
        have k2' : bwdRun (withRestart true (endingAt B cfg)).runConfig src
          (fun t => (withRestart true (endingAt B cfg)).output ++
            [outputName (withRestart true (endingAt B cfg)).calendar true t])
          (restartFile lib.readBwd fs1) (withRestart true (endingAt B cfg)).fuel = .finished s2 := k2
        rw [k2'] at hout
        have := call_keeps lib hfirst parse second fs1 (withRestart true (endingAt B cfg)) w₂ x.1 (lib.showBwd x.2)
        rw [hb2] at this
        refine this hold ?_
        intro y hy
        rw [hout.1] at hy
        obtain ⟨z, hz, rfl⟩ := List.mem_map.1 hy
        rw [backward_name', backward_name']
        intro e
        have hz' : z ∈ p2.files o3 cfg2.steps := by rw [← hfiles2]; exact hz
        exact hpc _ hm z hz' (List.append_cancel_left (List.append_cancel_right e))
      · obtain ⟨before, aft, hs⟩ := List.append_of_mem hm
        refine f2 before x.1 x.2 aft (by rw [hfiles2, hs]) ?_
        rw [hs] at hpb
        exact (List.pairwise_cons.1 (List.pairwise_append.1 hpb).2.1).1
  · intro t ht hle
    have := mem t ht
    rw [hsplit, List.map_append] at this
    rcases List.mem_append.1 this with h | h
    · obtain ⟨x, hx, rfl⟩ := List.mem_map.1 h
      rw [hone x (by rw [hsplit]; exact List.mem_append_left _ hx), htwo x (List.mem_append_left _ hx)]
    · obtain ⟨x, hx, rfl⟩ := List.mem_map.1 h
      obtain ⟨e, he, hwe, rfl⟩ := (Proc.mem_files _ _).1 hx
      exfalso
      have hle : B ≤ p2.time (e + 1) := hle
      rw [time2] at hle
      have : 0 < ((e + 1 : ℕ) : ℤ) * cfg.runConfig.dt := mul_pos (by exact_mod_cast Nat.succ_pos e) hdt
      linarith
  · intro E hE hBE between hbet
    obtain ⟨e, he, hwe, rfl⟩ := later E hE hBE
    have g := hgap e he hwe
    have m1 : one (p2.time (e + 1)) = p2.full o2 e :=
      one2 (e + 1) (p2.time (e + 1), p2.full o2 e) ((Proc.mem_files _ _).2 ⟨e, Nat.lt_succ_self e, hwe, rfl⟩) he
    have m2 : two (p2.time (e + 1)) = p2.full o3 e :=
      two2 (e + 1) (p2.time (e + 1), p2.full o3 e) ((Proc.mem_files _ _).2 ⟨e, Nat.lt_succ_self e, hwe, rfl⟩) he
    rw [m1, m2, hBone]
    refine le_trans (add_le_add le_rfl ?_) g
    refine sum_le_pairs _ (bwdFate_nonneg src.grid.a ha) one two _ _ between (htimes2 _) (fun x hx => one2 _ x hx he)
      (fun x hx => two2 _ x hx he) ?_
    intro t ht
    obtain ⟨h1, h2, h3⟩ := hbet t ht
    obtain ⟨i, hi, hwi, rfl⟩ := later t h1 h2
    exact List.mem_map.2 ⟨_, (Proc.mem_files _ _).2 ⟨i, Nat.lt_succ_of_le (timeS i e h3), hwi, rfl⟩, rfl⟩

end

end Wam
