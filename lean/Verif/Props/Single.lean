import Verif.Model.Files
import Verif.Props.Contract
import Verif.Props.Restart
import Verif.Props.Complete
import Verif.Props.Superposition
import Verif.Spec.Single
import Mathlib.Data.Rat.Floor
import Verif.Lemmas.Ieee

/-!
# C95: restarts through single-precision files

Output files hold float32 numbers, so a restart starts from rounded storages (C29 takes the file to be
exact).  What the rounding of the restart file does to the rest of the run is at most what was rounded.
-/
set_option linter.unusedSectionVars false
set_option linter.unusedVariables false

namespace Wam
open Spec

section
variable {m n : ℕ} {K : Type} [Field K] [LinearOrder K] [IsStrictOrderedRing K] {P : Type*}

theorem gap_cast (a : Fin (m + 2) → K) (ha : ∀ i, 0 < a i) (R : Rounding K) {u η : K} (hR : Accurate R u η)
    (f : Arr (m + 2) (n + 2) K) (hf : ∀ i j, 0 ≤ f i j) :
    gap a f (fun i j => R.rnd (f i j)) ≤ u * total a f + η * total a (fun _ (_ : Fin (n + 2)) => (1 : K)) := by
  unfold gap total
  rw [Finset.mul_sum, Finset.mul_sum, ← Finset.sum_add_distrib]
  refine Finset.sum_le_sum fun i _ => ?_
  rw [Finset.mul_sum, Finset.mul_sum, ← Finset.sum_add_distrib]
  refine Finset.sum_le_sum fun j _ => ?_
  have h := hR.err (f i j)
  rw [abs_sub_comm, abs_of_nonneg (hf i j)] at h
  calc a i * |f i j - R.rnd (f i j)| ≤ a i * (u * f i j + η) := mul_le_mul_of_nonneg_left h (ha i).le
    _ = _ := by ring

theorem rnd_nonneg (R : Rounding K) {x : K} (h : 0 ≤ x) : 0 ≤ R.rnd x := by
  rw [← R.zero]; exact R.mono h


/-! ### Forward -/

/-- a calm run stays calm when it starts later -/
theorem calm_fwd_start (cfg : RunConfig K) (g : GridInfo (m + 2) K) (inp : Input m n K)
    (calm : CalmFwd cfg g inp) (b : ℕ) :
    CalmFwd { cfg with tracking_start_date := cfg.fwdTime b, restart := true } g inp := by
  intro k hk
  have hk' : cfg.fwdTime b + ((k : ℤ) + 1) * (cfg.timestep * 1000000) ≤ cfg.tracking_end_date := hk
  have e : cfg.fwdTime b + (k : ℤ) * (cfg.timestep * 1000000) =
      cfg.tracking_start_date + ((b + k : ℕ) : ℤ) * (cfg.timestep * 1000000) := by
    unfold RunConfig.fwdTime RunConfig.dt usPerSecond; push_cast; ring
  have := calm (b + k) (by linarith)
  show NoOverdrawFwd _ _ _ _ _ _ _
  simp only [e]
  exact this

theorem fwd_init_file (cfg : RunConfig K) (src : Source m n K) (inp : Input m n K) (path : ℤ → P)
    (disk : P → Option (FwdOutput (m + 2) (n + 2) K)) (h : Runnable cfg src inp) (hr : cfg.restart = true)
    (f) (hd : disk (path cfg.tracking_start_date) = some f) :
    ∃ s, EndsIn (fwdRun cfg src path disk) s := by
  obtain ⟨o, ho⟩ := fwd_init_ok cfg src inp path disk h (by simp [hd])
  obtain ⟨r, _, _, hrun⟩ := fwd_run_eq cfg src inp path _ h o ho
  exact ⟨_, ⟨cfg.steps, fun fuel hf => (hrun fuel).trans (if_neg (not_lt.mpr hf))⟩⟩

/-- the restarted run from the rounded file against the restarted run from the exact file -/
theorem fwd_restart_gap (cfg : RunConfig K) (src : Source m n K) (inp : Input m n K) (path : ℤ → P)
    (disk disk' : P → Option (FwdOutput (m + 2) (n + 2) K)) (h : Runnable cfg src inp)
    (hp : Physical inp cfg.tracking_start_date cfg.tracking_end_date) (ha : ∀ i, 0 < src.grid.a i)
    (hk : 0 ≤ cfg.kvf) (calm : CalmFwd cfg src.grid inp) (R : Rounding K) {u η : K} (hR : Accurate R u η)
    (hr : cfg.restart = true) (f) (hd : disk (path cfg.tracking_start_date) = some f)
    (hd' : disk' (path cfg.tracking_start_date) = some (f.cast R.rnd))
    (hf : ∀ i j, 0 ≤ f.s_track_lower i j ∧ 0 ≤ f.s_track_upper i j) {s s'}
    (hs : EndsIn (fwdRun cfg src path disk) s) (hs' : EndsIn (fwdRun cfg src path disk') s') :
    s.files.length = s'.files.length ∧
    fwdStorageGap src.grid.a s.output s'.output + sumPairs s.files s'.files (fwdFateGap src.grid.a) ≤
      u * (total src.grid.a f.s_track_lower + total src.grid.a f.s_track_upper) +
        2 * η * total src.grid.a (fun _ (_ : Fin (n + 2)) => (1 : K)) := by
  have e : startFwd cfg path disk = (f.s_track_lower, f.s_track_upper) := by
    unfold startFwd; rw [hr, hd]
  have e' : startFwd cfg path disk' = (fun i j => R.rnd (f.s_track_lower i j), fun i j => R.rnd (f.s_track_upper i j)) := by
    unfold startFwd; rw [hr, hd']; rfl
  obtain ⟨k1, k2⟩ := C90_run_forward cfg src src inp inp path path disk disk' h h rfl ⟨rfl, rfl⟩ hp hp ha hk
    calm (by rw [e]; exact hf)
    (by rw [e']; exact fun i j => ⟨rnd_nonneg R (hf i j).1, rnd_nonneg R (hf i j).2⟩) hs hs'
  have z : tagGapFwd cfg src.grid.a inp inp = 0 := by
    simp [tagGapFwd, total]
  rw [z, e, e'] at k2
  have g1 := gap_cast src.grid.a ha R hR f.s_track_lower (fun i j => (hf i j).1)
  have g2 := gap_cast src.grid.a ha R hR f.s_track_upper (fun i j => (hf i j).2)
  refine ⟨k1, k2.trans ?_⟩
  simp only
  linarith

/-- **C95** (forward): a run over `[A, C]` and, for any of its output times `B`, the run over `[A, B]`
followed by a restart from the file of `B` as it is on disk, i.e. rounded to single precision (`R`, with unit
roundoff `u`; `η` is the underflow threshold).  The first part writes the same files; the restarted run
completes and writes files for the same times.  In weather in which no cell loses more water than it holds,
the restarted run differs from the uninterrupted one - in the final tracked storage and in all later files'
tracked precipitation and losses together - by at most the fraction `u` of the tracked storage at `B`. -/
theorem C95_restart_forward [DecidableEq P] (cfg : RunConfig K) (src : Source m n K) (inp : Input m n K)
    (path : ℤ → P) (disk : P → Option (FwdOutput (m + 2) (n + 2) K)) (h : Runnable cfg src inp)
    (hp : Physical inp cfg.tracking_start_date cfg.tracking_end_date) (ha : ∀ i, 0 < src.grid.a i)
    (hk : 0 ≤ cfg.kvf) (calm : CalmFwd cfg src.grid inp) (R : Rounding K) {u η : K} (hR : Accurate R u η)
    (hs0 : ∀ i j, 0 ≤ (startFwd cfg path disk).1 i j ∧ 0 ≤ (startFwd cfg path disk).2 i j)
    {s} (hs : EndsIn (fwdRun cfg src path disk) s) (B : ℤ) (hB : B ∈ s.files.map Prod.fst) :
    ∃ s1 s2 f later, EndsIn (fwdRun { cfg with tracking_end_date := B } src path disk) s1 ∧
      EndsIn (fwdRun { cfg with tracking_start_date := B, restart := true } src path
        (saveFwd R.rnd path disk s1.files)) s2 ∧
      s.files = s1.files ++ later ∧ s1.files.getLast? = some (B, f) ∧
      later.map Prod.fst = s2.files.map Prod.fst ∧
      fwdStorageGap src.grid.a s.output s2.output + sumPairs later s2.files (fwdFateGap src.grid.a) ≤
        u * (total src.grid.a f.s_track_lower + total src.grid.a f.s_track_upper) +
          2 * η * total src.grid.a (fun _ (_ : Fin (n + 2)) => (1 : K)) := by
  obtain ⟨o, r, ho, rfl⟩ := fwd_ends cfg src inp path disk h hs
  have eo := fwd_init_eq cfg src path disk o ho
  obtain ⟨x, hx, rfl⟩ := List.mem_map.mp hB
  obtain ⟨b, hb, hw, rfl⟩ := (Proc.mem_files _ _).mp hx
  have hw' : writes cfg.fwdTime cfg.output_frequency cfg.steps (b + 1) := of_decide_eq_true hw
  change ∃ s1 s2 f later, EndsIn (fwdRun { cfg with tracking_end_date := cfg.fwdTime (b + 1) } src path disk)
    s1 ∧ EndsIn (fwdRun { cfg with tracking_start_date := cfg.fwdTime (b + 1), restart := true } src
    path (saveFwd R.rnd path disk s1.files)) s2 ∧ _ ∧ s1.files.getLast? = some (cfg.fwdTime (b + 1), f) ∧ _
  set cfg1 : RunConfig K := { cfg with tracking_end_date := cfg.fwdTime (b + 1) }
  set cfg2 : RunConfig K := { cfg with tracking_start_date := cfg.fwdTime (b + 1), restart := true } with hc2
  have h1 : Runnable cfg1 src inp := h.fwd_end (b + 1) hb
  have h2 : Runnable cfg2 src inp := h.fwd_start (b + 1) hb
  have ho1 : fwdInitialize cfg1 src path disk = .ok o := ho
  obtain ⟨r1, _, _, hrun⟩ := fwd_run_eq cfg1 src inp path disk h1 o ho1
  have hst : cfg1.steps = b + 1 := cfg.steps_fwd_end h.timestep_pos (b + 1)
  have hf1 : (fwdStateAt cfg1 src inp r1 o cfg1.steps).files =
      (fwdProc cfg src.grid inp).files o (b + 1) := by
    rw [hst]
    exact (fwd_first_part cfg src.grid inp o h.timestep_pos (b + 1) hb hw').1
  have hlast : (fwdStateAt cfg1 src inp r1 o cfg1.steps).files =
      (fwdProc cfg src.grid inp).files o b ++
        [(cfg.fwdTime (b + 1), (fwdProc cfg src.grid inp).full o b)] := by
    rw [hf1]
    simp only [Proc.files, hw, if_true]
    rfl
  set s1 := fwdStateAt cfg1 src inp r1 o cfg1.steps
  set f := (fwdProc cfg src.grid inp).full o b
  have hd : writeFiles path disk s1.files (path (cfg.fwdTime (b + 1))) = some f := by
    rw [hlast]; exact writeFiles_last path disk _ _ _
  have hd' : saveFwd R.rnd path disk s1.files (path (cfg.fwdTime (b + 1))) = some (f.cast R.rnd) := by
    unfold saveFwd
    rw [hlast, List.map_append]
    exact writeFiles_last path disk _ _ _
  obtain ⟨s2, hs2, e1, e2, e3⟩ := fwd_restart cfg src inp path h o b hb hw
    (writeFiles path disk s1.files) hd
  obtain ⟨s2', hs2'⟩ := fwd_init_file cfg2 src inp path (saveFwd R.rnd path disk s1.files) h2 rfl _ hd'
  have hnn : ∀ i j, 0 ≤ f.s_track_lower i j ∧ 0 ≤ f.s_track_upper i j := by
    intro i j
    have := fwd_out_nonneg cfg src inp h hp o (by rw [eo]; exact hs0) (b + 1) hb i j
    rw [(fwd_out_succ cfg inp src.grid o b).1, (fwd_out_succ cfg inp src.grid o b).2] at this
    exact this
  have hB1 : cfg.tracking_start_date ≤ cfg.fwdTime (b + 1) :=
    (cfg.fwdTime_mem h.timestep_pos h.ordered (b + 1) hb).1
  have hp2 : Physical inp cfg2.tracking_start_date cfg2.tracking_end_date :=
    { wet := fun t h0 h1 => hp.wet t (hB1.trans h0) h1
      precip := fun t h0 h1 => hp.precip t (hB1.trans h0) h1
      evap := fun t h0 h1 => hp.evap t (hB1.trans h0) h1
      region := fun t h0 h1 => hp.region t (hB1.trans h0) h1 }
  obtain ⟨k1, k2⟩ := fwd_restart_gap cfg2 src inp path _ _ h2 hp2 ha hk
    (calm_fwd_start cfg src.grid inp calm (b + 1)) R hR rfl f hd hd' hnn hs2 hs2'
  have ht : s2.files.map Prod.fst = s2'.files.map Prod.fst := by
    obtain ⟨_, _, _, rfl⟩ := fwd_ends cfg2 src inp path _ h2 hs2
    obtain ⟨_, _, _, rfl⟩ := fwd_ends cfg2 src inp path _ h2 hs2'
    simp only [fwdStateAt, Proc.files_time]
  refine ⟨s1, s2', f, s2.files, ⟨cfg1.steps, fun fuel hf => (hrun fuel).trans (if_neg (not_lt.mpr hf))⟩,
    hs2', ?_, ?_, ht, ?_⟩
  · rw [hf1]; exact e1
  · rw [hlast, List.getLast?_append]; rfl
  · have : (fwdStateAt cfg src inp r o cfg.steps).output = s2.output := e2.symm
    rw [this]
    exact k2

/-! ### Backward -/

/-- a calm run stays calm when it starts from an earlier date -/
theorem calm_bwd_end (cfg : RunConfig K) (g : GridInfo (m + 2) K) (inp : Input m n K)
    (calm : CalmBwd cfg g inp) (b : ℕ) :
    CalmBwd { cfg with tracking_end_date := cfg.bwdTime b, restart := true } g inp := by
  intro k hk
  have hk' : cfg.tracking_start_date + ((k : ℤ) + 1) * (cfg.timestep * 1000000) ≤ cfg.bwdTime b := hk
  have e : cfg.bwdTime b - (k : ℤ) * (cfg.timestep * 1000000) =
      cfg.tracking_end_date - ((b + k : ℕ) : ℤ) * (cfg.timestep * 1000000) := by
    unfold RunConfig.bwdTime RunConfig.dt usPerSecond; push_cast; ring
  have := calm (b + k) (by linarith)
  show NoOverdrawBwd _ _ _ _ _ _ _
  simp only [e]
  exact this

theorem bwd_init_file (cfg : RunConfig K) (src : Source m n K) (inp : Input m n K) (path : ℤ → P)
    (disk : P → Option (BwdOutput (m + 2) (n + 2) K)) (h : Runnable cfg src inp) (hr : cfg.restart = true)
    (f) (hd : disk (path cfg.tracking_end_date) = some f) :
    ∃ s, EndsIn (bwdRun cfg src path disk) s := by
  obtain ⟨o, ho⟩ := bwd_init_ok cfg src inp path disk h (by simp [hd])
  obtain ⟨r, _, _, hrun⟩ := bwd_run_eq cfg src inp path _ h o ho
  exact ⟨_, ⟨cfg.steps, fun fuel hf => (hrun fuel).trans (if_neg (not_lt.mpr hf))⟩⟩

/-- the restarted run from the rounded file against the restarted run from the exact file -/
theorem bwd_restart_gap (cfg : RunConfig K) (src : Source m n K) (inp : Input m n K) (path : ℤ → P)
    (disk disk' : P → Option (BwdOutput (m + 2) (n + 2) K)) (h : Runnable cfg src inp)
    (hp : Physical inp cfg.tracking_start_date cfg.tracking_end_date) (ha : ∀ i, 0 < src.grid.a i)
    (hk : 0 ≤ cfg.kvf) (calm : CalmBwd cfg src.grid inp) (R : Rounding K) {u η : K} (hR : Accurate R u η)
    (hr : cfg.restart = true) (f) (hd : disk (path cfg.tracking_end_date) = some f)
    (hd' : disk' (path cfg.tracking_end_date) = some (f.cast R.rnd))
    (hf : ∀ i j, 0 ≤ f.s_track_lower i j ∧ 0 ≤ f.s_track_upper i j) {s s'}
    (hs : EndsIn (bwdRun cfg src path disk) s) (hs' : EndsIn (bwdRun cfg src path disk') s') :
    s.files.length = s'.files.length ∧
    bwdStorageGap src.grid.a s.output s'.output + sumPairs s.files s'.files (bwdFateGap src.grid.a) ≤
      u * (total src.grid.a f.s_track_lower + total src.grid.a f.s_track_upper) +
        2 * η * total src.grid.a (fun _ (_ : Fin (n + 2)) => (1 : K)) := by
  have e : startBwd cfg path disk = (f.s_track_lower, f.s_track_upper) := by
    unfold startBwd; rw [hr, hd]
  have e' : startBwd cfg path disk' = (fun i j => R.rnd (f.s_track_lower i j), fun i j => R.rnd (f.s_track_upper i j)) := by
    unfold startBwd; rw [hr, hd']; rfl
  obtain ⟨k1, k2⟩ := C90_run_backward cfg src src inp inp path path disk disk' h h rfl ⟨rfl, rfl⟩ hp hp ha hk
    calm (by rw [e]; exact hf)
    (by rw [e']; exact fun i j => ⟨rnd_nonneg R (hf i j).1, rnd_nonneg R (hf i j).2⟩) hs hs'
  have z : tagGapBwd cfg src.grid.a inp inp = 0 := by
    simp [tagGapBwd, total]
  rw [z, e, e'] at k2
  have g1 := gap_cast src.grid.a ha R hR f.s_track_lower (fun i j => (hf i j).1)
  have g2 := gap_cast src.grid.a ha R hR f.s_track_upper (fun i j => (hf i j).2)
  refine ⟨k1, k2.trans ?_⟩
  simp only
  linarith

/-- **C95** (backward): a run over `[A, C]` and, for any of its output times `B`, the run over `[B, C]`
followed by a restart from the file of `B` as it is on disk, i.e. rounded to single precision (`R`, with unit
roundoff `u`; `η` is the underflow threshold).  The first part writes the same files; the restarted run
completes and writes files for the same times.  In weather in which no cell loses more water than it holds,
the restarted run differs from the uninterrupted one - in the final tracked storage and in all later files'
tracked evaporation and losses together - by at most the fraction `u` of the tracked storage at `B`. -/
theorem C95_restart_backward [DecidableEq P] (cfg : RunConfig K) (src : Source m n K) (inp : Input m n K)
    (path : ℤ → P) (disk : P → Option (BwdOutput (m + 2) (n + 2) K)) (h : Runnable cfg src inp)
    (hp : Physical inp cfg.tracking_start_date cfg.tracking_end_date) (ha : ∀ i, 0 < src.grid.a i)
    (hk : 0 ≤ cfg.kvf) (calm : CalmBwd cfg src.grid inp) (R : Rounding K) {u η : K} (hR : Accurate R u η)
    (hs0 : ∀ i j, 0 ≤ (startBwd cfg path disk).1 i j ∧ 0 ≤ (startBwd cfg path disk).2 i j)
    {s} (hs : EndsIn (bwdRun cfg src path disk) s) (B : ℤ) (hB : B ∈ s.files.map Prod.fst) :
    ∃ s1 s2 f later, EndsIn (bwdRun { cfg with tracking_start_date := B } src path disk) s1 ∧
      EndsIn (bwdRun { cfg with tracking_end_date := B, restart := true } src path
        (saveBwd R.rnd path disk s1.files)) s2 ∧
      s.files = s1.files ++ later ∧ s1.files.getLast? = some (B, f) ∧
      later.map Prod.fst = s2.files.map Prod.fst ∧
      bwdStorageGap src.grid.a s.output s2.output + sumPairs later s2.files (bwdFateGap src.grid.a) ≤
        u * (total src.grid.a f.s_track_lower + total src.grid.a f.s_track_upper) +
          2 * η * total src.grid.a (fun _ (_ : Fin (n + 2)) => (1 : K)) := by
  obtain ⟨o, r, ho, rfl⟩ := bwd_ends cfg src inp path disk h hs
  have eo := bwd_init_eq cfg src path disk o ho
  obtain ⟨x, hx, rfl⟩ := List.mem_map.mp hB
  obtain ⟨b, hb, hw, rfl⟩ := (Proc.mem_files _ _).mp hx
  have hw' : writes cfg.bwdTime cfg.output_frequency cfg.steps (b + 1) := of_decide_eq_true hw
  change ∃ s1 s2 f later, EndsIn (bwdRun { cfg with tracking_start_date := cfg.bwdTime (b + 1) } src path disk)
    s1 ∧ EndsIn (bwdRun { cfg with tracking_end_date := cfg.bwdTime (b + 1), restart := true } src
    path (saveBwd R.rnd path disk s1.files)) s2 ∧ _ ∧ s1.files.getLast? = some (cfg.bwdTime (b + 1), f) ∧ _
  set cfg1 : RunConfig K := { cfg with tracking_start_date := cfg.bwdTime (b + 1) }
  set cfg2 : RunConfig K := { cfg with tracking_end_date := cfg.bwdTime (b + 1), restart := true } with hc2
  have h1 : Runnable cfg1 src inp := h.bwd_start (b + 1) hb
  have h2 : Runnable cfg2 src inp := h.bwd_end (b + 1) hb
  have ho1 : bwdInitialize cfg1 src path disk = .ok o := ho
  obtain ⟨r1, _, _, hrun⟩ := bwd_run_eq cfg1 src inp path disk h1 o ho1
  have hst : cfg1.steps = b + 1 := cfg.steps_bwd_start h.timestep_pos (b + 1)
  have hf1 : (bwdStateAt cfg1 src inp r1 o cfg1.steps).files =
      (bwdProc cfg src.grid inp).files o (b + 1) := by
    rw [hst]
    exact (bwd_first_part cfg src.grid inp o h.timestep_pos (b + 1) hb hw').1
  have hlast : (bwdStateAt cfg1 src inp r1 o cfg1.steps).files =
      (bwdProc cfg src.grid inp).files o b ++
        [(cfg.bwdTime (b + 1), (bwdProc cfg src.grid inp).full o b)] := by
    rw [hf1]
    simp only [Proc.files, hw, if_true]
    rfl
  set s1 := bwdStateAt cfg1 src inp r1 o cfg1.steps
  set f := (bwdProc cfg src.grid inp).full o b
  have hd : writeFiles path disk s1.files (path (cfg.bwdTime (b + 1))) = some f := by
    rw [hlast]; exact writeFiles_last path disk _ _ _
  have hd' : saveBwd R.rnd path disk s1.files (path (cfg.bwdTime (b + 1))) = some (f.cast R.rnd) := by
    unfold saveBwd
    rw [hlast, List.map_append]
    exact writeFiles_last path disk _ _ _
  obtain ⟨s2, hs2, e1, e2, e3⟩ := bwd_restart cfg src inp path h o b hb hw
    (writeFiles path disk s1.files) hd
  obtain ⟨s2', hs2'⟩ := bwd_init_file cfg2 src inp path (saveBwd R.rnd path disk s1.files) h2 rfl _ hd'
  have hnn : ∀ i j, 0 ≤ f.s_track_lower i j ∧ 0 ≤ f.s_track_upper i j := by
    intro i j
    have := bwd_out_nonneg cfg src inp h hp o (by rw [eo]; exact hs0) (b + 1) hb i j
    rw [(bwd_out_succ cfg inp src.grid o b).1, (bwd_out_succ cfg inp src.grid o b).2] at this
    exact this
  have hB1 : cfg.bwdTime (b + 1) ≤ cfg.tracking_end_date :=
    (cfg.bwdTime_mem h.timestep_pos h.ordered (b + 1) hb).2
  have hp2 : Physical inp cfg2.tracking_start_date cfg2.tracking_end_date :=
    { wet := fun t h0 h1 => hp.wet t h0 (h1.trans hB1)
      precip := fun t h0 h1 => hp.precip t h0 (h1.trans hB1)
      evap := fun t h0 h1 => hp.evap t h0 (h1.trans hB1)
      region := fun t h0 h1 => hp.region t h0 (h1.trans hB1) }
  obtain ⟨k1, k2⟩ := bwd_restart_gap cfg2 src inp path _ _ h2 hp2 ha hk
    (calm_bwd_end cfg src.grid inp calm (b + 1)) R hR rfl f hd hd' hnn hs2 hs2'
  have ht : s2.files.map Prod.fst = s2'.files.map Prod.fst := by
    obtain ⟨_, _, _, rfl⟩ := bwd_ends cfg2 src inp path _ h2 hs2
    obtain ⟨_, _, _, rfl⟩ := bwd_ends cfg2 src inp path _ h2 hs2'
    simp only [bwdStateAt, Proc.files_time]
  refine ⟨s1, s2', f, s2.files, ⟨cfg1.steps, fun fuel hf => (hrun fuel).trans (if_neg (not_lt.mpr hf))⟩,
    hs2', ?_, ?_, ht, ?_⟩
  · rw [hf1]; exact e1
  · rw [hlast, List.getLast?_append]; rfl
  · have : (bwdStateAt cfg src inp r o cfg.steps).output = s2.output := e2.symm
    rw [this]
    exact k2

/-! ### The files -/

theorem stored (R : Rounding K) {u η : K} (hR : Accurate R u η) (x : K) : StoredAs u η x (R.rnd x) where
  err := hR.err x
  nonneg h := rnd_nonneg R h
  nonpos h := by rw [← R.zero]; exact R.mono h

private theorem writeFiles_mem {ω : Type*} [DecidableEq P] (path : ℤ → P) (disk : P → Option ω) (files : List (ℤ × ω))
    (t : ℤ) (f : ω) (hm : (t, f) ∈ files) (hu : ∀ x ∈ files, path x.1 = path t → x = (t, f)) :
    writeFiles path disk files (path t) = some f := by
  induction files generalizing disk with
  | nil => cases hm
  | cons x l ih =>
    rw [show writeFiles path disk (x :: l) = writeFiles path (Function.update disk (path x.1) (some x.2)) l from rfl]
    by_cases hl : (t, f) ∈ l
    · exact ih _ hl fun y hy => hu y (List.mem_cons_of_mem _ hy)
    · have hx : x = (t, f) := by
        rcases List.mem_cons.mp hm with e | e
        · exact e.symm
        · exact absurd e hl
      rw [writeFiles_other]
      · subst hx; simp
      · intro y hy hyt
        have := hu y (List.mem_cons_of_mem _ hy) hyt
        rw [this] at hy
        exact hl hy

/-- **C95** (forward files): a file that is not overwritten by a later one of the same run (paths differ, C43)
holds every number of the output at its time in single precision: rounded, with the sign kept, zero as
zero. -/
theorem C95_file_forward [DecidableEq P] (path : ℤ → P) (disk : P → Option (FwdOutput (m + 2) (n + 2) K))
    (R : Rounding K) {u η : K} (hR : Accurate R u η) (files : List (ℤ × FwdOutput (m + 2) (n + 2) K)) (t f)
    (hm : (t, f) ∈ files) (hu : ∀ x ∈ files, path x.1 = path t → x = (t, f)) :
    ∃ d, saveFwd R.rnd path disk files (path t) = some d ∧ FileOfFwd u η f d := by
  refine ⟨f.cast R.rnd, ?_, ?_⟩
  · refine writeFiles_mem path disk _ t _ (List.mem_map.mpr ⟨_, hm, rfl⟩) ?_
    intro x hx hxt
    obtain ⟨y, hy, rfl⟩ := List.mem_map.mp hx
    rw [hu y hy hxt]
  · constructor <;> exact fun i j => stored R hR _

/-- **C95** (backward files) -/
theorem C95_file_backward [DecidableEq P] (path : ℤ → P) (disk : P → Option (BwdOutput (m + 2) (n + 2) K))
    (R : Rounding K) {u η : K} (hR : Accurate R u η) (files : List (ℤ × BwdOutput (m + 2) (n + 2) K)) (t f)
    (hm : (t, f) ∈ files) (hu : ∀ x ∈ files, path x.1 = path t → x = (t, f)) :
    ∃ d, saveBwd R.rnd path disk files (path t) = some d ∧ FileOfBwd u η f d := by
  refine ⟨f.cast R.rnd, ?_, ?_⟩
  · refine writeFiles_mem path disk _ t _ (List.mem_map.mpr ⟨_, hm, rfl⟩) ?_
    intro x hx hxt
    obtain ⟨y, hy, rfl⟩ := List.mem_map.mp hx
    rw [hu y hy hxt]
  · constructor <;> exact fun i j => stored R hR _

end

/-! ### A concrete case: the demo experiment with half of two cells tagged, restarted after 20 minutes through float32
files -/

section
open Demo

example : ∃ s, EndsIn (fwdRun cfg (srcOf maskB) path fun _ => none) s ∧ 2 * step ∈ s.files.map Prod.fst ∧
    CalmFwd cfg (srcOf maskB).grid (inpOf maskB) ∧ Runnable cfg (srcOf maskB) (inpOf maskB) ∧
    Physical (inpOf maskB) cfg.tracking_start_date cfg.tracking_end_date ∧
    Accurate (binary32 : Rounding ℚ) (1 / 2 ^ 24) (1 / 2 ^ 150) ∧
    (∀ i j, 0 ≤ (startFwd (m := 1) (n := 1) cfg path fun _ => none).1 i j ∧
      0 ≤ (startFwd (m := 1) (n := 1) cfg path fun _ => none).2 i j) := by
  obtain ⟨s, hs, ht⟩ := C94_completes_forward cfg (by decide) (srcOf maskB) path (fun _ => none)
    ((C94_iff_forward cfg (by decide) (srcOf maskB) path _).mp (ends_fwd maskB))
  refine ⟨s, hs, ?_, calm_fwd maskB, runnableOf maskB, physicalOf maskB ?_, accurate32, fun i j => ⟨le_rfl, le_rfl⟩⟩
  · rw [ht]; decide +kernel
  · intro i j; unfold maskB; split <;> norm_num

example : ∃ s, EndsIn (bwdRun cfgB (srcOf maskB) path fun _ => none) s ∧ 2 * step ∈ s.files.map Prod.fst ∧
    CalmBwd cfgB (srcOf maskB).grid (inpOf maskB) ∧ Runnable cfgB (srcOf maskB) (inpOf maskB) ∧
    (∀ i j, 0 ≤ (startBwd (m := 1) (n := 1) cfgB path fun _ => none).1 i j ∧
      0 ≤ (startBwd (m := 1) (n := 1) cfgB path fun _ => none).2 i j) := by
  obtain ⟨s, hs, ht⟩ := C94_completes_backward cfgB (by decide) (srcOf maskB) path (fun _ => none)
    ((C94_iff_backward cfgB (by decide) (srcOf maskB) path _).mp (ends_bwd maskB))
  refine ⟨s, hs, ?_, calm_bwd maskB, runnableB maskB, fun i j => ⟨le_rfl, le_rfl⟩⟩
  rw [ht]; decide +kernel

end

end Wam
