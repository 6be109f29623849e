import Verif.Props.RunMore
import Verif.Spec.Complete

/-!
# C97: any history of crashes, errors and restarts

A session is a run that is killed at any moment, or stops with an error because some of its data cannot be read (at that
time), or completes.  The user then restarts from the last file that was written, any number of times.
-/
set_option linter.unusedSectionVars false
set_option linter.unusedVariables false

namespace Wam
open Spec

/-! ### Specification -/

/-- the files that a session leaves, however it ends -/
def Spec.filesLeft {ω α : Type*} : Outcome (LoopState ω α) → List (ℤ × ω)
  | .finished s => s.files
  | .raised _ s => s.files
  | .stillRunning s => s.files

/-- the configuration for the next session when `done` are the files so far: unchanged if there are none, otherwise a restart
from the time of the last one (forward: the new start date) -/
def Spec.resumeFwd {K ω : Type*} (cfg : RunConfig K) (done : List (ℤ × ω)) : RunConfig K :=
  match done.getLast? with
  | none => cfg
  | some (B, _) => { cfg with tracking_start_date := B, restart := true }

/-- the same for backward runs: the new end date -/
def Spec.resumeBwd {K ω : Type*} (cfg : RunConfig K) (done : List (ℤ × ω)) : RunConfig K :=
  match done.getLast? with
  | none => cfg
  | some (B, _) => { cfg with tracking_end_date := B, restart := true }

section
variable {m n : ℕ} {K : Type} [Field K] [LinearOrder K] [IsStrictOrderedRing K] {P : Type*} [DecidableEq P]

/-- Histories (forward).  `HistoryFwd cfg src path disk done d`: beginning with the folder `disk`, after some sessions the files
`done` have been written and the folder is `d`.  Each session continues where the files end; it is cut off after any number `fuel` of
iterations and may meet missing data (`src'`).  It leaves its files in the folder, and possibly anything in place of files
that come later (a file that was being written when the session was killed). -/
inductive Spec.HistoryFwd (cfg : RunConfig K) (src : Source m n K) (path : ℤ → P)
    (disk : P → Option (FwdOutput (m + 2) (n + 2) K)) :
    List (ℤ × FwdOutput (m + 2) (n + 2) K) → (P → Option (FwdOutput (m + 2) (n + 2) K)) → Prop
  | begin : HistoryFwd cfg src path disk [] disk
  | session (done d) (src' : Source m n K) (fuel : ℕ) (d' : P → Option (FwdOutput (m + 2) (n + 2) K)) :
      HistoryFwd cfg src path disk done d → Damaged src src' →
      (∀ q, d' q = writeFiles path d (filesLeft (fwdRun (resumeFwd cfg done) src' path d fuel)) q ∨
        ∃ t ∈ outputTimes cfg (timeFwd cfg) (runSteps cfg), path t = q ∧
          t ∉ (done ++ filesLeft (fwdRun (resumeFwd cfg done) src' path d fuel)).map Prod.fst) →
      HistoryFwd cfg src path disk (done ++ filesLeft (fwdRun (resumeFwd cfg done) src' path d fuel)) d'

/-- Histories (backward).  `HistoryBwd cfg src path disk done d`: beginning with the folder `disk`, after some sessions the files
`done` have been written and the folder is `d`.  Each session continues where the files end; it is cut off after any number `fuel` of
iterations and may meet missing data (`src'`).  It leaves its files in the folder, and possibly anything in place of files
that come later (a file that was being written when the session was killed). -/
inductive Spec.HistoryBwd (cfg : RunConfig K) (src : Source m n K) (path : ℤ → P)
    (disk : P → Option (BwdOutput (m + 2) (n + 2) K)) :
    List (ℤ × BwdOutput (m + 2) (n + 2) K) → (P → Option (BwdOutput (m + 2) (n + 2) K)) → Prop
  | begin : HistoryBwd cfg src path disk [] disk
  | session (done d) (src' : Source m n K) (fuel : ℕ) (d' : P → Option (BwdOutput (m + 2) (n + 2) K)) :
      HistoryBwd cfg src path disk done d → Damaged src src' →
      (∀ q, d' q = writeFiles path d (filesLeft (bwdRun (resumeBwd cfg done) src' path d fuel)) q ∨
        ∃ t ∈ outputTimes cfg (timeBwd cfg) (runSteps cfg), path t = q ∧
          t ∉ (done ++ filesLeft (bwdRun (resumeBwd cfg done) src' path d fuel)).map Prod.fst) →
      HistoryBwd cfg src path disk (done ++ filesLeft (bwdRun (resumeBwd cfg done) src' path d fuel)) d'

/-! ### Lemmas -/

private theorem whileLoop_prefix {ω : Type*} (g : LoopState ω K → Bool)
    (body body' : LoopState ω K → Except Err (LoopState ω K))
    (h : ∀ s, AgreesOrFails (body s) (body' s))
    (mono : ∀ s s', body s = .ok s' → s.files <+: s'.files) :
    ∀ fuel N s sf, whileLoop g body N s = .finished sf →
      filesLeft (whileLoop g body' fuel s) <+: sf.files := by
  intro fuel
  induction fuel with
  | zero =>
    intro N s sf hf
    have := (whileLoop_damaged g body body' h mono N s sf hf).1
    unfold whileLoop
    split <;> exact this
  | succ fuel ih =>
    intro N s sf hf
    have hp := (whileLoop_damaged g body body' h mono N s sf hf).1
    unfold whileLoop
    by_cases hg : g s = true
    · rw [if_pos hg]
      cases hb' : body' s with
      | error e => exact hp
      | ok s1 =>
        have hb : body s = .ok s1 := by
          rcases h s with h | ⟨e, h⟩
          · rw [← h, hb']
          · rw [hb'] at h; cases h
        cases N with
        | zero => unfold whileLoop at hf; rw [if_pos hg] at hf; cases hf
        | succ N =>
          unfold whileLoop at hf
          rw [if_pos hg, hb] at hf
          exact ih N s1 sf hf
    · rw [if_neg hg]; exact hp

private theorem proc_prefix {ω : Type*} (p : Proc ω) (o : ω) : ∀ (k : ℕ) (l : List (ℤ × ω)),
    l <+: p.files o k → l ≠ [] → ∃ b < k, p.write (b + 1) = true ∧ l = p.files o (b + 1) ∧
      l.getLast? = some (p.time (b + 1), p.full o b) := by
  intro k
  induction k with
  | zero =>
    intro l hl hne
    exact absurd (List.prefix_nil.mp hl) hne
  | succ k ih =>
    intro l hl hne
    simp only [Proc.files] at hl
    split at hl
    · rename_i hw
      rw [List.prefix_concat_iff] at hl
      rcases hl with hl | hl
      · refine ⟨k, by omega, hw, ?_, ?_⟩
        · rw [hl]; simp [Proc.files, hw]
        · rw [hl]; simp
      · obtain ⟨b, hb, h⟩ := ih l hl hne
        exact ⟨b, by omega, h⟩
    · rw [List.append_nil] at hl
      obtain ⟨b, hb, h⟩ := ih l hl hne
      exact ⟨b, by omega, h⟩

private theorem writeFiles_mem {ω : Type*} (path : ℤ → P) (disk : P → Option ω) : ∀ (l : List (ℤ × ω)),
    (l.map Prod.fst).Nodup → (∀ x ∈ l, ∀ y ∈ l, path x.1 = path y.1 → x.1 = y.1) →
    ∀ x ∈ l, writeFiles path disk l (path x.1) = some x.2 := by
  intro l hn hinj x hx
  obtain ⟨a, b, rfl⟩ := List.append_of_mem hx
  rw [show a ++ x :: b = (a ++ [(x.1, x.2)]) ++ b by simp, writeFiles_append]
  rw [writeFiles_other, writeFiles_last]
  intro y hy he
  have := hinj y (by simp [hy]) x (by simp) he
  rw [List.map_append, List.map_cons, List.nodup_append, List.nodup_cons] at hn
  exact hn.2.1.1 (List.mem_map.mpr ⟨y, hy, this⟩)

private theorem fwd_session_prefix (cfg : RunConfig K) (src src' : Source m n K) (h : Damaged src src') (path : ℤ → P)
    (disk : P → Option (FwdOutput (m + 2) (n + 2) K)) (fuel : ℕ) {s} (hs : EndsIn (fwdRun cfg src path disk) s) :
    filesLeft (fwdRun cfg src' path disk fuel) <+: s.files := by
  obtain ⟨N, hN⟩ := hs
  have hs := hN N le_rfl
  have hini : AgreesOrFails (fwdInitialize cfg src path disk) (fwdInitialize cfg src' path disk) := by
    unfold fwdInitialize
    rcases h.states cfg.tracking_start_date with h1 | ⟨e, h1⟩
    · left; rw [h1]
    · right; exact ⟨e, by rw [h1]⟩
  have hst : ∀ o, fwdStart cfg src' o = fwdStart cfg src o := by
    intro o; unfold fwdStart; rw [h.weight]
  unfold fwdRun at hs ⊢
  cases hi : fwdInitialize cfg src path disk with
  | error e => rw [hi] at hs; cases hs
  | ok o =>
    rw [hi] at hs
    simp only at hs
    rcases hini with h1 | ⟨e, h1⟩
    · rw [h1, hi]
      simp only
      rcases h.region with ⟨e, h2⟩ | ⟨r, r', h2, h3, h4⟩
      · rw [h2]
        exact List.nil_prefix
      · rw [h2] at hs
        rw [h3, hst]
        exact whileLoop_prefix _ _ _ (fwdBody_damaged cfg src src' h r r' h4)
          (fwdBody_files cfg src r) fuel N _ s hs
    · rw [h1]
      exact List.nil_prefix

/-- what is known about the folder `d` when the files `done` have been written -/
private def FwdFolder (path : ℤ → P) (disk d : P → Option (FwdOutput (m + 2) (n + 2) K))
    (done all : List (ℤ × FwdOutput (m + 2) (n + 2) K)) : Prop :=
  done <+: all ∧ ∀ q, d q = writeFiles path disk done q ∨ ∃ x ∈ all, x.1 ∉ done.map Prod.fst ∧ path x.1 = q

private theorem fwd_next (cfg : RunConfig K) (src : Source m n K) (inp : Input m n K) (path : ℤ → P)
    (disk d : P → Option (FwdOutput (m + 2) (n + 2) K)) (h : Runnable cfg src inp)
    {s} (hs : EndsIn (fwdRun cfg src path disk) s)
    (hpath : ∀ x ∈ s.files, ∀ y ∈ s.files, path x.1 = path y.1 → x.1 = y.1)
    (hstart : cfg.restart = true → ∀ x ∈ s.files, path x.1 ≠ path cfg.tracking_start_date) (done)
    (hd : FwdFolder path disk d done s.files) :
    ∃ s2, EndsIn (fwdRun (resumeFwd cfg done) src path d) s2 ∧ s.files = done ++ s2.files ∧
      s2.output = s.output ∧ s2.t0 = s.t0 := by
  obtain ⟨o, r, ho, rfl⟩ := fwd_ends cfg src inp path disk h hs
  by_cases hne : done = []
  · subst hne
    have hcfg : resumeFwd cfg ([] : List (ℤ × FwdOutput (m + 2) (n + 2) K)) = cfg := rfl
    rw [hcfg]
    have ho' : fwdInitialize cfg src path d = .ok o := by
      rw [← ho]
      unfold fwdInitialize
      cases hc : cfg.restart
      · simp
      · have : d (path cfg.tracking_start_date) = disk (path cfg.tracking_start_date) := by
          rcases hd.2 (path cfg.tracking_start_date) with hq | ⟨x, hx, _, hq⟩
          · exact hq
          · exact absurd hq (hstart hc x hx)
        rw [this]
    obtain ⟨r3, _, _, hrun'⟩ := fwd_run_eq cfg src inp path d h o ho'
    exact ⟨_, ⟨cfg.steps, fun fuel hf => (hrun' fuel).trans (if_neg (not_lt.mpr hf))⟩, rfl, rfl, rfl⟩
  · obtain ⟨b, hb, hw, hdone, hlast⟩ := proc_prefix (fwdProc cfg src.grid inp) o cfg.steps done hd.1 hne
    have hcfg : resumeFwd cfg done = { cfg with tracking_start_date := cfg.fwdTime (b + 1), restart := true } := by
      unfold resumeFwd
      rw [hlast]
      rfl
    have hmem : (cfg.fwdTime (b + 1), (fwdProc cfg src.grid inp).full o b) ∈ done := List.mem_of_getLast? hlast
    have hall := hd.1.subset hmem
    obtain ⟨s2, hs2, e1, e2, e3⟩ := fwd_restart cfg src inp path h o b (by omega) hw d (by
      rcases hd.2 (path (cfg.fwdTime (b + 1))) with hq | ⟨x, hx1, hx2, hx3⟩
      · rw [hq, hdone]
        simp only [Proc.files, hw, if_true]
        exact writeFiles_last path disk _ _ _
      · have := hpath x hx1 _ hall hx3
        exact absurd (List.mem_map.mpr ⟨_, hmem, this.symm⟩) hx2)
    rw [hcfg]
    refine ⟨s2, hs2, ?_, e2, e3⟩
    rw [hdone]
    exact e1

private theorem fwd_outputTimes (cfg : RunConfig K) (src : Source m n K) (inp : Input m n K) (path : ℤ → P)
    (disk : P → Option (FwdOutput (m + 2) (n + 2) K)) (h : Runnable cfg src inp)
    {s} (hs : EndsIn (fwdRun cfg src path disk) s) :
    s.files.map Prod.fst = outputTimes cfg (timeFwd cfg) (runSteps cfg) := by
  obtain ⟨o, r, ho, rfl⟩ := fwd_ends cfg src inp path disk h hs
  show ((fwdProc cfg src.grid inp).files o cfg.steps).map Prod.fst = _
  have key : ∀ k, ((fwdProc cfg src.grid inp).files o k).map Prod.fst = outputTimes cfg (timeFwd cfg) k := by
    intro k
    induction k with
    | zero => rfl
    | succ k ih =>
      simp only [Proc.files, List.map_append, ih, outputTimes, List.range_succ, List.filter_append, List.map_append]
      congr 1
      by_cases hw : (fwdProc cfg src.grid inp).write (k + 1) = true
      · have hw' : writes (timeFwd cfg) cfg.output_frequency (runSteps cfg) (k + 1) := by
          have hw : writes cfg.fwdTime cfg.output_frequency cfg.steps (k + 1) := by simpa [fwdProc] using hw
          exact hw
        rw [if_pos hw, List.filter_cons_of_pos (by simpa using hw')]
        rfl
      · have hw' : ¬ writes (timeFwd cfg) cfg.output_frequency (runSteps cfg) (k + 1) := by
          have hw : ¬ writes cfg.fwdTime cfg.output_frequency cfg.steps (k + 1) := by simpa [fwdProc] using hw
          exact hw
        rw [if_neg hw, List.filter_cons_of_neg (by simpa using hw')]
        rfl
  exact key _

/-- **C97** (forward).  Let the uninterrupted run end in `s`, with output paths that differ from each other and from that of
the restart file (C42).  After any history of sessions - killed anywhere, stopped by missing data, or complete, each one continuing
from the last file written -, the files written so far are a prefix of the files of the uninterrupted run, they are intact in
the folder, and one more session that is neither killed nor short of data ends, writes exactly the missing files, ends with the
same tracked fields, and leaves exactly the folder of the uninterrupted run. -/
theorem C97_any_history_forward (cfg : RunConfig K) (src : Source m n K) (inp : Input m n K) (path : ℤ → P)
    (disk : P → Option (FwdOutput (m + 2) (n + 2) K)) (h : Runnable cfg src inp)
    {s} (hs : EndsIn (fwdRun cfg src path disk) s)
    (hpath : ∀ x ∈ s.files, ∀ y ∈ s.files, path x.1 = path y.1 → x.1 = y.1)
    (hstart : cfg.restart = true → ∀ x ∈ s.files, path x.1 ≠ path cfg.tracking_start_date)
    (done d) (hist : HistoryFwd cfg src path disk done d) :
    done <+: s.files ∧ (∀ x ∈ done, d (path x.1) = some x.2) ∧
    ∃ s2, EndsIn (fwdRun (resumeFwd cfg done) src path d) s2 ∧ s.files = done ++ s2.files ∧
      s2.output = s.output ∧ writeFiles path d s2.files = writeFiles path disk s.files := by
  have htimes := fwd_outputTimes cfg src inp path disk h hs
  have inv : FwdFolder path disk d done s.files := by
    induction hist with
    | begin => exact ⟨List.nil_prefix, fun q => Or.inl rfl⟩
    | session done d src' fuel d' _ hdam hd' ih =>
      obtain ⟨s2, hs2, e1, _, _⟩ := fwd_next cfg src inp path disk d h hs hpath hstart done ih
      have hpre := fwd_session_prefix (resumeFwd cfg done) src src' hdam path d fuel hs2
      generalize filesLeft (fwdRun (resumeFwd cfg done) src' path d fuel) = new at hd' hpre ⊢
      refine ⟨?_, fun q => ?_⟩
      · rw [e1]; exact (List.prefix_append_right_inj done).mpr hpre
      · rcases hd' q with hq | ⟨t, ht, hq, hnew⟩
        · rw [hq, writeFiles_append]
          rcases ih.2 q with h1 | ⟨x, hx, hx1, hx2⟩
          · exact Or.inl (writeFiles_agree path _ _ new q (Or.inl h1))
          · by_cases hxn : x.1 ∈ new.map Prod.fst
            · obtain ⟨y, hy, hyx⟩ := List.mem_map.mp hxn
              exact Or.inl (writeFiles_agree path _ _ new q (Or.inr ⟨y, hy, by rw [hyx, hx2]⟩))
            · refine Or.inr ⟨x, hx, ?_, hx2⟩
              rw [List.map_append, List.mem_append]
              exact fun h => h.elim hx1 hxn
        · rw [← htimes] at ht
          obtain ⟨x, hx, rfl⟩ := List.mem_map.mp ht
          exact Or.inr ⟨x, hx, hnew, hq⟩
  obtain ⟨s2, hs2, e1, e2, _⟩ := fwd_next cfg src inp path disk d h hs hpath hstart done inv
  refine ⟨inv.1, ?_, s2, hs2, e1, e2, ?_⟩
  · intro x hx
    have hnd : (done.map Prod.fst).Nodup :=
      ((C25_output_order_forward cfg src inp path disk h hs).1.imp (fun h => ne_of_lt h) |>.sublist
        (inv.1.sublist.map _))
    have hxw := writeFiles_mem path disk done hnd (fun a ha b hb => hpath a (inv.1.subset ha) b (inv.1.subset hb)) x hx
    rcases inv.2 (path x.1) with hq | ⟨y, hy, hy1, hy2⟩
    · rw [hq, hxw]
    · have := hpath y hy x (inv.1.subset hx) hy2
      exact absurd (List.mem_map.mpr ⟨x, hx, this.symm⟩) hy1
  · rw [e1, writeFiles_append]
    funext q
    apply writeFiles_agree
    rcases inv.2 q with hq | ⟨y, hy, hy1, hy2⟩
    · exact Or.inl hq
    · rw [e1, List.mem_append] at hy
      rcases hy with hy | hy
      · exact absurd (List.mem_map.mpr ⟨y, hy, rfl⟩) hy1
      · exact Or.inr ⟨y, hy, hy2⟩

private theorem bwd_session_prefix (cfg : RunConfig K) (src src' : Source m n K) (h : Damaged src src') (path : ℤ → P)
    (disk : P → Option (BwdOutput (m + 2) (n + 2) K)) (fuel : ℕ) {s} (hs : EndsIn (bwdRun cfg src path disk) s) :
    filesLeft (bwdRun cfg src' path disk fuel) <+: s.files := by
  obtain ⟨N, hN⟩ := hs
  have hs := hN N le_rfl
  have hini : AgreesOrFails (bwdInitialize cfg src path disk) (bwdInitialize cfg src' path disk) := by
    unfold bwdInitialize
    rcases h.states cfg.tracking_end_date with h1 | ⟨e, h1⟩
    · left; rw [h1]
    · right; exact ⟨e, by rw [h1]⟩
  have hst : ∀ o, bwdStart cfg src' o = bwdStart cfg src o := by
    intro o; unfold bwdStart; rw [h.weight]
  unfold bwdRun at hs ⊢
  cases hi : bwdInitialize cfg src path disk with
  | error e => rw [hi] at hs; cases hs
  | ok o =>
    rw [hi] at hs
    simp only at hs
    rcases hini with h1 | ⟨e, h1⟩
    · rw [h1, hi]
      simp only
      rcases h.region with ⟨e, h2⟩ | ⟨r, r', h2, h3, h4⟩
      · rw [h2]
        exact List.nil_prefix
      · rw [h2] at hs
        rw [h3, hst]
        exact whileLoop_prefix _ _ _ (bwdBody_damaged cfg src src' h r r' h4)
          (bwdBody_files cfg src r) fuel N _ s hs
    · rw [h1]
      exact List.nil_prefix

/-- what is known about the folder `d` when the files `done` have been written -/
private def BwdFolder (path : ℤ → P) (disk d : P → Option (BwdOutput (m + 2) (n + 2) K))
    (done all : List (ℤ × BwdOutput (m + 2) (n + 2) K)) : Prop :=
  done <+: all ∧ ∀ q, d q = writeFiles path disk done q ∨ ∃ x ∈ all, x.1 ∉ done.map Prod.fst ∧ path x.1 = q

private theorem bwd_next (cfg : RunConfig K) (src : Source m n K) (inp : Input m n K) (path : ℤ → P)
    (disk d : P → Option (BwdOutput (m + 2) (n + 2) K)) (h : Runnable cfg src inp)
    {s} (hs : EndsIn (bwdRun cfg src path disk) s)
    (hpath : ∀ x ∈ s.files, ∀ y ∈ s.files, path x.1 = path y.1 → x.1 = y.1)
    (hstart : cfg.restart = true → ∀ x ∈ s.files, path x.1 ≠ path cfg.tracking_end_date) (done)
    (hd : BwdFolder path disk d done s.files) :
    ∃ s2, EndsIn (bwdRun (resumeBwd cfg done) src path d) s2 ∧ s.files = done ++ s2.files ∧
      s2.output = s.output ∧ s2.t1 = s.t1 := by
  obtain ⟨o, r, ho, rfl⟩ := bwd_ends cfg src inp path disk h hs
  by_cases hne : done = []
  · subst hne
    have hcfg : resumeBwd cfg ([] : List (ℤ × BwdOutput (m + 2) (n + 2) K)) = cfg := rfl
    rw [hcfg]
    have ho' : bwdInitialize cfg src path d = .ok o := by
      rw [← ho]
      unfold bwdInitialize
      cases hc : cfg.restart
      · simp
      · have : d (path cfg.tracking_end_date) = disk (path cfg.tracking_end_date) := by
          rcases hd.2 (path cfg.tracking_end_date) with hq | ⟨x, hx, _, hq⟩
          · exact hq
          · exact absurd hq (hstart hc x hx)
        rw [this]
    obtain ⟨r3, _, _, hrun'⟩ := bwd_run_eq cfg src inp path d h o ho'
    exact ⟨_, ⟨cfg.steps, fun fuel hf => (hrun' fuel).trans (if_neg (not_lt.mpr hf))⟩, rfl, rfl, rfl⟩
  · obtain ⟨b, hb, hw, hdone, hlast⟩ := proc_prefix (bwdProc cfg src.grid inp) o cfg.steps done hd.1 hne
    have hcfg : resumeBwd cfg done = { cfg with tracking_end_date := cfg.bwdTime (b + 1), restart := true } := by
      unfold resumeBwd
      rw [hlast]
      rfl
    have hmem : (cfg.bwdTime (b + 1), (bwdProc cfg src.grid inp).full o b) ∈ done := List.mem_of_getLast? hlast
    have hall := hd.1.subset hmem
    obtain ⟨s2, hs2, e1, e2, e3⟩ := bwd_restart cfg src inp path h o b (by omega) hw d (by
      rcases hd.2 (path (cfg.bwdTime (b + 1))) with hq | ⟨x, hx1, hx2, hx3⟩
      · rw [hq, hdone]
        simp only [Proc.files, hw, if_true]
        exact writeFiles_last path disk _ _ _
      · have := hpath x hx1 _ hall hx3
        exact absurd (List.mem_map.mpr ⟨_, hmem, this.symm⟩) hx2)
    rw [hcfg]
    refine ⟨s2, hs2, ?_, e2, e3⟩
    rw [hdone]
    exact e1

private theorem bwd_outputTimes (cfg : RunConfig K) (src : Source m n K) (inp : Input m n K) (path : ℤ → P)
    (disk : P → Option (BwdOutput (m + 2) (n + 2) K)) (h : Runnable cfg src inp)
    {s} (hs : EndsIn (bwdRun cfg src path disk) s) :
    s.files.map Prod.fst = outputTimes cfg (timeBwd cfg) (runSteps cfg) := by
  obtain ⟨o, r, ho, rfl⟩ := bwd_ends cfg src inp path disk h hs
  show ((bwdProc cfg src.grid inp).files o cfg.steps).map Prod.fst = _
  have key : ∀ k, ((bwdProc cfg src.grid inp).files o k).map Prod.fst = outputTimes cfg (timeBwd cfg) k := by
    intro k
    induction k with
    | zero => rfl
    | succ k ih =>
      simp only [Proc.files, List.map_append, ih, outputTimes, List.range_succ, List.filter_append, List.map_append]
      congr 1
      by_cases hw : (bwdProc cfg src.grid inp).write (k + 1) = true
      · have hw' : writes (timeBwd cfg) cfg.output_frequency (runSteps cfg) (k + 1) := by
          have hw : writes cfg.bwdTime cfg.output_frequency cfg.steps (k + 1) := by simpa [bwdProc] using hw
          exact hw
        rw [if_pos hw, List.filter_cons_of_pos (by simpa using hw')]
        rfl
      · have hw' : ¬ writes (timeBwd cfg) cfg.output_frequency (runSteps cfg) (k + 1) := by
          have hw : ¬ writes cfg.bwdTime cfg.output_frequency cfg.steps (k + 1) := by simpa [bwdProc] using hw
          exact hw
        rw [if_neg hw, List.filter_cons_of_neg (by simpa using hw')]
        rfl
  exact key _

/-- **C97** (backward).  Let the uninterrupted run end in `s`, with output paths that differ from each other and from that of
the restart file (C42).  After any history of sessions - killed anywhere, stopped by missing data, or complete, each one continuing
from the last file written -, the files written so far are a prefix of the files of the uninterrupted run, they are intact in
the folder, and one more session that is neither killed nor short of data ends, writes exactly the missing files, ends with the
same tracked fields, and leaves exactly the folder of the uninterrupted run. -/
theorem C97_any_history_backward (cfg : RunConfig K) (src : Source m n K) (inp : Input m n K) (path : ℤ → P)
    (disk : P → Option (BwdOutput (m + 2) (n + 2) K)) (h : Runnable cfg src inp)
    {s} (hs : EndsIn (bwdRun cfg src path disk) s)
    (hpath : ∀ x ∈ s.files, ∀ y ∈ s.files, path x.1 = path y.1 → x.1 = y.1)
    (hstart : cfg.restart = true → ∀ x ∈ s.files, path x.1 ≠ path cfg.tracking_end_date)
    (done d) (hist : HistoryBwd cfg src path disk done d) :
    done <+: s.files ∧ (∀ x ∈ done, d (path x.1) = some x.2) ∧
    ∃ s2, EndsIn (bwdRun (resumeBwd cfg done) src path d) s2 ∧ s.files = done ++ s2.files ∧
      s2.output = s.output ∧ writeFiles path d s2.files = writeFiles path disk s.files := by
  have htimes := bwd_outputTimes cfg src inp path disk h hs
  have inv : BwdFolder path disk d done s.files := by
    induction hist with
    | begin => exact ⟨List.nil_prefix, fun q => Or.inl rfl⟩
    | session done d src' fuel d' _ hdam hd' ih =>
      obtain ⟨s2, hs2, e1, _, _⟩ := bwd_next cfg src inp path disk d h hs hpath hstart done ih
      have hpre := bwd_session_prefix (resumeBwd cfg done) src src' hdam path d fuel hs2
      generalize filesLeft (bwdRun (resumeBwd cfg done) src' path d fuel) = new at hd' hpre ⊢
      refine ⟨?_, fun q => ?_⟩
      · rw [e1]; exact (List.prefix_append_right_inj done).mpr hpre
      · rcases hd' q with hq | ⟨t, ht, hq, hnew⟩
        · rw [hq, writeFiles_append]
          rcases ih.2 q with h1 | ⟨x, hx, hx1, hx2⟩
          · exact Or.inl (writeFiles_agree path _ _ new q (Or.inl h1))
          · by_cases hxn : x.1 ∈ new.map Prod.fst
            · obtain ⟨y, hy, hyx⟩ := List.mem_map.mp hxn
              exact Or.inl (writeFiles_agree path _ _ new q (Or.inr ⟨y, hy, by rw [hyx, hx2]⟩))
            · refine Or.inr ⟨x, hx, ?_, hx2⟩
              rw [List.map_append, List.mem_append]
              exact fun h => h.elim hx1 hxn
        · rw [← htimes] at ht
          obtain ⟨x, hx, rfl⟩ := List.mem_map.mp ht
          exact Or.inr ⟨x, hx, hnew, hq⟩
  obtain ⟨s2, hs2, e1, e2, _⟩ := bwd_next cfg src inp path disk d h hs hpath hstart done inv
  refine ⟨inv.1, ?_, s2, hs2, e1, e2, ?_⟩
  · intro x hx
    have hnd : (done.map Prod.fst).Nodup :=
      ((C25_output_order_backward cfg src inp path disk h hs).1.imp (fun h => ne_of_gt h) |>.sublist
        (inv.1.sublist.map _))
    have hxw := writeFiles_mem path disk done hnd (fun a ha b hb => hpath a (inv.1.subset ha) b (inv.1.subset hb)) x hx
    rcases inv.2 (path x.1) with hq | ⟨y, hy, hy1, hy2⟩
    · rw [hq, hxw]
    · have := hpath y hy x (inv.1.subset hx) hy2
      exact absurd (List.mem_map.mpr ⟨x, hx, this.symm⟩) hy1
  · rw [e1, writeFiles_append]
    funext q
    apply writeFiles_agree
    rcases inv.2 q with hq | ⟨y, hy, hy1, hy2⟩
    · exact Or.inl hq
    · rw [e1, List.mem_append] at hy
      rcases hy with hy | hy
      · exact absurd (List.mem_map.mpr ⟨y, hy, rfl⟩) hy1
      · exact Or.inr ⟨y, hy, hy2⟩

end

/-! ### A concrete history -/

namespace HistoryDemo

/-- the data of `Demo` during an outage: no fluxes after 30 minutes -/
def outage : Source 1 1 ℚ := { Demo.src with fluxes := fun t => if t ≤ 3 * Demo.step then Demo.src.fluxes t else .error .fileNotFound }

theorem damaged : Damaged Demo.src outage where
  states := fun t => Or.inl rfl
  fluxes := fun t => by
    unfold outage
    by_cases h : t ≤ 3 * Demo.step
    · exact Or.inl (if_pos h)
    · exact Or.inr ⟨_, if_neg h⟩
  grid := rfl
  weight := rfl
  region := Or.inr ⟨_, _, rfl, rfl, rfl⟩

theorem intact : Damaged Demo.src Demo.src where
  states := fun t => Or.inl rfl
  fluxes := fun t => Or.inl rfl
  grid := rfl
  weight := rfl
  region := Or.inr ⟨_, _, rfl, rfl, rfl⟩

/-- Killed after 10 minutes, before the first file; then stopped by the outage after the first of two files; then killed again while
the last file (at 40 minutes) is being written, with garbage in its place. -/
example : ∃ done d, HistoryFwd Demo.cfg Demo.src Demo.path (fun _ => none) done d ∧ done.map Prod.fst = [2 * Demo.step] ∧
    (d (4 * Demo.step)).isSome ∧ ∃ s s2, EndsIn (fwdRun Demo.cfg Demo.src Demo.path fun _ => none) s ∧
      EndsIn (fwdRun (resumeFwd Demo.cfg done) Demo.src Demo.path d) s2 ∧ s2.files.length = 1 ∧
      writeFiles Demo.path d s2.files = writeFiles Demo.path (fun _ => none) s.files := by
  have h1 := HistoryFwd.session _ _ Demo.src 1 _ (HistoryFwd.begin (cfg := Demo.cfg) (src := Demo.src) (path := Demo.path)
    (disk := fun _ => none)) intact (fun q => Or.inl rfl)
  have h2 := HistoryFwd.session _ _ outage 9 _ h1 damaged (fun q => Or.inl rfl)
  have h3 := HistoryFwd.session _ _ Demo.src 1 (fun q => if q = 4 * Demo.step then some FwdOutput.zeros else
    writeFiles Demo.path _ _ q) h2 intact (fun q => by
      by_cases hq : q = 4 * Demo.step
      · exact Or.inr ⟨4 * Demo.step, by decide, hq.symm, by decide +kernel⟩
      · exact Or.inl (if_neg hq))
  obtain ⟨s, hs, hf⟩ := Demo.fwd_ends
  obtain ⟨_, _, s2, hs2, e1, _, e2⟩ := C97_any_history_forward Demo.cfg Demo.src Demo.inp Demo.path _ Demo.runnable hs
    (fun _ _ _ _ h => h) (fun h => absurd h (by decide)) _ _ h3
  refine ⟨_, _, h3, by decide +kernel, ?_, s, s2, hs, hs2, ?_, e2⟩
  · rw [if_pos rfl]; rfl
  · have := congrArg List.length e1
    have hl : s.files.length = 2 := by simpa using congrArg List.length hf
    rw [hl, List.length_append] at this
    have h1 : ∀ l : List (ℤ × FwdOutput 3 3 ℚ), l.map Prod.fst = [2 * Demo.step] → l.length = 1 := by
      intro l h
      simpa using congrArg List.length h
    rw [h1 _ (by decide +kernel)] at this
    omega

/-- the data of `Demo` during another outage: no fluxes in the first ten minutes -/
def outageBack : Source 1 1 ℚ := { Demo.src with fluxes := fun t => if Demo.step ≤ t then Demo.src.fluxes t else .error .fileNotFound }

theorem damagedBack : Damaged Demo.src outageBack where
  states := fun t => Or.inl rfl
  fluxes := fun t => by
    unfold outageBack
    by_cases h : Demo.step ≤ t
    · exact Or.inl (if_pos h)
    · exact Or.inr ⟨_, if_neg h⟩
  grid := rfl
  weight := rfl
  region := Or.inr ⟨_, _, rfl, rfl, rfl⟩

/-- The same backward: killed before the first file; stopped by the outage after the first of two files; killed while the last
file (at the start date) is being written, with garbage in its place. -/
example : ∃ done d, HistoryBwd Demo.cfg Demo.src Demo.path (fun _ => none) done d ∧ done.map Prod.fst = [2 * Demo.step] ∧
    (d 0).isSome ∧ ∃ s s2, EndsIn (bwdRun Demo.cfg Demo.src Demo.path fun _ => none) s ∧
      EndsIn (bwdRun (resumeBwd Demo.cfg done) Demo.src Demo.path d) s2 ∧ s2.files.length = 1 ∧
      writeFiles Demo.path d s2.files = writeFiles Demo.path (fun _ => none) s.files := by
  have h1 := HistoryBwd.session _ _ Demo.src 1 _ (HistoryBwd.begin (cfg := Demo.cfg) (src := Demo.src) (path := Demo.path)
    (disk := fun _ => none)) intact (fun q => Or.inl rfl)
  have h2 := HistoryBwd.session _ _ outageBack 9 _ h1 damagedBack (fun q => Or.inl rfl)
  have h3 := HistoryBwd.session _ _ Demo.src 1 (fun q => if q = 0 then some BwdOutput.zeros else
    writeFiles Demo.path _ _ q) h2 intact (fun q => by
      by_cases hq : q = 0
      · exact Or.inr ⟨0, by decide, hq.symm, by decide +kernel⟩
      · exact Or.inl (if_neg hq))
  obtain ⟨s, hs, hf⟩ := Demo.bwd_ends
  obtain ⟨_, _, s2, hs2, e1, _, e2⟩ := C97_any_history_backward Demo.cfg Demo.src Demo.inp Demo.path _ Demo.runnable hs
    (fun _ _ _ _ h => h) (fun h => absurd h (by decide)) _ _ h3
  refine ⟨_, _, h3, by decide +kernel, ?_, s, s2, hs, hs2, ?_, e2⟩
  · rw [if_pos rfl]; rfl
  · have := congrArg List.length e1
    have hl : s.files.length = 2 := by simpa using congrArg List.length hf
    rw [hl, List.length_append] at this
    have h1 : ∀ l : List (ℤ × BwdOutput 3 3 ℚ), l.map Prod.fst = [2 * Demo.step] → l.length = 1 := by
      intro l h
      simpa using congrArg List.length h
    rw [h1 _ (by decide +kernel)] at this
    omega

end HistoryDemo

end Wam
