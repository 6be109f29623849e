import Verif.Props.Progress

/-!
# More about whole runs

* C19 for runs: without tagging there is never any tracked water.
* C72: the first missing input stops the run with an error; everything written before it is what a
  complete run would have written.
* Instances of the theorems about runs for a concrete experiment (`Lemmas/Demo`).
-/
set_option linter.unusedSectionVars false
set_option linter.unusedVariables false

namespace Wam
open Spec

section
variable {m n : ℕ} {K : Type*} [Field K] [LinearOrder K] [IsStrictOrderedRing K] {P : Type*}

/-- **C19** (forward run): if the mask is zero at every step that starts in the tagging window (or no
step does) and the run starts without tracked water, then every field of every file is zero. -/
theorem C19_run_forward (cfg : RunConfig K) (src : Source m n K) (inp : Input m n K) (path : ℤ → P)
    (disk : P → Option (FwdOutput (m + 2) (n + 2) K)) (h : Runnable cfg src inp)
    (hw : ∀ t, cfg.tracking_start_date ≤ t → t ≤ cfg.tracking_end_date → Wet (inp.states t))
    (hstart : ∀ i j, (startFwd cfg path disk).1 i j = 0 ∧ (startFwd cfg path disk).2 i j = 0)
    (hmask : ∀ t, cfg.tagging_start_date ≤ t → t ≤ cfg.tagging_end_date →
      ∀ i j, inp.region t i j = 0)
    {s} (hs : EndsIn (fwdRun cfg src path disk) s) :
    ∀ x ∈ s.files, ∀ i j, x.2.s_track_upper i j = 0 ∧ x.2.s_track_lower i j = 0 ∧
      x.2.p_track_upper i j = 0 ∧ x.2.p_track_lower i j = 0 ∧ x.2.tagged_evap i j = 0 ∧
      x.2.losses i j = 0 ∧ x.2.gains i j = 0 := by
  obtain ⟨o, r, ho, rfl⟩ := fwd_ends cfg src inp path disk h hs
  have ho' := fwd_init_eq cfg src path disk o ho
  have hz : o = FwdOutput.zeros := by
    rw [ho']
    have e1 : (startFwd cfg path disk).1 = fun _ _ => 0 := by
      funext i j; exact (hstart i j).1
    have e2 : (startFwd cfg path disk).2 = fun _ _ => 0 := by
      funext i j; exact (hstart i j).2
    simp only [e1, e2, FwdOutput.zeros, ofRat_zero]
  have hpos := h.timestep_pos
  have hAB := h.ordered
  have step : ∀ k < cfg.steps, (fwdProc cfg src.grid inp).step k FwdOutput.zeros =
      (FwdOutput.zeros : FwdOutput (m + 2) (n + 2) K) := by
    intro k hk
    have t0 := cfg.fwdTime_mem hpos hAB k hk.le
    have t1 := cfg.fwdTime_mem hpos hAB (k + 1) hk
    simp only [fwdProc, fwdStepAt, ← cfg.fwdTime_succ]
    apply C19_nothing_from_nothing_forward
    · exact hw _ t0.1 t0.2
    · exact hw _ t1.1 t1.2
    · intro i j
      unfold maskAt
      by_cases hwin : inWindow cfg (cfg.fwdTime k)
      · rw [if_pos hwin]; exact hmask _ hwin.1 hwin.2 i j
      · rw [if_neg hwin]; exact ofRat_zero
    · intro i j; simp [FwdOutput.zeros]
    · intro i j; simp [FwdOutput.zeros]
  intro x hx
  obtain ⟨i, hi, _, rfl⟩ := (Proc.mem_files _ _).mp hx
  have hout : (fwdProc cfg src.grid inp).out o i = FwdOutput.zeros := by
    refine (fwdProc cfg src.grid inp).out_inv o (fun _ x => x = FwdOutput.zeros) hz
      cfg.steps (fun k hk x hx => by rw [hx]; exact step k hk) ?_ i hi.le
    intro _ x hx
    rw [hx]
    simp [fwdProc, FwdOutput.flush, FwdOutput.zeros]
  have hfull : (fwdProc cfg src.grid inp).full o i = FwdOutput.zeros := by
    rw [Proc.full, hout]; exact step i hi
  intro a b
  simp only [hfull, FwdOutput.zeros, ofRat_zero, and_self]

/-- **C19** (backward run) -/
theorem C19_run_backward (cfg : RunConfig K) (src : Source m n K) (inp : Input m n K) (path : ℤ → P)
    (disk : P → Option (BwdOutput (m + 2) (n + 2) K)) (h : Runnable cfg src inp)
    (hw : ∀ t, cfg.tracking_start_date ≤ t → t ≤ cfg.tracking_end_date → Wet (inp.states t))
    (hstart : ∀ i j, (startBwd cfg path disk).1 i j = 0 ∧ (startBwd cfg path disk).2 i j = 0)
    (hmask : ∀ t, cfg.tagging_start_date ≤ t → t ≤ cfg.tagging_end_date →
      ∀ i j, inp.region t i j = 0)
    {s} (hs : EndsIn (bwdRun cfg src path disk) s) :
    ∀ x ∈ s.files, ∀ i j, x.2.s_track_upper i j = 0 ∧ x.2.s_track_lower i j = 0 ∧
      x.2.e_track i j = 0 ∧ x.2.tagged_precip i j = 0 ∧
      x.2.losses i j = 0 ∧ x.2.gains i j = 0 := by
  obtain ⟨o, r, ho, rfl⟩ := bwd_ends cfg src inp path disk h hs
  have ho' := bwd_init_eq cfg src path disk o ho
  have hz : o = BwdOutput.zeros := by
    rw [ho']
    have e1 : (startBwd cfg path disk).1 = fun _ _ => 0 := by
      funext i j; exact (hstart i j).1
    have e2 : (startBwd cfg path disk).2 = fun _ _ => 0 := by
      funext i j; exact (hstart i j).2
    simp only [e1, e2, BwdOutput.zeros, ofRat_zero]
  have hpos := h.timestep_pos
  have hAB := h.ordered
  have step : ∀ k < cfg.steps, (bwdProc cfg src.grid inp).step k BwdOutput.zeros =
      (BwdOutput.zeros : BwdOutput (m + 2) (n + 2) K) := by
    intro k hk
    have t0 := cfg.bwdTime_mem hpos hAB k hk.le
    have t1 := cfg.bwdTime_mem hpos hAB (k + 1) hk
    simp only [bwdProc, bwdStepAt, ← cfg.bwdTime_succ]
    apply C19_nothing_from_nothing_backward
    · exact hw _ t1.1 t1.2
    · exact hw _ t0.1 t0.2
    · intro i j
      unfold maskAt
      by_cases hwin : inWindow cfg (cfg.bwdTime k)
      · rw [if_pos hwin]; exact hmask _ hwin.1 hwin.2 i j
      · rw [if_neg hwin]; exact ofRat_zero
    · intro i j; simp [BwdOutput.zeros]
    · intro i j; simp [BwdOutput.zeros]
  intro x hx
  obtain ⟨i, hi, _, rfl⟩ := (Proc.mem_files _ _).mp hx
  have hout : (bwdProc cfg src.grid inp).out o i = BwdOutput.zeros := by
    refine (bwdProc cfg src.grid inp).out_inv o (fun _ x => x = BwdOutput.zeros) hz
      cfg.steps (fun k hk x hx => by rw [hx]; exact step k hk) ?_ i hi.le
    intro _ x hx
    rw [hx]
    simp [bwdProc, BwdOutput.flush, BwdOutput.zeros]
  have hfull : (bwdProc cfg src.grid inp).full o i = BwdOutput.zeros := by
    rw [Proc.full, hout]; exact step i hi
  intro a b
  simp only [hfull, BwdOutput.zeros, ofRat_zero, and_self]

end

/-! ### C72: missing input -/

section
variable {m n : ℕ} {α : Type*} [Add α] [Sub α] [Mul α] [Div α] [Neg α] [NpOps α] {P : Type*}

/-- `x'` is what `x` is, unless it fails -/
def Spec.AgreesOrFails {β : Type*} (x x' : Except Err β) : Prop := x' = x ∨ ∃ e, x' = .error e

/-- the region `r'` is the region `r`, except that it may be missing at some times -/
def Spec.RegionDamaged : Region (m + 2) (n + 2) α → Region (m + 2) (n + 2) α → Prop
  | .stationary a, .stationary b => a = b
  | .moving a, .moving b => ∀ t, AgreesOrFails (a t) (b t)
  | _, _ => False

/-- `src'` is `src` with some (any) of its data missing or unreadable -/
structure Spec.Damaged (src src' : Source m n α) : Prop where
  states : ∀ t, AgreesOrFails (src.states t) (src'.states t)
  fluxes : ∀ t, AgreesOrFails (src.fluxes t) (src'.fluxes t)
  grid : src'.grid = src.grid
  weight : src'.weight = src.weight
  region : (∃ e, src'.region = .error e) ∨
    ∃ r r', src.region = .ok r ∧ src'.region = .ok r' ∧ RegionDamaged r r'

theorem whileLoop_damaged {ω : Type*} (g : LoopState ω α → Bool)
    (body body' : LoopState ω α → Except Err (LoopState ω α))
    (h : ∀ s, AgreesOrFails (body s) (body' s))
    (mono : ∀ s s', body s = .ok s' → s.files <+: s'.files) :
    ∀ fuel s sf, whileLoop g body fuel s = .finished sf → s.files <+: sf.files ∧
      (whileLoop g body' fuel s = .finished sf ∨
      ∃ e s', whileLoop g body' fuel s = .raised e s' ∧ s'.files <+: sf.files) := by
  intro fuel
  induction fuel with
  | zero =>
    intro s sf hf
    unfold whileLoop at hf ⊢
    split at hf
    · cases hf
    · cases hf
      rename_i hg
      exact ⟨List.prefix_rfl, Or.inl (by rw [if_neg hg])⟩
  | succ fuel ih =>
    intro s sf hf
    unfold whileLoop at hf ⊢
    by_cases hg : g s = true
    · rw [if_pos hg] at hf ⊢
      cases hb : body s with
      | error e => rw [hb] at hf; cases hf
      | ok s1 =>
        rw [hb] at hf
        have h1 := ih s1 sf hf
        have hp := (mono s s1 hb).trans h1.1
        refine ⟨hp, ?_⟩
        rcases h s with h | ⟨e, h⟩
        · rw [h, hb]; exact h1.2
        · rw [h]; exact Or.inr ⟨e, s, rfl, hp⟩
    · rw [if_neg hg] at hf ⊢
      cases hf
      exact ⟨List.prefix_rfl, Or.inl rfl⟩

theorem taggingMask_damaged (cfg : RunConfig α) (r r' : Region (m + 2) (n + 2) α)
    (h : RegionDamaged r r') (t : ℤ) :
    AgreesOrFails (taggingMask cfg r t) (taggingMask cfg r' t) := by
  unfold taggingMask
  split
  · cases r <;> cases r' <;> simp only [RegionDamaged] at h
    · left; rw [h]
    · rename_i a b
      rcases h t with h | ⟨e, h⟩
      · left; simp only [h]
      · right; exact ⟨e, by simp only [h]⟩
  · left; rfl

theorem fwdBody_damaged (cfg : RunConfig α) (src src' : Source m n α) (h : Damaged src src')
    (r r' : Region (m + 2) (n + 2) α) (hr : RegionDamaged r r') (s) :
    AgreesOrFails (fwdBody cfg src r s) (fwdBody cfg src' r' s) := by
  have key : AgreesOrFails (fwdAdvance cfg src r s.t0 s.th s.t1 s.output)
      (fwdAdvance cfg src' r' s.t0 s.th s.t1 s.output) := by
    unfold fwdAdvance
    rw [h.grid]
    rcases h.states s.t0 with h1 | ⟨e, h1⟩ <;> rcases h.fluxes s.th with h2 | ⟨e', h2⟩ <;>
      rcases h.states s.t1 with h3 | ⟨e'', h3⟩ <;>
      rcases taggingMask_damaged cfg r r' hr s.t0 with h4 | ⟨e4, h4⟩ <;>
      rw [h1, h2, h3, h4] <;>
      rcases src.states s.t0 with _ | _ <;> rcases src.fluxes s.th with _ | _ <;>
      rcases src.states s.t1 with _ | _ <;> rcases taggingMask cfg r s.t0 with _ | _ <;>
      first
        | exact Or.inl rfl
        | exact Or.inr ⟨_, rfl⟩
  unfold fwdBody
  rw [h.weight]
  rcases key with key | ⟨e, key⟩
  · left; rw [key]
  · right; exact ⟨e, by rw [key]⟩

theorem bwdBody_damaged (cfg : RunConfig α) (src src' : Source m n α) (h : Damaged src src')
    (r r' : Region (m + 2) (n + 2) α) (hr : RegionDamaged r r') (s) :
    AgreesOrFails (bwdBody cfg src r s) (bwdBody cfg src' r' s) := by
  have key : AgreesOrFails (bwdAdvance cfg src r s.t0 s.th s.t1 s.output)
      (bwdAdvance cfg src' r' s.t0 s.th s.t1 s.output) := by
    unfold bwdAdvance
    rw [h.grid]
    rcases h.states s.t0 with h1 | ⟨e, h1⟩ <;> rcases h.fluxes s.th with h2 | ⟨e', h2⟩ <;>
      rcases h.states s.t1 with h3 | ⟨e'', h3⟩ <;>
      rcases taggingMask_damaged cfg r r' hr s.t1 with h4 | ⟨e4, h4⟩ <;>
      rw [h1, h2, h3, h4] <;>
      rcases src.states s.t0 with _ | _ <;> rcases src.fluxes s.th with _ | _ <;>
      rcases src.states s.t1 with _ | _ <;> rcases taggingMask cfg r s.t1 with _ | _ <;>
      first
        | exact Or.inl rfl
        | exact Or.inr ⟨_, rfl⟩
  unfold bwdBody
  rw [h.weight]
  rcases key with key | ⟨e, key⟩
  · left; rw [key]
  · right; exact ⟨e, by rw [key]⟩

theorem fwdBody_files (cfg : RunConfig α) (src : Source m n α) (r : Region (m + 2) (n + 2) α)
    (s s') (h : fwdBody cfg src r s = .ok s') : s.files <+: s'.files := by
  unfold fwdBody at h
  split at h
  · cases h
  · simp only at h
    split at h
    · cases h; exact List.prefix_append _ _
    · cases h; exact List.prefix_rfl

theorem bwdBody_files (cfg : RunConfig α) (src : Source m n α) (r : Region (m + 2) (n + 2) α)
    (s s') (h : bwdBody cfg src r s = .ok s') : s.files <+: s'.files := by
  unfold bwdBody at h
  split at h
  · cases h
  · simp only at h
    split at h
    · cases h; exact List.prefix_append _ _
    · cases h; exact List.prefix_rfl

/-- **C72** (forward): take away any part of the input of a run that completes.  Then the run still
completes with the same files and reports (the missing data were never needed), or it stops with an
error, and what it has written until then is a prefix of the files of the complete run: there are
never files that silently differ.  Holds for every kind of numbers. -/
theorem C72_missing_input_forward (cfg : RunConfig α) (src src' : Source m n α)
    (h : Damaged src src') (path : ℤ → P) (disk : P → Option (FwdOutput (m + 2) (n + 2) α))
    (fuel : ℕ) (s) (hs : fwdRun cfg src path disk fuel = .finished s) :
    fwdRun cfg src' path disk fuel = .finished s ∨
    ∃ e s', fwdRun cfg src' path disk fuel = .raised e s' ∧ s'.files <+: s.files := by
  have hini : AgreesOrFails (fwdInitialize cfg src path disk) (fwdInitialize cfg src' path disk) := by
    unfold fwdInitialize
    rcases h.states cfg.tracking_start_date with h1 | ⟨e, h1⟩
    · left; rw [h1]
    · right; exact ⟨e, by rw [h1]⟩
  have hst : ∀ o, fwdStart cfg src' o = fwdStart cfg src o := by
    intro o; unfold fwdStart; rw [h.weight]
  unfold fwdRun at hs ⊢
  cases hi : fwdInitialize cfg src path disk with
  | error e => rw [hi] at hs; cases hs
  | ok o =>
    rw [hi] at hs
    simp only at hs
    rcases hini with h1 | ⟨e, h1⟩
    · rw [h1, hi]
      simp only
      rcases h.region with ⟨e, h2⟩ | ⟨r, r', h2, h3, h4⟩
      · rw [h2]
        exact Or.inr ⟨e, _, rfl, List.nil_prefix⟩
      · rw [h2] at hs
        rw [h3, hst]
        exact (whileLoop_damaged _ _ _ (fwdBody_damaged cfg src src' h r r' h4)
          (fwdBody_files cfg src r) fuel _ s hs).2
    · rw [h1]
      exact Or.inr ⟨e, _, rfl, List.nil_prefix⟩

/-- **C72** (backward) -/
theorem C72_missing_input_backward (cfg : RunConfig α) (src src' : Source m n α)
    (h : Damaged src src') (path : ℤ → P) (disk : P → Option (BwdOutput (m + 2) (n + 2) α))
    (fuel : ℕ) (s) (hs : bwdRun cfg src path disk fuel = .finished s) :
    bwdRun cfg src' path disk fuel = .finished s ∨
    ∃ e s', bwdRun cfg src' path disk fuel = .raised e s' ∧ s'.files <+: s.files := by
  have hini : AgreesOrFails (bwdInitialize cfg src path disk) (bwdInitialize cfg src' path disk) := by
    unfold bwdInitialize
    rcases h.states cfg.tracking_end_date with h1 | ⟨e, h1⟩
    · left; rw [h1]
    · right; exact ⟨e, by rw [h1]⟩
  have hst : ∀ o, bwdStart cfg src' o = bwdStart cfg src o := by
    intro o; unfold bwdStart; rw [h.weight]
  unfold bwdRun at hs ⊢
  cases hi : bwdInitialize cfg src path disk with
  | error e => rw [hi] at hs; cases hs
  | ok o =>
    rw [hi] at hs
    simp only at hs
    rcases hini with h1 | ⟨e, h1⟩
    · rw [h1, hi]
      simp only
      rcases h.region with ⟨e, h2⟩ | ⟨r, r', h2, h3, h4⟩
      · rw [h2]
        exact Or.inr ⟨e, _, rfl, List.nil_prefix⟩
      · rw [h2] at hs
        rw [h3, hst]
        exact (whileLoop_damaged _ _ _ (bwdBody_damaged cfg src src' h r r' h4)
          (bwdBody_files cfg src r) fuel _ s hs).2
    · rw [h1]
      exact Or.inr ⟨e, _, rfl, List.nil_prefix⟩

end

/-! ### The theorems about runs, for a concrete experiment -/

section
open Demo

/-- C23: four iterations; loads in order -/
example : ∃ s, fwdRun cfg src path (fun _ => none) 4 = .finished s ∧ s.loads.length = 13 ∧
    s.loads.take 4 = [.states 0, .states 0, .fluxes (step / 2), .states step] := by
  obtain ⟨s, ⟨N, hN⟩, _⟩ := Demo.fwd_ends
  exact ⟨_, rfl, by decide +kernel, by decide +kernel⟩

/-- C26, C27, C28, C32, C33, C34, C35 and C29: a run that meets all their hypotheses.  It tags water
(3.6 mm in the middle cell), so the totals in these theorems are not zero. -/
example : ∃ s, EndsIn (fwdRun cfg src path fun _ => none) s ∧ Runnable cfg src inp ∧
    Physical inp cfg.tracking_start_date cfg.tracking_end_date ∧
    (∀ i j, (startFwd (m := 1) (n := 1) cfg path fun _ => none).1 i j = 0) ∧ (∀ i, 0 < src.grid.a i) ∧
    (∀ i, src.weight i = 1 * src.grid.a i) ∧
    2 * step ∈ s.files.map Prod.fst ∧ sumFiles s.files (·.tagged_evap 1 1) = 18 / 5 := by
  obtain ⟨s, hs, ht⟩ := Demo.fwd_ends
  refine ⟨s, hs, runnable, physical, fun i j => rfl, area_pos, fun i => (one_mul _).symm, ?_, ?_⟩
  · rw [ht]; decide
  · have := C32_tagged_total_forward cfg src inp path (fun _ => none) runnable hs 1 1
    rw [this]
    decide +kernel

example : ∃ s, EndsIn (bwdRun cfg src path fun _ => none) s ∧ Runnable cfg src inp ∧
    Physical inp cfg.tracking_start_date cfg.tracking_end_date ∧
    2 * step ∈ s.files.map Prod.fst ∧ sumFiles s.files (·.tagged_precip 1 1) = 9 / 5 := by
  obtain ⟨s, hs, ht⟩ := Demo.bwd_ends
  refine ⟨s, hs, runnable, physical, ?_, ?_⟩
  · rw [ht]; decide
  · have := C32_tagged_total_backward cfg src inp path (fun _ => none) runnable hs 1 1
    rw [this]
    decide +kernel

/-- C24: the same experiment with a zero time step -/
example : NeverEnds (fwdRun { cfg with timestep := 0 } src path fun _ => none) :=
  C24_zero_timestep_forward { cfg with timestep := 0 } src inp path (fun _ => none) rfl (by decide)
    rfl runnable.serves

/-- C72: without the fluxes of the last step the run raises after the first file -/
example : ∃ e s', fwdRun cfg
      { src with fluxes := fun t => if t = 7 * step / 2 then .error .keyError else src.fluxes t }
      path (fun _ => none) 10 = .raised e s' ∧ s'.files.map Prod.fst = [2 * step] :=
  ⟨_, _, rfl, by decide +kernel⟩

example : Damaged src
    { src with fluxes := fun t => if t = 7 * step / 2 then .error .keyError else src.fluxes t } where
  states _ := Or.inl rfl
  fluxes t := by
    by_cases h : t = 7 * step / 2
    · exact Or.inr ⟨_, if_pos h⟩
    · exact Or.inl (if_neg h)
  grid := rfl
  weight := rfl
  region := Or.inr ⟨_, _, rfl, rfl, rfl⟩

end

end Wam
