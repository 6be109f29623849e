import Verif.Spec.Corrections
import Verif.Lemmas.Command
import Verif.Props.Warnings
import Verif.Lemmas.Names

/-!
# C124: the correction fields that `track` writes
-/

set_option linter.unusedSectionVars false
set_option linter.unusedVariables false

namespace Wam
open Spec

section
variable {m n : ℕ} {α : Type} [Add α] [Sub α] [Mul α] [Div α] [Neg α] [NpOps α]

private theorem corrections_append (a b : List Saving) : corrections (a ++ b) = corrections a ++ corrections b := by
  induction a with
  | nil => rfl
  | cons x a ih => cases x <;> simp only [List.cons_append, corrections, ih]

private theorem corrections_outputs {ω : Type} (f : ω → List Char) (l : List (ℤ × ω)) :
    corrections (l.map fun x => .output x.1 (f x.2)) = [] := by
  induction l with
  | nil => rfl
  | cons x l ih => simpa only [List.map_cons, corrections] using ih

private theorem fields_append (shw : Layer m n α → List Char) (dt : α) (a : Fin m → α) (cs ds : List (ℤ × Layer m n α)) :
    ∀ w, fields shw dt a w (cs ++ ds) =
      fields shw dt a w cs ++ fields shw dt a (warnAll dt a w (cs.map Prod.snd)).1 ds := by
  induction cs with
  | nil => intro w; rfl
  | cons c cs ih =>
    intro w
    obtain ⟨t, l⟩ := c
    rcases hw : warnLayer dt a w l with ⟨w', k⟩
    have h1 : (warnAll dt a w (l :: cs.map Prod.snd)).1 = (warnAll dt a w' (cs.map Prod.snd)).1 := by
      simp only [warnAll, hw]
    cases k <;> simp only [List.cons_append, fields, hw, List.map_cons, h1, ih]

private theorem warnAll_append (dt : α) (a : Fin m → α) (ls ls' : List (Layer m n α)) :
    ∀ w, (warnAll dt a w (ls ++ ls')).1 = (warnAll dt a (warnAll dt a w ls).1 ls').1 := by
  induction ls with
  | nil => intro w; rfl
  | cons l ls ih => intro w; simp only [List.cons_append, warnAll, ih]

private theorem fields_length (shw : Layer m n α → List Char) (dt : α) (a : Fin m → α) (cs : List (ℤ × Layer m n α)) :
    ∀ w, (fields shw dt a w cs).length = (warnAll dt a w (cs.map Prod.snd)).2.length := by
  induction cs with
  | nil => intro w; rfl
  | cons c cs ih =>
    intro w
    obtain ⟨t, l⟩ := c
    rcases hw : warnLayer dt a w l with ⟨w', k⟩
    cases k <;> simp [fields, warnAll, hw, ih]

private theorem note_layers (lib : Library m n α) (dt : α) (a : Fin (m + 2) → α) (t : ℤ)
    (ls : List (Layer (m + 2) (n + 2) α)) :
    ∀ w, (noteLayers lib dt a t w ls).1 = (warnAll dt a w ls).1 ∧
      corrections (noteLayers lib dt a t w ls).2 = fields lib.showCorrection dt a w (ls.map fun l => (t, l)) := by
  induction ls with
  | nil => intro w; exact ⟨rfl, rfl⟩
  | cons l ls ih =>
    intro w
    rcases hw : warnLayer dt a w l with ⟨w', k⟩
    obtain ⟨h1, h2⟩ := ih w'
    cases k <;> simp [noteLayers, warnAll, fields, hw, h1, h2, corrections]

/-- what holds after `k` steps: thresholds and fields are those of the checks -/
private def NotedAfter {ω : Type} (lib : Library m n α) (dt : α) (src : Source m n α) (first step half : ℤ) (k : ℕ)
    (s : Noted ω α) : Prop :=
  ∃ cs, Checks src first step half k cs ∧
    s.warn = (warnAll dt src.grid.a WarnState.start (cs.map Prod.snd)).1 ∧
    corrections s.saved = fields lib.showCorrection dt src.grid.a WarnState.start cs

private theorem noted_next {ω : Type} (lib : Library m n α) (cfg : RunConfig α) (src : Source m n α)
    (first step half : ℤ) (k : ℕ) (s : Noted ω α)
    (h : NotedAfter lib (ofRat cfg.timestep) src first step half k s) (S : States (m + 2) (n + 2) α)
    (F : Fluxes (m + 2) (n + 2) α) (hS : src.states (first + k * step) = .ok S)
    (hF : src.fluxes (first + k * step + half) = .ok F) (s' : LoopState ω α) (l : List Saving) (hl : corrections l = []) :
    NotedAfter lib (ofRat cfg.timestep) src first step half (k + 1)
      { state := s', warn := (noteStep lib cfg src s.warn (first + k * step) (.ok S) (.ok F)).1
        saved := s.saved ++ (noteStep lib cfg src s.warn (first + k * step) (.ok S) (.ok F)).2 ++ l } := by
  obtain ⟨cs, hc, hw, hf⟩ := h
  refine ⟨_, .next k cs S F hc hS hF, ?_, ?_⟩
  · rw [List.map_append, warnAll_append, ← hw]
    exact (note_layers lib _ _ _ _ _).1
  · rw [corrections_append, corrections_append, hl, List.append_nil, hf, fields_append, ← hw]
    congr 1
    exact (note_layers lib _ _ _ _ _).2

private theorem fwd_ok (cfg : RunConfig α) (src : Source m n α) (region : Region (m + 2) (n + 2) α)
    (s s' : LoopState (FwdOutput (m + 2) (n + 2) α) α) (h : fwdBody cfg src region s = .ok s') :
    (∃ S F, src.states s.t0 = .ok S ∧ src.fluxes s.th = .ok F) ∧
      s'.t0 = s.t0 + cfg.dt ∧ s'.th = s.th + cfg.dt ∧ s'.t1 = s.t1 + cfg.dt := by
  unfold fwdBody at h
  split at h
  · cases h
  · rename_i o loaded ha
    constructor
    · unfold fwdAdvance at ha
      split at ha
      · rename_i S F _ _ _ h1 h2 _ _
        exact ⟨S, F, h1, h2⟩
      all_goals cases ha
    · simp only at h
      split at h
      · injection h with h; subst h; exact ⟨rfl, rfl, rfl⟩
      · injection h with h; subst h; exact ⟨rfl, rfl, rfl⟩

private theorem fwd_loop_noted (lib : Library m n α) (cfg : RunConfig α) (src : Source m n α)
    (region : Region (m + 2) (n + 2) α) (fuel : ℕ) :
    ∀ (k : ℕ) (s : Noted (FwdOutput (m + 2) (n + 2) α) α),
      NotedAfter lib (ofRat cfg.timestep) src cfg.tracking_start_date cfg.dt cfg.halfDt k s →
      s.state.t0 = cfg.tracking_start_date + k * cfg.dt → s.state.th = cfg.tracking_start_date + k * cfg.dt + cfg.halfDt →
      s.state.t1 = cfg.tracking_start_date + k * cfg.dt + cfg.dt →
      (0 < k → cfg.tracking_start_date + k * cfg.dt ≤ cfg.tracking_end_date) →
      ∃ N cs, Checks src cfg.tracking_start_date cfg.dt cfg.halfDt N cs ∧
        (0 < N → cfg.tracking_start_date + N * cfg.dt ≤ cfg.tracking_end_date) ∧
        (let r := endOfLoop (whileLoop (fun s => fwdGuard cfg s.state) (fwdNotedBody lib cfg src region) fuel s)
         corrections r.1 = fields lib.showCorrection (ofRat cfg.timestep) src.grid.a WarnState.start cs ∧
         (r.2 = none → cfg.tracking_end_date < cfg.tracking_start_date + (N + 1) * cfg.dt)) := by
  induction fuel with
  | zero =>
    intro k s h h0 hh h1 hle
    obtain ⟨cs, hc, hw, hf⟩ := h
    refine ⟨k, cs, hc, hle, ?_⟩
    simp only [whileLoop]
    split_ifs with hg
    · exact ⟨hf, fun h => by cases h⟩
    · refine ⟨hf, fun _ => ?_⟩
      rw [fwdGuard, decide_eq_true_iff, h1] at hg
      linarith
  | succ fuel ih =>
    intro k s h h0 hh h1 hle
    have h' := h
    obtain ⟨cs, hc, hw, hf⟩ := h'
    simp only [whileLoop]
    split_ifs with hg
    · rw [fwdGuard, decide_eq_true_iff, h1] at hg
      rcases hb : fwdBody cfg src region s.state with e | s'
      · simp only [fwdNotedBody, hb]
        exact ⟨k, cs, hc, hle, hf, fun h => by cases h⟩
      · obtain ⟨⟨S, F, hS, hF⟩, e0, eh, e1⟩ := fwd_ok cfg src region _ _ hb
        simp only [fwdNotedBody, hb]
        refine ih (k + 1) _ ?_ ?_ ?_ ?_ ?_
        · rw [hS, hF, h0]
          rw [h0] at hS
          rw [hh] at hF
          exact noted_next lib cfg src _ _ _ k s h S F hS hF s' _ (corrections_outputs _ _)
        · show s'.t0 = _
          rw [e0, h0]; push_cast; ring
        · show s'.th = _
          rw [eh, hh]; push_cast; ring
        · show s'.t1 = _
          rw [e1, h1]; push_cast; ring
        · intro _; push_cast; linarith
    · refine ⟨k, cs, hc, hle, hf, fun _ => ?_⟩
      rw [fwdGuard, decide_eq_true_iff, h1] at hg
      linarith

private theorem bwd_ok (cfg : RunConfig α) (src : Source m n α) (region : Region (m + 2) (n + 2) α)
    (s s' : LoopState (BwdOutput (m + 2) (n + 2) α) α) (h : bwdBody cfg src region s = .ok s') :
    (∃ S F, src.states s.t1 = .ok S ∧ src.fluxes s.th = .ok F) ∧
      s'.t0 = s.t0 - cfg.dt ∧ s'.th = s.th - cfg.dt ∧ s'.t1 = s.t1 - cfg.dt := by
  unfold bwdBody at h
  split at h
  · cases h
  · rename_i o loaded ha
    constructor
    · unfold bwdAdvance at ha
      split at ha
      · rename_i _ F S _ _ _ h2 h1 _
        exact ⟨S, F, h1, h2⟩
      all_goals cases ha
    · simp only at h
      split at h
      · injection h with h; subst h; exact ⟨rfl, rfl, rfl⟩
      · injection h with h; subst h; exact ⟨rfl, rfl, rfl⟩

private theorem bwd_loop_noted (lib : Library m n α) (cfg : RunConfig α) (src : Source m n α)
    (region : Region (m + 2) (n + 2) α) (fuel : ℕ) :
    ∀ (k : ℕ) (s : Noted (BwdOutput (m + 2) (n + 2) α) α),
      NotedAfter lib (ofRat cfg.timestep) src cfg.tracking_end_date (-cfg.dt) (-cfg.halfDt) k s →
      s.state.t1 = cfg.tracking_end_date + k * -cfg.dt → s.state.th = cfg.tracking_end_date + k * -cfg.dt + -cfg.halfDt →
      s.state.t0 = cfg.tracking_end_date + k * -cfg.dt + -cfg.dt →
      (0 < k → cfg.tracking_start_date ≤ cfg.tracking_end_date - k * cfg.dt) →
      ∃ N cs, Checks src cfg.tracking_end_date (-cfg.dt) (-cfg.halfDt) N cs ∧
        (0 < N → cfg.tracking_start_date ≤ cfg.tracking_end_date - N * cfg.dt) ∧
        (let r := endOfLoop (whileLoop (fun s => bwdGuard cfg s.state) (bwdNotedBody lib cfg src region) fuel s)
         corrections r.1 = fields lib.showCorrection (ofRat cfg.timestep) src.grid.a WarnState.start cs ∧
         (r.2 = none → cfg.tracking_end_date - (N + 1) * cfg.dt < cfg.tracking_start_date)) := by
  induction fuel with
  | zero =>
    intro k s h h0 hh h1 hle
    obtain ⟨cs, hc, hw, hf⟩ := h
    refine ⟨k, cs, hc, hle, ?_⟩
    simp only [whileLoop]
    split_ifs with hg
    · exact ⟨hf, fun h => by cases h⟩
    · refine ⟨hf, fun _ => ?_⟩
      rw [bwdGuard, decide_eq_true_iff, h1] at hg
      linarith
  | succ fuel ih =>
    intro k s h h0 hh h1 hle
    have h' := h
    obtain ⟨cs, hc, hw, hf⟩ := h'
    simp only [whileLoop]
    split_ifs with hg
    · rw [bwdGuard, decide_eq_true_iff, h1] at hg
      rcases hb : bwdBody cfg src region s.state with e | s'
      · simp only [bwdNotedBody, hb]
        exact ⟨k, cs, hc, hle, hf, fun h => by cases h⟩
      · obtain ⟨⟨S, F, hS, hF⟩, e0, eh, e1⟩ := bwd_ok cfg src region _ _ hb
        simp only [bwdNotedBody, hb]
        refine ih (k + 1) _ ?_ ?_ ?_ ?_ ?_
        · rw [hS, hF, h0]
          rw [h0] at hS
          rw [hh] at hF
          exact noted_next lib cfg src _ _ _ k s h S F hS hF s' _ (corrections_outputs _ _)
        · show s'.t1 = _
          rw [e1, h0]; push_cast; ring
        · show s'.th = _
          rw [eh, hh]; push_cast; ring
        · show s'.t0 = _
          rw [e0, h1]; push_cast; ring
        · intro _; push_cast; linarith
    · refine ⟨k, cs, hc, hle, hf, fun _ => ?_⟩
      rw [bwdGuard, decide_eq_true_iff, h1] at hg
      linarith


private theorem mask_corrections (lib : Library m n α) (cfg : Loaded (TrackSettings α)) (fs : FileSystem) :
    corrections (maskSaving lib cfg fs) = [] := by
  unfold maskSaving
  split
  · split <;> rfl
  · rfl

variable [LinearOrder α] [NpTrig α]

/-- **C124** The correction fields of a forward run are those of the checks of its time steps, in this order: one for
every check that gives a warning.  A run that ends normally has made all its steps; one that ends with an exception
has written the fields of the steps before. -/
theorem C124_forward (lib : Library m n α) (cfg : Loaded (TrackSettings α)) (fs : FileSystem)
    (hb : cfg.config.rest.backward = false) :
    let r := trackExperiment lib cfg fs
    let src : Source m n α := fwdSource lib cfg fs
    let start := cfg.config.dates .tracking_start_date
    let finish := cfg.config.dates .tracking_end_date
    let dt := cfg.config.rest.timestep * 1000000
    ∃ N cs, Checks src start dt (cfg.config.rest.timestep * 500000) N cs ∧
      (0 < N → start + N * dt ≤ finish) ∧
      corrections r.1 = fields lib.showCorrection (ofRat cfg.config.rest.timestep) src.grid.a ⟨ofRat 0, ofRat 1⟩ cs ∧
      (r.2 = none → finish < start + (N + 1) * dt) := by
  intro r src start finish dt
  have hr : r = fwdTracking lib cfg.runConfig src (maskSaving lib cfg fs)
      (fun t => cfg.output ++ [outputName cfg.calendar false t]) (restartFile lib.readFwd fs) cfg.fuel := by
    show trackExperiment lib cfg fs = _
    unfold trackExperiment
    rw [if_neg (by rw [hb]; decide)]
  rw [hr]
  unfold fwdTracking
  split
  · exact ⟨0, [], .none, fun h => absurd h (lt_irrefl _), rfl, fun h => by cases h⟩
  · split
    · exact ⟨0, [], .none, fun h => absurd h (lt_irrefl _), mask_corrections lib cfg fs, fun h => by cases h⟩
    · rename_i o _ _ region _
      have := fwd_loop_noted lib cfg.runConfig src region cfg.fuel 0
        { state := fwdStart cfg.runConfig src o, warn := WarnState.start, saved := maskSaving lib cfg fs }
        ⟨[], .none, rfl, mask_corrections lib cfg fs⟩ (by simp [fwdStart]) (by simp [fwdStart]) (by simp [fwdStart])
        (fun h => absurd h (lt_irrefl _))
      exact this

/-- **C124** The correction fields of a backward run are those of the checks of its time steps, one for
every check that gives a warning.  A run that ends normally has made all its steps; one that ends with an exception
has written the fields of the steps before. -/
theorem C124_backward (lib : Library m n α) (cfg : Loaded (TrackSettings α)) (fs : FileSystem)
    (hb : cfg.config.rest.backward = true) :
    let r := trackExperiment lib cfg fs
    let src : Source m n α := bwdSource lib cfg fs
    let start := cfg.config.dates .tracking_start_date
    let finish := cfg.config.dates .tracking_end_date
    let dt := cfg.config.rest.timestep * 1000000
    ∃ N cs, Checks src finish (-dt) (-(cfg.config.rest.timestep * 500000)) N cs ∧
      (0 < N → start ≤ finish - N * dt) ∧
      corrections r.1 = fields lib.showCorrection (ofRat cfg.config.rest.timestep) src.grid.a ⟨ofRat 0, ofRat 1⟩ cs ∧
      (r.2 = none → finish - (N + 1) * dt < start) := by
  intro r src start finish dt
  have hr : r = bwdTracking lib cfg.runConfig src (maskSaving lib cfg fs)
      (fun t => cfg.output ++ [outputName cfg.calendar true t]) (restartFile lib.readBwd fs) cfg.fuel := by
    show trackExperiment lib cfg fs = _
    unfold trackExperiment
    rw [if_pos hb]
  rw [hr]
  unfold bwdTracking
  split
  · exact ⟨0, [], .none, fun h => absurd h (lt_irrefl _), rfl, fun h => by cases h⟩
  · split
    · exact ⟨0, [], .none, fun h => absurd h (lt_irrefl _), mask_corrections lib cfg fs, fun h => by cases h⟩
    · rename_i o _ _ region _
      have := bwd_loop_noted lib cfg.runConfig src region cfg.fuel 0
        { state := bwdStart cfg.runConfig src o, warn := WarnState.start, saved := maskSaving lib cfg fs }
        ⟨[], .none, rfl, mask_corrections lib cfg fs⟩ (by simp [bwdStart, sub_eq_add_neg]) (by simp [bwdStart, sub_eq_add_neg]) (by simp [bwdStart, sub_eq_add_neg])
        (fun h => absurd h (lt_irrefl _))
      exact this


end

section
variable {m n : ℕ} {K : Type} [Field K] [LinearOrder K] [IsStrictOrderedRing K]

/-- **C124** As many fields as warnings: at most 32 for the affected area, and after `k` others some cell was cut by a
factor below `(10/11)^k`. -/
theorem C124_bounded (shw : Layer m n (XF K) → List Char) (dt : K) (a : Fin m → K) (hdt : 0 < dt) (ha : ∀ i, 0 ≤ a i)
    (hm : 0 < m) (hn : 0 < n) (cs : List (ℤ × Layer m n K)) (hs : ∀ c ∈ cs, ∀ i j, 0 ≤ c.2.s i j) :
    ∃ k, (fields shw (XF.fin dt) (fun i => XF.fin (a i)) ⟨ofRat 0, ofRat 1⟩
        (cs.map fun c => (c.1, Spec.Layer.lift c.2))).length ≤ 32 + k ∧
      (0 < k → ∃ c ∈ cs, ∃ f ∈ cuts dt a c.2, f < (10 / 11) ^ k) := by
  have e0 : (WarnState.start : WarnState (XF K)) = WarnState.lift ⟨0, 1⟩ := by
    simp [WarnState.start, WarnState.lift]
  obtain ⟨st1, w1, e1, a1, a2, a3, a4, a5, a6, a7, a8⟩ := warnAll_spec dt a hdt ha hm hn (cs.map Prod.snd)
    (fun l h => by
      obtain ⟨c, hc, rfl⟩ := List.mem_map.1 h
      exact hs c hc) ⟨0, 1⟩ le_rfl zero_le_one (by norm_num)
  have ec : (cs.map fun c => ((c.1, Spec.Layer.lift c.2) : ℤ × Layer m n (XF K))).map Prod.snd =
      (cs.map Prod.snd).map Spec.Layer.lift := by
    simp [List.map_map, Function.comp_def]
  have es : (⟨ofRat 0, ofRat 1⟩ : WarnState (XF K)) = WarnState.start := rfl
  refine ⟨w1.count .factor, ?_, fun h => ?_⟩
  · rw [fields_length, ec, es, e0, e1]
    have hlen : ∀ l : List WarnKind, l.length = l.count .area + l.count .factor := by
      intro l
      induction l with
      | nil => rfl
      | cons x l ih => cases x <;> simp [ih] <;> omega
    have harea : w1.count .area ≤ 32 := by
      by_contra hc
      rw [not_le] at hc
      have h1 := a6 (by omega)
      have h2 : (5 : K) * (11 / 10) ^ 32 ≤ 5 * (11 / 10) ^ (w1.count .area - 1) := by
        apply mul_le_mul_of_nonneg_left _ (by norm_num)
        exact pow_le_pow_right₀ (by norm_num) (by omega)
      have h3 : (100 : K) < 5 * (11 / 10) ^ 32 := by norm_num
      linarith
    show w1.length ≤ _
    rw [hlen]
    omega
  · obtain ⟨h1, l, hl, h2⟩ := a8 h
    obtain ⟨c, hc, rfl⟩ := List.mem_map.1 hl
    exact ⟨c, hc, _, h2, by simpa using h1⟩

/-- **C124** A run in which no cell ever loses more than half of its water in a step writes no field. -/
theorem C124_calm (shw : Layer m n (XF K) → List Char) (dt : K) (a : Fin m → K) (hdt : 0 < dt)
    (hm : 0 < m) (hn : 0 < n) (cs : List (ℤ × Layer m n K)) (hs : ∀ c ∈ cs, Calm dt a c.2) :
    fields shw (XF.fin dt) (fun i => XF.fin (a i)) ⟨ofRat 0, ofRat 1⟩ (cs.map fun c => (c.1, Spec.Layer.lift c.2)) = [] := by
  have e0 : (⟨ofRat 0, ofRat 1⟩ : WarnState (XF K)) = WarnState.lift ⟨0, 1⟩ := by
    simp [WarnState.lift]
  rw [e0]
  induction cs with
  | nil => rfl
  | cons c cs ih =>
    obtain ⟨t, l⟩ := c
    obtain ⟨st', w, e, hF, hA, -, -, hN⟩ := C36_warning_iff dt a l ⟨0, 1⟩ hdt hm hn
    have hcalm : Calm dt a l := hs (t, l) (List.mem_cons_self ..)
    have hw : w = none := by
      rcases w with _ | _ | _
      · rfl
      · obtain ⟨f, ⟨i, j, hy, rfl⟩, hlt⟩ := hF.1 rfl
        exfalso
        have h1 := hcalm i j
        have h2 : 0 < (|l.fx i j| + |l.fy i j|) * dt :=
          mul_pos (add_pos_of_nonneg_of_pos (abs_nonneg _) (abs_pos.2 hy)) hdt
        have h3 : (1 : K) ≤ (1 / 2 * (l.s i j * a i)) / ((|l.fx i j| + |l.fy i j|) * dt) := by
          rw [le_div_iff₀ h2, one_mul]; exact h1
        unfold cut at hlt
        rw [min_eq_left h3] at hlt
        norm_num at hlt
      · obtain ⟨-, h5, -⟩ := hA.1 rfl
        exfalso
        unfold percent at h5
        rw [Finset.filter_false_of_mem (by intro p _ h; exact h.2 (hcalm p.1 p.2))] at h5
        simp at h5
        norm_num at h5
    subst hw
    have := hN rfl
    subst this
    simp only [List.map_cons, fields, e]
    exact ih (fun c hc => hs c (List.mem_cons_of_mem _ hc))

/-- **C124** A field is written for the first check if there a cell with a meridional flux has to be cut below 10/11. -/
theorem C124_first (shw : Layer m n (XF K) → List Char) (dt : K) (a : Fin m → K) (hdt : 0 < dt)
    (t : ℤ) (l : Layer m n K) (cs : List (ℤ × Layer m n (XF K))) (i : Fin m) (j : Fin n) (hy : l.fy i j ≠ 0)
    (hc : 1 / 2 * (l.s i j * a i) < 10 / 11 * ((|l.fx i j| + |l.fy i j|) * dt)) :
    ∃ rest, fields shw (XF.fin dt) (fun i => XF.fin (a i)) ⟨ofRat 0, ofRat 1⟩ ((t, Spec.Layer.lift l) :: cs) =
      (t, shw (Spec.Layer.lift l)) :: rest := by
  have e0 : (⟨ofRat 0, ofRat 1⟩ : WarnState (XF K)) = WarnState.lift ⟨0, 1⟩ := by
    simp [WarnState.lift]
  rw [e0]
  obtain ⟨st', w, e, hF, -⟩ := C36_warning_iff dt a l ⟨0, 1⟩ hdt i.pos j.pos
  have h2 : 0 < (|l.fx i j| + |l.fy i j|) * dt :=
    mul_pos (add_pos_of_nonneg_of_pos (abs_nonneg _) (abs_pos.2 hy)) hdt
  have hw : w = some .factor := by
    refine hF.2 ⟨_, ⟨i, j, hy, rfl⟩, ?_⟩
    unfold cut
    refine (min_le_right _ _).trans_lt ?_
    rw [div_lt_iff₀ h2]
    simpa using hc
  subst hw
  exact ⟨fields shw (XF.fin dt) (fun i => XF.fin (a i)) (WarnState.lift st') cs, by simp only [fields, e]⟩

end

private theorem stampString_iff (c : Calendar) (t t' : ℤ) (h : FourDigitYear c t) (h' : FourDigitYear c t') :
    stampString (dateTimeOf c t) = stampString (dateTimeOf c t') ↔ SameSecond t t' := by
  rw [← isoSecondString_iff c t t' h h']
  unfold stampString isoSecondString isoMinuteString dayString
  simp only [List.append_assoc, List.cons_append]
  constructor
  · intro e
    obtain ⟨e1, e⟩ := List.append_inj e rfl
    obtain ⟨e2, e⟩ := List.append_inj e rfl
    obtain ⟨e3, e⟩ := List.append_inj e rfl
    rw [List.cons.injEq] at e
    obtain ⟨e4, e⟩ := List.append_inj e.2 rfl
    obtain ⟨e5, e6⟩ := List.append_inj e rfl
    rw [e1, e2, e3, e4, e5, e6]
  · intro e
    obtain ⟨e1, e⟩ := List.append_inj e rfl
    rw [List.cons.injEq] at e
    obtain ⟨e2, e⟩ := List.append_inj e.2 rfl
    rw [List.cons.injEq] at e
    obtain ⟨e3, e⟩ := List.append_inj e.2 rfl
    rw [List.cons.injEq] at e
    obtain ⟨e4, e⟩ := List.append_inj e.2 rfl
    rw [List.cons.injEq] at e
    obtain ⟨e5, e⟩ := List.append_inj e.2 rfl
    rw [List.cons.injEq] at e
    rw [e1, e2, e3, e4, e5, e.2]

private theorem correctionName_iff (d d' : DateTime) :
    "stability_correction_".toList ++ stampString d ++ ".nc".toList =
      "stability_correction_".toList ++ stampString d' ++ ".nc".toList ↔ stampString d = stampString d' := by
  rw [List.append_left_inj, List.append_right_inj]

/-- **C124** Where a field goes: to the folder `debug`, and two fields go to the same file exactly when their times agree up to
the second.  So the two layers of a time step share a file (the later one, of the lower layer, replaces the earlier
one) and different time steps do not. -/
theorem C124_file (c : Calendar) (b b' : Bool) (t t' : ℤ) (x x' : List Char) (h : FourDigitYear c t)
    (h' : FourDigitYear c t') :
    ((Saving.correction t x).place c b).1 = some "debug".toList ∧
    ((Saving.correction t x).place c b = (Saving.correction t' x').place c b' ↔ t / 1000000 = t' / 1000000) := by
  have hs := stampString_iff c t t' h h'
  unfold SameSecond at hs
  rw [← hs, ← correctionName_iff]
  refine ⟨rfl, fun e => (Prod.mk.inj e).2, fun e => Prod.ext rfl e⟩

end Wam
