import Verif.Spec.Causal
import Verif.Lemmas.Run

/-! # Runs on data that agree during a period -/
set_option linter.unusedSectionVars false
set_option linter.unusedVariables false

namespace Wam
open Spec

variable {m n : ℕ} {α : Type*} [Add α] [Sub α] [Mul α] [Div α] [Neg α] [NpOps α] {P P' : Type*}

theorem taggingMask_same {lo hi : ℤ} {cfg cfg' : RunConfig α} (hc : SameSettingsOn lo hi cfg cfg')
    {r r' : Region (m + 2) (n + 2) α} (hr : SameRegionOn lo hi (.ok r) (.ok r')) {t : ℤ} (h0 : lo ≤ t) (h1 : t ≤ hi) :
    taggingMask cfg' r' t = taggingMask cfg r t := by
  unfold taggingMask
  by_cases h : cfg.tagging_start_date ≤ t ∧ t ≤ cfg.tagging_end_date
  · rw [if_pos h, if_pos ((hc.tagging t h0 h1).mpr h)]
    cases hr with
    | stationary mask => rfl
    | moving f g hfg => simp only [hfg t h0 h1]
  · rw [if_neg h, if_neg fun x => h ((hc.tagging t h0 h1).mp x)]

theorem fwdBody_times {cfg : RunConfig α} {src : Source m n α} {r : Region (m + 2) (n + 2) α}
    {s s' : LoopState (FwdOutput (m + 2) (n + 2) α) α} (h : fwdBody cfg src r s = .ok s') :
    s'.t0 = s.t0 + cfg.dt ∧ s'.th = s.th + cfg.dt ∧ s'.t1 = s.t1 + cfg.dt := by
  unfold fwdBody at h
  generalize fwdAdvance cfg src r s.t0 s.th s.t1 s.output = q at h
  rcases q with e | ⟨o, l⟩
  · cases h
  · simp only at h
    split at h <;> (injection h with h; subst h; exact ⟨rfl, rfl, rfl⟩)

theorem fwdBody_adds {cfg : RunConfig α} {src : Source m n α} {r : Region (m + 2) (n + 2) α} (T : ℤ)
    {s s' : LoopState (FwdOutput (m + 2) (n + 2) α) α} (h : fwdBody cfg src r s = .ok s') (hT : T < s.t0 + cfg.dt) :
    upTo T s'.files = upTo T s.files ∧ upTo T s'.reports = upTo T s.reports := by
  have hn : ¬ s.t0 + cfg.dt ≤ T := by omega
  unfold fwdBody at h
  generalize fwdAdvance cfg src r s.t0 s.th s.t1 s.output = q at h
  rcases q with e | ⟨o, l⟩
  · cases h
  · simp only at h
    split at h <;> (injection h with h; subst h)
    · simp only [upTo, List.filter_append, List.filter_cons, List.filter_nil, hn, decide_false, Bool.false_eq_true, if_false,
        List.append_nil, and_self]
    · exact ⟨rfl, rfl⟩

theorem bwdBody_times {cfg : RunConfig α} {src : Source m n α} {r : Region (m + 2) (n + 2) α}
    {s s' : LoopState (BwdOutput (m + 2) (n + 2) α) α} (h : bwdBody cfg src r s = .ok s') :
    s'.t0 = s.t0 - cfg.dt ∧ s'.th = s.th - cfg.dt ∧ s'.t1 = s.t1 - cfg.dt := by
  unfold bwdBody at h
  generalize bwdAdvance cfg src r s.t0 s.th s.t1 s.output = q at h
  rcases q with e | ⟨o, l⟩
  · cases h
  · simp only at h
    split at h <;> (injection h with h; subst h; exact ⟨rfl, rfl, rfl⟩)

theorem bwdBody_adds {cfg : RunConfig α} {src : Source m n α} {r : Region (m + 2) (n + 2) α} (T : ℤ)
    {s s' : LoopState (BwdOutput (m + 2) (n + 2) α) α} (h : bwdBody cfg src r s = .ok s') (hT : s.t1 - cfg.dt < T) :
    since T s'.files = since T s.files ∧ since T s'.reports = since T s.reports := by
  have hn : ¬ T ≤ s.t1 - cfg.dt := by omega
  unfold bwdBody at h
  generalize bwdAdvance cfg src r s.t0 s.th s.t1 s.output = q at h
  rcases q with e | ⟨o, l⟩
  · cases h
  · simp only at h
    split at h <;> (injection h with h; subst h)
    · simp only [since, List.filter_append, List.filter_cons, List.filter_nil, hn, decide_false, Bool.false_eq_true, if_false,
        List.append_nil, and_self]
    · exact ⟨rfl, rfl⟩

theorem fwdAdvance_same {lo hi : ℤ} {cfg cfg' : RunConfig α} {src src' : Source m n α} (hc : SameSettingsOn lo hi cfg cfg')
    (ha : AgreeOn lo hi src src') {r r' : Region (m + 2) (n + 2) α} (hr : SameRegionOn lo hi (.ok r) (.ok r')) {t0 th t1 : ℤ}
    (h0 : lo ≤ t0) (h01 : t0 ≤ th) (h11 : th ≤ t1) (h1 : t1 ≤ hi) (o : FwdOutput (m + 2) (n + 2) α) :
    fwdAdvance cfg' src' r' t0 th t1 o = fwdAdvance cfg src r t0 th t1 o := by
  unfold fwdAdvance
  rw [ha.states t0 h0 (by omega), ha.states t1 (by omega) h1, ha.fluxes th (by omega) (by omega),
    taggingMask_same hc hr (t := t0) h0 (by omega), ha.grid, hc.timestep, hc.kvf, hc.periodic_boundary]

theorem fwdBody_same {lo hi : ℤ} {cfg cfg' : RunConfig α} {src src' : Source m n α} (hc : SameSettingsOn lo hi cfg cfg')
    (ha : AgreeOn lo hi src src') {r r' : Region (m + 2) (n + 2) α} (hr : SameRegionOn lo hi (.ok r) (.ok r'))
    {s : LoopState (FwdOutput (m + 2) (n + 2) α) α} (h0 : lo ≤ s.t0) (h01 : s.t0 ≤ s.th) (h11 : s.th ≤ s.t1) (h1 : s.t1 ≤ hi)
    (he : cfg'.tracking_end_date < s.t1 + cfg.dt ↔ cfg.tracking_end_date < s.t1 + cfg.dt) :
    fwdBody cfg' src' r' s = fwdBody cfg src r s := by
  have hd : cfg'.dt = cfg.dt := by unfold RunConfig.dt; rw [hc.timestep]
  unfold fwdBody
  rw [fwdAdvance_same hc ha hr h0 h01 h11 h1, hd, hc.output_frequency, hc.periodic_boundary, ha.weight]
  simp only [he]

theorem fwdStart_same {lo hi : ℤ} {cfg cfg' : RunConfig α} {src src' : Source m n α} (hc : SameSettingsOn lo hi cfg cfg')
    (hs : cfg'.tracking_start_date = cfg.tracking_start_date) (hw : src'.weight = src.weight) (o : FwdOutput (m + 2) (n + 2) α) :
    fwdStart cfg' src' o = fwdStart cfg src o := by
  have hd : cfg'.dt = cfg.dt := by unfold RunConfig.dt; rw [hc.timestep]
  have hh : cfg'.halfDt = cfg.halfDt := by unfold RunConfig.halfDt; rw [hc.timestep]
  simp only [fwdStart, hs, hd, hh, hw, hc.periodic_boundary]

theorem fwdInitialize_same {lo hi : ℤ} {cfg cfg' : RunConfig α} {src src' : Source m n α} (hc : SameSettingsOn lo hi cfg cfg')
    (hs : cfg'.tracking_start_date = cfg.tracking_start_date)
    (hst : src'.states cfg.tracking_start_date = src.states cfg.tracking_start_date) (path : ℤ → P) (path' : ℤ → P')
    (disk : P → Option (FwdOutput (m + 2) (n + 2) α)) (disk' : P' → Option (FwdOutput (m + 2) (n + 2) α))
    (hdisk : cfg.restart = true → disk' (path' cfg.tracking_start_date) = disk (path cfg.tracking_start_date)) :
    fwdInitialize cfg' src' path' disk' = fwdInitialize cfg src path disk := by
  unfold fwdInitialize
  rw [hs, hst, hc.restart]
  rcases src.states cfg.tracking_start_date with e | S
  · rfl
  · by_cases hr : cfg.restart = true
    · simp only [if_pos hr, hdisk hr]
    · simp only [if_neg hr]

theorem bwdAdvance_same {lo hi : ℤ} {cfg cfg' : RunConfig α} {src src' : Source m n α} (hc : SameSettingsOn lo hi cfg cfg')
    (ha : AgreeOn lo hi src src') {r r' : Region (m + 2) (n + 2) α} (hr : SameRegionOn lo hi (.ok r) (.ok r')) {t0 th t1 : ℤ}
    (h0 : lo ≤ t0) (h01 : t0 ≤ th) (h11 : th ≤ t1) (h1 : t1 ≤ hi) (o : BwdOutput (m + 2) (n + 2) α) :
    bwdAdvance cfg' src' r' t0 th t1 o = bwdAdvance cfg src r t0 th t1 o := by
  unfold bwdAdvance
  rw [ha.states t0 h0 (by omega), ha.states t1 (by omega) h1, ha.fluxes th (by omega) (by omega),
    taggingMask_same hc hr (t := t1) (by omega) h1, ha.grid, hc.timestep, hc.kvf, hc.periodic_boundary]

theorem bwdBody_same {lo hi : ℤ} {cfg cfg' : RunConfig α} {src src' : Source m n α} (hc : SameSettingsOn lo hi cfg cfg')
    (ha : AgreeOn lo hi src src') {r r' : Region (m + 2) (n + 2) α} (hr : SameRegionOn lo hi (.ok r) (.ok r'))
    {s : LoopState (BwdOutput (m + 2) (n + 2) α) α} (h0 : lo ≤ s.t0) (h01 : s.t0 ≤ s.th) (h11 : s.th ≤ s.t1) (h1 : s.t1 ≤ hi)
    (he : s.t0 - cfg.dt < cfg'.tracking_start_date ↔ s.t0 - cfg.dt < cfg.tracking_start_date) :
    bwdBody cfg' src' r' s = bwdBody cfg src r s := by
  have hd : cfg'.dt = cfg.dt := by unfold RunConfig.dt; rw [hc.timestep]
  unfold bwdBody
  rw [bwdAdvance_same hc ha hr h0 h01 h11 h1, hd, hc.output_frequency, hc.periodic_boundary, ha.weight]
  simp only [he]

theorem bwdStart_same {lo hi : ℤ} {cfg cfg' : RunConfig α} {src src' : Source m n α} (hc : SameSettingsOn lo hi cfg cfg')
    (hs : cfg'.tracking_end_date = cfg.tracking_end_date) (hw : src'.weight = src.weight) (o : BwdOutput (m + 2) (n + 2) α) :
    bwdStart cfg' src' o = bwdStart cfg src o := by
  have hd : cfg'.dt = cfg.dt := by unfold RunConfig.dt; rw [hc.timestep]
  have hh : cfg'.halfDt = cfg.halfDt := by unfold RunConfig.halfDt; rw [hc.timestep]
  simp only [bwdStart, hs, hd, hh, hw, hc.periodic_boundary]

theorem bwdInitialize_same {lo hi : ℤ} {cfg cfg' : RunConfig α} {src src' : Source m n α} (hc : SameSettingsOn lo hi cfg cfg')
    (hs : cfg'.tracking_end_date = cfg.tracking_end_date)
    (hst : src'.states cfg.tracking_end_date = src.states cfg.tracking_end_date) (path : ℤ → P) (path' : ℤ → P')
    (disk : P → Option (BwdOutput (m + 2) (n + 2) α)) (disk' : P' → Option (BwdOutput (m + 2) (n + 2) α))
    (hdisk : cfg.restart = true → disk' (path' cfg.tracking_end_date) = disk (path cfg.tracking_end_date)) :
    bwdInitialize cfg' src' path' disk' = bwdInitialize cfg src path disk := by
  unfold bwdInitialize
  rw [hs, hst, hc.restart]
  rcases src.states cfg.tracking_end_date with e | S
  · rfl
  · by_cases hr : cfg.restart = true
    · simp only [if_pos hr, hdisk hr]
    · simp only [if_neg hr]

end Wam
