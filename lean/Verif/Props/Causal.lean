import Verif.Lemmas.Causal
import Verif.Lemmas.Demo

/-!
# C104: only the data of the period matter
-/
set_option linter.unusedSectionVars false
set_option linter.unusedVariables false

namespace Wam
open Spec

section
variable {m n : ℕ} {α : Type*} [Add α] [Sub α] [Mul α] [Div α] [Neg α] [NpOps α] {P P' : Type*}

/-- once a run is past `T`, nothing dated at `T` or on the other side is added -/
theorem fwd_later (T : ℤ) (c : RunConfig α) (x : Source m n α) (r : Region (m + 2) (n + 2) α) (hd : 0 < c.dt) (fuel : ℕ) :
    ∀ s : LoopState (FwdOutput (m + 2) (n + 2) α) α, T < s.t1 → s.t1 = s.t0 + c.dt →
      upTo T (lastState (whileLoop (fwdGuard c) (fwdBody c x r) fuel s)).files = upTo T s.files ∧
      upTo T (lastState (whileLoop (fwdGuard c) (fwdBody c x r) fuel s)).reports = upTo T s.reports := by
  induction fuel with
  | zero => intro s _ _; simp only [whileLoop]; split <;> exact ⟨rfl, rfl⟩
  | succ fuel ih =>
    intro s hT h1
    simp only [whileLoop]
    by_cases hg : fwdGuard c s = true
    · rw [if_pos hg]
      rcases hb : fwdBody c x r s with e | s'
      · exact ⟨rfl, rfl⟩
      · obtain ⟨a, b, d⟩ := fwdBody_times hb
        obtain ⟨f, g⟩ := fwdBody_adds T hb (by omega)
        obtain ⟨p, q⟩ := ih s' (by omega) (by omega)
        exact ⟨p.trans f, q.trans g⟩
    · rw [if_neg hg]; exact ⟨rfl, rfl⟩

theorem fwd_nothing (T : ℤ) (c : RunConfig α) (x : Source m n α) (p : ℤ → P) (d : P → Option (FwdOutput (m + 2) (n + 2) α))
    (hd : 0 < c.dt) (hT : T < c.tracking_start_date + c.dt) (fuel : ℕ) :
    upTo T (lastState (fwdRun c x p d fuel)).files = [] ∧ upTo T (lastState (fwdRun c x p d fuel)).reports = [] := by
  unfold fwdRun
  rcases fwdInitialize c x p d with e | o
  · exact ⟨rfl, rfl⟩
  · rcases x.region with e | r
    · exact ⟨rfl, rfl⟩
    · exact fwd_later T c x r hd fuel (fwdStart c x o) hT rfl

/-- once a run is past `T`, nothing dated at `T` or on the other side is added -/
theorem bwd_later (T : ℤ) (c : RunConfig α) (x : Source m n α) (r : Region (m + 2) (n + 2) α) (hd : 0 < c.dt) (fuel : ℕ) :
    ∀ s : LoopState (BwdOutput (m + 2) (n + 2) α) α, s.t0 < T → s.t0 = s.t1 - c.dt →
      since T (lastState (whileLoop (bwdGuard c) (bwdBody c x r) fuel s)).files = since T s.files ∧
      since T (lastState (whileLoop (bwdGuard c) (bwdBody c x r) fuel s)).reports = since T s.reports := by
  induction fuel with
  | zero => intro s _ _; simp only [whileLoop]; split <;> exact ⟨rfl, rfl⟩
  | succ fuel ih =>
    intro s hT h1
    simp only [whileLoop]
    by_cases hg : bwdGuard c s = true
    · rw [if_pos hg]
      rcases hb : bwdBody c x r s with e | s'
      · exact ⟨rfl, rfl⟩
      · obtain ⟨a, b, d⟩ := bwdBody_times hb
        obtain ⟨f, g⟩ := bwdBody_adds T hb (by omega)
        obtain ⟨p, q⟩ := ih s' (by omega) (by omega)
        exact ⟨p.trans f, q.trans g⟩
    · rw [if_neg hg]; exact ⟨rfl, rfl⟩

theorem bwd_nothing (T : ℤ) (c : RunConfig α) (x : Source m n α) (p : ℤ → P) (d : P → Option (BwdOutput (m + 2) (n + 2) α))
    (hd : 0 < c.dt) (hT : c.tracking_end_date - c.dt < T) (fuel : ℕ) :
    since T (lastState (bwdRun c x p d fuel)).files = [] ∧ since T (lastState (bwdRun c x p d fuel)).reports = [] := by
  unfold bwdRun
  rcases bwdInitialize c x p d with e | o
  · exact ⟨rfl, rfl⟩
  · rcases x.region with e | r
    · exact ⟨rfl, rfl⟩
    · exact bwd_later T c x r hd fuel (bwdStart c x o) hT rfl

/-- **C104** (forward).  What a run does depends only on the data of its period: two sources of data that agree at all times from
the start to the end of tracking give the same run, with all its files, errors and reports. -/
theorem C104_period_forward (cfg : RunConfig α) (hdt : 0 < cfg.timestep) (src src' : Source m n α)
    (ha : AgreeOn cfg.tracking_start_date cfg.tracking_end_date src src')
    (hord : cfg.tracking_start_date ≤ cfg.tracking_end_date) (path : ℤ → P) (path' : ℤ → P')
    (disk : P → Option (FwdOutput (m + 2) (n + 2) α)) (disk' : P' → Option (FwdOutput (m + 2) (n + 2) α))
    (hdisk : cfg.restart = true → disk' (path' cfg.tracking_start_date) = disk (path cfg.tracking_start_date)) (fuel : ℕ) :
    fwdRun cfg src' path' disk' fuel = fwdRun cfg src path disk fuel := by
  have hc : SameSettingsOn cfg.tracking_start_date cfg.tracking_end_date cfg cfg := ⟨rfl, rfl, rfl, rfl, rfl, fun _ _ _ => Iff.rfl⟩
  have hds : cfg.dt = cfg.timestep * 1000000 := rfl
  have hhs : cfg.halfDt = cfg.timestep * 500000 := rfl
  unfold fwdRun
  rw [fwdInitialize_same hc rfl (ha.states _ le_rfl hord) path path' disk disk' hdisk, fwdStart_same hc rfl ha.weight]
  rcases fwdInitialize cfg src path disk with e | o
  · rfl
  · show (match src'.region with | .error e => _ | .ok region => _) = match src.region with | .error e => _ | .ok region => _
    rw [fwdStart_same hc rfl ha.weight]
    have hreg := ha.region
    rcases hr : src.region with e | r <;> rcases hr' : src'.region with e' | r' <;> rw [hr, hr'] at hreg
    · cases hreg; rfl
    · cases hreg
    · cases hreg
    · have key : ∀ fuel (s : LoopState (FwdOutput (m + 2) (n + 2) α) α), cfg.tracking_start_date ≤ s.t0 →
          s.th = s.t0 + cfg.halfDt → s.t1 = s.t0 + cfg.dt →
          whileLoop (fwdGuard cfg) (fwdBody cfg src' r') fuel s = whileLoop (fwdGuard cfg) (fwdBody cfg src r) fuel s := by
        intro fuel
        induction fuel with
        | zero => intro s _ _ _; rfl
        | succ fuel ih =>
          intro s h0 hh h1
          simp only [whileLoop]
          by_cases hg : fwdGuard cfg s = true
          · have hg' : s.t1 ≤ cfg.tracking_end_date := of_decide_eq_true hg
            rw [if_pos hg, if_pos hg, fwdBody_same hc ha hreg h0 (by omega) (by omega) hg' Iff.rfl]
            rcases hb : fwdBody cfg src r s with e | s'
            · rfl
            · obtain ⟨a, b, c⟩ := fwdBody_times hb
              exact ih s' (by omega) (by omega) (by omega)
          · rw [if_neg hg, if_neg hg]
      exact key fuel _ le_rfl rfl rfl

/-- **C104** (no influence of the future, forward).  If the data and settings of two runs agree at all times from the start of
tracking to `T`, then their files and progress reports for times up to `T` are the same, whatever happens after `T`. -/
theorem C104_causal_forward (cfg cfg' : RunConfig α) (hdt : 0 < cfg.timestep) (src src' : Source m n α) (T : ℤ)
    (hc : SameSettingsOn cfg.tracking_start_date T cfg cfg') (hs : cfg'.tracking_start_date = cfg.tracking_start_date)
    (he : cfg'.tracking_end_date = cfg.tracking_end_date ∨
      (T + cfg.timestep * 1000000 ≤ cfg.tracking_end_date ∧ T + cfg.timestep * 1000000 ≤ cfg'.tracking_end_date))
    (ha : AgreeOn cfg.tracking_start_date T src src') (path : ℤ → P) (path' : ℤ → P')
    (disk : P → Option (FwdOutput (m + 2) (n + 2) α)) (disk' : P' → Option (FwdOutput (m + 2) (n + 2) α))
    (hdisk : cfg.restart = true → disk' (path' cfg.tracking_start_date) = disk (path cfg.tracking_start_date)) (fuel : ℕ) :
    upTo T (lastState (fwdRun cfg' src' path' disk' fuel)).files = upTo T (lastState (fwdRun cfg src path disk fuel)).files ∧
    upTo T (lastState (fwdRun cfg' src' path' disk' fuel)).reports = upTo T (lastState (fwdRun cfg src path disk fuel)).reports := by
  have hds : cfg.dt = cfg.timestep * 1000000 := rfl
  have hhs : cfg.halfDt = cfg.timestep * 500000 := rfl
  have hds' : cfg'.dt = cfg.timestep * 1000000 := by unfold RunConfig.dt usPerSecond; rw [hc.timestep]
  have hpos : 0 < cfg.timestep * 1000000 := by omega
  have hstart : ∀ o, fwdStart cfg' src' o = fwdStart cfg src o := fwdStart_same hc hs ha.weight
  have none : ∀ (c : RunConfig α) (x : Source m n α) (o : FwdOutput (m + 2) (n + 2) α), (fwdStart c x o).files = [] ∧ (fwdStart c x o).reports = [] :=
    fun _ _ _ => ⟨rfl, rfl⟩
  by_cases hT : cfg.tracking_start_date + cfg.timestep * 1000000 ≤ T
  · unfold fwdRun
    rw [fwdInitialize_same hc hs (ha.states _ le_rfl (by omega)) path path' disk disk' hdisk]
    rcases fwdInitialize cfg src path disk with e | o
    · exact ⟨rfl, rfl⟩
    · have hreg := ha.region
      rcases hr : src.region with e | r <;> rcases hr' : src'.region with e' | r' <;> rw [hr, hr'] at hreg
      · exact ⟨rfl, rfl⟩
      · cases hreg
      · cases hreg
      · dsimp only
        rw [hstart]
        have key : ∀ fuel (s : LoopState (FwdOutput (m + 2) (n + 2) α) α), cfg.tracking_start_date ≤ s.t0 →
            s.th = s.t0 + cfg.halfDt → s.t1 = s.t0 + cfg.dt →
            upTo T (lastState (whileLoop (fwdGuard cfg') (fwdBody cfg' src' r') fuel s)).files =
              upTo T (lastState (whileLoop (fwdGuard cfg) (fwdBody cfg src r) fuel s)).files ∧
            upTo T (lastState (whileLoop (fwdGuard cfg') (fwdBody cfg' src' r') fuel s)).reports =
              upTo T (lastState (whileLoop (fwdGuard cfg) (fwdBody cfg src r) fuel s)).reports := by
          intro fuel
          induction fuel with
          | zero =>
            intro s _ _ _
            simp only [whileLoop]
            constructor <;> split <;> split <;> rfl
          | succ fuel ih =>
            intro s h0 hh h1
            by_cases ht : s.t1 ≤ T
            · simp only [whileLoop]
              have hgg : fwdGuard cfg' s = fwdGuard cfg s := by
                unfold fwdGuard
                refine decide_eq_decide.mpr ?_
                rcases he with he | ⟨he, he'⟩
                · rw [he]
                · omega
              rw [hgg]
              by_cases hg : fwdGuard cfg s = true
              · rw [if_pos hg, if_pos hg, fwdBody_same hc ha hreg h0 (by omega) (by omega) ht
                  (by rcases he with he | ⟨he, he'⟩
                      · rw [he]
                      · omega)]
                rcases hb : fwdBody cfg src r s with e | s'
                · exact ⟨rfl, rfl⟩
                · obtain ⟨a, b, c⟩ := fwdBody_times hb
                  exact ih s' (by omega) (by omega) (by omega)
              · rw [if_neg hg, if_neg hg]; exact ⟨rfl, rfl⟩
            · obtain ⟨a, b⟩ := fwd_later T cfg src r (by omega) (fuel + 1) s (by omega) (by omega)
              obtain ⟨a', b'⟩ := fwd_later T cfg' src' r' (by omega) (fuel + 1) s (by omega) (by omega)
              exact ⟨a'.trans a.symm, b'.trans b.symm⟩
        exact key fuel (fwdStart cfg src o) le_rfl rfl rfl
  · obtain ⟨a, b⟩ := fwd_nothing T cfg src path disk (by omega) (by omega) fuel
    obtain ⟨a', b'⟩ := fwd_nothing T cfg' src' path' disk' (by omega) (by omega) fuel
    rw [a, b, a', b']
    exact ⟨rfl, rfl⟩

/-- **C104** (backward) -/
theorem C104_period_backward (cfg : RunConfig α) (hdt : 0 < cfg.timestep) (src src' : Source m n α)
    (ha : AgreeOn cfg.tracking_start_date cfg.tracking_end_date src src')
    (hord : cfg.tracking_start_date ≤ cfg.tracking_end_date) (path : ℤ → P) (path' : ℤ → P')
    (disk : P → Option (BwdOutput (m + 2) (n + 2) α)) (disk' : P' → Option (BwdOutput (m + 2) (n + 2) α))
    (hdisk : cfg.restart = true → disk' (path' cfg.tracking_end_date) = disk (path cfg.tracking_end_date)) (fuel : ℕ) :
    bwdRun cfg src' path' disk' fuel = bwdRun cfg src path disk fuel := by
  have hc : SameSettingsOn cfg.tracking_start_date cfg.tracking_end_date cfg cfg := ⟨rfl, rfl, rfl, rfl, rfl, fun _ _ _ => Iff.rfl⟩
  have hds : cfg.dt = cfg.timestep * 1000000 := rfl
  have hhs : cfg.halfDt = cfg.timestep * 500000 := rfl
  unfold bwdRun
  rw [bwdInitialize_same hc rfl (ha.states _ hord le_rfl) path path' disk disk' hdisk, bwdStart_same hc rfl ha.weight]
  rcases bwdInitialize cfg src path disk with e | o
  · rfl
  · show (match src'.region with | .error e => _ | .ok region => _) = match src.region with | .error e => _ | .ok region => _
    rw [bwdStart_same hc rfl ha.weight]
    have hreg := ha.region
    rcases hr : src.region with e | r <;> rcases hr' : src'.region with e' | r' <;> rw [hr, hr'] at hreg
    · cases hreg; rfl
    · cases hreg
    · cases hreg
    · have key : ∀ fuel (s : LoopState (BwdOutput (m + 2) (n + 2) α) α), s.t1 ≤ cfg.tracking_end_date →
          s.th = s.t1 - cfg.halfDt → s.t0 = s.t1 - cfg.dt →
          whileLoop (bwdGuard cfg) (bwdBody cfg src' r') fuel s = whileLoop (bwdGuard cfg) (bwdBody cfg src r) fuel s := by
        intro fuel
        induction fuel with
        | zero => intro s _ _ _; rfl
        | succ fuel ih =>
          intro s h1 hh h0
          simp only [whileLoop]
          by_cases hg : bwdGuard cfg s = true
          · have hg' : cfg.tracking_start_date ≤ s.t0 := of_decide_eq_true hg
            rw [if_pos hg, if_pos hg, bwdBody_same hc ha hreg hg' (by omega) (by omega) h1 Iff.rfl]
            rcases hb : bwdBody cfg src r s with e | s'
            · rfl
            · obtain ⟨a, b, c⟩ := bwdBody_times hb
              exact ih s' (by omega) (by omega) (by omega)
          · rw [if_neg hg, if_neg hg]
      exact key fuel _ le_rfl rfl rfl

/-- **C104** (no influence of the past, backward).  If the data and settings of two runs agree at all times from `T` to the end of
tracking, then their files and progress reports for times from `T` on are the same, whatever the data before `T` are. -/
theorem C104_causal_backward (cfg cfg' : RunConfig α) (hdt : 0 < cfg.timestep) (src src' : Source m n α) (T : ℤ)
    (hc : SameSettingsOn T cfg.tracking_end_date cfg cfg') (hs : cfg'.tracking_end_date = cfg.tracking_end_date)
    (he : cfg'.tracking_start_date = cfg.tracking_start_date ∨
      (cfg.tracking_start_date + cfg.timestep * 1000000 ≤ T ∧ cfg'.tracking_start_date + cfg.timestep * 1000000 ≤ T))
    (ha : AgreeOn T cfg.tracking_end_date src src') (path : ℤ → P) (path' : ℤ → P')
    (disk : P → Option (BwdOutput (m + 2) (n + 2) α)) (disk' : P' → Option (BwdOutput (m + 2) (n + 2) α))
    (hdisk : cfg.restart = true → disk' (path' cfg.tracking_end_date) = disk (path cfg.tracking_end_date)) (fuel : ℕ) :
    since T (lastState (bwdRun cfg' src' path' disk' fuel)).files = since T (lastState (bwdRun cfg src path disk fuel)).files ∧
    since T (lastState (bwdRun cfg' src' path' disk' fuel)).reports = since T (lastState (bwdRun cfg src path disk fuel)).reports := by
  have hds : cfg.dt = cfg.timestep * 1000000 := rfl
  have hhs : cfg.halfDt = cfg.timestep * 500000 := rfl
  have hds' : cfg'.dt = cfg.timestep * 1000000 := by unfold RunConfig.dt usPerSecond; rw [hc.timestep]
  have hpos : 0 < cfg.timestep * 1000000 := by omega
  have hstart : ∀ o, bwdStart cfg' src' o = bwdStart cfg src o := bwdStart_same hc hs ha.weight
  have none : ∀ (c : RunConfig α) (x : Source m n α) (o : BwdOutput (m + 2) (n + 2) α), (bwdStart c x o).files = [] ∧ (bwdStart c x o).reports = [] :=
    fun _ _ _ => ⟨rfl, rfl⟩
  by_cases hT : T ≤ cfg.tracking_end_date - cfg.timestep * 1000000
  · unfold bwdRun
    rw [bwdInitialize_same hc hs (ha.states _ (by omega) le_rfl) path path' disk disk' hdisk]
    rcases bwdInitialize cfg src path disk with e | o
    · exact ⟨rfl, rfl⟩
    · have hreg := ha.region
      rcases hr : src.region with e | r <;> rcases hr' : src'.region with e' | r' <;> rw [hr, hr'] at hreg
      · exact ⟨rfl, rfl⟩
      · cases hreg
      · cases hreg
      · dsimp only
        rw [hstart]
        have key : ∀ fuel (s : LoopState (BwdOutput (m + 2) (n + 2) α) α), s.t1 ≤ cfg.tracking_end_date →
            s.th = s.t1 - cfg.halfDt → s.t0 = s.t1 - cfg.dt →
            since T (lastState (whileLoop (bwdGuard cfg') (bwdBody cfg' src' r') fuel s)).files =
              since T (lastState (whileLoop (bwdGuard cfg) (bwdBody cfg src r) fuel s)).files ∧
            since T (lastState (whileLoop (bwdGuard cfg') (bwdBody cfg' src' r') fuel s)).reports =
              since T (lastState (whileLoop (bwdGuard cfg) (bwdBody cfg src r) fuel s)).reports := by
          intro fuel
          induction fuel with
          | zero =>
            intro s _ _ _
            simp only [whileLoop]
            constructor <;> split <;> split <;> rfl
          | succ fuel ih =>
            intro s h1 hh h0
            by_cases ht : T ≤ s.t0
            · simp only [whileLoop]
              have hgg : bwdGuard cfg' s = bwdGuard cfg s := by
                unfold bwdGuard
                refine decide_eq_decide.mpr ?_
                rcases he with he | ⟨he, he'⟩
                · rw [he]
                · omega
              rw [hgg]
              by_cases hg : bwdGuard cfg s = true
              · rw [if_pos hg, if_pos hg, bwdBody_same hc ha hreg ht (by omega) (by omega) h1
                  (by rcases he with he | ⟨he, he'⟩
                      · rw [he]
                      · omega)]
                rcases hb : bwdBody cfg src r s with e | s'
                · exact ⟨rfl, rfl⟩
                · obtain ⟨a, b, c⟩ := bwdBody_times hb
                  exact ih s' (by omega) (by omega) (by omega)
              · rw [if_neg hg, if_neg hg]; exact ⟨rfl, rfl⟩
            · obtain ⟨a, b⟩ := bwd_later T cfg src r (by omega) (fuel + 1) s (by omega) (by omega)
              obtain ⟨a', b'⟩ := bwd_later T cfg' src' r' (by omega) (fuel + 1) s (by omega) (by omega)
              exact ⟨a'.trans a.symm, b'.trans b.symm⟩
        exact key fuel (bwdStart cfg src o) le_rfl rfl rfl
  · obtain ⟨a, b⟩ := bwd_nothing T cfg src path disk (by omega) (by omega) fuel
    obtain ⟨a', b'⟩ := bwd_nothing T cfg' src' path' disk' (by omega) (by omega) fuel
    rw [a, b, a', b']
    exact ⟨rfl, rfl⟩

end

namespace CausalDemo
open Demo

/-- the data of `Lemmas/Demo`, which end after twenty minutes -/
def ending : Source 1 1 ℚ :=
  { src with
    states := fun t => if t ≤ 2 * step then src.states t else .error .fileNotFound
    fluxes := fun t => if t ≤ 2 * step then src.fluxes t else .error .fileNotFound }

theorem ending_agrees : AgreeOn cfg.tracking_start_date (2 * step) src ending where
  states := fun t _ h => if_pos h
  fluxes := fun t _ h => if_pos h
  region := .stationary _
  grid := rfl
  weight := rfl

/-- The run on these data fails, but its first file is that of the whole run. -/
example : ∃ s, EndsIn (fwdRun cfg src path fun _ => none) s ∧ ∃ f,
    s.files.head? = some f ∧ upTo (2 * step) (lastState (fwdRun cfg ending path (fun _ => none) 4)).files = [f] := by
  obtain ⟨s, hs, hf⟩ := Demo.fwd_ends
  refine ⟨s, hs, ?_⟩
  obtain ⟨N, hN⟩ := hs
  have h := (C104_causal_forward cfg cfg (by decide) src ending (2 * step) ⟨rfl, rfl, rfl, rfl, rfl, fun _ _ _ => Iff.rfl⟩ rfl (.inl rfl)
    ending_agrees path path (fun _ => none) (fun _ => none) (fun _ => rfl) 4).1
  have h4 : fwdRun cfg src path (fun _ => none) 4 = .finished s := by
    obtain ⟨o, ho⟩ := fwd_init_ok cfg src inp path (fun _ => none) runnable (by decide)
    obtain ⟨r, _, _, hrun⟩ := fwd_run_eq cfg src inp path _ runnable o ho
    have a := hN (max N 4) (le_max_left _ _)
    rw [hrun, if_neg (by have : cfg.steps = 4 := by decide
                         omega)] at a
    rw [hrun, if_neg (by decide), a]
  rw [h4] at h
  obtain ⟨f, l, hl⟩ : ∃ f l, s.files = f :: l := by
    rcases hs : s.files with _ | ⟨f, l⟩
    · rw [hs] at hf; cases hf
    · exact ⟨f, l, rfl⟩
  refine ⟨f, by rw [hl]; rfl, h.trans ?_⟩
  rw [hl, List.map_cons] at hf
  injection hf with h1 h2
  show upTo (2 * step) s.files = [f]
  rw [hl]
  unfold upTo
  rw [List.filter_cons, if_pos (by simp [h1])]
  congr 1
  rw [List.filter_eq_nil_iff]
  intro x hx
  have : x.1 ∈ l.map Prod.fst := List.mem_map_of_mem hx
  rw [h2, List.mem_singleton] at this
  rw [this]
  decide

/-- the data of the demonstration, going on after its period (`Lemmas/Demo` has none there) -/
def going : Source 1 1 ℚ :=
  { src with states := fun t => if t ≤ 4 * step then src.states t else .ok ⟨fun _ _ => 7, fun _ _ => -1⟩ }

/-- data that go on after the period do not matter -/
example (fuel : ℕ) : fwdRun cfg going path (fun _ => none) fuel = fwdRun cfg src path (fun _ => none) fuel :=
  C104_period_forward cfg (by decide) src going ⟨fun t _ h => if_pos h, fun _ _ _ => rfl, .stationary _, rfl, rfl⟩ (by decide) path path _ _
    (fun _ => rfl) fuel

end CausalDemo

end Wam
