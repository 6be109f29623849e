import Verif.Spec.Command
import Verif.Props.Disk
import Verif.Lemmas.Equivariant

/-!
# The experiment of `track`: what it reads, what it writes
-/

set_option linter.unusedSectionVars false
set_option linter.unusedVariables false

namespace Wam
open Spec

section reads
variable {m n : ℕ} {α : Type} [LinearOrder α] [Add α] [Sub α] [Mul α] [Div α] [NpOps α] [NpTrig α]

theorem loadData_congr (files files' : List Char → Except Err (DataFile α α)) (io : IOConfig α)
    (h : ∀ t, files (inputPath io.calendar t io.preprocessed_data_folder) =
      files' (inputPath io.calendar t io.preprocessed_data_folder)) (t : ℤ) (sub : Subset) :
    loadData files io t sub = loadData files' io t sub := by
  have h1 : (fun s => readSlice files (sliceKey io s sub)) = fun s => readSlice files' (sliceKey io s sub) := by
    funext s
    have : files (sliceKey io s sub).filename = files' (sliceKey io s sub).filename := h s
    unfold readSlice
    rw [this]
  unfold loadData
  rw [h1]

theorem experimentSource_congr (files files' : List Char → Except Err (DataFile α α)) (io : IOConfig α)
    (h : ∀ t, files (inputPath io.calendar t io.preprocessed_data_folder) =
      files' (inputPath io.calendar t io.preprocessed_data_folder)) (tag : TaggingRegion α α) (first : ℤ) :
    experimentSource (m := m) (n := n) files io tag first = experimentSource files' io tag first := by
  unfold experimentSource archiveSource
  have : loadData files io = loadData files' io := by
    funext t sub; exact loadData_congr files files' io h t sub
  rw [this]

end reads

section
variable {m n : ℕ} {α : Type} (lib : Library m n α)

theorem dataFiles_congr (cfg : Loaded (TrackSettings α)) (fs₁ fs₂ : FileSystem)
    (h : ∀ p, TrackInput cfg p → fs₁ p = fs₂ p) (t : ℤ) :
    dataFiles lib cfg fs₁ (inputPath cfg.ioConfig.calendar t cfg.ioConfig.preprocessed_data_folder) =
      dataFiles lib cfg fs₂ (inputPath cfg.ioConfig.calendar t cfg.ioConfig.preprocessed_data_folder) := by
  unfold dataFiles
  rcases hp : cfg.preprocessed with _ | pre
  · rfl
  · simp only
    have : fs₁ (pre ++ [(inputPath cfg.ioConfig.calendar t cfg.ioConfig.preprocessed_data_folder).drop 1]) =
        fs₂ (pre ++ [(inputPath cfg.ioConfig.calendar t cfg.ioConfig.preprocessed_data_folder).drop 1]) :=
      h _ (TrackInput.data pre t hp)
    rw [this]

theorem someDataFile_congr (pre : FPath) (fs₁ fs₂ : FileSystem)
    (h : ∀ name, fs₁ (pre ++ [name ++ ".nc".toList]) = fs₂ (pre ++ [name ++ ".nc".toList]))
    (hfirst : ∀ q name, lib.first q = some name → q name = true) :
    someDataFile lib pre fs₁ = someDataFile lib pre fs₂ := by
  have hs : ∀ name, (".nc".toList).isSuffixOf name = true → fs₁ (pre ++ [name]) = fs₂ (pre ++ [name]) := by
    intro name hn
    rw [List.isSuffixOf_iff_suffix] at hn
    obtain ⟨a, rfl⟩ := hn
    exact h a
  have hq : (fun name => (".nc".toList).isSuffixOf name && (fs₁ (pre ++ [name])).isSome) =
      fun name => (".nc".toList).isSuffixOf name && (fs₂ (pre ++ [name])).isSome := by
    funext name
    rcases hn : (".nc".toList).isSuffixOf name with _ | _
    · rfl
    · rw [hs name hn]
  unfold someDataFile
  rw [hq]
  rcases hf : lib.first fun name => (".nc".toList).isSuffixOf name && (fs₂ (pre ++ [name])).isSome with _ | name
  · rfl
  · have := hfirst _ _ hf
    rw [Bool.and_eq_true] at this
    simp only
    rw [hs name this.1]

theorem shapeMask_congr (cfg : Loaded (TrackSettings α)) (fs₁ fs₂ : FileSystem)
    (h : ∀ p, TrackInput cfg p → fs₁ p = fs₂ p) (hfirst : ∀ q name, lib.first q = some name → q name = true)
    (path : FPath) (hp : cfg.config.rest.tagging_region = .shape path) :
    shapeMask lib cfg fs₁ path = shapeMask lib cfg fs₂ path := by
  unfold shapeMask
  rcases hpre : cfg.preprocessed with _ | pre
  · rfl
  · simp only
    rw [someDataFile_congr lib pre fs₁ fs₂ (fun name => h _ (TrackInput.axes pre path name hpre hp)) hfirst,
      h _ (TrackInput.shape path hp)]

theorem taggingOf_congr (cfg : Loaded (TrackSettings α)) (fs₁ fs₂ : FileSystem)
    (h : ∀ p, TrackInput cfg p → fs₁ p = fs₂ p) (hfirst : ∀ q name, lib.first q = some name → q name = true) :
    taggingOf lib cfg fs₁ = taggingOf lib cfg fs₂ ∧ maskSaving lib cfg fs₁ = maskSaving lib cfg fs₂ := by
  unfold taggingOf maskSaving
  rcases ht : cfg.config.rest.tagging_region with b | p | p
  · exact ⟨rfl, rfl⟩
  · simp only
    rw [h _ (TrackInput.tag p ht)]
    exact ⟨rfl, trivial⟩
  · simp only
    rw [shapeMask_congr lib cfg fs₁ fs₂ h hfirst p ht]
    exact ⟨rfl, rfl⟩

end

section
variable {m n : ℕ} {α : Type} [Add α] [Sub α] [Mul α] [Div α] [Neg α] [NpOps α] (lib : Library m n α)

theorem fwdInitialize_disk {P : Type} (cfg : RunConfig α) (src : Source m n α) (path : ℤ → P)
    (disk disk' : P → Option (FwdOutput (m + 2) (n + 2) α))
    (h : cfg.restart = true → disk (path cfg.tracking_start_date) = disk' (path cfg.tracking_start_date)) :
    fwdInitialize cfg src path disk = fwdInitialize cfg src path disk' := by
  unfold fwdInitialize
  rcases src.states cfg.tracking_start_date with e | S
  · rfl
  · simp only
    by_cases hr : cfg.restart = true
    · rw [if_pos hr, if_pos hr, h hr]
    · rw [if_neg hr, if_neg hr]

theorem bwdInitialize_disk {P : Type} (cfg : RunConfig α) (src : Source m n α) (path : ℤ → P)
    (disk disk' : P → Option (BwdOutput (m + 2) (n + 2) α))
    (h : cfg.restart = true → disk (path cfg.tracking_end_date) = disk' (path cfg.tracking_end_date)) :
    bwdInitialize cfg src path disk = bwdInitialize cfg src path disk' := by
  unfold bwdInitialize
  rcases src.states cfg.tracking_end_date with e | S
  · rfl
  · simp only
    by_cases hr : cfg.restart = true
    · rw [if_pos hr, if_pos hr, h hr]
    · rw [if_neg hr, if_neg hr]

/-! ### What is written -/

theorem outputs_append (a b : List Saving) : outputs (a ++ b) = outputs a ++ outputs b := by
  induction a with
  | nil => rfl
  | cons x a ih =>
    cases x <;> simp only [List.cons_append, outputs, ih]

theorem outputs_none {a : List Saving} (h : ∀ x ∈ a, ∀ t y, x ≠ .output t y) : outputs a = [] := by
  induction a with
  | nil => rfl
  | cons x a ih =>
    have := ih (fun y hy => h y (List.mem_cons_of_mem _ hy))
    cases x with
    | output t y => exact absurd rfl (h _ (List.mem_cons_self ..) t y)
    | correction t y => exact this
    | region y => exact this
    | day t y => exact this
    | figure n y => exact this

theorem outputs_map {ω : Type} (f : ω → List Char) (l : List (ℤ × ω)) :
    outputs (l.map fun x => .output x.1 (f x.2)) = l.map fun x => (x.1, f x.2) := by
  induction l with
  | nil => rfl
  | cons x l ih => simp only [List.map_cons, outputs, ih]

/-- only correction fields -/
def Corrections (ss : List Saving) : Prop := ∀ x ∈ ss, ∃ t y, x = .correction t y

theorem noteLayers_corrections (dt : α) (a : Fin (m + 2) → α) (t : ℤ) (ls : List (Layer (m + 2) (n + 2) α)) :
    ∀ w, Corrections (noteLayers lib dt a t w ls).2 := by
  induction ls with
  | nil => intro w x hx; cases hx
  | cons l ls ih =>
    intro w x hx
    unfold noteLayers at hx
    rcases List.mem_append.1 hx with h | h
    · obtain ⟨k, _, rfl⟩ := List.mem_map.1 h
      exact ⟨_, _, rfl⟩
    · exact ih _ x h

theorem noteStep_corrections (cfg : RunConfig α) (src : Source m n α) (w : WarnState α) (t : ℤ)
    (S : Except Err (States (m + 2) (n + 2) α)) (F : Except Err (Fluxes (m + 2) (n + 2) α)) :
    Corrections (noteStep lib cfg src w t S F).2 := by
  unfold noteStep
  split
  · exact noteLayers_corrections lib _ _ _ _ _
  · intro x hx; cases hx

/-- the loop with notes and the loop without -/
def NotedOf {ω : Type} (shw : ω → List Char) (mask : List Saving) (s : LoopState ω α) (t : Noted ω α) : Prop :=
  t.state = s ∧ (∀ x ∈ t.saved, IsTracking x) ∧
    outputs t.saved = outputs mask ++ s.files.map fun x => (x.1, shw x.2)

theorem corrections_tracking {ss : List Saving} (h : Corrections ss) : (∀ x ∈ ss, IsTracking x) ∧ outputs ss = [] := by
  constructor
  · intro x hx; obtain ⟨t, y, rfl⟩ := h x hx; trivial
  · refine outputs_none ?_
    intro x hx t y e
    obtain ⟨t', y', rfl⟩ := h x hx
    cases e

theorem noted_step {ω : Type} (shw : ω → List Char) (mask c : List Saving) (s s' : LoopState ω α) (t : Noted ω α)
    (w : WarnState α) (hc : Corrections c) (h : NotedOf shw mask s t) (l : List (ℤ × ω))
    (hl : s'.files = s.files ++ l) :
    NotedOf shw mask s' { state := s', warn := w
                          saved := t.saved ++ c ++
                            (s'.files.drop t.state.files.length).map fun x => .output x.1 (shw x.2) } := by
  obtain ⟨h1, h2, h3⟩ := h
  obtain ⟨c1, c2⟩ := corrections_tracking hc
  refine ⟨rfl, ?_, ?_⟩
  · intro x hx
    rcases List.mem_append.1 hx with hx | hx
    · rcases List.mem_append.1 hx with hx | hx
      · exact h2 x hx
      · exact c1 x hx
    · obtain ⟨y, _, rfl⟩ := List.mem_map.1 hx
      trivial
  · rw [outputs_append, outputs_append, h3, c2, outputs_map, h1, hl]
    simp

theorem fwdBody_appends (cfg : RunConfig α) (src : Source m n α) (region : Region (m + 2) (n + 2) α)
    (s s' : LoopState (FwdOutput (m + 2) (n + 2) α) α) (h : fwdBody cfg src region s = .ok s') :
    ∃ l, s'.files = s.files ++ l := by
  unfold fwdBody at h
  split at h
  · cases h
  · simp only at h
    split at h
    · injection h with h; subst h; exact ⟨_, rfl⟩
    · injection h with h; subst h; exact ⟨[], by simp⟩

theorem bwdBody_appends (cfg : RunConfig α) (src : Source m n α) (region : Region (m + 2) (n + 2) α)
    (s s' : LoopState (BwdOutput (m + 2) (n + 2) α) α) (h : bwdBody cfg src region s = .ok s') :
    ∃ l, s'.files = s.files ++ l := by
  unfold bwdBody at h
  split at h
  · cases h
  · simp only at h
    split at h
    · injection h with h; subst h; exact ⟨_, rfl⟩
    · injection h with h; subst h; exact ⟨[], by simp⟩

theorem endsLike_of {ω : Type} (shw : ω → List Char) (mask : List Saving) (hm : outputs mask = [])
    (a : Outcome (LoopState ω α)) (b : Outcome (Noted ω α)) (h : Corresponds (NotedOf shw mask) a b) :
    EndsLike shw a (endOfLoop b) ∧ ∀ x ∈ (endOfLoop b).1, IsTracking x := by
  cases h with
  | finished h => exact ⟨⟨by rw [endOfLoop, h.2.2, hm]; rfl, rfl⟩, h.2.1⟩
  | raised h => exact ⟨⟨by rw [endOfLoop, h.2.2, hm]; rfl, rfl⟩, h.2.1⟩
  | stillRunning h => exact ⟨⟨by rw [endOfLoop, h.2.2, hm]; rfl, by simp [endOfLoop]⟩, h.2.1⟩

theorem fwdTracking_ends {P : Type} (cfg : RunConfig α) (src : Source m n α) (mask : List Saving)
    (hm : outputs mask = [] ∧ ∀ x ∈ mask, IsTracking x) (path : ℤ → P)
    (disk : P → Option (FwdOutput (m + 2) (n + 2) α)) (fuel : ℕ) :
    EndsLike lib.showFwd (fwdRun cfg src path disk fuel) (fwdTracking lib cfg src mask path disk fuel) ∧
    ∀ x ∈ (fwdTracking lib cfg src mask path disk fuel).1, IsTracking x := by
  unfold fwdRun fwdTracking
  rcases h1 : fwdInitialize cfg src path disk with e | o
  · exact ⟨⟨rfl, rfl⟩, fun x hx => by cases hx⟩
  · simp only
    rcases h2 : src.region with e | region
    · exact ⟨⟨by show outputs mask = _; rw [hm.1]; rfl, rfl⟩, hm.2⟩
    · simp only
      refine endsLike_of lib.showFwd mask hm.1 _ _ (whileLoop_corresponds _ _ _ _ _ ?_ ?_ _ _ _ ?_)
      · rintro s t ⟨rfl, _⟩; rfl
      · rintro s t h
        have hs := h.1
        unfold fwdNotedBody
        rw [hs]
        rcases h3 : fwdBody cfg src region s with e | s'
        · exact .inl ⟨e, rfl, rfl⟩
        · obtain ⟨l, hl⟩ := fwdBody_appends cfg src region s s' h3
          refine .inr ⟨s', _, rfl, rfl, ?_⟩
          have := noted_step lib.showFwd mask _ s s' t
            (noteStep lib cfg src t.warn s.t0 (src.states s.t0) (src.fluxes s.th)).1
            (noteStep_corrections lib cfg src t.warn s.t0 (src.states s.t0) (src.fluxes s.th)) h l hl
          rwa [hs] at this
      · exact ⟨rfl, hm.2, by show _ = outputs mask ++ [].map _; simp⟩

theorem bwdTracking_ends {P : Type} (cfg : RunConfig α) (src : Source m n α) (mask : List Saving)
    (hm : outputs mask = [] ∧ ∀ x ∈ mask, IsTracking x) (path : ℤ → P)
    (disk : P → Option (BwdOutput (m + 2) (n + 2) α)) (fuel : ℕ) :
    EndsLike lib.showBwd (bwdRun cfg src path disk fuel) (bwdTracking lib cfg src mask path disk fuel) ∧
    ∀ x ∈ (bwdTracking lib cfg src mask path disk fuel).1, IsTracking x := by
  unfold bwdRun bwdTracking
  rcases h1 : bwdInitialize cfg src path disk with e | o
  · exact ⟨⟨rfl, rfl⟩, fun x hx => by cases hx⟩
  · simp only
    rcases h2 : src.region with e | region
    · exact ⟨⟨by show outputs mask = _; rw [hm.1]; rfl, rfl⟩, hm.2⟩
    · simp only
      refine endsLike_of lib.showBwd mask hm.1 _ _ (whileLoop_corresponds _ _ _ _ _ ?_ ?_ _ _ _ ?_)
      · rintro s t ⟨rfl, _⟩; rfl
      · rintro s t h
        have hs := h.1
        unfold bwdNotedBody
        rw [hs]
        rcases h3 : bwdBody cfg src region s with e | s'
        · exact .inl ⟨e, rfl, rfl⟩
        · obtain ⟨l, hl⟩ := bwdBody_appends cfg src region s s' h3
          refine .inr ⟨s', _, rfl, rfl, ?_⟩
          have := noted_step lib.showBwd mask _ s s' t
            (noteStep lib cfg src t.warn s.t1 (src.states s.t1) (src.fluxes s.th)).1
            (noteStep_corrections lib cfg src t.warn s.t1 (src.states s.t1) (src.fluxes s.th)) h l hl
          rwa [hs] at this
      · exact ⟨rfl, hm.2, by show _ = outputs mask ++ [].map _; simp⟩

theorem maskSaving_only (cfg : Loaded (TrackSettings α)) (fs : FileSystem) :
    outputs (maskSaving lib cfg fs) = [] ∧ ∀ x ∈ maskSaving lib cfg fs, IsTracking x := by
  have h : ∀ x ∈ maskSaving lib cfg fs, ∃ y, x = .region y := by
    intro x hx
    unfold maskSaving at hx
    split at hx
    · split at hx
      · rw [List.mem_singleton] at hx; exact ⟨_, hx⟩
      · cases hx
    · cases hx
  constructor
  · refine outputs_none ?_
    intro x hx t y e
    obtain ⟨y', rfl⟩ := h x hx
    cases e
  · intro x hx; obtain ⟨y, rfl⟩ := h x hx; trivial

end

end Wam
