import Verif.Lemmas.Concurrent
import Verif.Spec.Concurrent

/-!
# Lemmas: processes that look at and change only some paths
-/

set_option linter.unusedSectionVars false
set_option linter.unusedVariables false

namespace Wam
open Spec

/-- as in the beginning, on the paths that nobody changes -/
def Same (g : FileSystem) (R : FPath → Prop) (fs : FileSystem) : Prop := ∀ p, R p → fs p = g p

/-- As long as the paths of `R` are as in `g`: the process depends on them and on those of `W` only, changes paths of `W`
only, and its result is in `Q`. -/
def Local {β : Type} (g : FileSystem) (R W : FPath → Prop) (Q : β → Prop) : Process β → Prop
  | .done r => ∀ b, r = .ok b → Q b
  | .call c k => ∀ fs, Same g R fs → (∀ ch, c fs = some ch → W ch.1) ∧ Local g R W Q (k fs) ∧
      ∀ fs', Same g R fs' → (∀ p, W p → fs' p = fs p) → c fs' = c fs ∧ k fs' = k fs

section
variable {β γ : Type} {g : FileSystem} {R W : FPath → Prop}

theorem local_ok {Q : β → Prop} {b : β} (h : Q b) : Local g R W Q (.done (.ok b)) := by
  intro b' h'; injection h' with h'; subst h'; exact h

theorem local_error {Q : β → Prop} (e : Err) : Local g R W Q (.done (.error e)) := by
  intro b' h'; cases h'

theorem local_bind {Q : β → Prop} {Q' : γ → Prop} {p : Process β} {f : β → Process γ} (hp : Local g R W Q p)
    (hf : ∀ b, Q b → Local g R W Q' (f b)) : Local g R W Q' (p.bind f) := by
  induction p with
  | done r =>
    rcases r with e | b
    · exact local_error e
    · exact hf b (hp b rfl)
  | call c k ih =>
    intro fs hs
    obtain ⟨h1, h2, h3⟩ := hp fs hs
    refine ⟨h1, ih fs h2, fun fs' hs' hw => ⟨(h3 fs' hs' hw).1, ?_⟩⟩
    simp only [(h3 fs' hs' hw).2]

theorem local_attempt {Q : β → Prop} {p : Process β} (hp : Local g R W Q p) : Local g R W (fun _ => True) p.attempt := by
  induction p with
  | done r => exact local_ok trivial
  | call c k ih =>
    intro fs hs
    obtain ⟨h1, h2, h3⟩ := hp fs hs
    refine ⟨h1, ih fs h2, fun fs' hs' hw => ⟨(h3 fs' hs' hw).1, ?_⟩⟩
    simp only [(h3 fs' hs' hw).2]

theorem local_mono {Q Q' : β → Prop} {p : Process β} (hp : Local g R W Q p) (h : ∀ b, Q b → Q' b) : Local g R W Q' p := by
  induction p with
  | done r => exact fun b hb => h b (hp b hb)
  | call c k ih =>
    intro fs hs
    obtain ⟨h1, h2, h3⟩ := hp fs hs
    exact ⟨h1, ih fs h2, h3⟩

theorem local_look {f : FileSystem → β} {Q : β → Prop}
    (h : ∀ fs fs', Same g R fs → Same g R fs' → (∀ p, W p → fs' p = fs p) → f fs' = f fs)
    (hQ : ∀ fs, Same g R fs → Q (f fs)) : Local g R W Q (Process.look f) := by
  intro fs hs
  refine ⟨fun ch hch => (nomatch hch), local_ok (hQ fs hs), fun fs' hs' hw => ⟨rfl, ?_⟩⟩
  simp only [h fs fs' hs hs' hw]

/-- a path that may be looked at -/
def Seen (R W : FPath → Prop) (p : FPath) : Prop := R p ∨ W p

theorem seen_eq {p : FPath} (h : Seen R W p) {fs fs' : FileSystem} (hs : Same g R fs) (hs' : Same g R fs')
    (hw : ∀ p, W p → fs' p = fs p) : fs' p = fs p := by
  rcases h with h | h
  · rw [hs p h, hs' p h]
  · exact hw p h

theorem local_osMkdir {p : FPath} (h1 : Seen R W p) (h2 : Seen R W p.dropLast) (h3 : R p → g p = none → W p) :
    Local g R W (fun _ => True) (osMkdirProc p) := by
  intro fs hs
  refine ⟨?_, fun _ _ => trivial, ?_⟩
  · intro ch hch
    unfold osMkdirChange at hch
    split at hch
    · cases hch
    · rename_i hn
      split at hch
      · injection hch with hch
        subst hch
        rcases h1 with h1 | h1
        · refine h3 h1 ?_
          rw [← hs p h1]
          simpa using hn
        · exact h1
      · cases hch
  · intro fs' hs' hw
    have e1 := seen_eq h1 hs hs' hw
    have e2 := seen_eq h2 hs hs' hw
    refine ⟨?_, ?_⟩
    · unfold osMkdirChange; rw [e1, e2]
    · simp only [osMkdirResult, e1, e2]

theorem local_mkdirExists {b : Bool} {p : FPath} {e : Err} (h1 : Seen R W p) : Local g R W (fun _ => True) (mkdirExists b p e) := by
  refine local_bind (Q := fun _ => True) (local_look ?_ fun _ _ => trivial) ?_
  · intro fs fs' hs hs' hw
    rw [seen_eq h1 hs hs' hw]
  · intro ok _ _ _; trivial

theorem local_mkdirAfter {b : Bool} {p : FPath} (h1 : Seen R W p) (r : Except Err Unit) :
    Local g R W (fun _ => True) (mkdirAfter b p r) := by
  rcases r with e | u
  · exact local_mkdirExists h1
  · exact local_ok trivial

theorem local_mkdirOnly {b : Bool} {p : FPath} (h1 : Seen R W p) (h2 : Seen R W p.dropLast) (h3 : R p → g p = none → W p) :
    Local g R W (fun _ => True) (mkdirOnlyProc b p) :=
  local_bind (local_attempt (local_osMkdir h1 h2 h3)) fun r _ => local_mkdirAfter h1 r

theorem local_mkdirParentsRev {b : Bool} {r : List (List Char)}
    (h : ∀ p, OnTheWayTo r.reverse p → Seen R W p ∧ (R p → g p = none → W p)) :
    Local g R W (fun _ => True) (mkdirParentsRevProc b r) := by
  induction r generalizing b with
  | nil =>
    obtain ⟨h1, h2⟩ := h [] ⟨[], rfl⟩
    exact local_mkdirOnly h1 h1 h2
  | cons c r ih =>
    obtain ⟨h1, h2⟩ := h (c :: r).reverse ⟨[], by simp⟩
    have e : (c :: r).reverse = r.reverse ++ [c] := List.reverse_cons
    have h3 : Seen R W ((c :: r).reverse).dropLast := by
      rw [e, List.dropLast_concat]
      exact (h _ ⟨[c], by rw [e]⟩).1
    unfold mkdirParentsRevProc
    refine local_bind (local_attempt (local_osMkdir h1 h3 h2)) fun q _ => ?_
    have hr : Local g R W (fun _ => True) (mkdirParentsRevProc true r) := by
      apply ih
      rintro p ⟨rest, hp⟩
      exact h p ⟨rest ++ [c], by rw [← List.append_assoc, hp, e]⟩
    unfold mkdirParentsAfter
    split
    · exact local_bind hr fun _ _ => local_mkdirOnly h1 h3 h2
    · exact local_mkdirAfter h1 _

theorem local_makeFolder {F : FPath} (h : ∀ p, OnTheWayTo F p → Seen R W p ∧ (R p → g p = none → W p)) :
    Local g R W (fun _ => True) (makeFolderProc F) := by
  refine local_bind (Q := fun _ => True) (local_look ?_ fun _ _ => trivial) ?_
  · intro fs fs' hs hs' hw
    rw [seen_eq (h F ⟨[], by simp⟩).1 hs hs' hw]
  · intro there _
    split
    · exact local_ok trivial
    · apply local_mkdirParentsRev
      simpa using h

theorem local_save {p : FPath} {x : List Char} (h1 : W p) (h2 : Seen R W p.dropLast) :
    Local g R W (fun _ => True) (saveProc p x) := by
  refine local_bind (Q := fun _ => True) ?_ fun _ _ => ?_
  · intro fs hs
    refine ⟨?_, fun _ _ => trivial, ?_⟩
    · intro ch hch
      unfold openChange at hch
      split at hch
      · cases hch
      · split at hch
        · injection hch with hch; subst hch; exact h1
        · cases hch
    · intro fs' hs' hw
      have e2 := seen_eq h2 hs hs' hw
      refine ⟨?_, ?_⟩
      · unfold openChange; rw [hw p h1, e2]
      · simp only [openResult, hw p h1, e2]
  · intro fs hs
    refine ⟨?_, local_ok trivial, fun _ _ _ => ⟨rfl, rfl⟩⟩
    intro ch hch
    injection hch with hch; subst hch; exact h1

variable {cwd : FPath} {f : Folders}

theorem local_preprocessedFolder (h : ∀ p, ConfigFolder cwd f p → Seen R W p ∧ (R p → g p = none → W p)) :
    Local g R W (fun pre => ∀ q, pre = some q → ∃ x, f.preprocessed = .ok x ∧ q = x.map (resolve cwd))
      (preprocessedFolderProc cwd f) := by
  unfold preprocessedFolderProc
  rcases hp : f.preprocessed with e | _ | name
  · exact local_ok fun q hq => by cases hq
  · refine local_ok fun q hq => ?_
    injection hq with hq; subst hq; exact ⟨none, rfl, rfl⟩
  · refine local_bind (local_makeFolder fun p hpp => h p ⟨_, .inl ⟨name, hp, rfl⟩, hpp⟩) fun _ _ => ?_
    refine local_ok fun q hq => ?_
    injection hq with hq; subst hq; exact ⟨some name, rfl, rfl⟩

theorem local_outputFolder (h : ∀ p, ConfigFolder cwd f p → Seen R W p ∧ (R p → g p = none → W p)) :
    Local g R W (fun out => ∀ q, out = some q → ∃ name, f.output = .ok name ∧ q = resolve cwd name)
      (outputFolderProc cwd f) := by
  unfold outputFolderProc
  rcases hp : f.output with e | name
  · exact local_ok fun q hq => by cases hq
  · refine local_bind (local_makeFolder fun p hpp => h p ⟨_, .inr ⟨name, hp, rfl⟩, hpp⟩) fun _ _ => ?_
    refine local_ok fun q hq => ?_
    injection hq with hq; subst hq; exact ⟨name, rfl, rfl⟩

theorem local_loadSettings {ρ : Type} {s : FileSettings ρ}
    (h : ∀ p, ConfigFolder cwd s.folders p → Seen R W p ∧ (R p → g p = none → W p)) :
    Local g R W (LoadedFrom cwd s) (loadSettingsProc cwd s) := by
  unfold loadSettingsProc
  rcases convertDates s.settings with e | d
  · exact local_error e
  · refine local_bind (local_preprocessedFolder h) fun pre hpre => local_bind (local_outputFolder h) fun out hout => ?_
    intro cfg hcfg
    obtain ⟨hc, h1, h2⟩ := acceptFields_ok hcfg
    refine ⟨hc, ?_, ?_⟩
    · exact hout _ h2
    · exact hpre _ h1

theorem local_fromYaml {ρ : Type} {s : FileSettings ρ} {parse : List Char → Except Err (FileSettings ρ)} {file : FPath}
    {text : List Char} (hf : R file) (hg : g file = some (.file text)) (hp : parse text = .ok s)
    (h : ∀ p, ConfigFolder cwd s.folders p → Seen R W p ∧ (R p → g p = none → W p)) :
    Local g R W (LoadedFrom cwd s) (fromYamlProc parse cwd file) := by
  refine local_bind (Q := fun x => x = some (.file text)) (local_look ?_ ?_) ?_
  · intro fs fs' hs hs' _
    rw [hs file hf, hs' file hf]
  · intro fs hs
    rw [hs file hf, hg]
  · rintro x rfl
    simp only [loadText, hp]
    exact local_loadSettings h

theorem local_copy {file F : FPath} {name text : List Char} (hf : R file) (hg : g file = some (.file text))
    (hn : file.getLast?.toList = [name]) (h1 : W (F ++ [name])) (h2 : Seen R W F) :
    Local g R W (fun _ => True) (copyConfigYamlProc file F) := by
  refine local_bind (Q := fun x => x = some (.file text)) (local_look ?_ ?_) ?_
  · intro fs fs' hs hs' _
    rw [hs file hf, hs' file hf]
  · intro fs hs
    rw [hs file hf, hg]
  · rintro x rfl
    simp only [copyNode, hn]
    split
    · exact local_error _
    · exact local_save h1 (by rw [List.dropLast_concat]; exact h2)

theorem local_saving {c : Calendar} {b : Bool} {F : FPath} {x : Saving} (hF : Seen R W F) (hW : ∀ p, Below F p → W p) :
    Local g R W (fun _ => True) (x.proc c b F) := by
  unfold Saving.proc Saving.path
  rcases hx : (x.place c b).1 with _ | sub
  · simp only [Option.toList_none, List.append_nil]
    exact local_save (hW _ ⟨_, by simp, rfl⟩) (by rw [List.dropLast_concat]; exact hF)
  · have hs : W (F ++ [sub]) := hW _ ⟨_, by simp, rfl⟩
    simp only [Option.toList_some]
    refine local_bind (local_mkdirOnly (.inr hs) (by rw [List.dropLast_concat]; exact hF) fun _ _ => hs) fun _ _ => ?_
    exact local_save (hW _ ⟨_, by simp, List.append_assoc _ _ _⟩) (by rw [List.dropLast_concat]; exact .inr hs)

theorem local_saveAll {c : Calendar} {b : Bool} {F : FPath} {ss : List Saving} (hF : Seen R W F) (hW : ∀ p, Below F p → W p) :
    Local g R W (fun _ => True) (saveAllProc c b F ss) := by
  induction ss with
  | nil => exact local_ok trivial
  | cons x ss ih => exact local_bind (local_saving hF hW) fun _ _ => ih

end

/-- what a command needs, apart from what it may change -/
def Fixed (j : Job) (s : FileSettings j.ρ) (F : FPath) (reads : FPath → Prop) (g : FileSystem) (p : FPath) : Prop :=
  Needs j.cwd s.folders (j.dir ++ [j.name]) reads p ∧ ¬ Mine j.cwd s.folders F g p

theorem local_job {j : Job} {g : FileSystem} {s : FileSettings j.ρ} {cfg : Loaded j.ρ} {F : FPath} {reads : FPath → Prop}
    (h : j.Given g s cfg F reads) :
    Local g (Fixed j s F reads g) (Mine j.cwd s.folders F g) (fun _ => True) j.process := by
  obtain ⟨text, hf, hp⟩ := h.given.file
  have hfix : Fixed j s F reads g (j.dir ++ [j.name]) := by
    refine ⟨.inl rfl, ?_⟩
    rintro (h1 | ⟨_, h1⟩)
    · exact h.own h1
    · rw [hf] at h1; cases h1
  have hcf : ∀ p, ConfigFolder j.cwd s.folders p → Seen (Fixed j s F reads g) (Mine j.cwd s.folders F g) p ∧
      (Fixed j s F reads g p → g p = none → Mine j.cwd s.folders F g p) := by
    intro p hc
    refine ⟨?_, fun _ hn => .inr ⟨hc, hn⟩⟩
    by_cases hm : Mine j.cwd s.folders F g p
    · exact .inr hm
    · exact .inl ⟨.inr (.inl hc), hm⟩
  have hF : Seen (Fixed j s F reads g) (Mine j.cwd s.folders F g) F := (hcf F ⟨F, h.named, [], by simp⟩).1
  have hW : ∀ p, Below F p → Mine j.cwd s.folders F g p := fun p hb => .inl hb
  have hy := local_fromYaml (cwd := j.cwd) hfix hf hp hcf
  refine local_bind (Q := fun _ => True) (local_bind hy fun c' hc' => ?_) fun _ _ => local_bind hy fun c' hc' => ?_
  · rw [loadedFrom_unique hc' h.given.loaded, h.folder]
    refine local_bind (local_save (hW _ ⟨_, by simp, rfl⟩) (by rw [List.dropLast_concat]; exact hF)) fun _ _ => ?_
    exact local_copy (name := j.name) hfix hf (by simp) (hW _ ⟨_, by simp, rfl⟩) hF
  · rw [loadedFrom_unique hc' h.given.loaded, h.folder]
    refine local_bind (Q := fun _ => True) (local_look ?_ fun _ _ => trivial) fun r _ => ?_
    · intro fs fs' hs hs' hw
      refine h.reads _ _ fun p hp => ?_
      refine seen_eq (R := Fixed j s F reads g) (W := Mine j.cwd s.folders F g) ?_ hs hs' hw
      by_cases hm : Mine j.cwd s.folders F g p
      · exact .inr hm
      · exact .inl ⟨.inr (.inr hp), hm⟩
    · refine local_bind (local_saveAll hF hW) fun _ _ => ?_
      rcases r.2 with _ | e
      · exact local_ok trivial
      · exact local_error _

/-! ### Schedules -/

/-- the number of calls of a process that runs alone -/
def Process.calls {β : Type} : Process β → FileSystem → ℕ
  | .done _, _ => 0
  | .call c k, fs => (k fs).calls (applyChanges fs (c fs).toList) + 1

theorem applyChanges_at {fs fs' : FileSystem} {o : Option Change} {p : FPath} (h : fs p = fs' p) :
    applyChanges fs o.toList p = applyChanges fs' o.toList p := by
  rcases o with _ | ch
  · exact h
  · simp only [Option.toList_some, applyChanges, List.foldl_cons, List.foldl_nil, Function.update_apply]
    split
    · rfl
    · exact h

theorem applyChanges_off {fs : FileSystem} {o : Option Change} {p : FPath} (h : ∀ ch, o = some ch → ch.1 ≠ p) :
    applyChanges fs o.toList p = fs p := by
  rcases o with _ | ch
  · rfl
  · simp only [Option.toList_some, applyChanges, List.foldl_cons, List.foldl_nil]
    exact Function.update_of_ne (h ch rfl).symm _ _

section
variable {ι : Type} [DecidableEq ι] (g : FileSystem) (R W : ι → FPath → Prop) (P : ι → Process Unit)

/-- after `n` calls of each process, each has done what it does alone -/
structure Along (n : ι → ℕ) (m : Machine ι) (chs : ι → List Change) : Prop where
  loc : ∀ i, Local g (R i) (W i) (fun _ => True) (m.processes i)
  mine : ∀ i p, W i p → m.fs p = applyChanges g (chs i) p
  other : ∀ i p, ¬ W i p → applyChanges g (chs i) p = g p
  rest : ∀ p, (∀ i, ¬ W i p) → m.fs p = g p
  changes : ∀ i, ((P i).alone g).1 = chs i ++ ((m.processes i).alone (applyChanges g (chs i))).1
  result : ∀ i, ((P i).alone g).2 = ((m.processes i).alone (applyChanges g (chs i))).2
  calls : ∀ i, (m.processes i).calls (applyChanges g (chs i)) = (P i).calls g - n i

theorem along_start (hP : ∀ i, Local g (R i) (W i) (fun _ => True) (P i)) :
    Along g R W P (fun _ => 0) ⟨g, P⟩ (fun _ => []) :=
  ⟨hP, fun _ _ _ => rfl, fun _ _ _ => rfl, fun _ _ => rfl, fun _ => rfl, fun _ => rfl, fun _ => rfl⟩

theorem along_step (hR : ∀ i j p, R i p → ¬ W j p) (hW : ∀ i j p, i ≠ j → W i p → ¬ W j p) {n : ι → ℕ} {m : Machine ι}
    {chs : ι → List Change} (h : Along g R W P n m chs) (i : ι) :
    ∃ chs', Along g R W P (Function.update n i (n i + 1)) (m.step i) chs' := by
  unfold Machine.step
  rcases hi : m.processes i with r | ⟨c, k⟩
  · refine ⟨chs, { h with calls := ?_ }⟩
    intro j
    by_cases hj : j = i
    · subst hj
      have := h.calls j
      rw [hi] at this ⊢
      simp only [Process.calls, Function.update_self] at this ⊢
      omega
    · rw [Function.update_of_ne hj]; exact h.calls j
  · have hl := h.loc i
    rw [hi] at hl
    have s1 : Same g (R i) m.fs := fun p hp => h.rest p fun j => hR i j p hp
    have s2 : Same g (R i) (applyChanges g (chs i)) := fun p hp => h.other i p (hR i i p hp)
    obtain ⟨l1, l2, l3⟩ := hl m.fs s1
    obtain ⟨e1, e2⟩ := l3 _ s2 fun p hp => (h.mine i p hp).symm
    have hoff : ∀ j p, j ≠ i → W j p → ∀ ch, c m.fs = some ch → ch.1 ≠ p := by
      intro j p hj hp ch hch he
      exact hW i j p (Ne.symm hj) (he ▸ l1 ch hch) hp
    refine ⟨Function.update chs i (chs i ++ (c m.fs).toList), ?_, ?_, ?_, ?_, ?_, ?_, ?_⟩
    · intro j
      by_cases hj : j = i
      · subst hj; simpa using l2
      · simp only [Function.update_of_ne hj]; exact h.loc j
    · intro j p hp
      by_cases hj : j = i
      · subst hj
        simp only [Function.update_self, applyChanges_append]
        exact applyChanges_at (h.mine j p hp)
      · simp only [Function.update_of_ne hj]
        rw [← h.mine j p hp]
        exact applyChanges_off (hoff j p hj hp)
    · intro j p hp
      by_cases hj : j = i
      · subst hj
        simp only [Function.update_self, applyChanges_append]
        rw [applyChanges_off (p := p) fun ch hch he => hp (he ▸ l1 ch hch)]
        exact h.other j p hp
      · simp only [Function.update_of_ne hj]; exact h.other j p hp
    · intro p hp
      simp only
      rw [applyChanges_off (p := p) fun ch hch he => hp i (he ▸ l1 ch hch)]
      exact h.rest p hp
    · intro j
      by_cases hj : j = i
      · subst hj
        simp only [Function.update_self, applyChanges_append]
        rw [h.changes j, hi]
        simp only [Process.alone, e1, e2, List.append_assoc]
      · simp only [Function.update_of_ne hj]; exact h.changes j
    · intro j
      by_cases hj : j = i
      · subst hj
        simp only [Function.update_self, applyChanges_append]
        rw [h.result j, hi]
        simp only [Process.alone, e1, e2]
      · simp only [Function.update_of_ne hj]; exact h.result j
    · intro j
      by_cases hj : j = i
      · subst hj
        have := h.calls j
        rw [hi] at this
        simp only [Process.calls, e1, e2] at this
        simp only [Function.update_self, applyChanges_append]
        omega
      · simp only [Function.update_of_ne hj]; exact h.calls j

theorem along_run (hR : ∀ i j p, R i p → ¬ W j p) (hW : ∀ i j p, i ≠ j → W i p → ¬ W j p)
    (schedule : List ι) {n : ι → ℕ} {m : Machine ι} {chs : ι → List Change} (h : Along g R W P n m chs) :
    ∃ chs', Along g R W P (fun i => n i + schedule.count i) (m.run schedule) chs' := by
  induction schedule generalizing n m chs with
  | nil => exact ⟨chs, by simpa [Machine.run] using h⟩
  | cons i is ih =>
    obtain ⟨c1, h1⟩ := along_step g R W P hR hW h i
    obtain ⟨c2, h2⟩ := ih h1
    refine ⟨c2, ?_⟩
    have e : (fun j => n j + (i :: is).count j) = fun j => Function.update n i (n i + 1) j + is.count j := by
      funext j
      by_cases hj : j = i
      · subst hj; simp [Function.update_self]; omega
      · rw [Function.update_of_ne hj, List.count_cons_of_ne (Ne.symm hj)]
    rw [e]
    exact h2

/-- a process that is called often enough ends, and has done what it does alone -/
theorem run_replicate (m : Machine ι) (i : ι) (k : ℕ) (h : (m.processes i).calls m.fs ≤ k) :
    m.run (List.replicate k i) = ⟨after (m.processes i).alone m.fs,
      Function.update m.processes i (.done ((m.processes i).alone m.fs).2)⟩ := by
  induction k generalizing m with
  | zero =>
    rcases hi : m.processes i with r | ⟨c, nx⟩
    · obtain ⟨fs, ps⟩ := m
      simp only [List.replicate_zero, Machine.run, List.foldl_nil]
      simp only at hi
      rw [Process.alone]
      congr 1
      rw [← hi, Function.update_eq_self]
    · rw [hi] at h
      simp [Process.calls] at h
  | succ k ih =>
    rw [List.replicate_succ]
    show (m.step i).run (List.replicate k i) = _
    rcases hi : m.processes i with r | ⟨c, nx⟩
    · have e : m.step i = m := by unfold Machine.step; rw [hi]
      rw [e, ih m (by rw [hi]; exact Nat.zero_le _), hi]
    · have e : m.step i = ⟨applyChanges m.fs (c m.fs).toList, Function.update m.processes i (nx m.fs)⟩ := by
        unfold Machine.step; rw [hi]
      rw [hi] at h
      simp only [Process.calls] at h
      rw [ih _ (by rw [e]; simp only [Function.update_self]; omega), e]
      simp only [Function.update_self, Function.update_idem, after, Process.alone, applyChanges_append]

theorem run_append (m : Machine ι) (a b : List ι) : m.run (a ++ b) = (m.run a).run b := List.foldl_append

end

end Wam
