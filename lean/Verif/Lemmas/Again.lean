import Verif.Props.DiskMore
import Verif.Spec.Again

/-! # An action on a file system, and once more on one that an interrupted attempt has left -/

set_option linter.unusedSectionVars false
set_option linter.unusedVariables false

namespace Wam
open Spec

/-! ### Everything stays in a folder -/

/-- every change is made in a folder, and no folder becomes a file -/
def Grounded : FileSystem → List Change → Prop
  | _, [] => True
  | fs, (p, n) :: chs =>
    (p ≠ [] ∧ fs p.dropLast = some .dir ∧ (fs p = some .dir → n = .dir)) ∧
      Grounded (Function.update fs p (some n)) chs

theorem grounded_append (fs : FileSystem) (a b : List Change) :
    Grounded fs (a ++ b) ↔ Grounded fs a ∧ Grounded (applyChanges fs a) b := by
  induction a generalizing fs with
  | nil => simp [Grounded, applyChanges]
  | cons x a ih =>
    obtain ⟨p, n⟩ := x
    simp only [List.cons_append, Grounded, ih, applyChanges_cons, and_assoc]

theorem wellFormed_update {fs : FileSystem} (hw : WellFormed fs) {p : FPath} {n : Node} (hp : p ≠ [])
    (hpar : fs p.dropLast = some .dir) (hn : fs p = some .dir → n = .dir) :
    WellFormed (Function.update fs p (some n)) := by
  refine ⟨by rw [Function.update_of_ne (Ne.symm hp)]; exact hw.root, ?_⟩
  intro q c h
  by_cases hq : q ++ [c] = p
  · have hqp : q ≠ p := by
      intro hc
      have := congrArg List.length (hq.trans hc.symm)
      simp at this
    rw [Function.update_of_ne hqp]
    rw [← hq, List.dropLast_concat] at hpar
    exact hpar
  · rw [Function.update_of_ne hq] at h
    have h1 := hw.parent q c h
    by_cases hqp : q = p
    · subst hqp
      rw [Function.update_self, hn h1]
    · rw [Function.update_of_ne hqp]; exact h1

theorem grounded_wellFormed {fs : FileSystem} (hw : WellFormed fs) (chs : List Change)
    (h : Grounded fs chs) : WellFormed (applyChanges fs chs) := by
  induction chs generalizing fs with
  | nil => exact hw
  | cons x chs ih =>
    obtain ⟨p, n⟩ := x
    exact ih (wellFormed_update hw h.1.1 h.1.2.1 h.1.2.2) h.2

/-- all changes of an action are made in folders -/
def Solid {β : Type} (a : Act β) : Prop := ∀ fs, Grounded fs (a fs).1

theorem solid_moment {β : Type} {a : Act β} (h : Solid a) {fs fs' : FileSystem} (hw : WellFormed fs)
    (hm : Moment a fs fs') : WellFormed fs' := by
  obtain ⟨k, rfl⟩ := hm
  refine grounded_wellFormed hw _ ?_
  have := h fs
  rw [← List.take_append_drop k (a fs).1, grounded_append] at this
  exact this.1

theorem solid_ok {β : Type} {a : Act β} (h : Solid a) {fs : FileSystem} (hw : WellFormed fs)
    {chs : List Change} {r : Except Err β} (hq : a fs = (chs, r)) : WellFormed (applyChanges fs chs) := by
  have := h fs
  rw [hq] at this
  exact grounded_wellFormed hw _ this

theorem solid_pure {β : Type} (b : β) : Solid (Act.pure b) := fun _ => trivial

theorem solid_fail {β : Type} (e : Err) : Solid (Act.fail (β := β) e) := fun _ => trivial

theorem solid_bind {β γ : Type} {a : Act β} {f : β → Act γ} (h : Solid a) (h' : ∀ b, Solid (f b)) :
    Solid (Act.bind a f) := by
  intro fs
  have h1 := h fs
  rcases hq : a fs with ⟨chs, e | b⟩
  · rw [bind_error hq]; rw [hq] at h1; exact h1
  · rw [bind_ok hq]; rw [hq] at h1
    exact (grounded_append _ _ _).2 ⟨h1, h' b _⟩

theorem solid_osMkdir (p : FPath) : Solid (osMkdir p) := by
  intro fs
  unfold osMkdir
  split
  · trivial
  · next h =>
    split
    · next hd =>
      refine ⟨⟨?_, hd, fun _ => rfl⟩, trivial⟩
      rintro rfl
      have hd' : fs [] = some .dir := hd
      rw [hd'] at h
      exact h rfl
    · trivial
    · trivial

theorem solid_mkdirOnly (e : Bool) (p : FPath) : Solid (mkdirOnly e p) := by
  intro fs
  have h := solid_osMkdir p fs
  unfold mkdirOnly
  rcases hq : osMkdir p fs with ⟨chs, er | u⟩ <;> rw [hq] at h
  · show Grounded fs (if _ then _ else _ : List Change × Except Err Unit).1
    split <;> exact h
  · exact h

theorem solid_mkdirParentsRev (e : Bool) (r : List (List Char)) : Solid (mkdirParentsRev e r) := by
  induction r generalizing e with
  | nil => exact solid_mkdirOnly e []
  | cons c r ih =>
    intro fs
    unfold mkdirParentsRev
    split
    · exact solid_bind (ih true) (fun _ => solid_mkdirOnly _ _) fs
    · exact solid_mkdirOnly _ _ fs

theorem solid_makeFolder (p : FPath) : Solid (makeFolder p) := by
  intro fs
  unfold makeFolder
  split
  · trivial
  · exact solid_mkdirParentsRev _ _ fs

theorem solid_preprocessedFolder (cwd : FPath) (f : Folders) : Solid (preprocessedFolder cwd f) := by
  unfold preprocessedFolder
  split
  · exact solid_pure _
  · exact solid_pure _
  · exact solid_bind (solid_makeFolder _) (fun _ => solid_pure _)

theorem solid_outputFolder (cwd : FPath) (f : Folders) : Solid (outputFolder cwd f) := by
  unfold outputFolder
  split
  · exact solid_pure _
  · exact solid_bind (solid_makeFolder _) (fun _ => solid_pure _)

theorem solid_loadSettings {ρ : Type} (cwd : FPath) (s : FileSettings ρ) : Solid (loadSettings cwd s) := by
  unfold loadSettings
  split
  · exact solid_fail _
  · exact solid_bind (solid_preprocessedFolder _ _) fun _ =>
      solid_bind (solid_outputFolder _ _) fun _ => fun _ => trivial

theorem solid_fromYaml {ρ : Type} (parse : List Char → Except Err (FileSettings ρ)) (cwd file : FPath) :
    Solid (fromYaml parse cwd file) := by
  intro fs
  unfold fromYaml
  split
  · trivial
  · trivial
  · split
    · trivial
    · exact solid_loadSettings _ _ fs

theorem solid_save (p : FPath) (x : List Char) : Solid (save p x) := by
  intro fs
  unfold save
  split
  · trivial
  · next h =>
    split
    · next hd =>
      have hp : p ≠ [] := by rintro rfl; exact h hd
      refine ⟨⟨hp, hd, fun hc => absurd hc h⟩, ⟨hp, ?_, ?_⟩, trivial⟩
      · rw [Function.update_of_ne]
        · exact hd
        · intro hc
          have := congrArg List.length hc
          rw [List.length_dropLast] at this
          have : 0 < p.length := List.length_pos_iff.2 hp
          omega
      · intro hc; rw [Function.update_self] at hc; cases hc
    · trivial
    · trivial

theorem solid_copyConfigYaml (file folder : FPath) : Solid (copyConfigYaml file folder) := by
  intro fs
  unfold copyConfigYaml
  simp only
  split
  · split
    · trivial
    · exact solid_save _ _ _
  · trivial

theorem solid_savingRun (c : Calendar) (b : Bool) (F : FPath) (x : Saving) : Solid (x.run c b F) := by
  unfold Saving.run
  split
  · exact solid_save _ _
  · exact solid_bind (solid_mkdirOnly _ _) fun _ => solid_save _ _

theorem solid_saveAll (c : Calendar) (b : Bool) (F : FPath) (ss : List Saving) :
    Solid (saveAll c b F ss) := by
  induction ss with
  | nil => exact solid_pure _
  | cons x ss ih => exact solid_bind (solid_savingRun _ _ _ _) fun _ => ih

theorem solid_endWith (e : Option Err) : Solid (endWith e) := by
  cases e
  · exact solid_pure _
  · exact solid_fail _

theorem solid_startCommand {ρ : Type} (parse : List Char → Except Err (FileSettings ρ)) (cwd file : FPath)
    (stamp : List Char) (folder : Loaded ρ → Option FPath) :
    Solid (startCommand parse cwd file stamp folder) := by
  refine solid_bind (solid_fromYaml _ _ _) fun cfg => ?_
  intro fs
  split
  · trivial
  · exact solid_bind (solid_save _ _) (fun _ => solid_copyConfigYaml _ _) fs

theorem solid_runExperiment {ρ : Type} (parse : List Char → Except Err (FileSettings ρ))
    (cwd file : FPath) (backward : ρ → Bool) (folder : Loaded ρ → Option FPath)
    (experiment : Experiment ρ) : Solid (runExperiment parse cwd file backward folder experiment) := by
  refine solid_bind (solid_fromYaml _ _ _) fun cfg => ?_
  intro fs
  split
  · trivial
  · exact solid_bind (solid_saveAll _ _ _ _) (fun _ => solid_endWith _) fs

theorem solid_command {ρ : Type} (parse : List Char → Except Err (FileSettings ρ)) (cwd file : FPath)
    (stamp : List Char) (backward : ρ → Bool) (folder : Loaded ρ → Option FPath)
    (experiment : Experiment ρ) : Solid (command parse cwd file stamp backward folder experiment) :=
  solid_bind (solid_startCommand _ _ _ _ _) fun _ => solid_runExperiment _ _ _ _ _ _

/-! ### The same action on two file systems -/

/-- `g` is `f` after unfinished attempts: there may be more folders out of `D`, and the files of `W` may be anything but
folders; the files of `E` are those of `B` -/
structure Near (B : FileSystem) (D W E : FPath → Prop) (f g : FileSystem) : Prop where
  wf : WellFormed f
  wg : WellFormed g
  dir : ∀ p, f p = some .dir → g p = some .dir
  file : ∀ p x, f p = some (.file x) → ¬ W p → g p = some (.file x)
  new : ∀ p, f p = none → ¬ W p → g p = none ∨ (D p ∧ g p = some .dir)
  free : ∀ p, W p → f p ≠ some .dir ∧ g p ≠ some .dir
  same : ∀ p, E p → f p = B p ∧ g p = B p

/-- If `a` succeeds on `f` then `a'` succeeds on `g` with the same result; afterwards they agree on `S`, and everywhere but on
`L` they agree if they did before. -/
def Again {β : Type} (B : FileSystem) (D W E L S : FPath → Prop) (a a' : Act β) : Prop :=
  ∀ f g chs b, Near B D W E f g → a f = (chs, .ok b) → ∃ chs', a' g = (chs', .ok b) ∧
    Near B D W E (applyChanges f chs) (applyChanges g chs') ∧
    (∀ p, S p → applyChanges f chs p = applyChanges g chs' p) ∧
    (∀ p, ¬ L p → f p = g p → applyChanges f chs p = applyChanges g chs' p)

section
variable {B : FileSystem} {D W E L S : FPath → Prop}

theorem again_pure {β : Type} (b : β) (L : FPath → Prop) :
    Again B D W E L (fun _ => False) (Act.pure b) (Act.pure b) := by
  intro f g chs b' h hq
  injection hq with h1 h2
  subst h1
  injection h2 with h2
  subst h2
  exact ⟨[], rfl, h, fun _ h => h.elim, fun p _ h => h⟩

theorem again_bind {β γ : Type} {S' : FPath → Prop} {a a' : Act β} {k k' : β → Act γ} (P : β → Prop)
    (h : Again B D W E L S a a') (hP : ∀ f g chs b, Near B D W E f g → a f = (chs, .ok b) → P b)
    (hk : ∀ b, P b → Again B D W E L S' (k b) (k' b)) (hSL : ∀ p, S p → ¬ L p) :
    Again B D W E L (fun p => S p ∨ S' p) (Act.bind a k) (Act.bind a' k') := by
  intro f g chs r hn hq
  rcases h1 : a f with ⟨c1, e | b⟩
  · rw [bind_error h1] at hq; exact absurd (congrArg Prod.snd hq) (by simp)
  · rw [bind_ok h1] at hq
    obtain ⟨c1', h1', n1, s1, e1⟩ := h f g c1 b hn h1
    rcases h2 : k b (applyChanges f c1) with ⟨c2, e | r'⟩
    · rw [h2] at hq; exact absurd (congrArg Prod.snd hq) (by simp)
    · rw [h2] at hq
      injection hq with hc hr
      injection hr with hr
      subst hr
      subst hc
      obtain ⟨c2', h2', n2, s2, e2⟩ := hk b (hP f g c1 b hn h1) _ _ c2 r' n1 h2
      refine ⟨c1' ++ c2', ?_, ?_, ?_, ?_⟩
      · rw [bind_ok h1', h2']
      · rw [applyChanges_append, applyChanges_append]; exact n2
      · intro p hp
        rw [applyChanges_append, applyChanges_append]
        rcases hp with hp | hp
        · exact e2 p (hSL p hp) (s1 p hp)
        · exact s2 p hp
      · intro p hL hp
        rw [applyChanges_append, applyChanges_append]
        exact e2 p hL (e1 p hL hp)

theorem again_mono {β : Type} {S' : FPath → Prop} {a a' : Act β} (h : Again B D W E L S a a')
    (hS : ∀ p, S' p → S p) : Again B D W E L S' a a' := by
  intro f g chs b hn hq
  obtain ⟨c, h1, h2, h3, h4⟩ := h f g chs b hn hq
  exact ⟨c, h1, h2, fun p hp => h3 p (hS p hp), h4⟩

theorem save_eq {fs : FileSystem} {p : FPath} {x : List Char} {chs : List Change} {u : Unit}
    (h : save p x fs = (chs, .ok u)) :
    chs = [(p, .file []), (p, .file x)] ∧ fs p.dropLast = some .dir ∧ fs p ≠ some .dir := by
  unfold save at h
  split at h
  · exact absurd (congrArg Prod.snd h) (by simp)
  · next hn =>
    split at h
    · next hd => injection h with h _; exact ⟨h.symm, hd, hn⟩
    · exact absurd (congrArg Prod.snd h) (by simp)
    · exact absurd (congrArg Prod.snd h) (by simp)

theorem save_of {fs : FileSystem} {p : FPath} {x : List Char} (h : fs p.dropLast = some .dir)
    (hn : fs p ≠ some .dir) : save p x fs = ([(p, .file []), (p, .file x)], .ok ()) := by
  unfold save; rw [if_neg hn, h]

theorem save_apply (fs : FileSystem) (p : FPath) (x : List Char) :
    applyChanges fs [(p, .file []), (p, .file x)] = Function.update fs p (some (.file x)) := by
  simp [applyChanges]

theorem near_update (hEW : ∀ p, E p → ¬ W p) {f g : FileSystem} (h : Near B D W E f g) {p q : FPath}
    {x y : List Char} (hp : W p) (hq : W q)
    (hf : WellFormed (Function.update f p (some (.file x))))
    (hg : WellFormed (Function.update g q (some (.file y))))  :
    Near B D W E (Function.update f p (some (.file x))) (Function.update g q (some (.file y))) := by
  have hne : ∀ r, ¬ W r → r ≠ p ∧ r ≠ q := fun r hr =>
    ⟨fun hc => hr (hc ▸ hp), fun hc => hr (hc ▸ hq)⟩
  refine ⟨hf, hg, ?_, ?_, ?_, ?_, ?_⟩
  · intro r hr
    by_cases h1 : r = p
    · subst h1; rw [Function.update_self] at hr; cases hr
    · rw [Function.update_of_ne h1] at hr
      by_cases h2 : r = q
      · subst h2; exact absurd hr (h.free r hq).1
      · rw [Function.update_of_ne h2]; exact h.dir r hr
  · intro r z hr hw
    obtain ⟨h1, h2⟩ := hne r hw
    rw [Function.update_of_ne h1] at hr
    rw [Function.update_of_ne h2]; exact h.file r z hr hw
  · intro r hr hw
    obtain ⟨h1, h2⟩ := hne r hw
    rw [Function.update_of_ne h1] at hr
    rw [Function.update_of_ne h2]; exact h.new r hr hw
  · intro r hr
    refine ⟨?_, ?_⟩
    · by_cases h1 : r = p
      · subst h1; rw [Function.update_self]; simp
      · rw [Function.update_of_ne h1]; exact (h.free r hr).1
    · by_cases h1 : r = q
      · subst h1; rw [Function.update_self]; simp
      · rw [Function.update_of_ne h1]; exact (h.free r hr).2
  · intro r hr
    obtain ⟨h1, h2⟩ := hne r (hEW r hr)
    rw [Function.update_of_ne h1, Function.update_of_ne h2]; exact h.same r hr

/-- writing the same file -/
theorem again_save (hEW : ∀ p, E p → ¬ W p) {p : FPath} (hp : W p) (x : List Char) (L : FPath → Prop) :
    Again B D W E L (· = p) (save p x) (save p x) := by
  intro f g chs b hn hq
  have hwf := solid_ok (solid_save p x) hn.wf hq
  obtain ⟨rfl, h1, h2⟩ := save_eq hq
  have hg := save_of (x := x) (hn.dir _ h1) (hn.free p hp).2
  have hwg := solid_ok (solid_save p x) hn.wg hg
  refine ⟨_, hg, ?_, ?_, ?_⟩
  · rw [save_apply] at hwf hwg ⊢
    rw [save_apply]
    exact near_update hEW hn hp hp hwf hwg
  · rintro q rfl
    rw [save_apply, save_apply, Function.update_self, Function.update_self]
  · intro q _ hq
    rw [save_apply, save_apply]
    by_cases h1 : q = p
    · subst h1; rw [Function.update_self, Function.update_self]
    · rw [Function.update_of_ne h1, Function.update_of_ne h1, hq]

/-- starting the log, at two different times -/
theorem again_log (hEW : ∀ p, E p → ¬ W p) (F : FPath) (s s' : List Char) (hs : W (logPath F s))
    (hs' : W (logPath F s')) :
    Again B D W E (fun p => p = logPath F s ∨ p = logPath F s') (fun _ => False)
      (setupLogging F s) (setupLogging F s') := by
  intro f g chs b hn hq
  have hq' : save (logPath F s) [] f = (chs, .ok b) := hq
  have hwf := solid_ok (solid_save _ _) hn.wf hq'
  obtain ⟨rfl, h1, h2⟩ := save_eq hq'
  have hd : (logPath F s).dropLast = (logPath F s').dropLast := by
    unfold logPath; rw [List.dropLast_concat, List.dropLast_concat]
  have hg := save_of (x := []) (hn.dir _ (hd ▸ h1)) (hn.free _ hs').2
  have hwg := solid_ok (solid_save _ _) hn.wg hg
  refine ⟨_, hg, ?_, fun _ h => h.elim, ?_⟩
  · rw [save_apply] at hwf hwg ⊢
    rw [save_apply]
    exact near_update hEW hn hs hs' hwf hwg
  · intro q hL hq
    rw [save_apply, save_apply]
    rw [Function.update_of_ne (fun h => hL (Or.inl h)), Function.update_of_ne (fun h => hL (Or.inr h)), hq]

/-- making folders -/
theorem again_folders {β : Type} (hDW : ∀ p, D p → ¬ W p) (hED : ∀ p, E p → ¬ D p) {T : FPath → Prop} {a : Act β} (ha : Solid a)
    (L : FPath → Prop)
    (h : ∀ f g chs b, Near B D W E f g → a f = (chs, .ok b) → ∃ chs', a g = (chs', .ok b) ∧
      ∀ p, (applyChanges f chs p = f p ∧ applyChanges g chs' p = g p ∧ (T p → f p = g p)) ∨
        (D p ∧ applyChanges f chs p = some .dir ∧ applyChanges g chs' p = some .dir)) :
    Again B D W E L T a a := by
  intro f g chs b hn hq
  obtain ⟨chs', hg, hpt⟩ := h f g chs b hn hq
  refine ⟨chs', hg, ⟨solid_ok ha hn.wf hq, solid_ok ha hn.wg hg, ?_, ?_, ?_, ?_, ?_⟩, ?_, ?_⟩
  · intro p hp
    rcases hpt p with ⟨h1, h2, _⟩ | ⟨_, _, h2⟩
    · rw [h2]; rw [h1] at hp; exact hn.dir p hp
    · exact h2
  · intro p x hp hw
    rcases hpt p with ⟨h1, h2, _⟩ | ⟨_, h1, h2⟩
    · rw [h2]; rw [h1] at hp; exact hn.file p x hp hw
    · rw [h1] at hp; cases hp
  · intro p hp hw
    rcases hpt p with ⟨h1, h2, _⟩ | ⟨_, h1, h2⟩
    · rw [h2]; rw [h1] at hp; exact hn.new p hp hw
    · rw [h1] at hp; cases hp
  · intro p hw
    rcases hpt p with ⟨h1, h2, _⟩ | ⟨h1, _⟩
    · rw [h1, h2]; exact hn.free p hw
    · exact absurd hw (hDW p h1)
  · intro p hp
    rcases hpt p with ⟨h1, h2, _⟩ | ⟨h0, h1, h2⟩
    · rw [h1, h2]; exact hn.same p hp
    · exact absurd h0 (hED p hp)
  · intro p hp
    rcases hpt p with ⟨h1, h2, h3⟩ | ⟨_, h1, h2⟩
    · rw [h1, h2]; exact h3 hp
    · rw [h1, h2]
  · intro p _ hp
    rcases hpt p with ⟨h1, h2, _⟩ | ⟨_, h1, h2⟩
    · rw [h1, h2]; exact hp
    · rw [h1, h2]

theorem mkdirOnly_cases {p : FPath} {fs : FileSystem} {chs : List Change} {u : Unit}
    (h : mkdirOnly true p fs = (chs, .ok u)) :
    (fs p = some .dir ∧ chs = []) ∨ (fs p = none ∧ fs p.dropLast = some .dir ∧ chs = [(p, .dir)]) := by
  unfold mkdirOnly at h
  unfold osMkdir at h
  rcases hp : fs p with _ | (_ | x)
  · rw [hp] at h
    rcases hd : fs p.dropLast with _ | (_ | y)
    · rw [hd] at h; exact absurd (congrArg Prod.snd h) (by simp)
    · rw [hd] at h
      right
      refine ⟨rfl, rfl, ?_⟩
      have := congrArg Prod.fst h
      simpa using this.symm
    · rw [hd] at h; exact absurd (congrArg Prod.snd h) (by simp)
  · rw [hp] at h
    left
    refine ⟨rfl, ?_⟩
    have := congrArg Prod.fst h
    simpa using this.symm
  · rw [hp] at h; exact absurd (congrArg Prod.snd h) (by simp)

theorem mkdirOnly_dir {p : FPath} {fs : FileSystem} (h : fs p = some .dir) :
    mkdirOnly true p fs = ([], .ok ()) := by
  have h1 : osMkdir p fs = ([], .error (.other "FileExistsError")) := by
    unfold osMkdir; rw [h]; rfl
  unfold mkdirOnly
  rw [h1]
  exact if_pos ⟨rfl, h⟩

theorem mkdirOnly_none {p : FPath} {fs : FileSystem} (h : fs p = none) (hd : fs p.dropLast = some .dir) :
    mkdirOnly true p fs = ([(p, .dir)], .ok ()) := by
  have h1 : osMkdir p fs = ([(p, .dir)], .ok ()) := by
    unfold osMkdir; rw [h, hd]; rfl
  unfold mkdirOnly
  rw [h1]

theorem again_mkdirOnly (hDW : ∀ p, D p → ¬ W p) (hED : ∀ p, E p → ¬ D p) {p : FPath} (hp : D p) (L : FPath → Prop) :
    Again B D W E L (· = p) (mkdirOnly true p) (mkdirOnly true p) := by
  refine again_folders hDW hED (solid_mkdirOnly _ _) L ?_
  intro f g chs b hn hq
  have happ : ∀ (h : FileSystem) (q : FPath), q ≠ p → applyChanges h [(p, .dir)] q = h q := by
    intro h q hq
    exact Function.update_of_ne hq _ _
  have hself : ∀ h : FileSystem, applyChanges h [(p, .dir)] p = some .dir := fun h => by simp [applyChanges]
  have hg : (g p = none ∧ f p = none) ∨ g p = some .dir := by
    rcases mkdirOnly_cases hq with ⟨h1, _⟩ | ⟨h1, h2, h3⟩
    · exact Or.inr (hn.dir p h1)
    · rcases hn.new p h1 (hDW p hp) with h | ⟨_, h⟩
      · exact Or.inl ⟨h, h1⟩
      · exact Or.inr h
  rcases mkdirOnly_cases hq with ⟨h1, rfl⟩ | ⟨h1, h2, rfl⟩
  · refine ⟨[], mkdirOnly_dir (hn.dir p h1), fun q => Or.inl ⟨rfl, rfl, ?_⟩⟩
    rintro rfl
    rw [h1, hn.dir q h1]
  · rcases hg with ⟨hg, _⟩ | hg
    · refine ⟨_, mkdirOnly_none hg (hn.dir _ h2), fun q => ?_⟩
      by_cases hqp : q = p
      · subst hqp; exact Or.inr ⟨hp, hself _, hself _⟩
      · exact Or.inl ⟨happ _ _ hqp, happ _ _ hqp, fun h => absurd h hqp⟩
    · refine ⟨_, mkdirOnly_dir hg, fun q => ?_⟩
      by_cases hqp : q = p
      · subst hqp; exact Or.inr ⟨hp, hself _, hg⟩
      · exact Or.inl ⟨happ _ _ hqp, rfl, fun h => absurd h hqp⟩

theorem way_dir {fs : FileSystem} (hw : WellFormed fs) {p q : FPath} (hp : fs p = some .dir)
    (h : OnTheWayTo p q) : fs q = some .dir := by
  obtain ⟨rest, hr⟩ := h
  by_cases hr0 : rest = []
  · subst hr0; rw [List.append_nil] at hr; rw [hr]; exact hp
  · exact wellFormed_prefix hw q rest (by rw [hr, hp]; simp) hr0

theorem again_makeFolder (hDW : ∀ p, D p → ¬ W p) (hED : ∀ p, E p → ¬ D p) {p : FPath} (hp : ∀ q, OnTheWayTo p q → D q)
    (L : FPath → Prop) : Again B D W E L (OnTheWayTo p) (makeFolder p) (makeFolder p) := by
  refine again_folders hDW hED (solid_makeFolder _) L ?_
  intro f g chs b hn hq
  have hDp : D p := hp p ⟨[], by simp⟩
  by_cases hs : (f p).isSome
  · rw [makeFolder_exists hs] at hq
    injection hq with hq _
    subst hq
    have hgp : g p = f p := by
      rcases hfp : f p with _ | (_ | x)
      · rw [hfp] at hs; cases hs
      · exact hn.dir p hfp
      · exact hn.file p x hfp (hDW p hDp)
    refine ⟨[], makeFolder_exists (by rw [hgp]; exact hs), fun q => Or.inl ⟨rfl, rfl, ?_⟩⟩
    intro hway
    obtain ⟨rest, hr⟩ := hway
    by_cases hr0 : rest = []
    · subst hr0; rw [List.append_nil] at hr; rw [hr, hgp]
    · have h1 : f (q ++ rest) ≠ none := by rw [hr]; exact Option.isSome_iff_ne_none.1 hs
      have := wellFormed_prefix hn.wf q rest h1 hr0
      rw [this, hn.dir q this]
  · have hfp : f p = none := by simpa using hs
    have h0 : makeFolder p f = mkdirParents false p f := by unfold makeFolder; rw [hfp]; rfl
    have hfd : applyChanges f chs p = some .dir := by
      rw [h0] at hq
      have := mkdirParentsRev_ok hq
      rwa [List.reverse_reverse] at this
    have hwf := solid_ok (solid_makeFolder p) hn.wf hq
    have hfway : ∀ q, OnTheWayTo p q → applyChanges f chs q = some .dir := fun q h => way_dir hwf hfd h
    have hfch := only_ok (only_makeFolder (fun _ => False) p) hq
    have hffree : ∀ q, OnTheWayTo p q → ∀ x, f q ≠ some (.file x) := by
      intro q hqw x hx
      rcases hfch q with h | ⟨_, h, _⟩ | ⟨h, _⟩
      · rw [hfway q hqw, hx] at h; cases h
      · rw [hx] at h; cases h
      · exact h
    have hgfree : ∀ q, OnTheWayTo p q → ∀ x, g q ≠ some (.file x) := by
      intro q hqw x hx
      have hD := hp q hqw
      rcases hfq : f q with _ | (_ | y)
      · rcases hn.new q hfq (hDW q hD) with h | ⟨_, h⟩
        · rw [hx] at h; cases h
        · rw [hx] at h; cases h
      · rw [hn.dir q hfq] at hx; cases hx
      · exact hffree q hqw y hfq
    obtain ⟨chs', hg, hgd⟩ := makeFolder_total hn.wg p hgfree
    have hwg := solid_ok (solid_makeFolder p) hn.wg hg
    have hgch := only_ok (only_makeFolder (fun _ => False) p) hg
    refine ⟨chs', hg, fun q => ?_⟩
    by_cases hqw : OnTheWayTo p q
    · exact Or.inr ⟨hp q hqw, hfway q hqw, way_dir hwg hgd hqw⟩
    · refine Or.inl ⟨?_, ?_, fun h => absurd h hqw⟩
      · rcases hfch q with h | ⟨h, _⟩ | ⟨h, _⟩
        · exact h
        · exact absurd h hqw
        · exact h.elim
      · rcases hgch q with h | ⟨h, _⟩ | ⟨h, _⟩
        · exact h
        · exact absurd h hqw
        · exact h.elim

/-! ### Configuration -/

variable {ρ : Type}

theorem again_preprocessedFolder (hDW : ∀ p, D p → ¬ W p) (hED : ∀ p, E p → ¬ D p) (cwd : FPath)
    (f : Folders) (hD : ∀ p, ConfigFolder cwd f p → D p) (L : FPath → Prop) (hL : ∀ p, D p → ¬ L p) :
    Again B D W E L (fun p => ∃ name, f.preprocessed = .ok (some name) ∧ OnTheWayTo (resolve cwd name) p)
      (preprocessedFolder cwd f) (preprocessedFolder cwd f) := by
  unfold preprocessedFolder
  rcases h : f.preprocessed with e | (_ | name)
  · exact again_mono (again_pure _ _) (fun p hp => by obtain ⟨_, h, _⟩ := hp; cases h)
  · exact again_mono (again_pure _ _) (fun p hp => by
      obtain ⟨_, h, _⟩ := hp; injection h with h; cases h)
  · have hway : ∀ q, OnTheWayTo (resolve cwd name) q → D q := fun q hq =>
      hD q ⟨_, Or.inl ⟨name, h, rfl⟩, hq⟩
    refine again_mono (again_bind (fun _ => True) (again_makeFolder hDW hED hway L)
      (fun _ _ _ _ _ _ => trivial) (fun _ _ => again_pure _ _) (fun p hp => hL p (hway p hp))) ?_
    rintro p ⟨name', h', hp⟩
    injection h' with h'
    injection h' with h'
    subst h'
    exact Or.inl hp

theorem again_outputFolder (hDW : ∀ p, D p → ¬ W p) (hED : ∀ p, E p → ¬ D p) (cwd : FPath)
    (f : Folders) (hD : ∀ p, ConfigFolder cwd f p → D p) (L : FPath → Prop) (hL : ∀ p, D p → ¬ L p) :
    Again B D W E L (fun p => ∃ name, f.output = .ok name ∧ OnTheWayTo (resolve cwd name) p)
      (outputFolder cwd f) (outputFolder cwd f) := by
  unfold outputFolder
  rcases h : f.output with e | name
  · exact again_mono (again_pure _ _) (fun p hp => by obtain ⟨_, h, _⟩ := hp; cases h)
  · have hway : ∀ q, OnTheWayTo (resolve cwd name) q → D q := fun q hq =>
      hD q ⟨_, Or.inr ⟨name, h, rfl⟩, hq⟩
    refine again_mono (again_bind (fun _ => True) (again_makeFolder hDW hED hway L)
      (fun _ _ _ _ _ _ => trivial) (fun _ _ => again_pure _ _) (fun p hp => hL p (hway p hp))) ?_
    rintro p ⟨name', h', hp⟩
    injection h' with h'
    subst h'
    exact Or.inl hp

theorem again_const {β : Type} (r : Except Err β) (L : FPath → Prop) :
    Again B D W E L (fun _ => False) (fun _ => ([], r)) (fun _ => ([], r)) := by
  intro f g chs b hn hq
  injection hq with h1 h2
  subst h1
  subst h2
  exact ⟨[], rfl, hn, fun _ h => h.elim, fun p _ h => h⟩

theorem again_loadSettings (hDW : ∀ p, D p → ¬ W p) (hED : ∀ p, E p → ¬ D p) (cwd : FPath)
    (s : FileSettings ρ) (hD : ∀ p, ConfigFolder cwd s.folders p → D p) (L : FPath → Prop)
    (hL : ∀ p, D p → ¬ L p) :
    Again B D W E L (ConfigFolder cwd s.folders) (loadSettings cwd s) (loadSettings cwd s) := by
  rcases hd : convertDates s.settings with e | d
  · rw [loadSettings_error hd]
    intro f g chs b _ hq
    exact absurd (congrArg Prod.snd hq) (by simp [Act.fail])
  · rw [loadSettings_eq hd]
    unfold loadFields
    refine again_mono (again_bind (fun _ => True) (again_preprocessedFolder hDW hED cwd s.folders hD L hL)
      (fun _ _ _ _ _ _ => trivial) (fun _ _ => again_bind (fun _ => True)
        (again_outputFolder hDW hED cwd s.folders hD L hL) (fun _ _ _ _ _ _ => trivial)
        (fun _ _ => again_const _ L) ?_) ?_) ?_
    · rintro p ⟨name, h, hp⟩
      exact hL p (hD p ⟨_, Or.inr ⟨name, h, rfl⟩, hp⟩)
    · rintro p ⟨name, h, hp⟩
      exact hL p (hD p ⟨_, Or.inl ⟨name, h, rfl⟩, hp⟩)
    · rintro p ⟨q, ⟨name, h, rfl⟩ | ⟨name, h, rfl⟩, hq⟩
      · exact Or.inl ⟨name, h, hq⟩
      · exact Or.inr (Or.inl ⟨name, h, hq⟩)

section
variable {parse : List Char → Except Err (FileSettings ρ)} {cwd file : FPath} {text : List Char}
  {s : FileSettings ρ}

theorem again_fromYaml (hDW : ∀ p, D p → ¬ W p) (hED : ∀ p, E p → ¬ D p)
    (hD : ∀ p, ConfigFolder cwd s.folders p → D p) (L : FPath → Prop) (hL : ∀ p, D p → ¬ L p)
    (hB : B file = some (.file text)) (hE : E file) (hp : parse text = .ok s) :
    Again B D W E L (ConfigFolder cwd s.folders) (fromYaml parse cwd file) (fromYaml parse cwd file) := by
  intro f g chs b hn hq
  rw [fromYaml_eq ((hn.same file hE).1.trans hB) hp] at hq
  rw [fromYaml_eq ((hn.same file hE).2.trans hB) hp]
  exact again_loadSettings hDW hED cwd s hD L hL f g chs b hn hq

theorem again_copy (hEW : ∀ p, E p → ¬ W p) (F : FPath) (hB : B file = some (.file text)) (hE : E file)
    (hW : W (F ++ file.getLast?.toList)) (L : FPath → Prop) :
    Again B D W E L (· = F ++ file.getLast?.toList) (copyConfigYaml file F) (copyConfigYaml file F) := by
  intro f g chs b hn hq
  have h1 : copyConfigYaml file F f = save (F ++ file.getLast?.toList) text f := by
    unfold copyConfigYaml
    simp only [(hn.same file hE).1.trans hB]
    split
    · next h => rw [h] at hW; exact absurd hW (hEW file hE)
    · rfl
  have h2 : copyConfigYaml file F g = save (F ++ file.getLast?.toList) text g := by
    unfold copyConfigYaml
    simp only [(hn.same file hE).2.trans hB]
    split
    · next h => rw [h] at hW; exact absurd hW (hEW file hE)
    · rfl
  rw [h1] at hq
  rw [h2]
  exact again_save hEW hW text L f g chs b hn hq

/-- the two files of a log: those of the two attempts -/
def Logs (F : FPath) (st st' : List Char) (p : FPath) : Prop := p = logPath F st ∨ p = logPath F st'

theorem again_savingRun (hDW : ∀ p, D p → ¬ W p) (hED : ∀ p, E p → ¬ D p) (hEW : ∀ p, E p → ¬ W p)
    (c : Calendar) (b : Bool) (F : FPath) (x : Saving) (L : FPath → Prop) (hL : ∀ p, D p → ¬ L p)
    (hD : ∀ sub, (x.place c b).1 = some sub → D (F ++ [sub])) (hW : W (x.path c b F)) :
    Again B D W E L (fun p => p = x.path c b F ∨ ∃ sub, (x.place c b).1 = some sub ∧ p = F ++ [sub])
      (x.run c b F) (x.run c b F) := by
  unfold Saving.run
  rcases h : (x.place c b).1 with _ | sub
  · refine again_mono (again_save hEW hW x.content L) ?_
    rintro p (hp | ⟨_, hc, _⟩)
    · exact hp
    · cases hc
  · refine again_mono (again_bind (fun _ => True) (again_mkdirOnly hDW hED (hD sub h) L)
      (fun _ _ _ _ _ _ => trivial) (fun _ _ => again_save hEW hW x.content L)
      (fun p hp => hL p (hp ▸ hD sub h))) ?_
    rintro p (hp | ⟨_, hc, hp⟩)
    · exact Or.inr hp
    · injection hc with hc
      subst hc
      exact Or.inl hp

theorem again_saveAll (hDW : ∀ p, D p → ¬ W p) (hED : ∀ p, E p → ¬ D p) (hEW : ∀ p, E p → ¬ W p)
    (c : Calendar) (b : Bool) (F : FPath) (ss : List Saving) (L : FPath → Prop) (hL : ∀ p, D p → ¬ L p)
    (hD : ∀ x ∈ ss, ∀ sub, (x.place c b).1 = some sub → D (F ++ [sub]))
    (hW : ∀ x ∈ ss, W (x.path c b F) ∧ ¬ L (x.path c b F)) :
    Again B D W E L (fun p => ∃ x ∈ ss, p = x.path c b F ∨ ∃ sub, (x.place c b).1 = some sub ∧ p = F ++ [sub])
      (saveAll c b F ss) (saveAll c b F ss) := by
  induction ss with
  | nil => exact again_mono (again_pure _ _) (fun p hp => by obtain ⟨_, h, _⟩ := hp; cases h)
  | cons x ss ih =>
    unfold saveAll
    refine again_mono (again_bind (fun _ => True) (again_savingRun hDW hED hEW c b F x L hL
      (hD x (by simp)) (hW x (by simp)).1) (fun _ _ _ _ _ _ => trivial)
      (fun _ _ => ih (fun y hy => hD y (by simp [hy])) (fun y hy => hW y (by simp [hy]))) ?_) ?_
    · rintro p (rfl | ⟨sub, h, rfl⟩)
      · exact (hW x (by simp)).2
      · exact hL _ (hD x (by simp) sub h)
    · rintro p ⟨y, hy, hp⟩
      rcases List.mem_cons.1 hy with rfl | hy
      · exact Or.inl hp
      · exact Or.inr ⟨y, hy, hp⟩

theorem again_endWith (e : Option Err) (L : FPath → Prop) :
    Again B D W E L (fun _ => False) (endWith e) (endWith e) := by
  cases e
  · exact again_pure _ _
  · intro f g chs b _ hq
    exact absurd (congrArg Prod.snd hq) (by simp [endWith, Act.fail])

/-- The second attempt does what the first would have done. -/
theorem again_command {stamp stamp' : List Char} {backward : ρ → Bool} {folder : Loaded ρ → Option FPath}
    {experiment : Experiment ρ} {F : FPath} {cfg : Loaded ρ}
    (hDW : ∀ p, D p → ¬ W p) (hED : ∀ p, E p → ¬ D p) (hEW : ∀ p, E p → ¬ W p)
    (hD : ∀ p, ConfigFolder cwd s.folders p → D p)
    (hB : B file = some (.file text)) (hE : E file) (hp : parse text = .ok s)
    (hcfg : LoadedFrom cwd s cfg) (hF : folder cfg = some F)
    (hlog : W (logPath F stamp)) (hlog' : W (logPath F stamp')) (hcopy : W (F ++ file.getLast?.toList))
    (hcl : ¬ Logs F stamp stamp' (F ++ file.getLast?.toList))
    (hexp : ∀ f : FileSystem, (∀ p, E p → f p = B p) → experiment cfg f = experiment cfg B)
    (hsub : ∀ x ∈ (experiment cfg B).1, ∀ sub,
      (x.place cfg.calendar (backward cfg.config.rest)).1 = some sub → D (F ++ [sub]))
    (hW : ∀ x ∈ (experiment cfg B).1, W (x.path cfg.calendar (backward cfg.config.rest) F) ∧
      ¬ Logs F stamp stamp' (x.path cfg.calendar (backward cfg.config.rest) F)) :
    Again B D W E (Logs F stamp stamp')
      (fun p => (ConfigFolder cwd s.folders p ∨ p = F ++ file.getLast?.toList) ∨
        ∃ x ∈ (experiment cfg B).1, p = x.path cfg.calendar (backward cfg.config.rest) F ∨
          ∃ sub, (x.place cfg.calendar (backward cfg.config.rest)).1 = some sub ∧ p = F ++ [sub])
      (command parse cwd file stamp backward folder experiment)
      (command parse cwd file stamp' backward folder experiment) := by
  have hL : ∀ p, D p → ¬ Logs F stamp stamp' p := by
    rintro p hd (rfl | rfl)
    · exact hDW _ hd hlog
    · exact hDW _ hd hlog'
  have hfrom := again_fromYaml (B := B) (W := W) hDW hED hD (Logs F stamp stamp') hL hB hE hp
  have hpost : ∀ f g chs b, Near B D W E f g → fromYaml parse cwd file f = (chs, .ok b) → b = cfg := by
    intro f g chs b hn hq
    exact loadedFrom_unique (loadedFrom_of ((hn.same file hE).1.trans hB) hp hq) hcfg
  unfold command startCommand runExperiment
  refine again_mono (again_bind (S := fun p => ConfigFolder cwd s.folders p ∨ p = F ++ file.getLast?.toList)
    (S' := fun p => ∃ x ∈ (experiment cfg B).1, p = x.path cfg.calendar (backward cfg.config.rest) F ∨
          ∃ sub, (x.place cfg.calendar (backward cfg.config.rest)).1 = some sub ∧ p = F ++ [sub])
    (fun _ => True) ?_ (fun _ _ _ _ _ _ => trivial) (fun _ _ => ?_) ?_) (fun p h => h)
  · refine again_bind (fun b => b = cfg) hfrom hpost ?_ (fun p hp => hL p (hD p hp))
    rintro b rfl
    simp only [hF]
    refine again_mono (again_bind (fun _ => True) (again_log hEW F stamp stamp' hlog hlog')
      (fun _ _ _ _ _ _ => trivial) (fun _ _ => again_copy hEW F hB hE hcopy _) (fun _ h => h.elim)) ?_
    exact fun p hp => Or.inr hp
  · refine again_mono (again_bind (fun b => b = cfg) hfrom hpost ?_ (fun p hp => hL p (hD p hp)))
      (fun p hp => Or.inr hp)
    rintro b rfl
    simp only [hF]
    intro f g chs u hn hq
    have e1 := hexp f (fun p hp => (hn.same p hp).1)
    have e2 := hexp g (fun p hp => (hn.same p hp).2)
    simp only [e1] at hq
    simp only [e2]
    refine again_mono (again_bind (fun _ => True) (again_saveAll hDW hED hEW _ _ F _ _ hL hsub hW)
      (fun _ _ _ _ _ _ => trivial) (fun _ _ => again_endWith _ _) ?_) (fun p hp => Or.inl hp) f g chs u hn hq
    rintro p ⟨x, hx, rfl | ⟨sub, hs, rfl⟩⟩
    · exact (hW x hx).2
    · exact hL _ (hsub x hx sub hs)
  · rintro p (hp | rfl)
    · exact hL p (hD p hp)
    · exact hcl

/-- a file that any attempt may write -/
def WrittenFile (F file : FPath) (c : Calendar) (b : Bool) (ss : List Saving) (p : FPath) : Prop :=
  LogFile F p ∨ p = F ++ file.getLast?.toList ∨ ∃ x ∈ ss, p = x.path c b F

/-- every moment of an attempt -/
theorem attempt_legal {stamp : List Char} {backward : ρ → Bool} {folder : Loaded ρ → Option FPath}
    {experiment : Experiment ρ} {F : FPath} {cfg : Loaded ρ} {fs : FileSystem} {ss : List Saving}
    (hss : ss = (experiment cfg B).1)
    (hED : ∀ p, E p → ¬ MayMake cwd s.folders F cfg.calendar (backward cfg.config.rest) ss p)
    (hEW : ∀ p, E p → ¬ WrittenFile F file cfg.calendar (backward cfg.config.rest) ss p)
    (hB : B file = some (.file text)) (hE : E file) (hp : parse text = .ok s)
    (hcfg : LoadedFrom cwd s cfg) (hF : folder cfg = some F)
    (hexp : ∀ f : FileSystem, (∀ p, E p → f p = B p) → experiment cfg f = experiment cfg B)
    (hfs : ∀ p, E p → fs p = B p) :
    Legal (MayMake cwd s.folders F cfg.calendar (backward cfg.config.rest) ss)
      (WrittenFile F file cfg.calendar (backward cfg.config.rest) ss) fs
      (command parse cwd file stamp backward folder experiment fs).1 := by
  subst hss
  have hF' : ∀ cfg', LoadedFrom cwd s cfg' → ∀ f, folder cfg' = some f → f = F := by
    intro cfg' hl f hff
    rw [loadedFrom_unique hl hcfg, hF] at hff
    injection hff with hff
    exact hff.symm
  have hf : fs file = some (.file text) := (hfs file hE).trans hB
  have hrec : ∀ p, RecordPath F stamp file p →
      WrittenFile F file cfg.calendar (backward cfg.config.rest) (experiment cfg B).1 p := by
    rintro p (rfl | rfl)
    · exact Or.inl ⟨stamp, rfl⟩
    · exact Or.inr (Or.inl rfl)
  have hkeep : ∀ {f f' : FileSystem}, ChangedOnly
      (MayMake cwd s.folders F cfg.calendar (backward cfg.config.rest) (experiment cfg B).1)
      (WrittenFile F file cfg.calendar (backward cfg.config.rest) (experiment cfg B).1) f f' →
      (∀ p, E p → f p = B p) → ∀ p, E p → f' p = B p := by
    intro f f' hch hb p hpE
    rcases hch p with a | ⟨a, _⟩ | ⟨a, _⟩
    · rw [a]; exact hb p hpE
    · exact absurd a (hED p hpE)
    · exact absurd a (hEW p hpE)
  unfold command
  refine legal_bind (legal_mono (fun _ h => Or.inl h) hrec _ _ (start_legal (stamp := stamp) hf hp hF')) ?_
  intro u chs hq
  have h1 : ∀ p, E p → applyChanges fs chs p = B p := by
    refine hkeep ?_ hfs
    have := legal_changedOnly _ _ (start_legal (stamp := stamp) hf hp hF')
    rw [hq] at this
    exact changedOnly_mono (fun _ h => Or.inl h) hrec this
  unfold runExperiment
  refine legal_bind ?_ ?_
  · rw [fromYaml_eq ((h1 file hE).trans hB) hp]
    exact legal_mono (fun _ h => Or.inl h) (fun _ h => h) _ _ (only_loadSettings _ _ _ _)
  · intro cfg' chs' hq'
    have hl := loadedFrom_of ((h1 file hE).trans hB) hp hq'
    have := loadedFrom_unique hl hcfg
    subst this
    have h2 : ∀ p, E p → applyChanges (applyChanges fs chs) chs' p = B p := by
      refine hkeep ?_ h1
      exact changedOnly_mono (fun _ h => Or.inl h) (fun _ h => h.elim)
        (fromYaml_file ((h1 file hE).trans hB) hp hq')
    simp only [hF, hexp _ h2]
    refine only_bind (only_saveAll _ _ _ _ ?_ ?_) (fun _ => ?_) _
    · exact fun x hx sub hs => Or.inr ⟨x, hx, sub, hs, rfl⟩
    · exact fun x hx => Or.inr (Or.inr ⟨x, hx, rfl⟩)
    · unfold endWith
      split
      · exact only_pure _ _ _
      · exact only_fail _ _ _

/-- A command after unfinished attempts. -/
theorem command_again {stamp stamp' : List Char} {backward : ρ → Bool} {folder : Loaded ρ → Option FPath}
    {experiment : Experiment ρ} {F : FPath} {cfg : Loaded ρ} {fs fs' : FileSystem} {ss : List Saving}
    (hw : WellFormed fs) (hss : ss = (experiment cfg fs).1)
    (hDW : ∀ p, MayMake cwd s.folders F cfg.calendar (backward cfg.config.rest) ss p →
      ¬ WrittenFile F file cfg.calendar (backward cfg.config.rest) ss p)
    (hED : ∀ p, E p → ¬ MayMake cwd s.folders F cfg.calendar (backward cfg.config.rest) ss p)
    (hEW : ∀ p, E p → ¬ WrittenFile F file cfg.calendar (backward cfg.config.rest) ss p)
    (hf : fs file = some (.file text)) (hE : E file) (hp : parse text = .ok s)
    (hcfg : LoadedFrom cwd s cfg) (hF : folder cfg = some F)
    (hexp : ∀ f : FileSystem, (∀ p, E p → f p = fs p) → experiment cfg f = experiment cfg fs)
    (hplace : ∀ p, WrittenFile F file cfg.calendar (backward cfg.config.rest) ss p → fs p ≠ some .dir)
    (hcl : ¬ LogFile F (F ++ file.getLast?.toList))
    (hnl : ∀ x ∈ ss, ¬ LogFile F (x.path cfg.calendar (backward cfg.config.rest) F))
    (hok : (command parse cwd file stamp backward folder experiment fs).2 = .ok ())
    (hatt : Attempts (fun st => command parse cwd file st backward folder experiment) fs fs') :
    (command parse cwd file stamp' backward folder experiment fs').2 = .ok () ∧
    ∀ p, ¬ LogFile F p →
      after (command parse cwd file stamp' backward folder experiment) fs' p =
      after (command parse cwd file stamp backward folder experiment) fs p := by
  have hall : WellFormed fs' ∧ ChangedOnly
      (MayMake cwd s.folders F cfg.calendar (backward cfg.config.rest) ss)
      (WrittenFile F file cfg.calendar (backward cfg.config.rest) ss) fs fs' := by
    clear hok
    induction hatt with
    | start => exact ⟨hw, changedOnly_refl _ _ _⟩
    | @next fs₁ fs₂ st h hm ih =>
      obtain ⟨w1, h1⟩ := ih
      refine ⟨solid_moment (solid_command _ _ _ _ _ _ _) w1 hm, changedOnly_trans h1 ?_⟩
      refine moment_of_legal (attempt_legal (E := E) hss hED hEW hf hE hp hcfg hF hexp ?_) hm
      intro p hpE
      rcases h1 p with a | ⟨a, _⟩ | ⟨a, _⟩
      · exact a
      · exact absurd a (hED p hpE)
      · exact absurd a (hEW p hpE)
  obtain ⟨hw', hch⟩ := hall
  have hnear : Near fs (MayMake cwd s.folders F cfg.calendar (backward cfg.config.rest) ss)
      (WrittenFile F file cfg.calendar (backward cfg.config.rest) ss) E fs fs' := by
    refine ⟨hw, hw', ?_, ?_, ?_, ?_, ?_⟩
    · intro p h
      rcases hch p with a | ⟨_, a, _⟩ | ⟨_, a, _⟩
      · rw [a]; exact h
      · rw [h] at a; cases a
      · exact absurd h a
    · intro p x h hwp
      rcases hch p with a | ⟨_, a, _⟩ | ⟨a, _⟩
      · rw [a]; exact h
      · rw [h] at a; cases a
      · exact absurd a hwp
    · intro p h hwp
      rcases hch p with a | ⟨a, _, b⟩ | ⟨a, _⟩
      · exact Or.inl (a.trans h)
      · exact Or.inr ⟨a, b⟩
      · exact absurd a hwp
    · intro p hwp
      refine ⟨hplace p hwp, ?_⟩
      rcases hch p with a | ⟨a, _⟩ | ⟨_, _, t, a⟩
      · rw [a]; exact hplace p hwp
      · exact absurd hwp (hDW p a)
      · rw [a]; simp
    · intro p hpE
      refine ⟨rfl, ?_⟩
      rcases hch p with a | ⟨a, _⟩ | ⟨a, _⟩
      · exact a
      · exact absurd a (hED p hpE)
      · exact absurd a (hEW p hpE)
  have hlogs : ∀ p, Logs F stamp stamp' p → LogFile F p := by
    rintro p (rfl | rfl)
    · exact ⟨_, rfl⟩
    · exact ⟨_, rfl⟩
  have key := again_command (stamp := stamp) (stamp' := stamp') (backward := backward) (folder := folder)
    (experiment := experiment) (cfg := cfg) hDW hED hEW (fun _ h => Or.inl h) hf hE hp hcfg hF
    (Or.inl ⟨stamp, rfl⟩) (Or.inl ⟨stamp', rfl⟩) (Or.inr (Or.inl rfl)) (fun h => hcl (hlogs _ h)) hexp
    (fun x hx sub hs => Or.inr ⟨x, hss ▸ hx, sub, hs, rfl⟩)
    (fun x hx => ⟨Or.inr (Or.inr ⟨x, hss ▸ hx, rfl⟩), fun h => hnl x (hss ▸ hx) (hlogs _ h)⟩)
  rcases hq : command parse cwd file stamp backward folder experiment fs with ⟨chs, r⟩
  rw [hq] at hok
  have hok' : r = .ok () := hok
  subst hok'
  obtain ⟨chs', hq', _, hS, hkeep⟩ := key fs fs' chs () hnear hq
  refine ⟨by rw [hq'], ?_⟩
  intro p hnlp
  unfold after
  rw [hq, hq']
  refine Eq.symm ?_
  rcases hch p with a | ⟨a, _⟩ | ⟨a, _⟩
  · exact hkeep p (fun h => hnlp (hlogs p h)) a.symm
  · refine hS p ?_
    rcases a with a | ⟨x, hx, sub, hs, rfl⟩
    · exact Or.inl (Or.inl a)
    · exact Or.inr ⟨x, hss ▸ hx, Or.inr ⟨sub, hs, rfl⟩⟩
  · refine hS p ?_
    rcases a with a | rfl | ⟨x, hx, rfl⟩
    · exact absurd a hnlp
    · exact Or.inl (Or.inr rfl)
    · exact Or.inr ⟨x, hss ▸ hx, Or.inl rfl⟩

end

end

end Wam
