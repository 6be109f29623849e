import Verif.Lemmas.Again
import Verif.Props.DiskMore

/-!
# Lemmas: commands that nothing stands in the way of
-/

set_option linter.unusedSectionVars false
set_option linter.unusedVariables false

namespace Wam
open Spec

/-- no file where folders (`D`) are wanted, no folder where files (`W`) are wanted, and the configuration file is there -/
structure Clear (D W : FPath → Prop) (file : FPath) (text : List Char) (fs : FileSystem) : Prop where
  wf : WellFormed fs
  dirs : ∀ p, D p → ∀ x, fs p ≠ some (.file x)
  files : ∀ p, W p → fs p ≠ some .dir
  conf : fs file = some (.file text)

section
variable {D W : FPath → Prop} {file : FPath} {text : List Char}

theorem clear_changed (hDW : ∀ p, D p → ¬ W p) (hfile : ¬ W file) {fs fs' : FileSystem}
    (h : Clear D W file text fs) (hc : ChangedOnly D W fs fs') (hw : WellFormed fs') : Clear D W file text fs' := by
  refine ⟨hw, ?_, ?_, ?_⟩
  · intro p hp x hx
    rcases hc p with a | ⟨_, _, a⟩ | ⟨a, _⟩
    · exact h.dirs p hp x (a ▸ hx)
    · rw [a] at hx; cases hx
    · exact hDW p hp a
  · intro p hp hx
    rcases hc p with a | ⟨a, _⟩ | ⟨_, _, t, a⟩
    · exact h.files p hp (a ▸ hx)
    · exact hDW p a hp
    · rw [a] at hx; cases hx
  · rcases hc file with a | ⟨_, a, _⟩ | ⟨a, _⟩
    · rw [a]; exact h.conf
    · rw [h.conf] at a; cases a
    · exact absurd a hfile

theorem dir_stays {fs fs' : FileSystem} (hc : ChangedOnly D W fs fs') {p : FPath} (hp : fs p = some .dir) :
    fs' p = some .dir := by
  rcases hc p with a | ⟨_, a, _⟩ | ⟨_, a, _⟩
  · rw [a]; exact hp
  · rw [hp] at a; cases a
  · exact absurd hp a

/-- the action gives `b`, and leaves things clear and all folders there -/
def Goes {β : Type} (D W : FPath → Prop) (file : FPath) (text : List Char) (a : Act β) (fs : FileSystem) (b : β)
    (new : FPath → Prop) : Prop :=
  ∃ chs, a fs = (chs, .ok b) ∧ Clear D W file text (applyChanges fs chs) ∧ ChangedOnly D W fs (applyChanges fs chs) ∧
    ∀ p, new p → applyChanges fs chs p = some .dir

theorem goes_pure {β : Type} {fs : FileSystem} (h : Clear D W file text fs) (b : β) :
    Goes D W file text (Act.pure b) fs b (fun _ => False) :=
  ⟨[], rfl, h, changedOnly_refl _ _ _, fun _ h => h.elim⟩

theorem goes_bind {β γ : Type} {a : Act β} {f : β → Act γ} {fs : FileSystem} {b : β} {c : γ} {new new' : FPath → Prop}
    (h : Goes D W file text a fs b new)
    (h' : ∀ fs', Clear D W file text fs' → ChangedOnly D W fs fs' → (∀ p, new p → fs' p = some .dir) →
      Goes D W file text (f b) fs' c new') :
    Goes D W file text (Act.bind a f) fs c (fun p => new p ∨ new' p) := by
  obtain ⟨c1, e1, k1, o1, n1⟩ := h
  obtain ⟨c2, e2, k2, o2, n2⟩ := h' _ k1 o1 n1
  refine ⟨c1 ++ c2, ?_, ?_, ?_, ?_⟩
  · rw [bind_ok e1, e2]
  · rw [applyChanges_append]; exact k2
  · rw [applyChanges_append]; exact changedOnly_trans o1 o2
  · intro p hp
    rw [applyChanges_append]
    rcases hp with hp | hp
    · exact dir_stays o2 (n1 p hp)
    · exact n2 p hp

variable (hDW : ∀ p, D p → ¬ W p) (hfile : ¬ W file)
include hDW hfile

theorem goes_of {β : Type} {a : Act β} {fs : FileSystem} {b : β} {chs : List Change} (h : Clear D W file text fs)
    (e : a fs = (chs, .ok b)) (hs : Solid a) (ho : Only D W a) :
    Clear D W file text (applyChanges fs chs) ∧ ChangedOnly D W fs (applyChanges fs chs) := by
  have hc := only_ok ho e
  exact ⟨clear_changed hDW hfile h hc (solid_ok hs h.wf e), hc⟩

theorem goes_makeFolder {fs : FileSystem} (h : Clear D W file text fs) {p : FPath} (hp : ∀ q, OnTheWayTo p q → D q) :
    Goes D W file text (makeFolder p) fs () (· = p) := by
  obtain ⟨chs, e1, e2⟩ := makeFolder_total h.wf p (fun q hq => h.dirs q (hp q hq))
  obtain ⟨k1, k2⟩ := goes_of hDW hfile h e1 (solid_makeFolder p) (only_mono hp (fun _ h => h) (only_makeFolder W p))
  exact ⟨chs, e1, k1, k2, fun q hq => by rw [hq]; exact e2⟩

theorem goes_save {fs : FileSystem} (h : Clear D W file text fs) {p : FPath} (hp : W p) (hd : fs p.dropLast = some .dir)
    (x : List Char) : Goes D W file text (save p x) fs () (fun _ => False) := by
  have e := save_of (x := x) hd (h.files p hp)
  obtain ⟨k1, k2⟩ := goes_of hDW hfile h e (solid_save p x)
    (only_mono (fun _ h => h) (fun q hq => by rw [hq]; exact hp) (only_save D p x))
  exact ⟨_, e, k1, k2, fun _ h => h.elim⟩

theorem goes_mkdirOnly {fs : FileSystem} (h : Clear D W file text fs) {p : FPath} (hp : D p) (hd : fs p.dropLast = some .dir) :
    Goes D W file text (mkdirOnly true p) fs () (· = p) := by
  have key : ∃ chs, mkdirOnly true p fs = (chs, .ok ()) ∧ applyChanges fs chs p = some .dir := by
    rcases hq : fs p with _ | (_ | x)
    · exact ⟨_, mkdirOnly_none hq hd, by simp [applyChanges]⟩
    · exact ⟨_, mkdirOnly_dir hq, hq⟩
    · exact absurd hq (h.dirs p hp x)
  obtain ⟨chs, e1, e2⟩ := key
  obtain ⟨k1, k2⟩ := goes_of hDW hfile h e1 (solid_mkdirOnly true p)
    (only_mono (fun q hq => by rw [hq]; exact hp) (fun _ h => h) (only_mkdirOnly W true p))
  exact ⟨chs, e1, k1, k2, fun q hq => by rw [hq]; exact e2⟩

theorem goes_loadSettings {ρ : Type} {cwd : FPath} {s : FileSettings ρ} {cfg : Loaded ρ} (hl : LoadedFrom cwd s cfg)
    (hD : ∀ p, ConfigFolder cwd s.folders p → D p) {fs : FileSystem} (h : Clear D W file text fs) :
    Goes D W file text (loadSettings cwd s) fs cfg (Named cwd s.folders) := by
  obtain ⟨h1, ⟨out, h2, h3⟩, pre, h4, h5⟩ := hl
  obtain ⟨d, hd⟩ : ∃ d, convertDates s.settings = .ok d := by
    rcases hd : convertDates s.settings with e | d
    · unfold makeConfig at h1
      simp only [hd, bind, Except.bind] at h1
      cases h1
    · exact ⟨d, rfl⟩
  rw [loadSettings_eq hd]
  have hpre : Goes D W file text (preprocessedFolder cwd s.folders) fs (some (pre.map (resolve cwd)))
      (fun p => ∃ name, s.folders.preprocessed = .ok (some name) ∧ p = resolve cwd name) := by
    rcases pre with _ | name
    · have e : preprocessedFolder cwd s.folders = Act.pure (some none) := by unfold preprocessedFolder; rw [h4]
      rw [e]
      obtain ⟨chs, a, b, c, _⟩ := goes_pure h (some (none : Option FPath))
      refine ⟨chs, a, b, c, ?_⟩
      rintro p ⟨name, hn, _⟩
      rw [h4] at hn
      injection hn with hn
      cases hn
    · have e : preprocessedFolder cwd s.folders = Act.bind (makeFolder (resolve cwd name)) fun _ =>
          Act.pure (some (some (resolve cwd name))) := by unfold preprocessedFolder; rw [h4]
      rw [e]
      obtain ⟨chs, a, b, c, n⟩ := goes_bind (new' := fun _ => False)
        (f := fun _ => Act.pure (some (some (resolve cwd name)))) (c := some (some (resolve cwd name)))
        (goes_makeFolder hDW hfile h (p := resolve cwd name) fun q hq => hD q ⟨_, .inl ⟨name, h4, rfl⟩, hq⟩)
        (fun fs' h' _ _ => goes_pure h' (some (some (resolve cwd name))))
      refine ⟨chs, a, b, c, ?_⟩
      rintro p ⟨name', hn, rfl⟩
      rw [h4] at hn
      injection hn with hn
      injection hn with hn
      subst hn
      exact n _ (.inl rfl)
  have hout : ∀ fs', Clear D W file text fs' → Goes D W file text (outputFolder cwd s.folders) fs' (some (resolve cwd out))
      (fun p => ∃ name, s.folders.output = .ok name ∧ p = resolve cwd name) := by
    intro fs' h'
    have e : outputFolder cwd s.folders = Act.bind (makeFolder (resolve cwd out)) fun _ =>
        Act.pure (some (resolve cwd out)) := by unfold outputFolder; rw [h2]
    rw [e]
    obtain ⟨chs, a, b, c, n⟩ := goes_bind (new' := fun _ => False)
      (f := fun _ => Act.pure (some (resolve cwd out))) (c := some (resolve cwd out))
      (goes_makeFolder hDW hfile h' (p := resolve cwd out) fun q hq => hD q ⟨_, .inr ⟨out, h2, rfl⟩, hq⟩)
      (fun fs' h' _ _ => goes_pure h' (some (resolve cwd out)))
    refine ⟨chs, a, b, c, ?_⟩
    rintro p ⟨name', hn, rfl⟩
    rw [h2] at hn
    injection hn with hn
    subst hn
    exact n _ (.inl rfl)
  unfold loadFields
  obtain ⟨chs, a, b, c, n⟩ := goes_bind (new' := fun p => (∃ name, s.folders.output = .ok name ∧ p = resolve cwd name) ∨ False)
    (c := cfg) (f := fun pre => Act.bind (outputFolder cwd s.folders) fun out =>
      fun _ => ([], acceptFields pre out (makeConfig s.settings)))
    hpre (fun fs' h' _ _ => goes_bind (new' := fun _ => False) (c := cfg)
      (f := fun out => fun _ => ([], acceptFields (some (pre.map (resolve cwd))) out (makeConfig s.settings))) (hout fs' h') (fun fs'' h'' _ _ => by
      refine ⟨[], ?_, h'', changedOnly_refl _ _ _, fun _ h => h.elim⟩
      show (([] : List Change), acceptFields (some (pre.map (resolve cwd))) (some (resolve cwd out)) (makeConfig s.settings)) = _
      rw [h1]
      show (([] : List Change), Except.ok (⟨cfg.config, pre.map (resolve cwd), resolve cwd out⟩ : Loaded ρ)) = _
      rw [← h3, ← h5]))
  refine ⟨chs, a, b, c, ?_⟩
  rintro p (hp | hp)
  · exact n p (.inl hp)
  · exact n p (.inr (.inl hp))

theorem goes_fromYaml {ρ : Type} {parse : List Char → Except Err (FileSettings ρ)} {cwd : FPath} {s : FileSettings ρ}
    {cfg : Loaded ρ} (hp : parse text = .ok s) (hl : LoadedFrom cwd s cfg)
    (hD : ∀ p, ConfigFolder cwd s.folders p → D p) {fs : FileSystem} (h : Clear D W file text fs) :
    Goes D W file text (fromYaml parse cwd file) fs cfg (Named cwd s.folders) := by
  obtain ⟨chs, a, b⟩ := goes_loadSettings hDW hfile hl hD h
  exact ⟨chs, by rw [fromYaml_eq h.conf hp]; exact a, b⟩

theorem goes_savingRun {c : Calendar} {b : Bool} {F : FPath} {x : Saving} (hW : W (x.path c b F))
    (hsub : ∀ sub, (x.place c b).1 = some sub → D (F ++ [sub])) {fs : FileSystem} (h : Clear D W file text fs)
    (hF : fs F = some .dir) : Goes D W file text (x.run c b F) fs () (fun _ => False) := by
  unfold Saving.run
  rcases hq : (x.place c b).1 with _ | sub
  · refine goes_save hDW hfile h hW ?_ _
    show fs ((F ++ (x.place c b).1.toList ++ [(x.place c b).2]).dropLast) = _
    rw [List.dropLast_concat, hq]
    simpa using hF
  · obtain ⟨chs, a, b', c', _⟩ := goes_bind (new' := fun _ => False) (f := fun _ => save (x.path c b F) x.content) (c := ())
      (goes_mkdirOnly hDW hfile h (hsub sub hq) (by rw [List.dropLast_concat]; exact hF))
      (fun fs' h' _ hn => goes_save hDW hfile h' hW (by
        show fs' ((F ++ (x.place c b).1.toList ++ [(x.place c b).2]).dropLast) = _
        rw [List.dropLast_concat, hq]
        exact hn _ rfl) x.content)
    exact ⟨chs, a, b', c', fun _ h => h.elim⟩

theorem goes_saveAll {c : Calendar} {b : Bool} {F : FPath} : ∀ (ss : List Saving) (hW : ∀ x ∈ ss, W (x.path c b F))
    (hsub : ∀ x ∈ ss, ∀ sub, (x.place c b).1 = some sub → D (F ++ [sub])) {fs : FileSystem} (h : Clear D W file text fs)
    (hF : fs F = some .dir), Goes D W file text (saveAll c b F ss) fs () (fun _ => False) := by
  intro ss
  induction ss with
  | nil => intro _ _ fs h _; exact goes_pure h ()
  | cons x ss ih =>
    intro hW hsub fs h hF
    unfold saveAll
    obtain ⟨chs, a, b', c', _⟩ := goes_bind (new' := fun _ => False) (f := fun _ => saveAll c b F ss) (c := ())
      (goes_savingRun hDW hfile (hW x (by simp)) (hsub x (by simp)) h hF)
      (fun fs' h' hc _ => ih (fun y hy => hW y (by simp [hy])) (fun y hy => hsub y (by simp [hy])) h' (dir_stays hc hF))
    exact ⟨chs, a, b', c', fun _ h => h.elim⟩

theorem goes_startCommand {ρ : Type} {parse : List Char → Except Err (FileSettings ρ)} {cwd : FPath} {s : FileSettings ρ}
    {cfg : Loaded ρ} {stamp : List Char} {folder : Loaded ρ → Option FPath} {F : FPath} (hp : parse text = .ok s)
    (hl : LoadedFrom cwd s cfg) (hD : ∀ p, ConfigFolder cwd s.folders p → D p) (hF : folder cfg = some F)
    (hN : Named cwd s.folders F) (hlog : W (logPath F stamp)) {name : List Char} (hname : file.getLast?.toList = [name])
    (hcopy : W (F ++ [name])) {fs : FileSystem}
    (h : Clear D W file text fs) :
    Goes D W file text (startCommand parse cwd file stamp folder) fs () (· = F) := by
  unfold startCommand
  obtain ⟨chs, a, b, c, n⟩ := goes_bind (c := ()) (new' := fun p => False ∨ False) (goes_fromYaml hDW hfile hp hl hD h) (f := fun cfg => fun fs =>
    match folder cfg with
    | none => ([], .error (.other "TypeError"))
    | some f => Act.bind (setupLogging f stamp) (fun _ => copyConfigYaml file f) fs) (by
      intro fs' h' hc hn
      have e : (fun fs => match folder cfg with
          | none => ([], Except.error (Err.other "TypeError"))
          | some f => Act.bind (setupLogging f stamp) (fun _ => copyConfigYaml file f) fs) =
          Act.bind (setupLogging F stamp) (fun _ => copyConfigYaml file F) := by
        funext fs; rw [hF]
      rw [e]
      have hFd := hn F hN
      refine goes_bind (goes_save hDW hfile h' hlog (by unfold logPath; rw [List.dropLast_concat]; exact hFd) [])
        (fun fs'' h'' hc' _ => ?_)
      have hne : F ++ [name] ≠ file := fun e => hfile (e ▸ hcopy)
      have e2 : copyConfigYaml file F fs'' = save (F ++ [name]) text fs'' := by
        unfold copyConfigYaml
        simp only [h''.conf, hname]
        rw [if_neg hne]
      obtain ⟨c2, a2, b2⟩ := goes_save hDW hfile h'' hcopy (by
        rw [List.dropLast_concat]; exact dir_stays hc' hFd) text
      exact ⟨c2, by rw [e2]; exact a2, b2⟩)
  exact ⟨chs, a, b, c, fun p hp => n p (.inl (by rw [hp]; exact hN))⟩

/-- the end of a command is the end of its experiment -/
theorem goes_command {ρ : Type} {parse : List Char → Except Err (FileSettings ρ)} {cwd : FPath} {s : FileSettings ρ}
    {cfg : Loaded ρ} {stamp : List Char} {backward : ρ → Bool} {folder : Loaded ρ → Option FPath} {F : FPath}
    {experiment : Experiment ρ} (hp : parse text = .ok s)
    (hl : LoadedFrom cwd s cfg) (hD : ∀ p, ConfigFolder cwd s.folders p → D p) (hF : folder cfg = some F)
    (hN : Named cwd s.folders F) (hlog : W (logPath F stamp)) {name : List Char} (hname : file.getLast?.toList = [name])
    (hcopy : W (F ++ [name])) {fs : FileSystem} (h : Clear D W file text fs)
    (r : List Saving × Option Err) (hexp : ∀ fs1, ChangedOnly (ConfigFolder cwd s.folders) (RecordPath F stamp file) fs fs1 →
      experiment cfg fs1 = r)
    (hW : ∀ x ∈ r.1, W (x.path cfg.calendar (backward cfg.config.rest) F))
    (hsub : ∀ x ∈ r.1, ∀ sub, (x.place cfg.calendar (backward cfg.config.rest)).1 = some sub → D (F ++ [sub])) :
    (command parse cwd file stamp backward folder experiment fs).2 =
      match r.2 with | none => .ok () | some e => .error e := by
  obtain ⟨c1, a1, b1, d1, n1⟩ := goes_startCommand hDW hfile hp hl hD hF hN hlog hname hcopy h
  have hfold : ∀ cfg', LoadedFrom cwd s cfg' → ∀ f, folder cfg' = some f → f = F := by
    intro cfg' hl' f hf
    rw [loadedFrom_unique hl' hl, hF] at hf
    injection hf with hf
    exact hf.symm
  have hst : ChangedOnly (ConfigFolder cwd s.folders) (RecordPath F stamp file) fs (applyChanges fs c1) := by
    have := legal_changedOnly _ _ (start_legal (stamp := stamp) (file := file) h.conf hp hfold)
    rw [a1] at this
    exact this
  obtain ⟨c2, a2, b2, d2, n2⟩ := goes_fromYaml hDW hfile hp hl hD b1
  have hst2 : ChangedOnly (ConfigFolder cwd s.folders) (RecordPath F stamp file) fs
      (applyChanges (applyChanges fs c1) c2) :=
    changedOnly_trans hst (changedOnly_mono (fun _ h => h) (fun _ h => h.elim) (fromYaml_file b1.conf hp a2))
  have he := hexp _ hst2
  obtain ⟨c3, a3, b3, d3, _⟩ := goes_saveAll (c := cfg.calendar) (b := backward cfg.config.rest) (F := F) hDW hfile r.1 hW hsub b2
    (n2 F hN)
  unfold command
  rw [bind_ok a1]
  unfold runExperiment
  rw [bind_ok a2]
  simp only [hF, he]
  rw [bind_ok a3]
  simp only
  rcases r.2 with _ | e
  · rfl
  · rfl

end

end Wam
