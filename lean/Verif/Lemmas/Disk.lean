import Verif.Spec.Disk

/-! # Actions on a file system -/

set_option linter.unusedSectionVars false
set_option linter.unusedVariables false

namespace Wam
open Spec

theorem applyChanges_append (fs : FileSystem) (a b : List Change) :
    applyChanges fs (a ++ b) = applyChanges (applyChanges fs a) b := by
  simp [applyChanges]

theorem applyChanges_cons (fs : FileSystem) (ch : Change) (b : List Change) :
    applyChanges fs (ch :: b) = applyChanges (Function.update fs ch.1 (some ch.2)) b := rfl

theorem applyChanges_nil (fs : FileSystem) : applyChanges fs [] = fs := rfl

/-- every change is a new folder of `D` or a write to a file of `W` -/
def Legal (D W : FPath → Prop) : FileSystem → List Change → Prop
  | _, [] => True
  | fs, (p, n) :: chs =>
    (match n with
      | .dir => D p ∧ fs p = none
      | .file _ => W p ∧ fs p ≠ some .dir) ∧ Legal D W (Function.update fs p (some n)) chs

theorem legal_append (D W : FPath → Prop) (fs : FileSystem) (a b : List Change) :
    Legal D W fs (a ++ b) ↔ Legal D W fs a ∧ Legal D W (applyChanges fs a) b := by
  induction a generalizing fs with
  | nil => simp [Legal, applyChanges]
  | cons x a ih =>
    obtain ⟨p, n⟩ := x
    simp only [List.cons_append, Legal, ih, applyChanges_cons, and_assoc]

theorem legal_mono {D D' W W' : FPath → Prop} (hD : ∀ p, D p → D' p) (hW : ∀ p, W p → W' p)
    (fs : FileSystem) (a : List Change) (h : Legal D W fs a) : Legal D' W' fs a := by
  induction a generalizing fs with
  | nil => trivial
  | cons x a ih =>
    obtain ⟨p, n⟩ := x
    cases n with
    | dir => exact ⟨⟨hD _ h.1.1, h.1.2⟩, ih _ h.2⟩
    | file t => exact ⟨⟨hW _ h.1.1, h.1.2⟩, ih _ h.2⟩

theorem changedOnly_refl (D W : FPath → Prop) (fs : FileSystem) : ChangedOnly D W fs fs :=
  fun _ => Or.inl rfl

theorem changedOnly_trans {D W : FPath → Prop} {fs fs1 fs2 : FileSystem} (h : ChangedOnly D W fs fs1)
    (h' : ChangedOnly D W fs1 fs2) : ChangedOnly D W fs fs2 := by
  intro p
  rcases h p with a | ⟨a1, a2, a3⟩ | ⟨a1, a2, t, a3⟩ <;>
  rcases h' p with b | ⟨b1, b2, b3⟩ | ⟨b1, b2, t', b3⟩
  · exact Or.inl (b.trans a)
  · exact Or.inr (Or.inl ⟨b1, by rw [← a]; exact b2, b3⟩)
  · exact Or.inr (Or.inr ⟨b1, by rw [← a]; exact b2, t', b3⟩)
  · exact Or.inr (Or.inl ⟨a1, a2, b.trans a3⟩)
  · exact Or.inr (Or.inl ⟨a1, a2, b3⟩)
  · exact absurd a3 b2
  · exact Or.inr (Or.inr ⟨a1, a2, t, b.trans a3⟩)
  · rw [a3] at b2; cases b2
  · exact Or.inr (Or.inr ⟨a1, a2, t', b3⟩)

theorem changedOnly_mono {D D' W W' : FPath → Prop} (hD : ∀ p, D p → D' p) (hW : ∀ p, W p → W' p)
    {fs fs' : FileSystem} (h : ChangedOnly D W fs fs') : ChangedOnly D' W' fs fs' := by
  intro p
  rcases h p with a | ⟨a, b⟩ | ⟨a, b⟩
  · exact Or.inl a
  · exact Or.inr (Or.inl ⟨hD _ a, b⟩)
  · exact Or.inr (Or.inr ⟨hW _ a, b⟩)

theorem legal_changedOnly {D W : FPath → Prop} (fs : FileSystem) (chs : List Change)
    (h : Legal D W fs chs) : ChangedOnly D W fs (applyChanges fs chs) := by
  induction chs generalizing fs with
  | nil => exact changedOnly_refl _ _ _
  | cons x chs ih =>
    obtain ⟨p, n⟩ := x
    refine changedOnly_trans ?_ (ih _ h.2)
    intro q
    by_cases hq : q = p
    · subst hq
      cases n with
      | dir => exact Or.inr (Or.inl ⟨h.1.1, h.1.2, by simp⟩)
      | file t => exact Or.inr (Or.inr ⟨h.1.1, h.1.2, t, by simp⟩)
    · exact Or.inl (Function.update_of_ne hq _ _)

theorem legal_take {D W : FPath → Prop} (fs : FileSystem) (chs : List Change) (k : ℕ)
    (h : Legal D W fs chs) : Legal D W fs (chs.take k) := by
  rw [← List.take_append_drop k chs, legal_append] at h
  exact h.1

/-- all changes of an action are legal -/
def Only {β : Type} (D W : FPath → Prop) (a : Act β) : Prop := ∀ fs, Legal D W fs (a fs).1

theorem only_moment {β : Type} {D W : FPath → Prop} {a : Act β} (h : Only D W a)
    {fs fs' : FileSystem} (hm : Moment a fs fs') : ChangedOnly D W fs fs' := by
  obtain ⟨k, rfl⟩ := hm
  exact legal_changedOnly _ _ (legal_take _ _ _ (h fs))

theorem only_mono {β : Type} {D D' W W' : FPath → Prop} (hD : ∀ p, D p → D' p)
    (hW : ∀ p, W p → W' p) {a : Act β} (h : Only D W a) : Only D' W' a :=
  fun fs => legal_mono hD hW _ _ (h fs)

theorem only_pure {β : Type} (D W : FPath → Prop) (b : β) : Only D W (Act.pure b) := fun _ => trivial

theorem only_fail {β : Type} (D W : FPath → Prop) (e : Err) : Only (β := β) D W (Act.fail e) :=
  fun _ => trivial

theorem bind_ok {β γ : Type} {a : Act β} {f : β → Act γ} {fs : FileSystem} {chs : List Change} {b : β}
    (h : a fs = (chs, .ok b)) : Act.bind a f fs =
      (chs ++ (f b (applyChanges fs chs)).1, (f b (applyChanges fs chs)).2) := by
  unfold Act.bind; rw [h]

theorem bind_error {β γ : Type} {a : Act β} {f : β → Act γ} {fs : FileSystem} {chs : List Change}
    {e : Err} (h : a fs = (chs, .error e)) : Act.bind a f fs = (chs, .error e) := by
  unfold Act.bind; rw [h]

theorem legal_bind {β γ : Type} {D W : FPath → Prop} {a : Act β} {f : β → Act γ} {fs : FileSystem}
    (h : Legal D W fs (a fs).1)
    (h' : ∀ b chs, a fs = (chs, .ok b) → Legal D W (applyChanges fs chs) (f b (applyChanges fs chs)).1) :
    Legal D W fs (Act.bind a f fs).1 := by
  rcases hq : a fs with ⟨chs, e | b⟩
  · rw [bind_error hq]; rw [hq] at h; exact h
  · rw [bind_ok hq]; rw [hq] at h
    exact (legal_append _ _ _ _ _).2 ⟨h, h' _ _ hq⟩

theorem only_bind {β γ : Type} {D W : FPath → Prop} {a : Act β} {f : β → Act γ} (h : Only D W a)
    (h' : ∀ b, Only D W (f b)) : Only D W (Act.bind a f) :=
  fun fs => legal_bind (h fs) (fun b chs _ => h' b _)

/-! ### Folders -/

theorem only_osMkdir (W : FPath → Prop) (p : FPath) : Only (· = p) W (osMkdir p) := by
  intro fs
  unfold osMkdir
  split
  · trivial
  · next h =>
    split
    · exact ⟨⟨rfl, by simpa using h⟩, trivial⟩
    · trivial
    · trivial

theorem only_mkdirOnly (W : FPath → Prop) (e : Bool) (p : FPath) : Only (· = p) W (mkdirOnly e p) := by
  intro fs
  have h := only_osMkdir W p fs
  unfold mkdirOnly
  rcases hq : osMkdir p fs with ⟨chs, er | u⟩ <;> rw [hq] at h
  · show Legal _ _ fs (if _ then _ else _ : List Change × Except Err Unit).1
    split <;> exact h
  · exact h

theorem only_mkdirParentsRev (W : FPath → Prop) (e : Bool) (r : List (List Char)) :
    Only (OnTheWayTo r.reverse) W (mkdirParentsRev e r) := by
  induction r generalizing e with
  | nil =>
    exact only_mono (fun p hp => ⟨[], by rw [hp]; rfl⟩) (fun _ h => h) (only_mkdirOnly W e [])
  | cons c r ih =>
    intro fs
    have h2 : Only (OnTheWayTo (c :: r).reverse) W (mkdirOnly e (c :: r).reverse) :=
      only_mono (fun p hp => ⟨[], by rw [hp]; simp⟩) (fun _ h => h) (only_mkdirOnly W e _)
    unfold mkdirParentsRev
    split
    · refine only_bind ?_ (fun _ => h2) fs
      refine only_mono ?_ (fun _ h => h) (ih true)
      rintro p ⟨rest, hr⟩
      exact ⟨rest ++ [c], by rw [← List.append_assoc, hr]; simp⟩
    · exact h2 fs

theorem only_makeFolder (W : FPath → Prop) (p : FPath) : Only (OnTheWayTo p) W (makeFolder p) := by
  intro fs
  unfold makeFolder
  split
  · trivial
  · have := only_mkdirParentsRev W false p.reverse fs
    rwa [List.reverse_reverse] at this

/-! ### Configuration -/

theorem only_preprocessedFolder (W : FPath → Prop) (cwd : FPath) (f : Folders) :
    Only (ConfigFolder cwd f) W (preprocessedFolder cwd f) := by
  unfold preprocessedFolder
  split
  · exact only_pure _ _ _
  · exact only_pure _ _ _
  · next name h =>
    refine only_bind (only_mono ?_ (fun _ h => h) (only_makeFolder W _)) (fun _ => only_pure _ _ _)
    exact fun p hp => ⟨_, Or.inl ⟨name, h, rfl⟩, hp⟩

theorem only_outputFolder (W : FPath → Prop) (cwd : FPath) (f : Folders) :
    Only (ConfigFolder cwd f) W (outputFolder cwd f) := by
  unfold outputFolder
  split
  · exact only_pure _ _ _
  · next name h =>
    refine only_bind (only_mono ?_ (fun _ h => h) (only_makeFolder W _)) (fun _ => only_pure _ _ _)
    exact fun p hp => ⟨_, Or.inr ⟨name, h, rfl⟩, hp⟩

theorem only_loadSettings {ρ : Type} (W : FPath → Prop) (cwd : FPath) (s : FileSettings ρ) :
    Only (ConfigFolder cwd s.folders) W (loadSettings cwd s) := by
  unfold loadSettings
  split
  · exact only_fail _ _ _
  · refine only_bind (only_preprocessedFolder W _ _) fun _ =>
      only_bind (only_outputFolder W _ _) fun _ =>
      fun _ => trivial

theorem fromYaml_eq {ρ : Type} {parse : List Char → Except Err (FileSettings ρ)} {cwd file : FPath}
    {fs : FileSystem} {text : List Char} {s : FileSettings ρ} (hf : fs file = some (.file text))
    (hp : parse text = .ok s) : fromYaml parse cwd file fs = loadSettings cwd s fs := by
  unfold fromYaml; rw [hf]; simp only; rw [hp]

/-- `Config(**settings)` after the dates -/
def loadFields {ρ : Type} (cwd : FPath) (s : FileSettings ρ) : Act (Loaded ρ) :=
  Act.bind (preprocessedFolder cwd s.folders) fun pre =>
  Act.bind (outputFolder cwd s.folders) fun out =>
  fun _ => ([], acceptFields pre out (makeConfig s.settings))

theorem loadSettings_error {ρ : Type} {cwd : FPath} {s : FileSettings ρ} {e : Err}
    (h : convertDates s.settings = .error e) : loadSettings cwd s = Act.fail e := by
  unfold loadSettings; rw [h]

theorem loadSettings_eq {ρ : Type} {cwd : FPath} {s : FileSettings ρ}
    {d : List Char × (DateField → ℤ)} (h : convertDates s.settings = .ok d) :
    loadSettings cwd s = loadFields cwd s := by
  unfold loadSettings loadFields; rw [h]

theorem acceptFields_ok {ρ : Type} {pre : Option (Option FPath)} {out : Option FPath}
    {cfg : Except Err (Config ρ)} {l : Loaded ρ} (h : acceptFields pre out cfg = .ok l) :
    cfg = .ok l.config ∧ pre = some l.preprocessed ∧ out = some l.output := by
  unfold acceptFields at h
  split at h
  · injection h with h; subst h; exact ⟨rfl, rfl, rfl⟩
  · cases h

/-- the folder of an accepted configuration is one of its settings -/
theorem loadSettings_ok {ρ : Type} {cwd : FPath} {s : FileSettings ρ} {fs : FileSystem}
    {chs : List Change} {cfg : Loaded ρ} (h : loadSettings cwd s fs = (chs, .ok cfg)) :
    makeConfig s.settings = .ok cfg.config ∧
    (∃ name, s.folders.output = .ok name ∧ cfg.output = resolve cwd name) ∧
    (∃ pre, s.folders.preprocessed = .ok pre ∧ cfg.preprocessed = pre.map (resolve cwd)) := by
  rcases hd : convertDates s.settings with e | d
  · rw [loadSettings_error hd] at h
    exact absurd (congrArg Prod.snd h) (by simp [Act.fail])
  · rw [loadSettings_eq hd] at h
    unfold loadFields at h
    rcases h1 : preprocessedFolder cwd s.folders fs with ⟨c1, e | pre⟩
    · rw [bind_error h1] at h; exact absurd (congrArg Prod.snd h) (by simp)
    · rw [bind_ok h1] at h
      rcases h2 : outputFolder cwd s.folders (applyChanges fs c1) with ⟨c2, e | out⟩
      · rw [bind_error h2] at h; exact absurd (congrArg Prod.snd h) (by simp)
      · rw [bind_ok h2] at h
        have h3 := congrArg Prod.snd h
        obtain ⟨hc, rfl, rfl⟩ := acceptFields_ok h3
        · refine ⟨hc, ?_, ?_⟩
          · rcases hn : s.folders.output with e | name
            · have hq : outputFolder cwd s.folders = Act.pure none := by unfold outputFolder; rw [hn]
              rw [hq] at h2
              exact absurd (congrArg Prod.snd h2) (by simp [Act.pure])
            · refine ⟨name, rfl, ?_⟩
              have hq : outputFolder cwd s.folders = Act.bind (makeFolder (resolve cwd name))
                  fun _ => Act.pure (some (resolve cwd name)) := by unfold outputFolder; rw [hn]
              rw [hq] at h2
              rcases h4 : makeFolder (resolve cwd name) (applyChanges fs c1) with ⟨c4, e | u⟩
              · rw [bind_error h4] at h2; exact absurd (congrArg Prod.snd h2) (by simp)
              · rw [bind_ok h4] at h2
                have := congrArg Prod.snd h2
                simpa [Act.pure, eq_comm] using this
          · rcases hn : s.folders.preprocessed with e | (_ | name)
            · have hq : preprocessedFolder cwd s.folders = Act.pure none := by
                unfold preprocessedFolder; rw [hn]
              rw [hq] at h1
              exact absurd (congrArg Prod.snd h1) (by simp [Act.pure])
            · refine ⟨none, rfl, ?_⟩
              have hq : preprocessedFolder cwd s.folders = Act.pure (some none) := by
                unfold preprocessedFolder; rw [hn]
              rw [hq] at h1
              have := congrArg Prod.snd h1
              simpa [Act.pure, eq_comm] using this
            · refine ⟨some name, rfl, ?_⟩
              have hq : preprocessedFolder cwd s.folders = Act.bind (makeFolder (resolve cwd name))
                  fun _ => Act.pure (some (some (resolve cwd name))) := by
                unfold preprocessedFolder; rw [hn]
              rw [hq] at h1
              rcases h4 : makeFolder (resolve cwd name) fs with ⟨c4, e | u⟩
              · rw [bind_error h4] at h1; exact absurd (congrArg Prod.snd h1) (by simp)
              · rw [bind_ok h4] at h1
                have := congrArg Prod.snd h1
                simpa [Act.pure, eq_comm] using this

/-! ### Files -/

theorem only_save (D : FPath → Prop) (p : FPath) (x : List Char) : Only D (· = p) (save p x) := by
  intro fs
  unfold save
  split
  · trivial
  · next h =>
    split
    · refine ⟨⟨rfl, h⟩, ⟨rfl, ?_⟩, trivial⟩
      simp
    · trivial
    · trivial

theorem only_savingRun (c : Calendar) (b : Bool) (folder : FPath) (s : Saving) :
    Only (fun p => ∃ sub, (s.place c b).1 = some sub ∧ p = folder ++ [sub]) (· = s.path c b folder)
      (s.run c b folder) := by
  unfold Saving.run
  split
  · exact only_save _ _ _
  · next sub h =>
    refine only_bind (only_mono ?_ (fun _ h => h) (only_mkdirOnly _ _ _)) fun _ => only_save _ _ _
    exact fun p hp => ⟨sub, h, hp⟩

theorem only_saveAll {D W : FPath → Prop} (c : Calendar) (b : Bool) (folder : FPath)
    (ss : List Saving) (hD : ∀ s ∈ ss, ∀ sub, (s.place c b).1 = some sub → D (folder ++ [sub]))
    (hW : ∀ s ∈ ss, W (s.path c b folder)) : Only D W (saveAll c b folder ss) := by
  induction ss with
  | nil => exact only_pure _ _ _
  | cons s ss ih =>
    refine only_bind (only_mono ?_ ?_ (only_savingRun c b folder s)) fun _ =>
      ih (fun s hs => hD s (by simp [hs])) (fun s hs => hW s (by simp [hs]))
    · rintro p ⟨sub, h, rfl⟩; exact hD s (by simp) sub h
    · rintro p rfl; exact hW s (by simp)


/-! ### Commands -/

theorem moment_bind {β γ : Type} {a : Act β} {f : β → Act γ} {fs fs' : FileSystem}
    (h : Moment (Act.bind a f) fs fs') : Moment a fs fs' ∨
      ∃ b chs, a fs = (chs, .ok b) ∧ Moment (f b) (applyChanges fs chs) fs' := by
  obtain ⟨k, hk⟩ := h
  rcases hq : a fs with ⟨chs, e | b⟩
  · rw [bind_error hq] at hk
    exact Or.inl ⟨k, by rw [hq]; exact hk⟩
  · rw [bind_ok hq] at hk
    by_cases hl : k ≤ chs.length
    · left
      refine ⟨k, ?_⟩
      rw [hk, hq]
      simp only
      rw [List.take_append_of_le_length hl]
    · right
      refine ⟨b, chs, rfl, k - chs.length, ?_⟩
      rw [hk]
      simp only
      rw [List.take_append, List.take_of_length_le (by omega), applyChanges_append]

/-- what is not a file that may be written keeps its content -/
theorem changedOnly_keeps {D W : FPath → Prop} {fs fs' : FileSystem} (h : ChangedOnly D W fs fs')
    {p : FPath} (hp : fs p ≠ none) (hw : ¬ W p) : fs' p = fs p := by
  rcases h p with a | ⟨_, a, _⟩ | ⟨a, _⟩
  · exact a
  · exact absurd a hp
  · exact absurd a hw

/-- what is there stays there -/
theorem changedOnly_isSome {D W : FPath → Prop} {fs fs' : FileSystem} (h : ChangedOnly D W fs fs')
    {p : FPath} (hp : (fs p).isSome) : (fs' p).isSome := by
  rcases h p with a | ⟨_, a, _⟩ | ⟨_, _, t, a⟩
  · rw [a]; exact hp
  · rw [a] at hp; cases hp
  · rw [a]; rfl

theorem only_ok {β : Type} {D W : FPath → Prop} {a : Act β} (h : Only D W a) {fs : FileSystem}
    {chs : List Change} {r : Except Err β} (hq : a fs = (chs, r)) :
    ChangedOnly D W fs (applyChanges fs chs) := by
  have := legal_changedOnly _ _ (h fs)
  rw [hq] at this
  exact this

theorem loadedFrom_unique {ρ : Type} {cwd : FPath} {s : FileSettings ρ} {a b : Loaded ρ}
    (ha : LoadedFrom cwd s a) (hb : LoadedFrom cwd s b) : a = b := by
  obtain ⟨a1, ⟨n, a2, a3⟩, m, a4, a5⟩ := ha
  obtain ⟨b1, ⟨n', b2, b3⟩, m', b4, b5⟩ := hb
  rw [a1] at b1; rw [a2] at b2; rw [a4] at b4
  injection b1 with b1; injection b2 with b2; injection b4 with b4
  subst b2; subst b4
  cases a; cases b
  simp only at *
  rw [b1, a3, b3, a5, b5]

theorem makeConfig_calendar {ρ : Type} {s : Settings ρ} {cfg : Config ρ} (h : makeConfig s = .ok cfg) :
    cfg.calendar = s.calendar.getD "standard".toList := by
  unfold makeConfig at h
  rcases hd : convertDates s with e | ⟨name, dates⟩
  · rw [hd] at h; cases h
  · rw [hd] at h
    have hn : name = s.calendar.getD "standard".toList := by
      unfold convertDates at hd
      simp only at hd
      split at hd
      · cases hd
      · next c hc =>
        revert hd
        generalize convertDate c (s.dates .tracking_start_date) = x1
        generalize convertDate c (s.dates .tracking_end_date) = x2
        generalize convertDate c (s.dates .tagging_start_date) = x3
        generalize convertDate c (s.dates .tagging_end_date) = x4
        generalize convertDate c (s.dates .preprocess_start_date) = x5
        generalize convertDate c (s.dates .preprocess_end_date) = x6
        intro hd
        cases x1 <;> cases x2 <;> cases x3 <;> cases x4 <;> cases x5 <;> cases x6 <;>
          first
          | (cases hd; done)
          | (injection hd with hd; injection hd with hd _; exact hd.symm)
    rcases hr : s.rest with e | r
    · simp only [hr, bind, Except.bind] at h; cases h
    · simp only [hr, bind, Except.bind, pure, Except.pure] at h
      split at h
      · injection h with h; subst h; exact hn
      · cases h

section
variable {ρ : Type} {parse : List Char → Except Err (FileSettings ρ)} {cwd file : FPath}
  {fs : FileSystem} {text stamp : List Char} {s : FileSettings ρ} {backward : ρ → Bool}
  {folder : Loaded ρ → Option FPath} {experiment : Experiment ρ}

theorem loadedFrom_of {chs : List Change} {cfg : Loaded ρ} (hf : fs file = some (.file text))
    (hp : parse text = .ok s) (h : fromYaml parse cwd file fs = (chs, .ok cfg)) :
    LoadedFrom cwd s cfg := by
  rw [fromYaml_eq hf hp] at h
  exact loadSettings_ok h

/-- reading a configuration leaves every file alone -/
theorem fromYaml_file {chs : List Change} {r : Except Err (Loaded ρ)} (hf : fs file = some (.file text))
    (hp : parse text = .ok s) (h : fromYaml parse cwd file fs = (chs, r)) :
    ChangedOnly (ConfigFolder cwd s.folders) (fun _ => False) fs (applyChanges fs chs) := by
  rw [fromYaml_eq hf hp] at h
  exact only_ok (only_loadSettings _ _ _) h

theorem only_copyConfigYaml (D : FPath → Prop) (folder : FPath) :
    Only D (· = folder ++ file.getLast?.toList) (copyConfigYaml file folder) := by
  intro fs
  unfold copyConfigYaml
  simp only
  split
  · split
    · trivial
    · exact only_save _ _ _ _
  · trivial

theorem save_content {p : FPath} {x : List Char} {chs : List Change} {u : Unit}
    (h : save p x fs = (chs, .ok u)) : applyChanges fs chs p = some (.file x) := by
  unfold save at h
  split at h
  · exact absurd (congrArg Prod.snd h) (by simp)
  · split at h
    · injection h with h _; subst h; simp [applyChanges]
    · exact absurd (congrArg Prod.snd h) (by simp)
    · exact absurd (congrArg Prod.snd h) (by simp)

theorem copy_content {folder : FPath} {chs : List Change} {u : Unit}
    (hf : fs file = some (.file text)) (h : copyConfigYaml file folder fs = (chs, .ok u)) :
    folder ++ file.getLast?.toList ≠ file ∧
    applyChanges fs chs (folder ++ file.getLast?.toList) = some (.file text) ∧
    applyChanges fs chs file = some (.file text) := by
  unfold copyConfigYaml at h
  simp only [hf] at h
  split at h
  · exact absurd (congrArg Prod.snd h) (by simp)
  · next hne =>
    refine ⟨hne, save_content h, ?_⟩
    rw [changedOnly_keeps (only_ok (only_save (fun _ => False) _ _) h) (by rw [hf]; simp)
      (fun hc => hne hc.symm), hf]

/-- the log file in a folder -/
def logPath (f : FPath) (stamp : List Char) : FPath :=
  f ++ ["wam2layers_".toList ++ stamp ++ ".log".toList]

/-- the two files of the beginning of a command -/
def RecordPath (f : FPath) (stamp : List Char) (file : FPath) (p : FPath) : Prop :=
  p = logPath f stamp ∨ p = f ++ file.getLast?.toList

theorem start_legal {F : FPath} (hf : fs file = some (.file text)) (hp : parse text = .ok s)
    (hF : ∀ cfg, LoadedFrom cwd s cfg → ∀ f, folder cfg = some f → f = F) :
    Legal (ConfigFolder cwd s.folders) (RecordPath F stamp file) fs
      (startCommand parse cwd file stamp folder fs).1 := by
  unfold startCommand
  refine legal_bind ?_ ?_
  · rw [fromYaml_eq hf hp]; exact only_loadSettings _ _ _ _
  · intro cfg chs hq
    split
    · trivial
    · next f hff =>
      have := hF cfg (loadedFrom_of hf hp hq) f hff
      subst this
      refine only_bind (only_mono (fun _ h => h) ?_ (only_save _ _ _)) (fun _ =>
        only_mono (fun _ h => h) ?_ (only_copyConfigYaml _ f)) _
      · exact fun p hp => Or.inl hp
      · exact fun p hp => Or.inr hp

/-- where the beginning of a command leaves things -/
theorem start_ok {F : FPath} (hf : fs file = some (.file text)) (hp : parse text = .ok s)
    (hF : ∀ cfg, LoadedFrom cwd s cfg → ∀ f, folder cfg = some f → f = F)
    (hlog : logPath F stamp ≠ file) {chs : List Change} {u : Unit}
    (h : startCommand parse cwd file stamp folder fs = (chs, .ok u)) :
    applyChanges fs chs file = some (.file text) ∧
    applyChanges fs chs (F ++ file.getLast?.toList) = some (.file text) ∧
    F ++ file.getLast?.toList ≠ file ∧
    ∃ cfg, LoadedFrom cwd s cfg ∧ folder cfg = some F := by
  unfold startCommand at h
  rcases h1 : fromYaml parse cwd file fs with ⟨c1, e | cfg⟩
  · rw [bind_error h1] at h; exact absurd (congrArg Prod.snd h) (by simp)
  · rw [bind_ok h1] at h
    have hl := loadedFrom_of hf hp h1
    have hk1 : applyChanges fs c1 file = some (.file text) := by
      rw [changedOnly_keeps (fromYaml_file hf hp h1) (by rw [hf]; simp) (fun h => h), hf]
    rcases hfo : folder cfg with _ | f
    · simp only [hfo] at h
      exact absurd (congrArg Prod.snd h) (by simp)
    · simp only [hfo] at h
      have := hF cfg hl f hfo
      subst this
      rcases h2 : setupLogging f stamp (applyChanges fs c1) with ⟨c2, e | u2⟩
      · rw [bind_error h2] at h; exact absurd (congrArg Prod.snd h) (by simp)
      · rw [bind_ok h2] at h
        have hk2 : applyChanges (applyChanges fs c1) c2 file = some (.file text) := by
          rw [changedOnly_keeps (only_ok (only_save (fun _ => False) _ _) h2) (by rw [hk1]; simp)
            (fun h => hlog h.symm), hk1]
        rcases h3 : copyConfigYaml file f (applyChanges (applyChanges fs c1) c2) with ⟨c3, e | u3⟩
        · rw [h3] at h; exact absurd (congrArg Prod.snd h) (by simp)
        · rw [h3] at h
          have hc := congrArg Prod.fst h
          simp only at hc
          obtain ⟨h4, h5, h6⟩ := copy_content hk2 h3
          subst hc
          rw [applyChanges_append, applyChanges_append]
          exact ⟨h6, h5, h4, cfg, hl, hfo⟩

theorem run_legal {F : FPath} {D W : FPath → Prop} (hf : fs file = some (.file text))
    (hp : parse text = .ok s)
    (hF : ∀ cfg, LoadedFrom cwd s cfg → ∀ f, folder cfg = some f → f = F)
    (hD : ∀ p, ConfigFolder cwd s.folders p → D p)
    (hsub : ∀ cfg, LoadedFrom cwd s cfg → ∀ fs, ∀ x ∈ (experiment cfg fs).1, ∀ sub,
      (x.place cfg.calendar (backward cfg.config.rest)).1 = some sub → D (F ++ [sub]))
    (hW : ∀ cfg, LoadedFrom cwd s cfg → ∀ fs, ∀ x ∈ (experiment cfg fs).1,
      W (x.path cfg.calendar (backward cfg.config.rest) F)) :
    Legal D W fs (runExperiment parse cwd file backward folder experiment fs).1 := by
  unfold runExperiment
  refine legal_bind ?_ ?_
  · rw [fromYaml_eq hf hp]; exact legal_mono hD (fun _ h => h) _ _ (only_loadSettings _ _ _ _)
  · intro cfg chs hq
    have hl := loadedFrom_of hf hp hq
    split
    · trivial
    · next f hff =>
      have := hF cfg hl f hff
      subst this
      refine only_bind (only_saveAll _ _ _ _ (hsub cfg hl _) (hW cfg hl _)) (fun _ => ?_) _
      unfold endWith
      split
      · exact only_pure _ _ _
      · exact only_fail _ _ _

theorem moment_of_legal {β : Type} {D W : FPath → Prop} {a : Act β} {fs fs' : FileSystem}
    (h : Legal D W fs (a fs).1) (hm : Moment a fs fs') : ChangedOnly D W fs fs' := by
  obtain ⟨k, rfl⟩ := hm
  exact legal_changedOnly _ _ (legal_take _ _ _ h)

/-- every moment of a command is either in its beginning, or all of the beginning is done -/
theorem command_moment {F : FPath} {D W : FPath → Prop} {fs' : FileSystem}
    (hf : fs file = some (.file text)) (hp : parse text = .ok s)
    (hF : ∀ cfg, LoadedFrom cwd s cfg → ∀ f, folder cfg = some f → f = F)
    (hlog : logPath F stamp ≠ file)
    (hD : ∀ p, ConfigFolder cwd s.folders p → D p)
    (hsub : ∀ cfg, LoadedFrom cwd s cfg → ∀ fs, ∀ x ∈ (experiment cfg fs).1, ∀ sub,
      (x.place cfg.calendar (backward cfg.config.rest)).1 = some sub → D (F ++ [sub]))
    (hW : ∀ cfg, LoadedFrom cwd s cfg → ∀ fs, ∀ x ∈ (experiment cfg fs).1,
      W (x.path cfg.calendar (backward cfg.config.rest) F))
    (hm : Moment (command parse cwd file stamp backward folder experiment) fs fs') :
    ChangedOnly (ConfigFolder cwd s.folders) (RecordPath F stamp file) fs fs' ∨
    ∃ fs1, ChangedOnly (ConfigFolder cwd s.folders) (RecordPath F stamp file) fs fs1 ∧
      fs1 file = some (.file text) ∧ fs1 (F ++ file.getLast?.toList) = some (.file text) ∧
      F ++ file.getLast?.toList ≠ file ∧ ChangedOnly D W fs1 fs' := by
  rcases moment_bind hm with h | ⟨u, chs, hq, h⟩
  · exact Or.inl (moment_of_legal (start_legal hf hp hF) h)
  · obtain ⟨h1, h2, h3, _⟩ := start_ok hf hp hF hlog hq
    refine Or.inr ⟨_, ?_, h1, h2, h3, moment_of_legal (run_legal h1 hp hF hD hsub hW) h⟩
    have := legal_changedOnly _ _ (start_legal (stamp := stamp) hf hp hF)
    rw [hq] at this
    exact this

end

end Wam
