import Verif.Spec.PrepParts
import Verif.Props.Works

/-!
# C116: preprocessing with several commands
-/

set_option linter.unusedSectionVars false
set_option linter.unusedVariables false

namespace Wam
open Spec

section
variable {α ρ : Type} (shw : DataFile α α → List Char) (freq : ρ → ℤ)
  (compute : Loaded ρ → FileSystem → ℤ → Except Err (Dataset α α)) (backward : ρ → Bool)
  (parse : List Char → Except Err (FileSettings ρ)) (reads : FPath → Prop) (pre : FPath) (c : Calendar)

private theorem below_record {F : FPath} {st nm : List Char} {p : FPath} (h : Record F st nm p) : Below F p := by
  cases h <;> exact ⟨_, by simp, rfl⟩

private theorem below_day {p : FPath} (h : DayFile c pre p) : Below pre p := by
  cases h; exact ⟨_, by simp, rfl⟩

private theorem untouched {x : PrepCall ρ} {fs : FileSystem} (r : x.Ready parse reads pre c fs) :
    Untouched x.cwd x.settings pre x.stamp (x.stem ++ ".yaml".toList) reads :=
  fun p hp => ⟨(r.raw p hp).1, fun h => (r.raw p hp).2 (below_record h)⟩

private theorem day_saving (cfg : Loaded ρ) (fs : FileSystem) (t : ℤ) (txt : List Char)
    (h : .day t txt ∈ (preprocessExperiment shw freq compute cfg fs).1) :
    t ∈ inputDates (cfg.config.dates .preprocess_start_date) (cfg.config.dates .preprocess_end_date) (freq cfg.config.rest) := by
  have key : ∀ (compute : ℤ → Except Err (Dataset α α)) (c : Calendar) (ts : List ℤ) (b : Bool) (disk : PrepDisk α α),
      .day t txt ∈ (daySavings shw compute c b ts disk).1 → t ∈ ts := by
    intro compute c ts
    induction ts with
    | nil => intro b disk h; exact absurd h List.not_mem_nil
    | cons s ts ih =>
      intro b disk h
      unfold daySavings at h
      rcases hc : prepContent compute c b s (disk (inputPath c s [])) with e | f
      · simp only [hc] at h; exact absurd h List.not_mem_nil
      · simp only [hc] at h
        rcases List.mem_cons.1 h with h | h
        · injection h with h _
          exact List.mem_cons.2 (.inl h)
        · exact List.mem_cons_of_mem _ (ih _ _ h)
  have key2 : ∀ (compute : ℤ → Except Err (Dataset α α)) (c : Calendar) (days : List (List ℤ)) (disk : PrepDisk α α),
      .day t txt ∈ (daysSavings shw compute c days disk).1 → ∃ g ∈ days, t ∈ g := by
    intro compute c days
    induction days with
    | nil => intro disk h; exact absurd h List.not_mem_nil
    | cons g days ih =>
      intro disk h
      unfold daysSavings at h
      rcases hc : daySavings shw compute c true g disk with ⟨ss, _ | e, disk'⟩
      · simp only [hc] at h
        rcases List.mem_append.1 h with h | h
        · exact ⟨g, by simp, key compute c g true disk (by rw [hc]; exact h)⟩
        · obtain ⟨g', hg', ht⟩ := ih _ h
          exact ⟨g', List.mem_cons_of_mem _ hg', ht⟩
      · simp only [hc] at h
        exact ⟨g, by simp, key compute c g true disk (by rw [hc]; exact h)⟩
  obtain ⟨g, hg, ht⟩ := key2 _ _ _ _ h
  exact groupByDay_subset _ _ hg ht

/-- what a command has changed when it has ended -/
private theorem prep_changes {x : PrepCall ρ} {fs : FileSystem} (hlook : LooksOnlyAt (compute x.cfg) reads)
    (r : x.Ready parse reads pre c fs) (h : (x.act shw freq compute backward parse fs).2 = .ok ()) :
    ChangedOnly (ConfigFolder x.cwd x.settings.folders)
      (fun p => Record pre x.stamp (x.stem ++ ".yaml".toList) p ∨ ∃ t ∈ x.times freq, p = preprocessedFile pre c t)
      fs (after (x.act shw freq compute backward parse) fs) := by
  obtain ⟨⟨text, hf, hp⟩, hcfg, hlog⟩ := r.given
  have hlog' : pre ++ ["wam2layers_".toList ++ x.stamp ++ ".log".toList] ≠ x.dir ++ [x.stem ++ ".yaml".toList] := by
    intro h
    have := List.append_inj_right' h rfl
    injection this with this
    exact hlog this.symm
  unfold PrepCall.act at h
  rcases hcmd : command parse x.cwd (x.dir ++ [x.stem ++ ".yaml".toList]) x.stamp backward (fun cfg => cfg.preprocessed)
      (preprocessExperiment shw freq compute) fs with ⟨chs, res⟩
  rw [hcmd] at h
  simp only at h
  subst h
  obtain ⟨cfg', fs1, h1, h2, -, h4, -⟩ := C106_all_written parse x.cwd x.dir _ fs text x.stamp x.settings backward
    (fun cfg => cfg.preprocessed) (preprocessExperiment shw freq compute) pre hf hp
    (fun cfg' hl => by rw [loadedFrom_unique hl hcfg]; exact r.folder) hlog' chs () hcmd
  have hc := loadedFrom_unique h1 hcfg
  subst hc
  have e2 := (preprocessExperiment_writes shw freq compute x.cfg fs1).choose_spec.2.1
  have hpath : ∀ t y, (Saving.day t y).path x.cfg.calendar (backward x.cfg.config.rest) pre = preprocessedFile pre c t := by
    intro t y
    show pre ++ [] ++ [dayName x.cfg.calendar t] = _
    rw [List.append_nil, r.calendar]
    rfl
  have e3 : after (x.act shw freq compute backward parse) fs = applyChanges fs chs := by
    unfold after PrepCall.act
    rw [hcmd]
  rw [e3]
  intro p
  rcases h4 p with h | ⟨h | ⟨y, hy, sub, hs, -⟩, h'⟩ | ⟨h | ⟨y, hy, h⟩, h'⟩
  · exact .inl h
  · exact .inr (.inl ⟨h, h'⟩)
  · obtain ⟨t, z, rfl⟩ := e2 y hy
    cases hs
  · exact .inr (.inr ⟨.inl h, h'⟩)
  · obtain ⟨t, z, rfl⟩ := e2 y hy
    rw [hpath] at h
    exact .inr (.inr ⟨.inr ⟨t, day_saving shw freq compute x.cfg fs1 t z hy, h⟩, h'⟩)

private theorem day_not_record {x : PrepCall ρ} (t : ℤ) :
    ¬ Record pre x.stamp (x.stem ++ ".yaml".toList) (preprocessedFile pre c t) := by
  intro h
  unfold preprocessedFile at h
  generalize hq : pre ++ [dayString (dateTimeOf c t).date ++ "_fluxes_storages.nc".toList] = q at h
  have e : dayString (dateTimeOf c t).date ++ "_fluxes_storages.nc".toList =
      (dayString (dateTimeOf c t).date ++ "_fluxes_storages".toList) ++ ".nc".toList := by
    rw [List.append_assoc]; rfl
  rw [e] at hq
  rcases h with _ | _
  · exact nc_ne_log _ _ (append_last_eq hq)
  · have h2 := congrArg List.getLast? (append_last_eq hq)
    rw [show ".nc".toList = ['.', 'n'] ++ ['c'] from rfl, show ".yaml".toList = ['.', 'y', 'a', 'm'] ++ ['l'] from rfl,
      ← List.append_assoc, ← List.append_assoc, List.getLast?_concat, List.getLast?_concat] at h2
    injection h2 with h2
    revert h2
    decide

private theorem same_file {t s : ℤ} (ht : FourDigitYear c t) (hs : FourDigitYear c s) :
    preprocessedFile pre c t = preprocessedFile pre c s ↔ SameDay t s := by
  rw [← and_iff_right (a := ([] : List Char) = []) (b := SameDay t s) rfl, ← C42_input_path c t s [] [] ht hs, inputPath_dayName,
    inputPath_dayName]
  constructor
  · intro h
    exact congrArg _ (append_last_eq h)
  · intro h
    injection h with _ h
    exact congrArg (fun n => pre ++ [n]) h

/-- the raw data are as before -/
private theorem raw_after {x : PrepCall ρ} {fs : FileSystem} (hlook : LooksOnlyAt (compute x.cfg) reads)
    (r : x.Ready parse reads pre c fs) (h : (x.act shw freq compute backward parse fs).2 = .ok ()) (p : FPath) (hp : reads p) :
    after (x.act shw freq compute backward parse) fs p = fs p := by
  rcases prep_changes shw freq compute backward parse reads pre c hlook r h p with h | ⟨h, -⟩ | ⟨h | ⟨t, -, rfl⟩, -⟩
  · exact h
  · exact absurd h (r.raw p hp).1
  · exact absurd (below_record h) (r.raw p hp).2
  · exact absurd (below_day pre c (DayFile.day t)) (r.raw _ hp).2

/-- the files of other days are as before -/
private theorem other_day {x : PrepCall ρ} {fs : FileSystem} (hlook : LooksOnlyAt (compute x.cfg) reads)
    (r : x.Ready parse reads pre c fs) (h : (x.act shw freq compute backward parse fs).2 = .ok ())
    (hy : ∀ s ∈ x.times freq, FourDigitYear c s) (t : ℤ) (ht : FourDigitYear c t) (hno : ∀ s ∈ x.times freq, ¬ SameDay s t) :
    after (x.act shw freq compute backward parse) fs (preprocessedFile pre c t) = fs (preprocessedFile pre c t) := by
  rcases prep_changes shw freq compute backward parse reads pre c hlook r h (preprocessedFile pre c t) with h | ⟨h, -⟩ | ⟨h | ⟨s, hs, h⟩, -⟩
  · exact h
  · exact absurd (below_day pre c (DayFile.day t)) (r.room.apart _ h)
  · exact absurd h (day_not_record pre c t)
  · exact absurd ((same_file pre c ht (hy s hs)).1 h).symm (hno s hs)

/-- a command that is ready is still so after another one -/
private theorem prep_ready_after {x y : PrepCall ρ} {fs : FileSystem} (hlook : LooksOnlyAt (compute x.cfg) reads)
    (r : x.Ready parse reads pre c fs) (h : (x.act shw freq compute backward parse fs).2 = .ok ())
    (r' : y.Ready parse reads pre c fs) : y.Ready parse reads pre c (after (x.act shw freq compute backward parse) fs) := by
  have hch := prep_changes shw freq compute backward parse reads pre c hlook r h
  have hbelow : ∀ p, (Record pre x.stamp (x.stem ++ ".yaml".toList) p ∨ ∃ t ∈ x.times freq, p = preprocessedFile pre c t) →
      Below pre p := by
    rintro p (h | ⟨t, -, rfl⟩)
    · exact below_record h
    · exact below_day pre c (DayFile.day t)
  obtain ⟨⟨text, hf, hp⟩, hcfg, hlog⟩ := r'.given
  refine ⟨⟨⟨text, ?_, hp⟩, hcfg, hlog⟩, r'.folder, r'.calendar, r'.raw, ?_, ?_, ?_, r'.room.apart, r'.room.own⟩
  · rcases hch (y.dir ++ [y.stem ++ ".yaml".toList]) with h | ⟨-, h, -⟩ | ⟨h, -⟩
    · rw [h]; exact hf
    · rw [hf] at h; cases h
    · exact absurd (hbelow _ h) r'.room.own
  · exact solid_moment (solid_command _ _ _ _ _ _ _) r.room.wf ⟨_, by rw [List.take_length]; rfl⟩
  · intro p hpf text' hfile
    rcases hch p with h | ⟨-, -, h⟩ | ⟨h, -⟩
    · exact r'.room.folders p hpf text' (by rw [← h]; exact hfile)
    · rw [h] at hfile; cases hfile
    · exact r'.room.apart p hpf (hbelow _ h)
  · intro p hpr hdir
    have hb : Below pre p := by
      rcases hpr with h | h
      · exact below_record h
      · rw [r'.calendar] at h; exact below_day pre c h
    rcases hch p with h | ⟨h, -, -⟩ | ⟨h, -, text', h'⟩
    · exact r'.room.files p hpr (by rw [← h]; exact hdir)
    · exact r.room.apart p h hb
    · rw [h'] at hdir; cases hdir

/-- Several commands `preprocess`, one after the other, that all end without an error.  The raw data and the files of days that none of them preprocesses
are as before.  The file of any other day holds what the last command that has times on that day computes from the raw data for these
times, and nothing else. -/
theorem C116_last (l : List (PrepCall ρ)) (fs : FileSystem) (hlook : ∀ x ∈ l, LooksOnlyAt (compute x.cfg) reads)
    (hr : ∀ x ∈ l, x.Ready parse reads pre c fs) (hend : AllEnd (l.map (PrepCall.act shw freq compute backward parse)) fs)
    (hy : ∀ x ∈ l, ∀ t ∈ x.times freq, FourDigitYear c t) :
    let fs' := afterAll (l.map (PrepCall.act shw freq compute backward parse)) fs
    (∀ p, reads p → fs' p = fs p) ∧
    (∀ t, FourDigitYear c t → (∀ x ∈ l, ∀ s ∈ x.times freq, ¬ SameDay s t) →
      fs' (preprocessedFile pre c t) = fs (preprocessedFile pre c t)) ∧
    ∀ before x later, l = before ++ x :: later → ∀ t ∈ x.times freq, (∀ y ∈ later, ∀ s ∈ y.times freq, ¬ SameDay s t) →
      ∃ f, HoldsDay c (compute x.cfg fs) (x.times freq) t f ∧ fs' (preprocessedFile pre c t) = some (.file (shw f)) := by
  induction l generalizing fs with
  | nil =>
    refine ⟨fun _ _ => rfl, fun _ _ _ => rfl, ?_⟩
    intro before x later h
    exact absurd h (by simp)
  | cons x l ih =>
    obtain ⟨hx, hl⟩ := hend
    have hlx := hlook x List.mem_cons_self
    have rx := hr x List.mem_cons_self
    obtain ⟨i1, i2, i3⟩ := ih (after (x.act shw freq compute backward parse) fs) (fun y h => hlook y (List.mem_cons_of_mem _ h))
      (fun y h => prep_ready_after shw freq compute backward parse reads pre c hlx rx hx (hr y (List.mem_cons_of_mem _ h))) hl
      (fun y h => hy y (List.mem_cons_of_mem _ h))
    refine ⟨?_, ?_, ?_⟩
    · intro p hp
      exact (i1 p hp).trans (raw_after shw freq compute backward parse reads pre c hlx rx hx p hp)
    · intro t ht hno
      exact (i2 t ht fun y h => hno y (List.mem_cons_of_mem _ h)).trans
        (other_day shw freq compute backward parse reads pre c hlx rx hx (hy x List.mem_cons_self) t ht (hno x List.mem_cons_self))
    · intro before y later hsplit t ht hlater
      rcases before with _ | ⟨z, before⟩
      · injection hsplit with h1 h2
        subst h1
        subst h2
        have h3 := C111_preprocess shw freq compute backward parse x.cwd x.dir _ x.stamp fs x.settings x.cfg pre rx.given rx.folder reads
          hlx (untouched parse reads pre c rx) hx (by rw [rx.calendar]; exact hy x List.mem_cons_self) t ht
        rw [rx.calendar] at h3
        obtain ⟨f, h4, h5⟩ := h3
        exact ⟨f, h4, (i2 t (hy x List.mem_cons_self t ht) hlater).trans h5⟩
      · injection hsplit with h1 h2
        subst h1
        obtain ⟨f, h4, h5⟩ := i3 before y later h2 t ht hlater
        refine ⟨f, ?_, h5⟩
        have := hlook y (by rw [h2]; simp) (after (x.act shw freq compute backward parse) fs) fs
          (fun p hp => raw_after shw freq compute backward parse reads pre c hlx rx hx p hp)
        rw [this] at h4
        exact h4

private theorem forall₂_functional {β γ : Type} {R : β → γ → Prop} (hR : ∀ a b b', R a b → R a b' → b = b') :
    ∀ {l : List β} {u v : List γ}, List.Forall₂ R l u → List.Forall₂ R l v → u = v := by
  intro l u v h h'
  induction h generalizing v with
  | nil => cases h'; rfl
  | cons hab _ ih =>
    cases h' with
    | cons hab' h'' => rw [hR _ _ _ hab hab', ih h'']

/-- there is one content of a file of preprocessed data -/
private theorem holdsDay_unique {compute : ℤ → Except Err (Dataset α α)} {ts us : List ℤ} {t u : ℤ} {f g : DataFile α α}
    (h : HoldsDay c compute ts t f) (h' : HoldsDay c compute us u g) (he : onDay ts t = onDay us u) : f = g := by
  obtain ⟨f1, d, f2, f3⟩ := h
  obtain ⟨g1, d', g2, g3⟩ := h'
  have he' : (ts.filter fun s => decide (SameDay s t)) = us.filter fun s => decide (SameDay s u) := he
  rw [he'] at f2 f3
  rw [f2] at g2
  injection g2 with g2
  injection g2 with g2
  subst g2
  have : f.entries = g.entries := by
    refine forall₂_functional ?_ f3 g3
    rintro a b b' ⟨raw, r1, r2, -⟩ ⟨raw', r1', r2', -⟩
    rw [r1] at r1'
    injection r1' with r1'
    subst r1'
    rw [r2, r2']
  cases f; cases g
  simp only at f1 g1 this
  rw [f1, g1, this]

private theorem onDay_congr (ts : List ℤ) {t u : ℤ} (h : SameDay t u) : onDay ts t = onDay ts u := by
  unfold onDay
  refine List.filter_congr fun s _ => ?_
  exact decide_eq_decide.2 ⟨fun h' => h'.trans h, fun h' => h'.trans h.symm⟩

private theorem last_with {β : Type} (P : β → Prop) : ∀ (l : List β), (∃ x ∈ l, P x) →
    ∃ before x later, l = before ++ x :: later ∧ P x ∧ ∀ y ∈ later, ¬ P y := by
  intro l
  induction l with
  | nil => rintro ⟨x, hx, -⟩; exact absurd hx List.not_mem_nil
  | cons a l ih =>
    intro h
    by_cases hl : ∃ x ∈ l, P x
    · obtain ⟨before, x, later, h1, h2, h3⟩ := ih hl
      exact ⟨a :: before, x, later, by rw [h1]; rfl, h2, h3⟩
    · obtain ⟨x, hx, hP⟩ := h
      rcases List.mem_cons.1 hx with rfl | hx
      · exact ⟨[], x, l, rfl, hP, fun y hy hPy => hl ⟨y, hy, hPy⟩⟩
      · exact absurd ⟨x, hx, hP⟩ hl

private theorem fold_new_file {κ β : Type} (compute : ℤ → Except Err (Dataset κ β)) (c : Calendar) {g : List ℤ} (hg : g ≠ [])
    (old old' : Option (PrepFile κ β)) : fileFold compute c true g old = fileFold compute c true g old' ∨
      (fileFold compute c true g old).1 ≠ none := by
  obtain ⟨t, g, rfl⟩ := List.exists_cons_of_ne_nil hg
  unfold fileFold prepContent
  rcases compute t with e | d
  · right; simp [bind, Except.bind]
  · left; rfl

/-- a part of whole days can be preprocessed, if the whole can -/
private theorem part_succeeds (compute : ℤ → Except Err (Dataset α α)) (A B f A' B' f' : ℤ)
    (hy : ∀ t ∈ inputDates A B f, FourDigitYear c t) (hy' : ∀ t ∈ inputDates A' B' f', FourDigitYear c t)
    (hw : WholeDays (inputDates A' B' f') (inputDates A B f))
    (h : (prepExperiment compute c [] A B f (fun _ => none)).1 = none) :
    (prepExperiment compute c [] A' B' f' (fun _ => none)).1 = none := by
  rcases h1 : prepExperiment compute c [] A B f (fun _ => none) with ⟨e, d1⟩
  rw [h1] at h
  simp only at h
  subst h
  obtain ⟨h2, -⟩ := prepDays_files compute c [] _ (distinctFiles c [] _ hy) _ d1 h1
  obtain ⟨d, hd⟩ := prepDays_succeeds compute c [] _ (distinctFiles c [] _ hy') (fun _ => none) (by
    intro g hg old
    obtain ⟨k1, k2⟩ := groupByDay_spec c _ hg
    obtain ⟨t, g', rfl⟩ := List.exists_cons_of_ne_nil k1
    have ht : t ∈ t :: g' := List.mem_cons_self
    have e1 : t :: g' = onDay (inputDates A' B' f') t := k2 t ht
    rw [hw t (groupByDay_subset c _ hg ht)] at e1
    have htw : t ∈ inputDates A B f := by
      rw [e1] at ht
      exact (List.mem_filter.1 ht).1
    obtain ⟨g2, hg2, ht2⟩ := groupByDay_mem c _ htw
    have e2 : g2 = onDay (inputDates A B f) t := (groupByDay_spec c _ hg2).2 t ht2
    rw [← e1] at e2
    subst e2
    have h3 := h2 _ hg2 t ht2
    rcases fold_new_file compute c k1 none old with h | h
    · rw [← h, h3]
    · rw [h3] at h
      exact absurd rfl h)
  unfold prepExperiment
  rw [hd]

/-- Instead of one command `preprocess` for a whole period one can give several, in any order, each for some days of the period.  If the one command would
end without an error, they all do, and leave the same files of preprocessed data. -/
theorem C116_parts (whole : PrepCall ρ) (l : List (PrepCall ρ)) (fs : FileSystem)
    (hlook : ∀ x ∈ whole :: l, LooksOnlyAt (compute x.cfg) reads) (hr : ∀ x ∈ whole :: l, x.Ready parse reads pre c fs)
    (hsame : ∀ x ∈ l, compute x.cfg fs = compute whole.cfg fs)
    (hy : ∀ t ∈ whole.times freq, FourDigitYear c t)
    (hdays : ∀ x ∈ l, WholeDays (x.times freq) (whole.times freq)) (hall : ∀ t ∈ whole.times freq, ∃ x ∈ l, t ∈ x.times freq)
    (hend : (whole.act shw freq compute backward parse fs).2 = .ok ()) :
    AllEnd (l.map (PrepCall.act shw freq compute backward parse)) fs ∧
    ∀ t ∈ whole.times freq, ∃ f, HoldsDay c (compute whole.cfg fs) (whole.times freq) t f ∧
      after (whole.act shw freq compute backward parse) fs (preprocessedFile pre c t) = some (.file (shw f)) ∧
      afterAll (l.map (PrepCall.act shw freq compute backward parse)) fs (preprocessedFile pre c t) = some (.file (shw f)) := by
  have hmem : ∀ x ∈ l, ∀ t ∈ x.times freq, t ∈ whole.times freq := by
    intro x hx t ht
    have : t ∈ onDay (x.times freq) t := List.mem_filter.2 ⟨ht, decide_eq_true rfl⟩
    rw [hdays x hx t ht] at this
    exact (List.mem_filter.1 this).1
  have hyl : ∀ x ∈ l, ∀ t ∈ x.times freq, FourDigitYear c t := fun x hx t ht => hy t (hmem x hx t ht)
  have r₀ := hr whole List.mem_cons_self
  have hl₀ := hlook whole List.mem_cons_self
  have hok : ∀ {x : PrepCall ρ} {fs : FileSystem}, LooksOnlyAt (compute x.cfg) reads → x.Ready parse reads pre c fs →
      ((x.act shw freq compute backward parse fs).2 = .ok () ↔
        (prepExperiment (compute x.cfg fs) c [] (x.cfg.config.dates .preprocess_start_date)
          (x.cfg.config.dates .preprocess_end_date) (freq x.cfg.config.rest) (fun _ => none)).1 = none) := by
    intro x fs hl r
    have := (C112_preprocess shw freq compute backward parse x.cwd x.dir x.stem x.stamp fs x.settings x.cfg pre r.given r.folder reads
      hl (untouched parse reads pre c r) r.room).1
    rw [r.calendar] at this
    exact this
  have hprep := (hok hl₀ r₀).1 hend
  have hE : AllEnd (l.map (PrepCall.act shw freq compute backward parse)) fs := by
    have key : ∀ (l' : List (PrepCall ρ)) (fs' : FileSystem), (∀ x ∈ l', x ∈ l) → (∀ p, reads p → fs' p = fs p) →
        (∀ x ∈ l', x.Ready parse reads pre c fs') → AllEnd (l'.map (PrepCall.act shw freq compute backward parse)) fs' := by
      intro l'
      induction l' with
      | nil => intro _ _ _ _; trivial
      | cons x l' ih =>
        intro fs' hsub hraw hready
        have hxl := hsub x List.mem_cons_self
        have hlx := hlook x (List.mem_cons_of_mem _ hxl)
        have rx := hready x List.mem_cons_self
        have e : compute x.cfg fs' = compute whole.cfg fs := (hlx fs' fs hraw).trans (hsame x hxl)
        have hx : (x.act shw freq compute backward parse fs').2 = .ok () := by
          rw [hok hlx rx, e]
          exact part_succeeds c _ _ _ _ _ _ _ hy (hyl x hxl) (hdays x hxl) hprep
        refine ⟨hx, ih _ (fun y h => hsub y (List.mem_cons_of_mem _ h)) ?_ ?_⟩
        · intro p hp
          exact (raw_after shw freq compute backward parse reads pre c hlx rx hx p hp).trans (hraw p hp)
        · intro y h
          exact prep_ready_after shw freq compute backward parse reads pre c hlx rx hx (hready y (List.mem_cons_of_mem _ h))
    exact key l fs (fun _ h => h) (fun _ _ => rfl) (fun x h => hr x (List.mem_cons_of_mem _ h))
  refine ⟨hE, ?_⟩
  intro t ht
  obtain ⟨-, -, h1⟩ := C116_last shw freq compute backward parse reads pre c [whole] fs (fun x hx => by
      rw [List.mem_singleton] at hx; subst hx; exact hl₀) (fun x hx => by
      rw [List.mem_singleton] at hx; subst hx; exact r₀) ⟨hend, trivial⟩ (fun x hx => by
      rw [List.mem_singleton] at hx; subst hx; exact hy)
  obtain ⟨f, hf1, hf2⟩ := h1 [] whole [] rfl t ht (fun y hy => absurd hy List.not_mem_nil)
  refine ⟨f, hf1, hf2, ?_⟩
  obtain ⟨x, hx, htx⟩ := hall t ht
  obtain ⟨before, z, later, e1, ⟨s, hs, hst⟩, e3⟩ := last_with (fun x : PrepCall ρ => ∃ s ∈ x.times freq, SameDay s t) l
    ⟨x, hx, t, htx, rfl⟩
  obtain ⟨-, -, h2⟩ := C116_last shw freq compute backward parse reads pre c l fs (fun x hx => hlook x (List.mem_cons_of_mem _ hx))
    (fun x hx => hr x (List.mem_cons_of_mem _ hx)) hE hyl
  have hz : z ∈ l := by rw [e1]; simp
  obtain ⟨g, hg1, hg2⟩ := h2 before z later e1 s hs (fun y hy u hu hus => e3 y hy ⟨u, hu, hus.trans hst⟩)
  have hfg : f = g := by
    rw [hsame z hz] at hg1
    refine holdsDay_unique c hf1 hg1 ?_
    rw [hdays z hz s hs, onDay_congr _ hst]
  rw [hfg, ← hg2]
  have hst' : preprocessedFile pre c t = preprocessedFile pre c s := (same_file pre c (hy t ht) (hyl z hz s hs)).2 hst.symm
  rw [hst']

/-! ### A period cut in two -/

private theorem dates_split (A B C f : ℤ) (hf : 0 < f) (k : ℕ) (h1 : A + k * f ≤ B) (h2 : B < A + (k + 1) * f) (h3 : B ≤ C) :
    inputDates A C f = inputDates A B f ++ inputDates (A + (k + 1) * f) C f := by
  have e1 : ((B - A) / f + 1).toNat = k + 1 := by
    have : (B - A) / f = k := by
      rw [Int.ediv_eq_iff_of_pos hf]
      constructor
      · linarith
      · linarith
    rw [this]; omega
  have e2 : ((C - A) / f + 1).toNat = (k + 1) + ((C - (A + (k + 1) * f)) / f + 1).toNat := by
    have : (C - A) / f = (C - (A + (k + 1) * f)) / f + (k + 1) := by
      rw [← Int.add_mul_ediv_right _ _ hf.ne']
      congr 1; ring
    have hn : -1 ≤ (C - (A + (k + 1) * f)) / f := by
      rw [Int.le_ediv_iff_mul_le hf]
      linarith
    omega
  unfold inputDates
  rw [e1, e2, List.range_add, List.map_append, List.map_append, List.map_map, List.map_map, List.map_map, List.map_map]
  congr 1
  refine List.map_congr_left fun j _ => ?_
  simp only [Function.comp]
  congr 1
  push_cast
  ring

private theorem dates_bounds (A B f : ℤ) (hf : 0 < f) {t : ℤ} (h : t ∈ inputDates A B f) :
    roundTime A 60000000 ≤ t ∧ t ≤ roundTime B 60000000 := by
  obtain ⟨k, h1, rfl⟩ := (inputDates_mem A B f hf t).1 h
  have : (0 : ℤ) ≤ k * f := mul_nonneg (by omega) hf.le
  exact ⟨roundTime_mono _ (by decide) (by omega), roundTime_mono _ (by decide) h1⟩

/-- A cut between two days: the last time before it and the first one after it are on different days.  Then the two parts are whole days. -/
theorem C116_cut (A B C f : ℤ) (hf : 0 < f) (k : ℕ) (h1 : A + k * f ≤ B) (h2 : B < A + (k + 1) * f) (h3 : B ≤ C)
    (hday : ¬ SameDay (roundTime (A + k * f) 60000000) (roundTime (A + (k + 1) * f) 60000000)) :
    WholeDays (inputDates A B f) (inputDates A C f) ∧ WholeDays (inputDates (A + (k + 1) * f) C f) (inputDates A C f) ∧
    ∀ t ∈ inputDates A C f, t ∈ inputDates A B f ∨ t ∈ inputDates (A + (k + 1) * f) C f := by
  have hs := dates_split A B C f hf k h1 h2 h3
  have hapart : ∀ t ∈ inputDates A B f, ∀ s ∈ inputDates (A + (k + 1) * f) C f, ¬ SameDay t s := by
    intro t ht s hs h
    obtain ⟨j, hj, rfl⟩ := (inputDates_mem A B f hf t).1 ht
    have hjk : (j : ℤ) ≤ k := by
      by_contra hc
      have : ((k : ℤ) + 1) * f ≤ j * f := mul_le_mul_of_nonneg_right (by omega) hf.le
      omega
    have hjf : (j : ℤ) * f ≤ k * f := mul_le_mul_of_nonneg_right hjk hf.le
    have t1 : roundTime (A + j * f) 60000000 ≤ roundTime (A + k * f) 60000000 := roundTime_mono _ (by decide) (by omega)
    have t2 := (dates_bounds _ _ f hf hs).1
    have t3 : roundTime (A + k * f) 60000000 ≤ roundTime (A + (k + 1) * f) 60000000 := roundTime_mono _ (by decide) (by omega)
    unfold SameDay at h hday
    have a1 := Int.ediv_le_ediv (c := 86400000000) (by decide) t1
    have a2 := Int.ediv_le_ediv (c := 86400000000) (by decide) t2
    have a3 := Int.ediv_le_ediv (c := 86400000000) (by decide) t3
    omega
  refine ⟨?_, ?_, ?_⟩
  · intro t ht
    rw [hs]
    unfold onDay
    rw [List.filter_append]
    have : (inputDates (A + (k + 1) * f) C f).filter (fun s => decide (SameDay s t)) = [] :=
      List.filter_eq_nil_iff.2 fun s hs h => hapart t ht s hs (of_decide_eq_true h).symm
    rw [this, List.append_nil]
  · intro t ht
    rw [hs]
    unfold onDay
    rw [List.filter_append]
    have : (inputDates A B f).filter (fun s => decide (SameDay s t)) = [] :=
      List.filter_eq_nil_iff.2 fun s hs h => hapart s hs t ht (of_decide_eq_true h)
    rw [this, List.nil_append]
  · intro t ht
    rw [hs] at ht
    exact List.mem_append.1 ht

/-- Two commands `preprocess`, in either order: one for the first part of a period, one for the rest.  If the cut is between two days and one command for the whole
period would end without an error, they both do, and leave the same files of preprocessed data. -/
theorem C116_two_commands (whole first second : PrepCall ρ) (l : List (PrepCall ρ)) (horder : l = [first, second] ∨ l = [second, first])
    (fs : FileSystem) (hlook : ∀ x ∈ whole :: l, LooksOnlyAt (compute x.cfg) reads)
    (hr : ∀ x ∈ whole :: l, x.Ready parse reads pre c fs) (hsame : ∀ x ∈ l, compute x.cfg fs = compute whole.cfg fs)
    (A B C f : ℤ) (hf : 0 < f) (k : ℕ) (h1 : A + k * f ≤ B) (h2 : B < A + (k + 1) * f) (h3 : B ≤ C)
    (hwhole : whole.times freq = inputDates A C f) (hfirst : first.times freq = inputDates A B f)
    (hsecond : second.times freq = inputDates (A + (k + 1) * f) C f)
    (hday : ¬ SameDay (roundTime (A + k * f) 60000000) (roundTime (A + (k + 1) * f) 60000000))
    (hy : ∀ t ∈ whole.times freq, FourDigitYear c t) (hend : (whole.act shw freq compute backward parse fs).2 = .ok ()) :
    AllEnd (l.map (PrepCall.act shw freq compute backward parse)) fs ∧
    ∀ t ∈ whole.times freq, ∃ f, HoldsDay c (compute whole.cfg fs) (whole.times freq) t f ∧
      after (whole.act shw freq compute backward parse) fs (preprocessedFile pre c t) = some (.file (shw f)) ∧
      afterAll (l.map (PrepCall.act shw freq compute backward parse)) fs (preprocessedFile pre c t) = some (.file (shw f)) := by
  obtain ⟨d1, d2, d3⟩ := C116_cut A B C f hf k h1 h2 h3 hday
  have hl : ∀ x, x ∈ l ↔ x = first ∨ x = second := by
    intro x
    rcases horder with rfl | rfl
    · simp
    · simp [or_comm]
  refine C116_parts shw freq compute backward parse reads pre c whole l fs hlook hr hsame hy ?_ ?_ hend
  · intro x hx
    rw [hwhole]
    rcases (hl x).1 hx with rfl | rfl
    · rw [hfirst]; exact d1
    · rw [hsecond]; exact d2
  · intro t ht
    rw [hwhole] at ht
    rcases d3 t ht with h | h
    · exact ⟨first, (hl _).2 (.inl rfl), by rw [hfirst]; exact h⟩
    · exact ⟨second, (hl _).2 (.inr rfl), by rw [hsecond]; exact h⟩

/-- A cut within a day loses data: what the second command leaves of the day has only its own times. -/
theorem C116_cut_day_is_lost (first second : PrepCall ρ) (fs : FileSystem) (hlook : ∀ x ∈ [first, second], LooksOnlyAt (compute x.cfg) reads)
    (hr : ∀ x ∈ [first, second], x.Ready parse reads pre c fs)
    (hend : AllEnd ([first, second].map (PrepCall.act shw freq compute backward parse)) fs)
    (hy : ∀ x ∈ [first, second], ∀ t ∈ x.times freq, FourDigitYear c t) (t s : ℤ) (ht : t ∈ first.times freq)
    (hs : s ∈ second.times freq) (hday : SameDay t s) (hno : t ∉ second.times freq) :
    ∃ f, afterAll ([first, second].map (PrepCall.act shw freq compute backward parse)) fs (preprocessedFile pre c t) =
      some (.file (shw f)) ∧ ∀ e ∈ f.entries, e.1 ≠ t := by
  obtain ⟨-, -, h1⟩ := C116_last shw freq compute backward parse reads pre c [first, second] fs hlook hr hend hy
  obtain ⟨f, ⟨-, d0, -, h3⟩, h2⟩ := h1 [first] second [] rfl s hs (fun y hy => absurd hy List.not_mem_nil)
  refine ⟨f, ?_, ?_⟩
  · rw [(same_file pre c (hy first (by simp) t ht) (hy second (by simp) s hs)).2 hday]
    exact h2
  · have hsub : ∀ u ∈ (second.times freq).filter fun u => decide (SameDay u s), u ∈ second.times freq :=
      fun u hu => (List.mem_filter.1 hu).1
    generalize ((second.times freq).filter fun u => decide (SameDay u s)) = l at h3 hsub
    generalize f.entries = es at h3
    induction h3 with
    | nil => simp
    | cons hab _ ih =>
      obtain ⟨raw, -, rfl, -, -⟩ := hab
      intro e he
      rcases List.mem_cons.1 he with rfl | he
      · intro e'
        exact hno (e' ▸ hsub _ (by simp))
      · exact ih (fun s hs => hsub s (List.mem_cons_of_mem _ hs)) e he

end

end Wam
