import Verif.Lemmas.Download
import Verif.Props.Cli

/-!
# C119: a download on disk, at every moment
-/

namespace Wam
open Spec

set_option linter.unusedSectionVars false
set_option linter.unusedVariables false

/-! ### At every moment -/

/-- what may be on disk during a download, compared with before -/
def DownloadState (web : Web) (doi : List Char) (target : FPath) (fs fs' : FileSystem) : Prop :=
  ∀ p, fs' p = fs p ∨ (fs p = none ∧ p = target ∧ fs' p = some .dir) ∨
    (fs p = none ∧ ∃ id n url r text, get4tuId doi = .ok id ∧ Offered web id n url ∧ PlainName n ∧
      p = target ++ [n] ∧ web.get url = .ok r ∧ text <+: r.body ∧ fs' p = some (.file text))

private theorem keeps_download {web : Web} {doi id : List Char} {cwd : FPath} {name : List Char}
    {fs : FileSystem} (hw : WellFormed fs) (hcwd : fs cwd = some .dir) (hnone : fs (cwd ++ [name]) = none)
    (hid : get4tuId doi = .ok id) {n url : List Char} (ho : Offered web id n url)
    (hn : '/' ∉ n) {localName : Option (List Char)} (hr : localName.getD (lastPart url) = n) :
    Keeps (fun g => g (cwd ++ [name]) = some .dir ∧ DownloadState web doi (cwd ++ [name]) fs g)
      (download web url (cwd ++ [name]) localName) := by
  unfold download
  split
  · exact keeps_fail _ _
  next r hget =>
  refine keeps_bind (keeps_stream ?_) (fun _ _ => keeps_endWith _ _)
  rw [hr]
  rintro g ⟨hg, hst⟩ hnd hpd x hx
  rcases resolve_noSlash (cwd ++ [name]) hn with hp | hp | hp
  · rw [resolve_plain _ hp] at hnd hpd ⊢
    have hne : cwd ++ [name] ≠ cwd ++ [name] ++ [n] := by
      intro e; have := congrArg List.length e; simp at this
    refine ⟨by rw [Function.update_of_ne hne]; exact hg, fun p => ?_⟩
    by_cases he : p = cwd ++ [name] ++ [n]
    · subst he
      right; right
      refine ⟨?_, id, n, url, r, x, hid, ho, hp, rfl, hget, hx, by rw [Function.update_self]⟩
      by_contra hh
      have := hw.parent _ _ hh
      rw [hnone] at this
      cases this
    · rw [Function.update_of_ne he]
      exact hst p
  · rw [hp] at hnd; exact absurd hg hnd
  · rw [hp, List.dropLast_concat] at hnd
    exfalso
    apply hnd
    rcases hst cwd with h | ⟨h, -⟩ | ⟨h, -⟩
    · rw [h]; exact hcwd
    · rw [hcwd] at h; cases h
    · rw [hcwd] at h; cases h

private theorem keeps_urls {web : Web} {doi id : List Char} {cwd : FPath} {name : List Char}
    {fs : FileSystem} (hw : WellFormed fs) (hcwd : fs cwd = some .dir) (hnone : fs (cwd ++ [name]) = none)
    (hid : get4tuId doi = .ok id) (urls : List (List Char))
    (ho : ∀ url ∈ urls, Offered web id (lastPart url) url) :
    Keeps (fun g => g (cwd ++ [name]) = some .dir ∧ DownloadState web doi (cwd ++ [name]) fs g)
      (downloadUrls web (cwd ++ [name]) urls) := by
  induction urls with
  | nil => exact keeps_pure _ _
  | cons url urls ih =>
    refine keeps_bind ?_ (fun _ _ => ih fun u hu => ho u (List.mem_cons_of_mem _ hu))
    exact keeps_download hw hcwd hnone hid (ho url List.mem_cons_self) (lastPart_after url).1 rfl

private theorem keeps_files {web : Web} {doi id : List Char} {cwd : FPath} {name : List Char}
    {fs : FileSystem} (hw : WellFormed fs) (hcwd : fs cwd = some .dir) (hnone : fs (cwd ++ [name]) = none)
    (hid : get4tuId doi = .ok id) (files : List (List Char × List Char))
    (ho : ∀ e ∈ files, Offered web id e.1 e.2 ∧ '/' ∉ e.1) :
    Keeps (fun g => g (cwd ++ [name]) = some .dir ∧ DownloadState web doi (cwd ++ [name]) fs g)
      (downloadFiles web (cwd ++ [name]) files) := by
  induction files with
  | nil => exact keeps_pure _ _
  | cons e files ih =>
    obtain ⟨n, url⟩ := e
    refine keeps_bind ?_ (fun _ _ => ih fun u hu => ho u (List.mem_cons_of_mem _ hu))
    have := ho (n, url) List.mem_cons_self
    exact keeps_download hw hcwd hnone hid this.1 this.2 rfl

/-- At every moment of a download - killed, ended by an exception or complete -, whatever the servers answer: all
that is different from before is the new target folder, if it was not there, and new files in it; each of these
has a name and an address the data set offers and holds a beginning of what that address sends.  Nothing that
was there before is changed.  (The names of the additional files must not contain a slash; those of the
catalogue cannot.) -/
theorem C119_moments (web : Web) (cwd : FPath) (doi name : List Char) (fs fs' : FileSystem)
    (hw : WellFormed fs)
    (hplain : ∀ id info, get4tuId doi = .ok id → HasRecord web id info → ∀ e ∈ info.files, '/' ∉ e.1)
    (hm : Moment (downloadDoi web cwd doi name) fs fs') (p : FPath) :
    fs' p = fs p ∨ (fs p = none ∧ p = cwd ++ [name] ∧ fs' p = some .dir) ∨
      (fs p = none ∧ ∃ id n url r text, get4tuId doi = .ok id ∧ Offered web id n url ∧ PlainName n ∧
        p = cwd ++ [name] ++ [n] ∧ web.get url = .ok r ∧ text <+: r.body ∧ fs' p = some (.file text)) := by
  have hfail : ∀ e, Moment (Act.fail (β := Unit) e) fs fs' → fs' = fs := by
    rintro e ⟨k, rfl⟩; simp [Act.fail, applyChanges]
  unfold downloadDoi at hm
  split at hm
  · exact Or.inl (by rw [hfail _ hm])
  split at hm
  swap
  · split at hm
    · exact Or.inl (by rw [hfail _ hm])
    · exact Or.inl (by rw [hfail _ hm])
  unfold downloadFrom4tu at hm
  rcases moment_bind hm with hm | ⟨u, chs, hq, hm⟩
  · -- during `mkdir`
    rcases only_moment (only_osMkdir (fun _ => False) _) hm p with h | ⟨h1, h2, h3⟩ | ⟨h1, -⟩
    · exact Or.inl h
    · exact Or.inr (Or.inl ⟨h2, h1, h3⟩)
    · exact h1.elim
  · have hmk : fs (cwd ++ [name]) = none ∧ fs cwd = some .dir ∧ chs = [(cwd ++ [name], .dir)] := by
      unfold osMkdir at hq
      split at hq
      · exact absurd (congrArg Prod.snd hq) (by simp)
      next hn =>
      split at hq
      · next hd =>
        refine ⟨by simpa using hn, by simpa using hd, (congrArg Prod.fst hq).symm⟩
      · exact absurd (congrArg Prod.snd hq) (by simp)
      · exact absurd (congrArg Prod.snd hq) (by simp)
    obtain ⟨hnone, hcwd, rfl⟩ := hmk
    have hbase : applyChanges fs [(cwd ++ [name], .dir)] (cwd ++ [name]) = some .dir ∧
        DownloadState web doi (cwd ++ [name]) fs (applyChanges fs [(cwd ++ [name], .dir)]) := by
      refine ⟨by simp [applyChanges], fun q => ?_⟩
      by_cases he : q = cwd ++ [name]
      · subst he; exact Or.inr (Or.inl ⟨hnone, rfl, by simp [applyChanges]⟩)
      · left; simp [applyChanges, Function.update_of_ne he]
    refine (Keeps.elim (I := fun g => g (cwd ++ [name]) = some .dir ∧
      DownloadState web doi (cwd ++ [name]) fs g) ?_ hbase hm).2 p
    refine keeps_bind (keeps_ask _ _) fun id hid => ?_
    obtain ⟨_, _, hid⟩ := hid
    have hid : get4tuId doi = .ok id := congrArg Prod.snd hid
    refine keeps_bind (keeps_ask _ _) fun link hlink => ?_
    obtain ⟨_, _, hlink⟩ := hlink
    have hlink : get4tuCatalog web id = .ok link := congrArg Prod.snd hlink
    refine keeps_bind (keeps_ask _ _) fun urls hurls => ?_
    obtain ⟨_, _, hurls⟩ := hurls
    have hurls : web.catalog link = .ok urls := congrArg Prod.snd hurls
    obtain ⟨info, l, h1, h2, h3⟩ := get4tuCatalog_iff.1 hlink
    refine keeps_bind (keeps_urls hw hcwd hnone hid urls fun url hu => Or.inl
      ⟨urls, ⟨info, l, link, h1, h2, h3, hurls⟩, hu, lastPart_after url⟩) fun _ _ => ?_
    refine keeps_bind (keeps_ask _ _) fun files hf => ?_
    obtain ⟨_, _, hf⟩ := hf
    have hf : get4tuFiles web id = .ok files := congrArg Prod.snd hf
    obtain ⟨info', h4, rfl⟩ := get4tuFiles_iff.1 hf
    refine keeps_files hw hcwd hnone hid _ fun e he => ?_
    obtain ⟨pre, post, hl, -⟩ := mem_entriesOf.1 (show (e.1, e.2) ∈ _ from he)
    have hmem : e ∈ info'.files := by rw [hl]; simp
    exact ⟨Or.inr ⟨info', h4, hmem⟩, hplain id info' hid h4 e hmem⟩

/-! ### Again -/

private theorem downloadDoi_cases (web : Web) (cwd : FPath) (doi name : List Char) :
    downloadDoi web cwd doi name = downloadFrom4tu web cwd doi name ∨
      ∃ e, downloadDoi web cwd doi name = Act.fail e := by
  unfold downloadDoi
  split
  · exact Or.inr ⟨_, rfl⟩
  split
  · exact Or.inl rfl
  split
  · exact Or.inr ⟨_, rfl⟩
  · exact Or.inr ⟨_, rfl⟩

private theorem osMkdir_or (p : FPath) (fs : FileSystem) :
    (∃ e, osMkdir p fs = ([], .error e)) ∨ osMkdir p fs = ([(p, .dir)], .ok ()) := by
  unfold osMkdir
  split
  · exact Or.inl ⟨_, rfl⟩
  split
  · exact Or.inr rfl
  · exact Or.inl ⟨_, rfl⟩
  · exact Or.inl ⟨_, rfl⟩

private theorem applyChanges_some (fs : FileSystem) (chs : List Change) (p : FPath) (h : fs p ≠ none) :
    applyChanges fs chs p ≠ none := by
  induction chs generalizing fs with
  | nil => exact h
  | cons x chs ih =>
    rw [applyChanges_cons]
    apply ih
    by_cases he : p = x.1
    · rw [he, Function.update_self]; simp
    · rw [Function.update_of_ne he]; exact h

/-- What is at the place of the target is left alone: the command fails and changes nothing. -/
theorem C119_target_there (web : Web) (cwd : FPath) (doi name : List Char) (fs : FileSystem)
    (h : fs (cwd ++ [name]) ≠ none) : ∃ e, downloadDoi web cwd doi name fs = ([], .error e) := by
  have hmk : osMkdir (cwd ++ [name]) fs = ([], .error (.other "FileExistsError")) := by
    unfold osMkdir
    rw [if_pos (by rcases hh : fs (cwd ++ [name]) with _ | x; exact absurd hh h; rfl)]
  rcases downloadDoi_cases web cwd doi name with hd | ⟨e, hd⟩ <;> rw [hd]
  · exact ⟨_, by unfold downloadFrom4tu; rw [bind_error hmk]⟩
  · exact ⟨e, rfl⟩

/-- A download cannot be taken up again: as soon as a first attempt has changed anything - however it
ended, even complete -, every further attempt at that place fails with `FileExistsError`, before it has
asked any server, and changes nothing. -/
theorem C119_not_resumed (web web' : Web) (cwd : FPath) (doi name : List Char) (fs fs' : FileSystem)
    (hm : Moment (downloadDoi web cwd doi name) fs fs') (hne : fs' ≠ fs) :
    downloadDoi web' cwd doi name fs' = ([], .error (.other "FileExistsError")) := by
  have hfail : ∀ e, Moment (Act.fail (β := Unit) e) fs fs' → fs' = fs := by
    rintro e ⟨k, rfl⟩; simp [Act.fail, applyChanges]
  unfold downloadDoi at hm ⊢
  split at hm
  · exact absurd (hfail _ hm) hne
  next pre suf hpre =>
  split at hm
  swap
  · split at hm
    · exact absurd (hfail _ hm) hne
    · exact absurd (hfail _ hm) hne
  next h4 =>
  simp only [hpre]
  rw [if_pos h4]
  have hthere : fs' (cwd ++ [name]) ≠ none := by
    unfold downloadFrom4tu at hm
    obtain ⟨k, hk⟩ := hm
    rcases osMkdir_or (cwd ++ [name]) fs with ⟨e, hq⟩ | hq
    · rw [bind_error hq] at hk
      simp only [List.take_nil] at hk
      exact absurd hk hne
    · rw [bind_ok hq] at hk
      cases k with
      | zero => exact absurd hk hne
      | succ k =>
        rw [hk]
        simp only [List.cons_append, List.nil_append, List.take_succ_cons]
        rw [applyChanges_cons]
        apply applyChanges_some
        rw [Function.update_self]; simp
  have hmk : osMkdir (cwd ++ [name]) fs' = ([], .error (.other "FileExistsError")) := by
    unfold osMkdir
    rw [if_pos (by rcases hh : fs' (cwd ++ [name]) with _ | x; exact absurd hh hthere; rfl)]
  unfold downloadFrom4tu
  rw [bind_error hmk]

/-! ### A complete download -/

private theorem download_ok {web : Web} {target : FPath} {fs : FileSystem} (ht : fs target = some .dir)
    {n url body : List Char} {localName : Option (List Char)} (hn : localName.getD (lastPart url) = n)
    (hp : PlainName n) (hd : fs (target ++ [n]) ≠ some .dir) (ha : Arrives web url body) :
    ∃ chs, download web url target localName fs = (chs, .ok ()) ∧
      applyChanges fs chs = Function.update fs (target ++ [n]) (some (.file body)) := by
  obtain ⟨st, hg⟩ := ha
  unfold download
  rw [hg]
  simp only
  rw [hn, resolve_plain _ hp]
  obtain ⟨chs, h1, h2⟩ := stream_of (content := body) (p := target ++ [n]) (fs := fs) (by simpa using ht) hd
  refine ⟨chs, ?_, h2⟩
  rw [bind_ok h1]
  simp [endWith, Act.pure]

/-- files written one after the other -/
private def written (target : FPath) (body : List Char → List Char) (l : List (List Char × List Char))
    (fs : FileSystem) : FileSystem :=
  l.foldl (fun g e => Function.update g (target ++ [e.1]) (some (.file (body e.2)))) fs

private theorem written_append (target : FPath) (body : List Char → List Char)
    (l m : List (List Char × List Char)) (fs : FileSystem) :
    written target body (l ++ m) fs = written target body m (written target body l fs) := by
  simp [written]

private theorem written_other (target : FPath) (body : List Char → List Char)
    (l : List (List Char × List Char)) (fs : FileSystem) (p : FPath)
    (h : ∀ e ∈ l, p ≠ target ++ [e.1]) : written target body l fs p = fs p := by
  induction l generalizing fs with
  | nil => rfl
  | cons e l ih =>
    have : written target body (e :: l) fs =
        written target body l (Function.update fs (target ++ [e.1]) (some (.file (body e.2)))) := rfl
    rw [this, ih _ (fun x hx => h x (List.mem_cons_of_mem _ hx)), Function.update_of_ne (h e List.mem_cons_self)]

private theorem written_last (target : FPath) (body : List Char → List Char)
    (l : List (List Char × List Char)) (fs : FileSystem) {n url : List Char} (h : LastNamed l n url) :
    written target body l fs (target ++ [n]) = some (.file (body url)) := by
  obtain ⟨pre, post, rfl, hp⟩ := h
  rw [written_append]
  have : ∀ g, written target body ((n, url) :: post) g =
      written target body post (Function.update g (target ++ [n]) (some (.file (body url)))) := fun _ => rfl
  rw [this, written_other, Function.update_self]
  intro e he hh
  have := List.append_cancel_left hh
  simp only [List.cons.injEq, and_true] at this
  exact hp e he this.symm

private theorem written_dir (target : FPath) (body : List Char → List Char)
    (l : List (List Char × List Char)) (fs : FileSystem)
    (h : ∀ n, fs (target ++ [n]) ≠ some .dir) (n : List Char) :
    written target body l fs (target ++ [n]) ≠ some .dir := by
  induction l generalizing fs with
  | nil => exact h n
  | cons e l ih =>
    refine ih _ fun m => ?_
    beta_reduce
    by_cases hm : m = e.1
    · rw [hm, Function.update_self]; simp
    · rw [Function.update_of_ne (by simpa using hm)]; exact h m

private theorem written_target (target : FPath) (body : List Char → List Char)
    (l : List (List Char × List Char)) (fs : FileSystem) : written target body l fs target = fs target := by
  apply written_other
  intro e _ h
  have := congrArg List.length h
  simp at this

private theorem downloadUrls_ok {web : Web} {target : FPath} {body : List Char → List Char}
    (listed : List (List Char × List Char)) {fs : FileSystem} (ht : fs target = some .dir)
    (hd : ∀ n, fs (target ++ [n]) ≠ some .dir)
    (hl : ∀ e ∈ listed, AfterLastSlash e.2 e.1 ∧ PlainName e.1 ∧ Arrives web e.2 (body e.2)) :
    ∃ chs, downloadUrls web target (listed.map (·.2)) fs = (chs, .ok ()) ∧
      applyChanges fs chs = written target body listed fs := by
  induction listed generalizing fs with
  | nil => exact ⟨[], rfl, rfl⟩
  | cons e listed ih =>
    obtain ⟨ha, hp, hb⟩ := hl e List.mem_cons_self
    obtain ⟨chs, h1, h2⟩ := download_ok (localName := none) ht
      (afterLastSlash_unique (lastPart_after e.2) ha) hp (hd _) hb
    have ht' : written target body [e] fs target = some .dir := by rw [written_target]; exact ht
    obtain ⟨chs', h3, h4⟩ := ih (fs := written target body [e] fs) ht' (fun n => written_dir _ _ _ _ hd n)
      (fun x hx => hl x (List.mem_cons_of_mem _ hx))
    have h2' : applyChanges fs chs = written target body [e] fs := h2
    refine ⟨chs ++ chs', ?_, ?_⟩
    · rw [List.map_cons]
      unfold downloadUrls
      rw [bind_ok h1, h2', h3]
    · rw [applyChanges_append, h2', h4, ← written_append]
      rfl

private theorem downloadFiles_ok {web : Web} {target : FPath} {body : List Char → List Char}
    (files : List (List Char × List Char)) {fs : FileSystem} (ht : fs target = some .dir)
    (hd : ∀ n, fs (target ++ [n]) ≠ some .dir)
    (hl : ∀ e ∈ files, PlainName e.1 ∧ Arrives web e.2 (body e.2)) :
    ∃ chs, downloadFiles web target files fs = (chs, .ok ()) ∧
      applyChanges fs chs = written target body files fs := by
  induction files generalizing fs with
  | nil => exact ⟨[], rfl, rfl⟩
  | cons e files ih =>
    obtain ⟨n, url⟩ := e
    obtain ⟨hp, hb⟩ := hl (n, url) List.mem_cons_self
    obtain ⟨chs, h1, h2⟩ := download_ok (localName := some n) ht rfl hp (hd _) hb
    have ht' : written target body [(n, url)] fs target = some .dir := by rw [written_target]; exact ht
    obtain ⟨chs', h3, h4⟩ := ih (fs := written target body [(n, url)] fs) ht'
      (fun n => written_dir _ _ _ _ hd n) (fun x hx => hl x (List.mem_cons_of_mem _ hx))
    have h2' : applyChanges fs chs = written target body [(n, url)] fs := h2
    refine ⟨chs ++ chs', ?_, ?_⟩
    · unfold downloadFiles
      rw [bind_ok h1, h2', h3]
    · rw [applyChanges_append, h2', h4, ← written_append]
      rfl

private theorem lastNamed_entries {l m : List (List Char × List Char)} {n url : List Char}
    (h : LastNamed (l ++ m) n url) : LastNamed (l ++ entriesOf m) n url := by
  obtain ⟨pre, post, he, hp⟩ := h
  rw [List.append_eq_append_iff] at he
  rcases he with ⟨a, rfl, ha⟩ | ⟨a, hl, ha⟩
  · -- the last one is an additional file
    have hmem : (n, url) ∈ entriesOf m := mem_entriesOf.2 ⟨a, post, ha, hp⟩
    obtain ⟨b, c, hbc⟩ := List.append_of_mem hmem
    refine ⟨l ++ b, c, by rw [hbc]; simp, ?_⟩
    have hnd := entriesOf_nodup m
    rw [hbc, List.map_append, List.map_cons] at hnd
    have hnd := (List.nodup_append.1 hnd).2.1
    rw [List.nodup_cons] at hnd
    intro e he hh
    exact hnd.1 (List.mem_map.2 ⟨e, he, hh⟩)
  · cases a with
    | nil =>
      simp only [List.nil_append] at ha
      have hmem : (n, url) ∈ entriesOf m := mem_entriesOf.2 ⟨[], post, ha.symm, hp⟩
      obtain ⟨b, c, hbc⟩ := List.append_of_mem hmem
      refine ⟨l ++ b, c, by rw [hbc]; simp, ?_⟩
      have hnd := entriesOf_nodup m
      rw [hbc, List.map_append, List.map_cons] at hnd
      have hnd := (List.nodup_append.1 hnd).2.1
      rw [List.nodup_cons] at hnd
      intro e he hh
      exact hnd.1 (List.mem_map.2 ⟨e, he, hh⟩)
    | cons x a =>
      simp only [List.cons_append, List.cons.injEq] at ha
      obtain ⟨rfl, rfl⟩ := ha
      refine ⟨pre, a ++ entriesOf m, by rw [hl]; simp, ?_⟩
      intro e he
      rw [List.mem_append] at he
      rcases he with he | he
      · exact hp e (by simp [he])
      · obtain ⟨b, c, hbc, -⟩ := mem_entriesOf.1 (show (e.1, e.2) ∈ _ from he)
        exact hp e (by simp [hbc])

/-- A complete download.  The target is not there yet; the record of the data set, its catalogue and all its files can
be had (whatever their status codes); the names are plain.  Then the command ends normally; the target is a new folder;
in it every file of the catalogue and every additional file holds all that its address sends (of two files with the
same name the last one, where those of the catalogue come first); nothing else is different. -/
theorem C119_complete (web : Web) (cwd : FPath) (doi name suffix id : List Char) (fs : FileSystem)
    (hw : WellFormed fs) (hcwd : fs cwd = some .dir) (hnew : fs (cwd ++ [name]) = none)
    (hdoi : parseDoi doi = .ok ("10.4121".toList, suffix)) (hid : get4tuId doi = .ok id)
    (info : Article) (hinfo : HasRecord web id info)
    (listed : List (List Char × List Char)) (hcat : HasCatalogue web id (listed.map (·.2)))
    (body : List Char → List Char)
    (hl : ∀ e ∈ listed, AfterLastSlash e.2 e.1 ∧ PlainName e.1 ∧ Arrives web e.2 (body e.2))
    (hf : ∀ e ∈ info.files, PlainName e.1 ∧ Arrives web e.2 (body e.2)) :
    (downloadDoi web cwd doi name fs).2 = .ok () ∧
      after (downloadDoi web cwd doi name) fs (cwd ++ [name]) = some .dir ∧
      (∀ n url, LastNamed (listed ++ info.files) n url →
        after (downloadDoi web cwd doi name) fs (cwd ++ [name] ++ [n]) = some (.file (body url))) ∧
      ∀ p, p ≠ cwd ++ [name] → (∀ e ∈ listed ++ info.files, p ≠ cwd ++ [name] ++ [e.1]) →
        after (downloadDoi web cwd doi name) fs p = fs p := by
  have hmk : osMkdir (cwd ++ [name]) fs = ([(cwd ++ [name], .dir)], .ok ()) := by
    unfold osMkdir
    rw [if_neg (by rw [hnew]; simp), List.dropLast_concat, hcwd]
  have heq : downloadDoi web cwd doi name = downloadFrom4tu web cwd doi name := by
    unfold downloadDoi
    rw [hdoi]
    simp only [if_true]
  obtain ⟨info', link, xml, h1, h2, h3, h4⟩ := hcat
  have hlink : get4tuCatalog web id = .ok xml := get4tuCatalog_iff.2 ⟨info', link, h1, h2, h3⟩
  set g1 := applyChanges fs [(cwd ++ [name], Node.dir)] with hg1
  have hg1' : g1 = Function.update fs (cwd ++ [name]) (some .dir) := rfl
  have ht1 : g1 (cwd ++ [name]) = some .dir := by rw [hg1', Function.update_self]
  have hd1 : ∀ n, g1 (cwd ++ [name] ++ [n]) ≠ some .dir := by
    intro n hh
    rw [hg1', Function.update_of_ne (by simp)] at hh
    have := hw.parent (cwd ++ [name]) n (by rw [hh]; simp)
    rw [hnew] at this
    cases this
  obtain ⟨chs1, h5, h6⟩ := downloadUrls_ok (web := web) (body := body) listed ht1 hd1 hl
  have ht2 : written (cwd ++ [name]) body listed g1 (cwd ++ [name]) = some .dir := by
    rw [written_target]; exact ht1
  obtain ⟨chs2, h7, h8⟩ := downloadFiles_ok (web := web) (body := body) (entriesOf info.files) ht2
    (fun n => written_dir _ _ _ _ hd1 n) (fun e he => by
      obtain ⟨b, c, hbc, -⟩ := mem_entriesOf.1 (show (e.1, e.2) ∈ _ from he)
      exact hf e (by simp [hbc]))
  have hrun : downloadDoi web cwd doi name fs =
      ([(cwd ++ [name], .dir)] ++ (chs1 ++ chs2), .ok ()) := by
    rw [heq]
    unfold downloadFrom4tu
    rw [bind_ok hmk, ← hg1, bind_ask_ok hid, bind_ask_ok hlink, bind_ask_ok h4, bind_ok h5, h6,
      bind_ask_ok (get4tuFiles_eq hinfo), h7]
  have hafter : after (downloadDoi web cwd doi name) fs =
      written (cwd ++ [name]) body (listed ++ entriesOf info.files) g1 := by
    unfold after
    rw [hrun]
    simp only
    rw [applyChanges_append, ← hg1, applyChanges_append, h6, h8, ← written_append]
  refine ⟨by rw [hrun], ?_, ?_, ?_⟩
  · rw [hafter, written_target]; exact ht1
  · intro n url h
    rw [hafter]
    exact written_last _ _ _ _ (lastNamed_entries h)
  · intro p hp hne
    rw [hafter, written_other, hg1', Function.update_of_ne hp]
    intro e he
    rw [List.mem_append] at he
    rcases he with he | he
    · exact hne e (by simp [he])
    · obtain ⟨b, c, hbc, -⟩ := mem_entriesOf.1 (show (e.1, e.2) ∈ _ from he)
      exact hne e (by simp [hbc])

/-! ### Error pages and missing links -/

private theorem download_status {w v : Web} {id : List Char} (h : SameButStatus id w v) (url : List Char)
    (target : FPath) (localName : Option (List Char)) :
    download w url target localName = download v url target localName := by
  unfold download
  rcases hg : w.get url with e | r
  · rw [h.error url e hg]
  · obtain ⟨st, hv⟩ := h.body url r hg
    rw [hv]

/-- The status of an answer for a file is not looked at: with the same contents under other status codes (404, 500)
a download does exactly the same.  An error page is saved as if it were the data, and the command ends normally. -/
theorem C119_status_ignored (w v : Web) (cwd : FPath) (doi name id : List Char) (hid : get4tuId doi = .ok id)
    (h : SameButStatus id w v) : downloadDoi w cwd doi name = downloadDoi v cwd doi name := by
  have hart : getArticle w id = getArticle v id := by
    unfold getArticle articleUrl
    rw [h.record, h.json]
  have hu : ∀ target urls, downloadUrls w target urls = downloadUrls v target urls := by
    intro target urls
    induction urls with
    | nil => rfl
    | cons url urls ih => unfold downloadUrls; rw [download_status h, ih]
  have hf : ∀ target files, downloadFiles w target files = downloadFiles v target files := by
    intro target files
    induction files with
    | nil => rfl
    | cons e files ih => obtain ⟨n, u⟩ := e; unfold downloadFiles; rw [download_status h, ih]
  have : downloadFrom4tu w cwd doi name = downloadFrom4tu v cwd doi name := by
    unfold downloadFrom4tu
    congr 1
    funext _
    rw [bind_ask_ok hid, bind_ask_ok hid]
    unfold get4tuCatalog get4tuFiles
    simp only [hart, h.catalog, hu, hf]
  unfold downloadDoi
  simp only [this]

/-- If the record of the data set has no field "Data Link", the command ends with an `UnboundLocalError` and leaves the
new empty folder behind. -/
theorem C119_no_link (web : Web) (cwd : FPath) (doi name suffix id : List Char) (fs : FileSystem)
    (hcwd : fs cwd = some .dir) (hnew : fs (cwd ++ [name]) = none)
    (hdoi : parseDoi doi = .ok ("10.4121".toList, suffix)) (hid : get4tuId doi = .ok id)
    (info : Article) (hinfo : HasRecord web id info) (hno : ∀ f ∈ info.fields, f.1 ≠ "Data Link".toList) :
    downloadDoi web cwd doi name fs =
      ([(cwd ++ [name], .dir)], .error (.other "UnboundLocalError")) := by
  have hmk : osMkdir (cwd ++ [name]) fs = ([(cwd ++ [name], .dir)], .ok ()) := by
    unfold osMkdir
    rw [if_neg (by rw [hnew]; simp), List.dropLast_concat, hcwd]
  have hdl : dataLink none info.fields = .ok none := by
    generalize info.fields = fields at hno
    induction fields with
    | nil => rfl
    | cons f fields ih =>
      obtain ⟨n, vs⟩ := f
      unfold dataLink
      rw [if_neg (hno (n, vs) List.mem_cons_self)]
      exact ih fun f hf => hno f (List.mem_cons_of_mem _ hf)
  have hcat : get4tuCatalog web id = .error (.other "UnboundLocalError") := by
    unfold get4tuCatalog
    rw [(getArticle_iff web id info).2 hinfo]
    simp only
    rw [hdl]
  unfold downloadDoi
  rw [hdoi]
  simp only [if_true]
  unfold downloadFrom4tu
  rw [bind_ok hmk, bind_ask_ok hid, hcat]
  rfl

/-- The two cases the command knows: it downloads the data set with that identifier into a folder with the name of the
case; any other name is rejected and nothing happens. -/
theorem C119_cases (web : Web) (cwd : FPath) :
    downloadCommand web cwd "example-input-volta".toList =
      downloadFrom4tu web cwd "10.4121/bbe10a2a-39dc-4098-a69f-0f677d06ecdd.v2".toList
        "example-input-volta".toList ∧
    get4tuId "10.4121/bbe10a2a-39dc-4098-a69f-0f677d06ecdd.v2".toList =
      .ok "bbe10a2a-39dc-4098-a69f-0f677d06ecdd".toList ∧
    downloadCommand web cwd "example-input-eiffel".toList =
      downloadFrom4tu web cwd "10.4121/f9572240-f179-4338-9e1b-82c5598529e2.v1".toList
        "example-input-eiffel".toList ∧
    get4tuId "10.4121/f9572240-f179-4338-9e1b-82c5598529e2.v1".toList =
      .ok "f9572240-f179-4338-9e1b-82c5598529e2".toList ∧
    ∀ case, case ≠ "example-input-volta".toList → case ≠ "example-input-eiffel".toList →
      downloadCommand web cwd case = Act.fail (.other "UsageError") := by
  refine ⟨?_, by decide +kernel, ?_, by decide +kernel, ?_⟩
  · have h : parseDoi "10.4121/bbe10a2a-39dc-4098-a69f-0f677d06ecdd.v2".toList =
        .ok ("10.4121".toList, "bbe10a2a-39dc-4098-a69f-0f677d06ecdd.v2".toList) := by decide +kernel
    have : downloadCommand web cwd "example-input-volta".toList =
      downloadDoi web cwd "10.4121/bbe10a2a-39dc-4098-a69f-0f677d06ecdd.v2".toList
        "example-input-volta".toList := rfl
    rw [this]
    unfold downloadDoi
    rw [h]
    simp only [if_true]
  · have h : parseDoi "10.4121/f9572240-f179-4338-9e1b-82c5598529e2.v1".toList =
        .ok ("10.4121".toList, "f9572240-f179-4338-9e1b-82c5598529e2.v1".toList) := by decide +kernel
    have : downloadCommand web cwd "example-input-eiffel".toList =
      downloadDoi web cwd "10.4121/f9572240-f179-4338-9e1b-82c5598529e2.v1".toList
        "example-input-eiffel".toList := rfl
    rw [this]
    unfold downloadDoi
    rw [h]
    simp only [if_true]
  · intro case h1 h2
    unfold downloadCommand availableCases
    have e1 : ¬ ("example-input-volta".toList = case) := fun e => h1 e.symm
    have e2 : ¬ ("example-input-eiffel".toList = case) := fun e => h2 e.symm
    rw [List.find?_cons_of_neg (by rw [decide_eq_true_eq]; exact e1),
      List.find?_cons_of_neg (by rw [decide_eq_true_eq]; exact e2)]
    rfl

/-! ### Names that lead out of the folder -/

theorem resolve_parent (target : FPath) {n : List Char} (h : PlainName n) :
    resolve target (fileNameOf ("../".toList ++ n)) = target.dropLast ++ [n] := by
  obtain ⟨h1, h2, h3, h4⟩ := h
  have hs : splitSlashes ("../".toList ++ n) = ["..".toList, n] := by
    show splitSlashes ('.' :: '.' :: '/' :: n) = _
    simp only [splitSlashes, splitSlashes_plain n h2]
    rfl
  unfold resolve fileNameOf
  rw [hs]
  have hf : ["..".toList, n].filter (fun c => decide (c ≠ [] ∧ c ≠ ".".toList)) = ["..".toList, n] := by
    rw [List.filter_cons_of_pos (by decide), List.filter_cons_of_pos (by simp only [decide_eq_true_eq]; exact ⟨h1, h3⟩)]
    rfl
  rw [hf]
  show ["..".toList, n].foldl _ target = _
  rw [List.foldl_cons, List.foldl_cons, List.foldl_nil, if_pos rfl, if_neg h4]

theorem resolve_root (target : FPath) {n : List Char} (h : PlainName n) :
    resolve target (fileNameOf ('/' :: n)) = [n] := by
  obtain ⟨h1, h2, h3, h4⟩ := h
  have hs : splitSlashes ('/' :: n) = [[], n] := by
    simp only [splitSlashes, splitSlashes_plain n h2, if_true]
  unfold resolve fileNameOf
  rw [hs]
  have hf : [[], n].filter (fun c => decide (c ≠ [] ∧ c ≠ ".".toList)) = [n] := by
    rw [List.filter_cons_of_neg (by simp), List.filter_cons_of_pos (by simp only [decide_eq_true_eq]; exact ⟨h1, h3⟩)]
    rfl
  rw [hf]
  show [n].foldl _ [] = _
  rw [List.foldl_cons, List.foldl_nil, if_neg h4]
  rfl

/-- The names of the additional files are not checked: a record that lists a file `../k` replaces the file `k` next to the new folder, and one that
lists `/k` replaces the file `k` in the root folder, although the folder itself is new and the command ends normally.  (So the condition on
slashes in `C119_moments` is needed.) -/
theorem C119_names_not_checked (web : Web) (cwd : FPath) (doi name suffix id : List Char) (fs : FileSystem)
    (hw : WellFormed fs) (hcwd : fs cwd = some .dir) (hnew : fs (cwd ++ [name]) = none)
    (hdoi : parseDoi doi = .ok ("10.4121".toList, suffix)) (hid : get4tuId doi = .ok id)
    (info : Article) (hinfo : HasRecord web id info)
    (listed : List (List Char × List Char)) (hcat : HasCatalogue web id (listed.map (·.2)))
    (body : List Char → List Char)
    (hl : ∀ e ∈ listed, AfterLastSlash e.2 e.1 ∧ PlainName e.1 ∧ Arrives web e.2 (body e.2))
    (k url : List Char) (hk : PlainName k) (hurl : Arrives web url (body url)) (q : FPath) (hq : q ≠ cwd ++ [name])
    (hfiles : (info.files = [("../".toList ++ k, url)] ∧ q = cwd ++ [k]) ∨ (info.files = [('/' :: k, url)] ∧ q = [k]))
    (hfile : fs q ≠ some .dir) :
    (downloadDoi web cwd doi name fs).2 = .ok () ∧
      after (downloadDoi web cwd doi name) fs q = some (.file (body url)) := by
  have hmk : osMkdir (cwd ++ [name]) fs = ([(cwd ++ [name], .dir)], .ok ()) := by
    unfold osMkdir
    rw [if_neg (by rw [hnew]; simp), List.dropLast_concat, hcwd]
  have heq : downloadDoi web cwd doi name = downloadFrom4tu web cwd doi name := by
    unfold downloadDoi
    rw [hdoi]
    simp only [if_true]
  obtain ⟨info', link, xml, h1, h2, h3, h4⟩ := hcat
  have hlink : get4tuCatalog web id = .ok xml := get4tuCatalog_iff.2 ⟨info', link, h1, h2, h3⟩
  set g1 := applyChanges fs [(cwd ++ [name], Node.dir)] with hg1
  have hg1' : g1 = Function.update fs (cwd ++ [name]) (some .dir) := rfl
  have ht1 : g1 (cwd ++ [name]) = some .dir := by rw [hg1', Function.update_self]
  have hd1 : ∀ n, g1 (cwd ++ [name] ++ [n]) ≠ some .dir := by
    intro n hh
    rw [hg1', Function.update_of_ne (by simp)] at hh
    have := hw.parent (cwd ++ [name]) n (by rw [hh]; simp)
    rw [hnew] at this
    cases this
  obtain ⟨chs1, h5, h6⟩ := downloadUrls_ok (web := web) (body := body) listed ht1 hd1 hl
  set g2 := written (cwd ++ [name]) body listed g1 with hg2
  have hother : ∀ p, p ≠ cwd ++ [name] → (∀ n, p ≠ cwd ++ [name] ++ [n]) → g2 p = fs p := by
    intro p hp hn
    rw [hg2, written_other _ _ _ _ _ (fun e _ => hn e.1), hg1', Function.update_of_ne hp]
  have hqd : g2 q.dropLast = some .dir ∧ g2 q ≠ some .dir ∧ ∃ n, info.files = [(n, url)] ∧
      resolve (cwd ++ [name]) (fileNameOf n) = q := by
    rcases hfiles with ⟨ha, rfl⟩ | ⟨ha, rfl⟩
    · refine ⟨?_, ?_, _, ha, ?_⟩
      · rw [List.dropLast_concat, hother cwd (by simp) (by simp), hcwd]
      · rw [hother _ hq (fun n => by intro e; have := congrArg List.length e; simp at this)]
        exact hfile
      · rw [resolve_parent _ hk, List.dropLast_concat]
    · refine ⟨?_, ?_, _, ha, resolve_root _ hk⟩
      · show g2 [] = _
        rw [hother [] (by simp) (by simp), hw.root]
      · rw [hother _ hq (fun n => by intro e; have := congrArg List.length e; simp at this)]
        exact hfile
  obtain ⟨hq1, hq2, n, hn, hres⟩ := hqd
  obtain ⟨chs2, h7, h8⟩ := stream_of (content := body url) hq1 hq2
  obtain ⟨st, hget⟩ := hurl
  have hent : entriesOf info.files = [(n, url)] := by
    rw [hn]; rfl
  have h9 : downloadFiles web (cwd ++ [name]) [(n, url)] g2 = (chs2, .ok ()) := by
    have hd : download web url (cwd ++ [name]) (some n) g2 = (chs2, .ok ()) := by
      unfold download
      rw [hget]
      simp only [Option.getD_some]
      rw [hres, bind_ok h7]
      simp [endWith, Act.pure]
    unfold downloadFiles
    rw [bind_ok hd]
    simp [downloadFiles, Act.pure]
  have hrun : downloadDoi web cwd doi name fs = ([(cwd ++ [name], .dir)] ++ (chs1 ++ chs2), .ok ()) := by
    rw [heq]
    unfold downloadFrom4tu
    rw [bind_ok hmk, ← hg1, bind_ask_ok hid, bind_ask_ok hlink, bind_ask_ok h4, bind_ok h5, h6,
      bind_ask_ok (get4tuFiles_eq hinfo), hent, h9]
  refine ⟨by rw [hrun], ?_⟩
  unfold after
  rw [hrun]
  simp only
  rw [applyChanges_append, ← hg1, applyChanges_append, h6, h8, Function.update_self]

end Wam
