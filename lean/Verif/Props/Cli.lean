import Verif.Spec.Cli
import Mathlib.Data.List.TakeWhile
import Mathlib.Tactic.IntervalCases

/-!
# C67 - C69: DOIs, downloads and commands
-/

namespace Wam
open Spec

set_option linter.unusedSectionVars false
set_option linter.unusedVariables false

/-! ### C67 -/

private theorem doiChar_iff (c : Char) : doiChar c = true ↔ c ∈ suffixChars := by
  constructor
  · intro h
    have hb : c.toNat < 123 := by
      simp only [doiChar, Bool.or_eq_true, decide_eq_true_eq, Char.isAlpha, Char.isUpper,
        Char.isLower, Char.isDigit, Bool.and_eq_true] at h
      have key : ∀ u : Char, c.val ≤ u.val → c.toNat ≤ u.toNat := by
        intro u hu; exact UInt32.le_iff_toNat_le.1 hu
      rcases h with (h | h | h) | h
      · have : ∀ x ∈ "-._;()/:".toList, x.toNat < 123 := by decide
        exact this c h
      · have := key 'Z' h.2; have e : 'Z'.toNat = 90 := rfl; omega
      · have := key 'z' h.2; have e : 'z'.toNat = 122 := rfl; omega
      · have := key '9' h.2; have e : '9'.toNat = 57 := rfl; omega
    have all : ∀ n < 123, doiChar (Char.ofNat n) = true → Char.ofNat n ∈ suffixChars := by
      decide +kernel
    have e : Char.ofNat c.toNat = c := Char.ofNat_toNat c
    have := all c.toNat hb
    rw [e] at this
    exact this h
  · have : ∀ c ∈ suffixChars, doiChar c = true := by decide +kernel
    exact this c

private theorem newline_not : doiChar '\n' = false := by decide

private theorem matchSuffix_iff (s b : List Char) :
    matchSuffix s = some b ↔ IsSuffix b ∧ (s = b ∨ s = b ++ ['\n']) := by
  have good : ∀ x : List Char, (x ≠ [] ∧ x.all doiChar = true) ↔ IsSuffix x := by
    intro x
    constructor
    · rintro ⟨h1, h2⟩
      exact ⟨h1, fun c hc => (doiChar_iff c).1 (List.all_eq_true.1 h2 c hc)⟩
    · intro hx
      exact ⟨hx.nonempty, List.all_eq_true.2 fun c hc => (doiChar_iff c).2 (hx.allowed c hc)⟩
  unfold matchSuffix
  simp only
  by_cases hl : s.getLast? = some '\n'
  · rw [if_pos hl]
    have e : s = s.dropLast ++ ['\n'] := (List.dropLast_append_getLast? _ hl).symm
    constructor
    · intro h
      split at h
      · next hc =>
        rw [Option.some.injEq] at h
        rw [← h]
        exact ⟨(good _).1 hc, Or.inr e⟩
      · simp at h
    · rintro ⟨hb, h | h⟩
      · exfalso
        rw [h] at hl
        have := (doiChar_iff _).2 (hb.allowed _ (List.mem_of_getLast? hl))
        rw [newline_not] at this
        exact absurd this (by simp)
      · have : s.dropLast = b := by rw [h]; simp
        rw [this, if_pos ((good _).2 hb)]
  · rw [if_neg hl]
    constructor
    · intro h
      split at h
      · next hc =>
        rw [Option.some.injEq] at h
        rw [← h]
        exact ⟨(good _).1 hc, Or.inl rfl⟩
      · simp at h
    · rintro ⟨hb, h | h⟩
      · rw [h, if_pos ((good _).2 hb)]
      · exfalso; apply hl; rw [h]; simp

private theorem digits_split (ds rest : List Char) (h : ∀ c ∈ ds, c.isDigit = true) :
    (ds ++ '/' :: rest).takeWhile Char.isDigit = ds ∧
      (ds ++ '/' :: rest).dropWhile Char.isDigit = '/' :: rest := by
  induction ds with
  | nil => simp [show Char.isDigit '/' = false from by decide]
  | cons a ds ih =>
    have := ih fun c hc => h c (List.mem_cons_of_mem _ hc)
    simp [h a (by simp), this]

private theorem matchDoiHere_iff (t p s : List Char) : matchDoiHere t = some (p, s) ↔
    IsPrefix p ∧ IsSuffix s ∧ (t = p ++ '/' :: s ∨ t = p ++ '/' :: s ++ ['\n']) := by
  constructor
  · intro h
    unfold matchDoiHere at h
    split at h
    · next x s' =>
      simp only at h
      split at h
      · next rest hrest =>
        split at h
        · next hc =>
          rw [Option.map_eq_some_iff] at h
          obtain ⟨suf, h1, h2⟩ := h
          rw [Prod.mk.injEq] at h2
          obtain ⟨rfl, rfl⟩ := h2
          obtain ⟨hs, hr⟩ := (matchSuffix_iff _ _).1 h1
          have e : s' = s'.takeWhile Char.isDigit ++ '/' :: rest := by
            rw [← hrest, List.takeWhile_append_dropWhile]
          refine ⟨⟨x, _, hc.1, rfl, fun c hc => List.mem_takeWhile_imp hc, hc.2.1, hc.2.2⟩, hs, ?_⟩
          rcases hr with rfl | rfl
          · left
            simp only [List.cons_append]
            rw [← e]
          · right
            simp only [List.cons_append, List.append_assoc]
            rw [← e]
        · simp at h
      · simp at h
    · simp at h
  · rintro ⟨⟨x, ds, hx, rfl, hd, h4, h9⟩, hs, ht⟩
    have aux : ∀ rest, (rest = s ∨ rest = s ++ ['\n']) →
        matchDoiHere ('1' :: '0' :: x :: (ds ++ '/' :: rest)) = some ('1' :: '0' :: x :: ds, s) := by
      intro rest hr
      obtain ⟨e1, e2⟩ := digits_split ds rest hd
      unfold matchDoiHere
      simp only [e1, e2]
      rw [if_pos ⟨hx, h4, h9⟩, (matchSuffix_iff rest s).2 ⟨hs, hr⟩]
      rfl
    rcases ht with rfl | rfl
    · exact aux s (Or.inl rfl)
    · have := aux (s ++ ['\n']) (Or.inr rfl)
      simpa using this

private theorem here_iff (t p s : List Char) : matchDoiHere t = some (p, s) ↔ EndsInDoi t [] p s := by
  rw [matchDoiHere_iff]
  constructor
  · rintro ⟨h1, h2, h3⟩; exact ⟨h1, h2, by simpa using h3⟩
  · rintro ⟨h1, h2, h3⟩; exact ⟨h1, h2, by simpa using h3⟩

private theorem endsInDoi_cons (c : Char) (t b p s : List Char) :
    EndsInDoi (c :: t) (c :: b) p s ↔ EndsInDoi t b p s := by
  constructor
  · rintro ⟨h1, h2, h3⟩; exact ⟨h1, h2, by simpa using h3⟩
  · rintro ⟨h1, h2, h3⟩; exact ⟨h1, h2, by simpa using h3⟩

private theorem endsInDoi_before (c : Char) (t b p s : List Char) (h : EndsInDoi (c :: t) b p s) :
    b = [] ∨ ∃ b', b = c :: b' := by
  cases b with
  | nil => exact Or.inl rfl
  | cons a b' =>
    rcases h.ends with h | h
    · simp at h; exact Or.inr ⟨b', by rw [h.1]⟩
    · simp at h; exact Or.inr ⟨b', by rw [h.1]⟩

private theorem not_endsInDoi_nil (b p s : List Char) : ¬ EndsInDoi [] b p s := by
  rintro ⟨⟨x, ds, -, rfl, -⟩, -, h⟩
  rcases h with h | h
  · simp at h
  · simp at h

private theorem searchDoi_iff (t p s : List Char) : searchDoi t = some (p, s) ↔
    ∃ b, EndsInDoi t b p s ∧ ∀ b' p' s', EndsInDoi t b' p' s' → b.length ≤ b'.length := by
  induction t with
  | nil =>
    simp only [searchDoi]
    constructor
    · intro h; simp at h
    · rintro ⟨b, h, -⟩; exact absurd h (not_endsInDoi_nil _ _ _)
  | cons c t ih =>
    unfold searchDoi
    rcases hm : matchDoiHere (c :: t) with _ | ⟨p0, s0⟩
    · simp only
      have no : ∀ p s, ¬ EndsInDoi (c :: t) [] p s := by
        intro p s h
        rw [(here_iff _ _ _).2 h] at hm
        simp at hm
      rw [ih]
      constructor
      · rintro ⟨b, hb, hmin⟩
        refine ⟨c :: b, (endsInDoi_cons c t b p s).2 hb, ?_⟩
        intro b' p' s' h'
        rcases endsInDoi_before _ _ _ _ _ h' with rfl | ⟨b'', rfl⟩
        · exact absurd h' (no _ _)
        · simpa using hmin _ _ _ ((endsInDoi_cons _ _ _ _ _).1 h')
      · rintro ⟨b, hb, hmin⟩
        rcases endsInDoi_before _ _ _ _ _ hb with rfl | ⟨b1, rfl⟩
        · exact absurd hb (no _ _)
        · refine ⟨b1, (endsInDoi_cons _ _ _ _ _).1 hb, ?_⟩
          intro b' p' s' h'
          simpa using hmin _ _ _ ((endsInDoi_cons c _ _ _ _).2 h')
    · simp only
      have h0 : EndsInDoi (c :: t) [] p0 s0 := (here_iff _ _ _).1 hm
      constructor
      · intro h
        rw [Option.some.injEq, Prod.mk.injEq] at h
        obtain ⟨rfl, rfl⟩ := h
        exact ⟨[], h0, by simp⟩
      · rintro ⟨b, hb, hmin⟩
        have := hmin _ _ _ h0
        simp only [List.length_nil, Nat.le_zero, List.length_eq_zero_iff] at this
        subst this
        rw [← hm]
        exact (here_iff _ _ _).2 hb

/-- `parse_doi` returns `(p, s)` exactly if the string ends in `p/s` - `p` being `10`, a character and 4
to 9 digits, `s` a non-empty string of allowed characters - and this is the leftmost such place.
In particular prefix and suffix re-assemble to the tail of the string, and the suffix may itself
contain slashes. -/
theorem C67_parse_doi (doi p s : List Char) : parseDoi doi = .ok (p, s) ↔
    ∃ before, EndsInDoi doi before p s ∧
      ∀ before' p' s', EndsInDoi doi before' p' s' → before.length ≤ before'.length := by
  rw [← searchDoi_iff]
  unfold parseDoi
  cases searchDoi doi <;> simp

/-- Every string that does not end in a DOI is a `ValueError`, every other one is parsed. -/
theorem C67_rejects (doi : List Char) :
    (parseDoi doi = .error .valueError ↔ ¬ ∃ before p s, EndsInDoi doi before p s) ∧
      ((∃ before p s, EndsInDoi doi before p s) ↔ ∃ p s, parseDoi doi = .ok (p, s)) := by
  have hex : (∃ before p s, EndsInDoi doi before p s) ↔ ∃ p s, parseDoi doi = .ok (p, s) := by
    constructor
    · intro hex
      obtain ⟨b, hb⟩ : ∃ b, (∃ p s, EndsInDoi doi b p s) ∧
          ∀ b', (∃ p s, EndsInDoi doi b' p s) → b.length ≤ b'.length := by
        have hex' : ∃ k, ∃ b : List Char, b.length = k ∧ ∃ p s, EndsInDoi doi b p s := by
          obtain ⟨b, p, s, h⟩ := hex; exact ⟨_, b, rfl, p, s, h⟩
        classical
        obtain ⟨b, hl, h⟩ := Nat.find_spec hex'
        refine ⟨b, h, fun b' h' => ?_⟩
        rw [hl]
        exact Nat.find_min' hex' ⟨b', rfl, h'⟩
      obtain ⟨⟨p, s, h⟩, hmin⟩ := hb
      exact ⟨p, s, (C67_parse_doi doi p s).2 ⟨b, h, fun b' p' s' h' => hmin b' ⟨p', s', h'⟩⟩⟩
    · rintro ⟨p, s, h⟩
      obtain ⟨b, hb, -⟩ := (C67_parse_doi doi p s).1 h
      exact ⟨b, p, s, hb⟩
  refine ⟨?_, hex⟩
  rw [hex]
  unfold parseDoi
  rcases searchDoi doi with _ | ⟨p, s⟩ <;> simp

/-- The identifier of a 4TU data set: for `https://doi.org/10.4121/<id>.<version>` (or without the
resolver) it is `<id>`, whatever the version. -/
theorem C67_4tu_id (id version : List Char) (hid : id ≠ []) (hdot : '.' ∉ id)
    (h1 : ∀ c ∈ id, c ∈ suffixChars) (h2 : ∀ c ∈ version, c ∈ suffixChars) :
    get4tuId ("https://doi.org/10.4121/".toList ++ (id ++ '.' :: version)) = .ok id ∧
      get4tuId ("10.4121/".toList ++ (id ++ '.' :: version)) = .ok id := by
  have hs : IsSuffix (id ++ '.' :: version) := by
    refine ⟨by simp, ?_⟩
    intro c hc
    simp only [List.mem_append, List.mem_cons] at hc
    rcases hc with hc | rfl | hc
    · exact h1 c hc
    · decide
    · exact h2 c hc
  have hm : matchDoiHere ("10.4121/".toList ++ (id ++ '.' :: version)) =
      some ("10.4121".toList, id ++ '.' :: version) := by
    rw [matchDoiHere_iff]
    refine ⟨⟨'.', "4121".toList, by decide, rfl, by decide, by decide, by decide⟩, hs, Or.inl ?_⟩
    simp
  have htw : (id ++ '.' :: version).takeWhile (· ≠ '.') = id := by
    rw [List.takeWhile_append_of_pos]
    · simp
    · intro c hc
      have : c ≠ '.' := by rintro rfl; exact hdot hc
      simpa using this
  have hsearch : searchDoi ("10.4121/".toList ++ (id ++ '.' :: version)) =
      some ("10.4121".toList, id ++ '.' :: version) := by
    have e : "10.4121/".toList ++ (id ++ '.' :: version) =
      '1' :: ("0.4121/".toList ++ (id ++ '.' :: version)) := rfl
    rw [e] at hm ⊢
    unfold searchDoi
    rw [hm]
  have hnot1 : ∀ c s, c ≠ '1' → matchDoiHere (c :: s) = none := by
    intro c s hc
    unfold matchDoiHere
    split
    · next heq => simp at heq; exact absurd heq.1 hc
    · rfl
  have skip : ∀ (w t : List Char), (∀ c ∈ w, c ≠ '1') → searchDoi (w ++ t) = searchDoi t := by
    intro w t hw
    induction w with
    | nil => rfl
    | cons a w ih =>
      rw [List.cons_append, searchDoi, hnot1 a _ (hw a (by simp))]
      exact ih fun c hc => hw c (List.mem_cons_of_mem _ hc)
  have hsearch2 : searchDoi ("https://doi.org/10.4121/".toList ++ (id ++ '.' :: version)) =
      some ("10.4121".toList, id ++ '.' :: version) := by
    have e : "https://doi.org/10.4121/".toList ++ (id ++ '.' :: version) =
      "https://doi.org/".toList ++ ("10.4121/".toList ++ (id ++ '.' :: version)) := rfl
    rw [e, skip _ _ (by decide), hsearch]
  constructor
  · unfold get4tuId parseDoi
    rw [hsearch2]
    simp only [bind, Except.bind, pure, Except.pure, htw]
  · unfold get4tuId parseDoi
    rw [hsearch]
    simp only [bind, Except.bind, pure, Except.pure, htw]

/-- The dot of the pattern is not escaped: a malformed prefix such as `10x4121` is accepted by
`parse_doi` (the provider test of `download_from_doi` then rejects it). -/
theorem C67_dot_not_escaped : ∃ p s, parseDoi "10x4121/abc".toList = .ok (p, s) ∧
    p = "10x4121".toList := ⟨_, _, (C67_parse_doi _ "10x4121".toList "abc".toList).2
  ⟨[], ⟨⟨'x', "4121".toList, by decide, rfl, by decide, by decide, by decide⟩,
    ⟨by decide, by decide⟩, Or.inl rfl⟩, by simp⟩, rfl⟩

example : parseDoi "https://doi.org/10.4121/f9572240-f179-4338-9e1b-82c5598529e2.v1".toList =
    .ok ("10.4121".toList, "f9572240-f179-4338-9e1b-82c5598529e2.v1".toList) := by rfl

/-! ### C68 -/

/-- The target directory is created only if nothing was there; then it is an empty directory (given that
nothing lies below a path that does not exist) and everything else is as before.  If something
was there, the call fails. -/
theorem C68_target_directory (fs : FileSystem) (cwd : FPath) (name : List Char)
    (hcwd : fs cwd = some .dir) (hfs : ∀ p q, fs p = none → fs (p ++ q) = none) :
    ((fs (cwd ++ [name])).isSome → ∃ e, createTargetDirectory fs cwd name = .error e) ∧
    (fs (cwd ++ [name]) = none → ∃ fs', createTargetDirectory fs cwd name =
        .ok (fs', cwd ++ [name]) ∧ fs' (cwd ++ [name]) = some .dir ∧
        (∀ q, q ≠ [] → fs' (cwd ++ [name] ++ q) = none) ∧ (∀ p, p ≠ cwd ++ [name] → fs' p = fs p)) := by
  unfold createTargetDirectory mkdir
  constructor
  · intro h
    rw [if_pos h]
    exact ⟨_, rfl⟩
  · intro h
    rw [h, if_neg (by simp), if_neg (by simp [hcwd])]
    refine ⟨_, rfl, by simp, ?_, ?_⟩
    · intro q hq
      rw [Function.update_of_ne (by simpa using hq)]
      exact hfs _ q h
    intro p hp
    simp [Function.update_of_ne hp]

private theorem resolve_simple (target : FPath) (n : FileName) (h : SimpleName n) :
    ∃ c, resolve target n = target ++ [c] := by
  obtain ⟨ha, c, hp, hc⟩ := h
  refine ⟨c, ?_⟩
  unfold resolve
  rw [hp, ha]
  simp only [List.foldl, if_neg hc]
  rfl

private theorem downloadAll_below (fs : FileSystem) (target : FPath)
    (files : List (FileName × List Char)) (h : ∀ f ∈ files, SimpleName f.1) (p : FPath)
    (hp : ∀ c, p ≠ target ++ [c]) : (downloadAll fs target files).2 p = fs p := by
  induction files generalizing fs with
  | nil => rfl
  | cons f files ih =>
    obtain ⟨name, content⟩ := f
    obtain ⟨c, hc⟩ := resolve_simple target name (h (name, content) (by simp))
    unfold downloadAll
    rw [hc]
    unfold writeFile
    split
    · rfl
    · next fs' hfs =>
      rw [ih fs' fun f hf => h f (List.mem_cons_of_mem _ hf)]
      split at hfs
      · simp at hfs
      · split at hfs
        · simp at hfs
        · rw [Except.ok.injEq] at hfs
          rw [← hfs, Function.update_of_ne (hp c)]

/-- A download, successful or not, changes no existing file or directory, whatever the server offers,
provided the offered file names are plain names: only the new target directory and entries
directly below it can appear.  In particular an existing directory of that name stops the
download before anything is written. -/
theorem C68_download_keeps_existing (fs : FileSystem) (cwd : FPath) (doi name : List Char)
    (server : List Char → Except Err (List (FileName × List Char)))
    (hfs : ∀ p q, fs p = none → fs (p ++ q) = none)
    (hs : ∀ id files, server id = .ok files → ∀ f ∈ files, SimpleName f.1) (p : FPath)
    (hp : (fs p).isSome) : (downloadFromDoi fs cwd doi name server).2 p = fs p := by
  unfold downloadFromDoi
  split
  · rfl
  split
  · split
    · rfl
    next fs' target hc =>
    unfold createTargetDirectory mkdir at hc
    split at hc
    · simp at hc
    · next fs1 hm =>
      rw [Except.ok.injEq, Prod.mk.injEq] at hc
      obtain ⟨rfl, rfl⟩ := hc
      split at hm
      · simp at hm
      next hno =>
      split at hm
      · simp at hm
      rw [Except.ok.injEq] at hm
      have hnone : fs (cwd ++ [name]) = none := by simpa using hno
      have hpt : p ≠ cwd ++ [name] := by
        rintro rfl; rw [hnone] at hp; simp at hp
      have hkeep : fs1 p = fs p := by rw [← hm, Function.update_of_ne hpt]
      split
      · exact hkeep
      split
      · exact hkeep
      next files hf =>
      rw [downloadAll_below _ _ _ (hs _ _ hf), hkeep]
      intro c e
      have := hfs (cwd ++ [name]) [c] hnone
      rw [← e] at this
      rw [this] at hp
      simp at hp
  split
  · rfl
  · rfl

/-- An existing target (file or directory) stops the download with an error and nothing changes. -/
theorem C68_existing_target_stops (fs : FileSystem) (cwd : FPath) (doi name : List Char)
    (server : List Char → Except Err (List (FileName × List Char)))
    (hex : (fs (cwd ++ [name])).isSome) :
    ∃ e, downloadFromDoi fs cwd doi name server = (some e, fs) := by
  unfold downloadFromDoi
  split
  · exact ⟨_, rfl⟩
  split
  · have : createTargetDirectory fs cwd name = .error (.other "FileExistsError") := by
      unfold createTargetDirectory mkdir
      rw [if_pos hex]
    rw [this]
    exact ⟨_, rfl⟩
  split
  · exact ⟨_, rfl⟩
  · exact ⟨_, rfl⟩

/-- Without the condition on the names it is false: the server may offer a file whose name is an
absolute path (or contains `..`), and an existing file is overwritten. -/
theorem C68_untrusted_names :
    ∃ (fs : FileSystem) (cwd p : FPath) (doi name : List Char)
      (server : List Char → Except Err (List (FileName × List Char))),
      (∀ p q, fs p = none → fs (p ++ q) = none) ∧ fs cwd = some .dir ∧
      fs p = some (.file "mine".toList) ∧
      (downloadFromDoi fs cwd doi name server).2 p = some (.file "theirs".toList) := by
  let fs : FileSystem := fun p => if p = [] then some .dir
    else if p = ["a".toList] then some (.file "mine".toList) else none
  refine ⟨fs, [], ["a".toList], "10.4121/abc.v1".toList, "data".toList,
    fun _ => .ok [(⟨true, ["a".toList]⟩, "theirs".toList)], ?_, rfl, rfl, ?_⟩
  · intro p q h
    simp only [fs] at h ⊢
    split at h
    · simp at h
    next hp =>
    split at h
    · simp at h
    next hpa =>
    rw [if_neg (by simp [hp])]
    rw [if_neg]
    intro e
    cases p with
    | nil => exact hp rfl
    | cons a p' =>
      simp at e
      exact hpa (by simp [e.1, e.2.1])
  · decide +kernel

private theorem downloadAll_works (fs : FileSystem) (target : FPath) (htarget : fs target = some .dir)
    (files : List (FileName × List Char)) (h : ∀ f ∈ files, SimpleName f.1)
    (hfree : ∀ c, fs (target ++ [c]) ≠ some .dir) (hdist : (files.map fun f => f.1.parts).Nodup) :
    ∃ fs', downloadAll fs target files = (none, fs') ∧ (∀ f ∈ files, fs' (target ++ f.1.parts) = some (.file f.2)) ∧
      ∀ q, (∀ f ∈ files, q ≠ target ++ f.1.parts) → fs' q = fs q := by
  induction files generalizing fs with
  | nil => exact ⟨fs, rfl, (fun f hf => by cases hf), fun _ _ => rfl⟩
  | cons f files ih =>
    obtain ⟨name, content⟩ := f
    obtain ⟨ha, c, hparts, hc⟩ := h (name, content) List.mem_cons_self
    have hres : resolve target name = target ++ [c] := by
      unfold resolve
      rw [hparts, ha]
      simp only [List.foldl, if_neg hc]
      rfl
    rw [List.map_cons, List.nodup_cons] at hdist
    have hne : target ≠ target ++ [c] := by simp
    obtain ⟨fs', he, hin, hout⟩ := ih (Function.update fs (target ++ [c]) (some (.file content)))
      (by rw [Function.update_of_ne hne]; exact htarget)
      (fun f hf => h f (List.mem_cons_of_mem _ hf))
      (by
        intro c'
        by_cases e : target ++ [c'] = target ++ [c]
        · rw [e, Function.update_self]; simp
        · rw [Function.update_of_ne e]; exact hfree c')
      hdist.2
    refine ⟨fs', ?_, ?_, ?_⟩
    · unfold downloadAll
      rw [hres]
      unfold writeFile
      rw [if_neg (hfree c), if_neg (by simp [htarget])]
      exact he
    · intro f hf
      rcases List.mem_cons.mp hf with rfl | hf
      · have : fs' (target ++ name.parts) = _ := hout _ (by
          intro f' hf' e
          have e := List.append_cancel_left e
          exact hdist.1 (List.mem_map.mpr ⟨f', hf', e.symm⟩))
        rw [this, hparts, Function.update_self]
      · exact hin f hf
    · intro q hq
      rw [hout q fun f hf => hq f (List.mem_cons_of_mem _ hf), Function.update_of_ne]
      have := hq (name, content) List.mem_cons_self
      rwa [hparts] at this

/-- A download of a 4TU dataset into a new directory, if the server answers with files of different, plain names, succeeds, and
afterwards the directory holds exactly these files with their contents; nothing else has changed. -/
theorem C68_complete_download (fs : FileSystem) (cwd : FPath) (id version name : List Char) (hid : id ≠ []) (hdot : '.' ∉ id)
    (h1 : ∀ c ∈ id, c ∈ suffixChars) (h2 : ∀ c ∈ version, c ∈ suffixChars)
    (server : List Char → Except Err (List (FileName × List Char)))
    (hcwd : fs cwd = some .dir) (hfs : ∀ p q, fs p = none → fs (p ++ q) = none) (hnew : fs (cwd ++ [name]) = none)
    (files : List (FileName × List Char)) (hserver : server id = .ok files) (hs : ∀ f ∈ files, SimpleName f.1)
    (hdist : (files.map fun f => f.1.parts).Nodup) :
    ∃ fs', downloadFromDoi fs cwd ("10.4121/".toList ++ (id ++ '.' :: version)) name server = (none, fs') ∧
      fs' (cwd ++ [name]) = some .dir ∧ (∀ f ∈ files, fs' (cwd ++ [name] ++ f.1.parts) = some (.file f.2)) ∧
      ∀ q, q ≠ cwd ++ [name] → (∀ f ∈ files, q ≠ cwd ++ [name] ++ f.1.parts) → fs' q = fs q := by
  have hparse : parseDoi ("10.4121/".toList ++ (id ++ '.' :: version)) = .ok ("10.4121".toList, id ++ '.' :: version) := by
    rw [C67_parse_doi]
    refine ⟨[], ⟨⟨'.', "4121".toList, by decide, rfl, by decide, by decide, by decide⟩, ⟨by simp, ?_⟩, Or.inl rfl⟩, by simp⟩
    intro c hc
    simp only [List.mem_append, List.mem_cons] at hc
    rcases hc with hc | rfl | hc
    · exact h1 c hc
    · decide
    · exact h2 c hc
  obtain ⟨fs1, hc1, hdir, hbelow, hother⟩ := (C68_target_directory fs cwd name hcwd hfs).2 hnew
  obtain ⟨fs', he, hin, hout⟩ := downloadAll_works fs1 (cwd ++ [name]) hdir files hs
    (fun c => by rw [hbelow [c] (by simp)]; simp) hdist
  refine ⟨fs', ?_, ?_, hin, ?_⟩
  · unfold downloadFromDoi
    rw [hparse]
    simp only [if_pos, hc1, (C67_4tu_id id version hid hdot h1 h2).2, hserver]
    exact he
  · rw [hout]
    · exact hdir
    · intro f hf e
      obtain ⟨_, c, hp, _⟩ := hs f hf
      rw [hp] at e
      simp at e
  · intro q hq hq'
    rw [hout q hq', hother q hq]

/-- A DOI of any other repository is refused before anything is touched: `NotImplementedError` for Zenodo, else
`ValueError`. -/
theorem C68_other_repositories (fs : FileSystem) (cwd : FPath) (p s name : List Char) (hp : IsPrefix p) (hs : IsSuffix s)
    (hne : p ≠ "10.4121".toList) (server : List Char → Except Err (List (FileName × List Char))) :
    downloadFromDoi fs cwd (p ++ '/' :: s) name server =
      (some (if p = "10.5281".toList then .other "NotImplementedError" else .valueError), fs) := by
  have hparse : parseDoi (p ++ '/' :: s) = .ok (p, s) := by
    rw [C67_parse_doi]
    exact ⟨[], ⟨hp, hs, Or.inl rfl⟩, by simp⟩
  unfold downloadFromDoi
  rw [hparse]
  simp only
  rw [if_neg hne]
  split <;> rfl

/-- two files -/
example : ∃ fs', downloadFromDoi (fun p => if p = [] then some .dir else none) [] "10.4121/abc.v1".toList "data".toList
      (fun _ => .ok [(⟨false, ["a.nc".toList]⟩, "x".toList), (⟨false, ["b.nc".toList]⟩, "y".toList)]) = (none, fs') ∧
    fs' ["data".toList, "b.nc".toList] = some (.file "y".toList) := by
  obtain ⟨fs', h, _, hf, _⟩ := C68_complete_download (fun p => if p = [] then some .dir else none) [] "abc".toList "v1".toList
    "data".toList (by decide) (by decide) (by decide) (by decide)
    (fun _ => .ok [(⟨false, ["a.nc".toList]⟩, "x".toList), (⟨false, ["b.nc".toList]⟩, "y".toList)]) rfl
    (fun p q h => by
      cases p with
      | nil => exact nomatch h
      | cons a p => rfl) rfl _ rfl
    (by
      intro f hf
      simp only [List.mem_cons, List.not_mem_nil, or_false] at hf
      rcases hf with rfl | rfl <;> exact ⟨rfl, _, rfl, by decide⟩)
    (by decide)
  exact ⟨fs', h, hf _ (List.mem_cons_of_mem _ List.mem_cons_self)⟩

example : downloadFromDoi (fun _ => none) [] "10.5281/zenodo.1".toList [] (fun _ => .ok []) =
    (some (.other "NotImplementedError"), fun _ => none) :=
  C68_other_repositories _ _ "10.5281".toList "zenodo.1".toList _
    ⟨⟨'.', "5281".toList, by decide, rfl, by decide, by decide, by decide⟩⟩ ⟨by decide, by decide⟩ (by decide) _

/-! ### C69 -/

/-- `track` runs exactly one experiment, in the direction of the configuration, after copying the
configuration file to the output folder; the only other outcome, with a valid configuration, is the
`SameFileError` when the configuration file already lies in the output folder - then nothing runs. -/
theorem C69_track (file : FPath) (cfg : CliConfig) (hf : file ≠ []) :
    (file.dropLast ≠ cfg.output_folder →
      runCommand file (.ok cfg) .track =
        ([.copyConfig cfg.output_folder,
          match cfg.direction with | .forward => .runForward | .backward => .runBackward], none)) ∧
    (file.dropLast = cfg.output_folder →
      runCommand file (.ok cfg) .track = ([], some (.other "SameFileError"))) := by
  have key : cfg.output_folder ++ file.getLast?.toList = file ↔ file.dropLast = cfg.output_folder := by
    rw [List.getLast?_eq_some_getLast hf, Option.toList_some]
    constructor
    · intro h; rw [← h]; simp
    · intro h; rw [← h]; exact List.dropLast_append_getLast hf
  constructor
  · intro h
    simp only [runCommand, copyConfig]
    rw [if_neg (by rw [key]; exact h)]
    cases hd : cfg.direction <;> simp
  · intro h
    simp only [runCommand, copyConfig]
    rw [if_pos (key.2 h)]

/-- `preprocess <source>` preprocesses exactly that data source, or stops as `track` does. -/
theorem C69_preprocess (file : FPath) (cfg : CliConfig) (hf : file ≠ []) (source : DataSource) :
    (file.dropLast ≠ cfg.preprocessed_data_folder →
      runCommand file (.ok cfg) (.preprocess source) =
        ([.copyConfig cfg.preprocessed_data_folder, .preprocess source], none)) ∧
    (file.dropLast = cfg.preprocessed_data_folder →
      runCommand file (.ok cfg) (.preprocess source) = ([], some (.other "SameFileError"))) := by
  have key : cfg.preprocessed_data_folder ++ file.getLast?.toList = file ↔
      file.dropLast = cfg.preprocessed_data_folder := by
    rw [List.getLast?_eq_some_getLast hf, Option.toList_some]
    constructor
    · intro h; rw [← h]; simp
    · intro h; rw [← h]; exact List.dropLast_append_getLast hf
  constructor
  · intro h
    simp only [runCommand, copyConfig]
    rw [if_neg (by rw [key]; exact h)]
  · intro h
    simp only [runCommand, copyConfig]
    rw [if_pos (key.2 h)]

/-- The removed commands, and every command with an invalid configuration, do nothing and fail. -/
theorem C69_nothing_else (file : FPath) (config : Except Err CliConfig) (e : Err) (c : Command) :
    runCommand file config .backtrack = ([], some .valueError) ∧
    runCommand file config .forwardtrack = ([], some .valueError) ∧
    ((runCommand file (.error e) c).1 = [] ∧ (runCommand file (.error e) c).2 ≠ none) := by
  refine ⟨rfl, rfl, ?_⟩
  cases c <;> simp [runCommand]

example : runCommand ["cases".toList, "c.yaml".toList] (.ok ⟨.backward, ["out".toList], ["pre".toList]⟩) .track
    = ([.copyConfig ["out".toList], .runBackward], none) := by decide +kernel

end Wam
