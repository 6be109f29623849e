import Verif.Spec.Download
import Verif.Lemmas.Again

/-!
# Lemmas about downloads
-/

namespace Wam
open Spec

set_option linter.unusedVariables false

/-! ### Names -/

theorem splitSlashes_ne (s : List Char) : splitSlashes s ≠ [] := by
  cases s with
  | nil => simp [splitSlashes]
  | cons c s =>
    unfold splitSlashes
    split
    · simp
    · split <;> simp

theorem splitSlashes_plain (s : List Char) (h : '/' ∉ s) : splitSlashes s = [s] := by
  induction s with
  | nil => rfl
  | cons c s ih =>
    rw [List.mem_cons, not_or] at h
    unfold splitSlashes
    rw [if_neg (fun e => h.1 e.symm), ih h.2]

theorem splitSlashes_getLast (s : List Char) : ∃ n, (splitSlashes s).getLast? = some n ∧ AfterLastSlash s n := by
  induction s with
  | nil => exact ⟨[], rfl, by simp, Or.inl rfl⟩
  | cons c s ih =>
    obtain ⟨n, hn, hs, ha⟩ := ih
    unfold splitSlashes
    split
    · next hc =>
      refine ⟨n, ?_, hs, Or.inr ?_⟩
      · rw [List.getLast?_cons, hn]; rfl
      · rcases ha with rfl | ⟨b, rfl⟩
        · exact ⟨[], by rw [hc]; rfl⟩
        · exact ⟨c :: b, rfl⟩
    · next hc =>
      rcases hq : splitSlashes s with _ | ⟨part, parts⟩
      · exact absurd hq (splitSlashes_ne s)
      simp only
      rw [hq] at hn
      cases parts with
      | nil =>
        rcases ha with rfl | ⟨b, rfl⟩
        · refine ⟨c :: s, ?_, ?_, Or.inl rfl⟩
          · simp only [List.getLast?_singleton, Option.some.injEq] at hn ⊢
            rw [hn]
          · simp only [List.mem_cons, not_or]
            exact ⟨fun e => hc e.symm, hs⟩
        · exfalso
          have : 2 ≤ (splitSlashes (b ++ '/' :: n)).length := by
            clear hq hn hs hc
            induction b with
            | nil =>
              have := splitSlashes_ne n
              rcases hq : splitSlashes n with _ | ⟨x, y⟩
              · exact absurd hq this
              · simp [splitSlashes, hq]
            | cons d b ih =>
              rw [List.cons_append]
              unfold splitSlashes
              split
              · simp only [List.length_cons]; omega
              · rcases hq : splitSlashes (b ++ '/' :: n) with _ | ⟨x, y⟩
                · rw [hq] at ih; simp at ih
                · rw [hq] at ih; simpa using ih
          rw [hq] at this
          simp at this
      | cons q parts =>
        refine ⟨n, ?_, hs, ?_⟩
        · rw [List.getLast?_cons_cons] at hn ⊢; exact hn
        · rcases ha with rfl | ⟨b, rfl⟩
          · rw [splitSlashes_plain s hs] at hq
            simp at hq
          · exact Or.inr ⟨c :: b, rfl⟩

theorem lastPart_after (url : List Char) : AfterLastSlash url (lastPart url) := by
  obtain ⟨n, hn, ha⟩ := splitSlashes_getLast url
  unfold lastPart
  rw [hn]
  exact ha

theorem afterLastSlash_unique {url n m : List Char} (hn : AfterLastSlash url n) (hm : AfterLastSlash url m) :
    n = m := by
  obtain ⟨hn, hn'⟩ := hn
  obtain ⟨hm, hm'⟩ := hm
  rcases hn' with rfl | ⟨b, rfl⟩
  · rcases hm' with rfl | ⟨b, rfl⟩
    · rfl
    · simp at hn
  · rcases hm' with rfl | ⟨b', hb⟩
    · simp at hm
    · have h1 := congrArg (fun l => l.reverse.takeWhile (· ≠ '/')) hb
      have key : ∀ (x y : List Char), '/' ∉ y → (x ++ '/' :: y).reverse.takeWhile (· ≠ '/') = y.reverse := by
        intro x y hy
        rw [List.reverse_append, List.reverse_cons, List.append_assoc,
          List.takeWhile_append_of_pos]
        · simp
        · intro c hc
          have : c ≠ '/' := by rintro rfl; exact hy (List.mem_reverse.1 hc)
          simpa using this
      simp only [key _ _ hn, key _ _ hm] at h1
      exact List.reverse_injective h1

theorem resolve_plain (target : FPath) {n : List Char} (h : PlainName n) :
    resolve target (fileNameOf n) = target ++ [n] := by
  obtain ⟨h1, h2, h3, h4⟩ := h
  unfold resolve fileNameOf
  have hh : n.head? ≠ some '/' := by
    cases n with
    | nil => simp
    | cons c n => simp only [List.head?_cons, ne_eq, Option.some.injEq]; rintro rfl; simp at h2
  simp only [splitSlashes_plain n h2, hh, decide_false]
  rw [List.filter_cons_of_pos (by simp only [decide_eq_true_eq]; exact ⟨h1, h3⟩)]
  simp only [List.filter_nil, List.foldl_cons, List.foldl_nil, Bool.false_eq_true, if_false]
  rw [if_neg h4]

theorem resolve_noSlash (target : FPath) {n : List Char} (h : '/' ∉ n) :
    PlainName n ∨ resolve target (fileNameOf n) = target ∨ resolve target (fileNameOf n) = target.dropLast := by
  by_cases h1 : n = []
  · right; left; subst h1; rfl
  by_cases h3 : n = ".".toList
  · right; left; subst h3; rfl
  by_cases h4 : n = "..".toList
  · right; right; subst h4; rfl
  · exact Or.inl ⟨h1, h, h3, h4⟩

/-! ### Invariants of actions -/

/-- the invariant `I` holds at all moments of the action -/
def Keeps {β : Type} (I : FileSystem → Prop) (a : Act β) : Prop :=
  ∀ fs, I fs → ∀ fs', Moment a fs fs' → I fs'

theorem Keeps.elim {β : Type} {I : FileSystem → Prop} {a : Act β} (h : Keeps I a) {fs fs' : FileSystem}
    (hi : I fs) (hm : Moment a fs fs') : I fs' := h fs hi fs' hm

theorem keeps_pure {β : Type} (I : FileSystem → Prop) (b : β) : Keeps I (Act.pure b) := by
  rintro fs h fs' ⟨k, rfl⟩
  simpa [Act.pure, applyChanges] using h

theorem keeps_fail {β : Type} (I : FileSystem → Prop) (e : Err) : Keeps (β := β) I (Act.fail e) := by
  rintro fs h fs' ⟨k, rfl⟩
  simpa [Act.fail, applyChanges] using h

theorem keeps_ask {β : Type} (I : FileSystem → Prop) (r : Except Err β) : Keeps I (ask r) := by
  rintro fs h fs' ⟨k, rfl⟩
  simpa [ask, applyChanges] using h

theorem keeps_endWith (I : FileSystem → Prop) (e : Option Err) : Keeps I (endWith e) := by
  cases e with
  | none => exact keeps_pure I ()
  | some e => exact keeps_fail I e

theorem moment_end {β : Type} {a : Act β} {fs : FileSystem} {chs : List Change} {r : Except Err β}
    (h : a fs = (chs, r)) : Moment a fs (applyChanges fs chs) :=
  ⟨chs.length, by rw [h]; simp⟩

theorem moment_after {β : Type} (a : Act β) (fs : FileSystem) : Moment a fs (after a fs) :=
  moment_end rfl

theorem keeps_bind {β γ : Type} {I : FileSystem → Prop} {a : Act β} {f : β → Act γ} (h : Keeps I a)
    (h' : ∀ b, (∃ fs chs, a fs = (chs, .ok b)) → Keeps I (f b)) : Keeps I (Act.bind a f) := by
  intro fs hi fs' hm
  rcases moment_bind hm with hm | ⟨b, chs, hq, hm⟩
  · exact h fs hi fs' hm
  · exact h' b ⟨fs, chs, hq⟩ _ (h fs hi _ (moment_end hq)) fs' hm

theorem applyChanges_writes (fs : FileSystem) (p : FPath) (l : List (List Char)) :
    applyChanges fs (l.map fun x => (p, Node.file x)) =
      match l.getLast? with
      | none => fs
      | some x => Function.update fs p (some (.file x)) := by
  induction l using List.reverseRecOn with
  | nil => rfl
  | append_singleton l x ih =>
    rw [List.map_append, applyChanges_append, ih, List.getLast?_append]
    simp only [List.getLast?_singleton, Option.some_or]
    cases l.getLast? with
    | none => rfl
    | some y => simp [applyChanges]

theorem mem_inits_prefix {x l : List Char} : x ∈ l.inits ↔ x <+: l := by
  simp

theorem keeps_stream {I : FileSystem → Prop} {p : FPath} {content : List Char}
    (h : ∀ fs, I fs → fs p ≠ some .dir → fs p.dropLast = some .dir → ∀ x, x <+: content →
      I (Function.update fs p (some (.file x)))) : Keeps I (stream p content) := by
  rintro fs hi fs' ⟨k, rfl⟩
  unfold stream
  split
  · simpa [applyChanges] using hi
  next hn =>
  split
  · next hd =>
    simp only [← List.map_take]
    rw [applyChanges_writes]
    cases hx : (content.inits.take k).getLast? with
    | none => exact hi
    | some x =>
      refine h fs hi hn hd x (mem_inits_prefix.1 (List.mem_of_mem_take (List.mem_of_getLast? hx)))
  · simpa [applyChanges] using hi
  · simpa [applyChanges] using hi

theorem stream_of {fs : FileSystem} {p : FPath} {content : List Char} (h : fs p.dropLast = some .dir)
    (hn : fs p ≠ some .dir) : ∃ chs, stream p content fs = (chs, .ok ()) ∧
      applyChanges fs chs = Function.update fs p (some (.file content)) := by
  refine ⟨_, by unfold stream; rw [if_neg hn, h], ?_⟩
  rw [applyChanges_writes]
  have : content.inits.getLast? = some content := by
    induction content with
    | nil => rfl
    | cons c l ih =>
      rw [List.inits_cons, List.getLast?_cons]
      rw [List.getLast?_map, ih]
      rfl
  rw [this]

theorem bind_ask_ok {β γ : Type} {b : β} {f : β → Act γ} {r : Except Err β} (h : r = .ok b) :
    Act.bind (ask r) f = f b := by
  funext fs
  subst h
  rw [bind_ok (a := ask (.ok b)) (fs := fs) (chs := []) (b := b) rfl]
  simp [applyChanges]

/-! ### The record of a data set -/

theorem getArticle_iff (web : Web) (id : List Char) (info : Article) :
    getArticle web id = .ok info ↔ HasRecord web id info := by
  unfold getArticle HasRecord articleUrl
  constructor
  · intro h
    split at h
    · cases h
    next r hr =>
    split at h
    · cases h
    next hb =>
    split at h
    · cases h
    next hs => exact ⟨r, hr, hb, by omega, h⟩
  · rintro ⟨r, hr, hb, hs, hj⟩
    rw [hr]
    simp only [hb]
    rw [if_neg (by omega)]
    exact hj

theorem dataLink_iff (fields : List (List Char × List (List Char))) (l0 : Option (List Char)) (link : List Char) :
    dataLink l0 fields = .ok (some link) ↔
      (∀ f ∈ fields, f.1 = "Data Link".toList → f.2 ≠ []) ∧
        ((l0 = some link ∧ ∀ f ∈ fields, f.1 ≠ "Data Link".toList) ∨
          ∃ pre post more, fields = pre ++ ("Data Link".toList, link :: more) :: post ∧
            ∀ f ∈ post, f.1 ≠ "Data Link".toList) := by
  induction fields generalizing l0 with
  | nil => simp [dataLink]
  | cons f fields ih =>
    obtain ⟨n, vs⟩ := f
    unfold dataLink
    split
    · next hn =>
      subst hn
      cases vs with
      | nil => simp
      | cons v vs =>
        simp only
        rw [ih]
        constructor
        · rintro ⟨h1, h2⟩
          refine ⟨?_, Or.inr ?_⟩
          · intro f hf
            rcases List.mem_cons.1 hf with rfl | hf
            · intro _; simp
            · exact h1 f hf
          · rcases h2 with ⟨h2, h3⟩ | ⟨pre, post, more, h2, h3⟩
            · injection h2 with h2; subst h2
              exact ⟨[], fields, vs, rfl, h3⟩
            · exact ⟨("Data Link".toList, v :: vs) :: pre, post, more, by rw [h2]; rfl, h3⟩
        · rintro ⟨h1, h2⟩
          refine ⟨fun f hf => h1 f (List.mem_cons_of_mem _ hf), ?_⟩
          rcases h2 with ⟨h2, h3⟩ | ⟨pre, post, more, h2, h3⟩
          · exact absurd rfl (h3 _ List.mem_cons_self)
          · cases pre with
            | nil =>
              simp only [List.nil_append, List.cons.injEq, Prod.mk.injEq, true_and] at h2
              obtain ⟨⟨rfl, rfl⟩, rfl⟩ := h2
              exact Or.inl ⟨rfl, h3⟩
            | cons x pre =>
              simp only [List.cons_append, List.cons.injEq] at h2
              exact Or.inr ⟨pre, post, more, h2.2, h3⟩
    · next hn =>
      rw [ih]
      constructor
      · rintro ⟨h1, h2⟩
        refine ⟨?_, ?_⟩
        · intro f hf
          rcases List.mem_cons.1 hf with rfl | hf
          · intro e; exact absurd e hn
          · exact h1 f hf
        · rcases h2 with ⟨h2, h3⟩ | ⟨pre, post, more, h2, h3⟩
          · refine Or.inl ⟨h2, ?_⟩
            intro f hf
            rcases List.mem_cons.1 hf with rfl | hf
            · exact hn
            · exact h3 f hf
          · exact Or.inr ⟨(n, vs) :: pre, post, more, by rw [h2]; rfl, h3⟩
      · rintro ⟨h1, h2⟩
        refine ⟨fun f hf => h1 f (List.mem_cons_of_mem _ hf), ?_⟩
        rcases h2 with ⟨h2, h3⟩ | ⟨pre, post, more, h2, h3⟩
        · exact Or.inl ⟨h2, fun f hf => h3 f (List.mem_cons_of_mem _ hf)⟩
        · cases pre with
          | nil =>
            simp only [List.nil_append, List.cons.injEq, Prod.mk.injEq] at h2
            exact absurd h2.1.1 hn
          | cons x pre =>
            simp only [List.cons_append, List.cons.injEq] at h2
            exact Or.inr ⟨pre, post, more, h2.2, h3⟩

theorem hasLink_iff (info : Article) (link : List Char) :
    dataLink none info.fields = .ok (some link) ↔ HasLink info link := by
  rw [dataLink_iff]
  unfold HasLink
  simp

theorem replaceHtml_step (c : Char) (s : List Char) (h : ¬ ".html".toList <+: c :: s) :
    replaceHtml (c :: s) = c :: replaceHtml s := by
  rw [replaceHtml.eq_def]
  split
  · next t e =>
    exfalso
    apply h
    rw [e]
    exact ⟨t, rfl⟩
  · next x y hno e =>
    injection e with e1 e2
    subst e1 e2
    rfl
  · next e => cases e

theorem replaceHtml_same (s : List Char) (h : ¬ ".html".toList <:+: s) : replaceHtml s = s := by
  induction s with
  | nil => rfl
  | cons c s ih =>
    rw [List.infix_cons_iff, not_or] at h
    rw [replaceHtml_step c s h.1, ih h.2]

theorem replaceHtml_next (s t : List Char) (h : ¬ ".html".toList <:+: s) :
    replaceHtml (s ++ ".html".toList ++ t) = s ++ ".xml".toList ++ replaceHtml t := by
  induction s with
  | nil => rfl
  | cons c s ih =>
    rw [List.infix_cons_iff, not_or] at h
    rw [List.cons_append, List.cons_append, replaceHtml_step, ih h.2]
    · rfl
    · rintro ⟨r, e⟩
      have e : '.' :: 'h' :: 't' :: 'm' :: 'l' :: r = c :: (s ++ ".html".toList ++ t) := e
      apply h.1
      injection e with e1 e2
      subst e1
      match s, e2 with
      | [], e2 => exact absurd (congrArg List.head? e2) (by simp)
      | [a], e2 => injection e2 with e1 e2; exact absurd (congrArg List.head? e2) (by simp)
      | [a, b], e2 =>
        injection e2 with e1 e2; injection e2 with e1 e2; exact absurd (congrArg List.head? e2) (by simp)
      | [a, b, d], e2 =>
        injection e2 with e1 e2; injection e2 with e1 e2; injection e2 with e1 e2
        exact absurd (congrArg List.head? e2) (by simp)
      | a :: b :: d :: e :: s, e2 =>
        injection e2 with e1 e2; injection e2 with e3 e2; injection e2 with e4 e2; injection e2 with e5 e2
        subst e1 e3 e4 e5
        exact ⟨s, rfl⟩

theorem replaceHtml_of {s x : List Char} (h : XmlFor s x) : replaceHtml s = x := by
  induction h with
  | same h => exact replaceHtml_same _ h
  | next h _ ih => rw [replaceHtml_next _ _ h, ih]

theorem xmlFor_cons {c : Char} {s x : List Char} (hc : ¬ ".html".toList <+: c :: s) (h : XmlFor s x) :
    XmlFor (c :: s) (c :: x) := by
  cases h with
  | same h => exact .same (by rw [List.infix_cons_iff, not_or]; exact ⟨hc, h⟩)
  | @next s t u h ht =>
    refine XmlFor.next (s := c :: s) ?_ ht
    rw [List.infix_cons_iff, not_or]
    refine ⟨fun hp => hc ?_, h⟩
    refine hp.trans ⟨".html".toList ++ t, by simp⟩

theorem xmlFor_replaceHtml (s : List Char) : XmlFor s (replaceHtml s) := by
  induction hn : s.length using Nat.strong_induction_on generalizing s with
  | _ n ih =>
    by_cases hp : ".html".toList <+: s
    · obtain ⟨t, rfl⟩ := hp
      have := replaceHtml_next [] t (by decide)
      rw [List.nil_append] at this
      rw [this]
      refine XmlFor.next (s := []) (by decide) (ih t.length ?_ t rfl)
      rw [← hn]; simp only [List.length_append]; have : 0 < ".html".toList.length := by decide
      omega
    · cases s with
      | nil => exact .same (by decide)
      | cons c s =>
        rw [replaceHtml_step c s hp]
        exact xmlFor_cons hp (ih s.length (by rw [← hn]; simp) s rfl)

/-! ### The dictionary of additional files -/

theorem mem_setEntry {d : List (List Char × List Char)} {n url m u : List Char} :
    (m, u) ∈ setEntry d n url ↔ (m = n ∧ u = url) ∨ (m ≠ n ∧ (m, u) ∈ d) := by
  unfold setEntry
  split
  · next h =>
    rw [List.any_eq_true] at h
    obtain ⟨e, he, hn⟩ := h
    rw [decide_eq_true_eq] at hn
    rw [List.mem_map]
    constructor
    · rintro ⟨x, hx, hxe⟩
      split at hxe
      · injection hxe with h1 h2
        exact Or.inl ⟨h1.symm, h2.symm⟩
      · next hne => subst hxe; exact Or.inr ⟨hne, hx⟩
    · rintro (⟨rfl, rfl⟩ | ⟨h1, h2⟩)
      · exact ⟨e, he, by rw [if_pos hn]⟩
      · exact ⟨(m, u), h2, by rw [if_neg h1]⟩
  · next h =>
    rw [List.mem_append, List.mem_singleton, Prod.mk.injEq]
    constructor
    · rintro (h2 | h2)
      · by_cases hm : m = n
        · exfalso; apply h
          rw [List.any_eq_true]
          exact ⟨(m, u), h2, by simpa using hm⟩
        · exact Or.inr ⟨hm, h2⟩
      · exact Or.inl h2
    · rintro (h2 | h2)
      · exact Or.inr h2
      · exact Or.inl h2.2

theorem setEntry_nodup {d : List (List Char × List Char)} (h : (d.map (·.1)).Nodup) (n url : List Char) :
    ((setEntry d n url).map (·.1)).Nodup := by
  unfold setEntry
  split
  · rw [List.map_map]
    have : ((fun e : List Char × List Char => e.1) ∘ fun e => if e.1 = n then (n, url) else e) = fun e => e.1 := by
      funext e
      simp only [Function.comp_apply]
      split
      · next hh => exact hh.symm
      · rfl
    rw [this]; exact h
  · next hh =>
    rw [List.map_append, List.nodup_append]
    refine ⟨h, by simp, ?_⟩
    intro a ha b hb
    simp only [List.map_cons, List.map_nil, List.mem_singleton] at hb
    rintro rfl
    obtain ⟨e, he, rfl⟩ := List.mem_map.1 ha
    apply hh
    rw [List.any_eq_true]
    exact ⟨e, he, by simpa using hb⟩

/-- the dictionary made of a list -/
def entriesOf (l : List (List Char × List Char)) : List (List Char × List Char) :=
  l.foldl (fun d e => setEntry d e.1 e.2) []

theorem entriesOf_nodup (l : List (List Char × List Char)) : ((entriesOf l).map (·.1)).Nodup := by
  induction l using List.reverseRecOn with
  | nil => simp [entriesOf]
  | append_singleton l e ih =>
    unfold entriesOf at ih ⊢
    rw [List.foldl_append]
    exact setEntry_nodup ih _ _

theorem mem_entriesOf {l : List (List Char × List Char)} {n url : List Char} :
    (n, url) ∈ entriesOf l ↔ LastNamed l n url := by
  induction l using List.reverseRecOn generalizing n url with
  | nil => simp [entriesOf, LastNamed]
  | append_singleton l e ih =>
    have : entriesOf (l ++ [e]) = setEntry (entriesOf l) e.1 e.2 := by
      unfold entriesOf; rw [List.foldl_append]; rfl
    rw [this, mem_setEntry, ih]
    constructor
    · rintro (⟨rfl, rfl⟩ | ⟨h1, pre, post, h2, h3⟩)
      · exact ⟨l, [], rfl, by simp⟩
      · refine ⟨pre, post ++ [e], by rw [h2]; simp, ?_⟩
        intro x hx
        rw [List.mem_append, List.mem_singleton] at hx
        rcases hx with hx | rfl
        · exact h3 x hx
        · exact fun hh => h1 hh.symm
    · rintro ⟨pre, post, h2, h3⟩
      rcases List.eq_nil_or_concat post with rfl | ⟨post', x, rfl⟩
      · have := List.append_inj' h2 rfl
        simp only [List.cons.injEq, and_true] at this
        rw [this.2]
        exact Or.inl ⟨rfl, rfl⟩
      · have h4 : l ++ [e] = (pre ++ (n, url) :: post') ++ [x] := by rw [h2]; simp
        have := List.append_inj' h4 rfl
        simp only [List.cons.injEq, and_true] at this
        obtain ⟨rfl, rfl⟩ := this
        refine Or.inr ⟨fun hh => h3 e (by simp) hh.symm, pre, post', rfl, fun y hy => h3 y (by simp [hy])⟩

theorem get4tuFiles_eq {web : Web} {id : List Char} {info : Article} (h : HasRecord web id info) :
    get4tuFiles web id = .ok (entriesOf info.files) := by
  unfold get4tuFiles
  rw [(getArticle_iff web id info).2 h]
  rfl

theorem get4tuFiles_iff {web : Web} {id : List Char} {files : List (List Char × List Char)} :
    get4tuFiles web id = .ok files ↔ ∃ info, HasRecord web id info ∧ files = entriesOf info.files := by
  constructor
  · intro h
    unfold get4tuFiles at h
    split at h
    · cases h
    next info hi =>
      injection h with h
      exact ⟨info, (getArticle_iff _ _ _).1 hi, h.symm⟩
  · rintro ⟨info, h, rfl⟩
    exact get4tuFiles_eq h

theorem get4tuCatalog_iff {web : Web} {id xml : List Char} : get4tuCatalog web id = .ok xml ↔
    ∃ info link, HasRecord web id info ∧ HasLink info link ∧ XmlFor link xml := by
  constructor
  · intro h
    unfold get4tuCatalog at h
    split at h
    · cases h
    next info hi =>
    split at h
    · cases h
    · cases h
    next link hl =>
      injection h with h
      subst h
      exact ⟨info, link, (getArticle_iff _ _ _).1 hi, (hasLink_iff _ _).1 hl, xmlFor_replaceHtml link⟩
  · rintro ⟨info, link, hi, hl, hx⟩
    unfold get4tuCatalog
    rw [(getArticle_iff web id info).2 hi]
    simp only
    rw [(hasLink_iff info link).2 hl]
    simp only [replaceHtml_of hx]

end Wam
