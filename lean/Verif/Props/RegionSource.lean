import Verif.Spec.RegionSource
import Verif.Props.Regions

/-!
# C123: which regions `mask_with_regionmask` uses
-/
set_option linter.unusedSectionVars false
set_option linter.unusedVariables false

namespace Wam
open Spec

private theorem splitDot_ne (s : List Char) : splitDot s ≠ [] := by
  cases s with
  | nil => simp [splitDot]
  | cons c s =>
    unfold splitDot
    split_ifs
    · simp
    · split <;> simp

private theorem splitDot_one {s : List Char} (h : '.' ∉ s) : splitDot s = [s] := by
  induction s with
  | nil => rfl
  | cons c s ih =>
    rw [List.mem_cons, not_or] at h
    unfold splitDot
    rw [if_neg (Ne.symm h.1), ih h.2]

private theorem splitDot_append {a b : List Char} (h : '.' ∉ a) : splitDot (a ++ '.' :: b) = a :: splitDot b := by
  induction a with
  | nil => simp [splitDot]
  | cons c s ih =>
    rw [List.mem_cons, not_or] at h
    rw [List.cons_append, splitDot, if_neg (Ne.symm h.1), ih h.2]

private theorem splitDot_join {s a : List Char} {l : List (List Char)} (h : splitDot s = a :: l) :
    '.' ∉ a ∧ ((l = [] ∧ s = a) ∨ ∃ t, s = a ++ '.' :: t ∧ splitDot t = l) := by
  induction s generalizing a l with
  | nil =>
    simp only [splitDot, List.cons.injEq] at h
    rw [← h.1, ← h.2]
    simp
  | cons c s ih =>
    unfold splitDot at h
    split_ifs at h with hc
    · injection h with h1 h2
      subst h1
      refine ⟨by simp, Or.inr ⟨s, by simp [hc], h2⟩⟩
    · cases hs : splitDot s with
      | nil => exact absurd hs (splitDot_ne s)
      | cons w ws =>
        rw [hs] at h
        injection h with h1 h2
        subst h1 h2
        obtain ⟨h3, h4⟩ := ih hs
        refine ⟨by simp [h3, Ne.symm hc], ?_⟩
        rcases h4 with ⟨h4, h5⟩ | ⟨t, h4, h5⟩
        · exact Or.inl ⟨h4, by rw [h5]⟩
        · exact Or.inr ⟨t, by rw [h4]; rfl, h5⟩

private theorem splitDot_two {s a b : List Char} (h : splitDot s = [a, b]) :
    s = a ++ '.' :: b ∧ '.' ∉ a ∧ '.' ∉ b := by
  obtain ⟨h1, h2⟩ := splitDot_join h
  rcases h2 with ⟨h2, -⟩ | ⟨t, h2, h3⟩
  · cases h2
  · obtain ⟨h4, h5⟩ := splitDot_join h3
    rcases h5 with ⟨-, h5⟩ | ⟨t', -, h5⟩
    · subst h5; exact ⟨h2, h1, h4⟩
    · exact absurd h5 (splitDot_ne t')

private theorem hasWord_ar6 (s : List Char) : hasWord ['a', 'r', '6'] s = true ↔ "ar6".toList <:+: s := by
  simp only [hasWord, decide_eq_true_eq]
  rfl

private theorem available_ok (lib : RegionLibrary) (source part : List Char) (masks) :
    availableRegions lib source = .ok (part, masks) ↔ NamesRegions lib source part masks := by
  unfold availableRegions
  constructor
  · intro h
    split_ifs at h with h6
    · have h6 := (hasWord_ar6 _).1 h6
      split at h
      · rename_i a b hs
        obtain ⟨e, h1, h2⟩ := splitDot_two hs
        cases hm : lib.ar6 b with
        | none => rw [hm] at h; cases h
        | some ms =>
          rw [hm] at h
          injection h with h
          injection h with e1 e2
          subst e1 e2 e
          exact .ar6 a b ms h6 h1 h2 hm
      · cases h
    · have h6 := mt (hasWord_ar6 _).2 h6
      cases hm : lib.defined source with
      | none => rw [hm] at h; cases h
      | some ms =>
        rw [hm] at h
        injection h with h
        injection h with e1 e2
        subst e1 e2
        exact .plain source ms h6 hm
  · intro h
    cases h with
    | ar6 a _ _ h6 h1 h2 hm =>
      rw [if_pos ((hasWord_ar6 _).2 h6), splitDot_append h1, splitDot_one h2]
      simp only [hm]
    | plain _ _ h6 hm =>
      rw [if_neg (mt (hasWord_ar6 _).1 h6), hm]

private theorem refused_iff (part : List Char) :
    (hasWord ['o', 'c', 'e', 'a', 'n'] part || hasWord ['l', 'a', 'n', 'd'] part) = true ↔ Refused part := by
  simp only [hasWord, Bool.or_eq_true, decide_eq_true_eq]
  rfl

private theorem fromOne_iff (part : List Char) : countsFromOne part = true ↔ FromOne part := by
  simp only [countsFromOne, hasWord, Bool.or_eq_true, decide_eq_true_eq, or_assoc]
  rfl

section
variable {κ K : Type} [Field K] [LinearOrder K] (lib : RegionLibrary) (lat lon : List κ)

open Classical in
/-- **C123** When a mask is made and which: the source names a set of regions that is not refused, the regions are
given as a list, and the mask is that of these numbers (counted from one or from zero, as the name says). -/
theorem C123_made (source : List Char) (arg : RegionsArg) (r : TagFile κ K) :
    maskWithRegionmask lib lat lon source arg = .ok r ↔
      ∃ part masks l, NamesRegions lib source part masks ∧ ¬ Refused part ∧ arg = .many l ∧
        maskWithRegions lat lon masks (decide (FromOne part)) l = .ok r := by
  unfold maskWithRegionmask
  constructor
  · intro h
    cases ha : availableRegions lib source with
    | error e => rw [ha] at h; cases h
    | ok x =>
      obtain ⟨part, masks⟩ := x
      rw [ha] at h
      simp only at h
      split_ifs at h with hr
      rw [refused_iff] at hr
      cases arg with
      | one k => cases h
      | many l =>
        refine ⟨part, masks, l, (available_ok _ _ _ _).1 ha, hr, rfl, ?_⟩
        rw [← h]
        congr 1
        rw [Bool.eq_iff_iff, fromOne_iff, decide_eq_true_iff]
  · rintro ⟨part, masks, l, hn, hr, rfl, h⟩
    rw [(available_ok _ _ _ _).2 hn]
    simp only
    rw [if_neg (by rw [refused_iff]; exact hr), ← h]
    congr 1
    rw [Bool.eq_iff_iff, fromOne_iff, decide_eq_true_iff]

/-- **C123** A single number instead of a list is refused with an error, whatever the source. -/
theorem C123_single_number (source : List Char) (k : ℤ) :
    ∃ e, (maskWithRegionmask lib lat lon source (.one k) : Except Err (TagFile κ K)) = .error e := by
  unfold maskWithRegionmask
  cases ha : availableRegions lib source with
  | error e => exact ⟨e, rfl⟩
  | ok x =>
    simp only
    split_ifs
    · exact ⟨_, rfl⟩
    · exact ⟨_, rfl⟩

/-- **C123** The kinds of error: a name without "ar6" that is not known, a known name with "land" or "ocean" and a
number instead of a list are `KeyError`s; a name with "ar6" and not exactly one dot is a `ValueError`. -/
theorem C123_errors (source : List Char) (arg : RegionsArg) :
    (¬ "ar6".toList <:+: source → lib.defined source = none →
      (maskWithRegionmask lib lat lon source arg : Except Err (TagFile κ K)) = .error .keyError) ∧
    (∀ part masks, NamesRegions lib source part masks → Refused part →
      (maskWithRegionmask lib lat lon source arg : Except Err (TagFile κ K)) = .error .keyError) ∧
    (∀ part masks k, NamesRegions lib source part masks → arg = .one k →
      (maskWithRegionmask lib lat lon source arg : Except Err (TagFile κ K)) = .error .keyError) ∧
    ("ar6".toList <:+: source → source.count '.' ≠ 1 →
      (maskWithRegionmask lib lat lon source arg : Except Err (TagFile κ K)) = .error .valueError) := by
  refine ⟨?_, ?_, ?_, ?_⟩
  · intro h6 hn
    have : availableRegions lib source = .error .keyError := by
      unfold availableRegions
      rw [if_neg (mt (hasWord_ar6 _).1 h6), hn]
    unfold maskWithRegionmask
    rw [this]
  · intro part masks hn hr
    unfold maskWithRegionmask
    rw [(available_ok _ _ _ _).2 hn]
    simp only
    rw [if_pos ((refused_iff _).2 hr)]
  · intro part masks k hn ha
    subst ha
    unfold maskWithRegionmask
    rw [(available_ok _ _ _ _).2 hn]
    simp only
    split_ifs <;> rfl
  · intro h6 hd
    have : availableRegions lib source = .error .valueError := by
      unfold availableRegions
      rw [if_pos ((hasWord_ar6 _).2 h6)]
      split
      · rename_i a b hs
        obtain ⟨e, h1, h2⟩ := splitDot_two hs
        refine absurd ?_ hd
        rw [e, List.count_append, List.count_cons_self, List.count_eq_zero.2 h1, List.count_eq_zero.2 h2]
      · rfl
    unfold maskWithRegionmask
    rw [this]

/-- **C123** What precedes the dot does not matter, as long as the text contains "ar6". -/
theorem C123_before_the_dot (before part : List Char) (arg : RegionsArg) (hb : '.' ∉ before)
    (h6 : "ar6".toList <:+: before) :
    (maskWithRegionmask lib lat lon (before ++ '.' :: part) arg : Except Err (TagFile κ K)) =
      maskWithRegionmask lib lat lon ("ar6".toList ++ '.' :: part) arg := by
  have key : availableRegions lib (before ++ '.' :: part) = availableRegions lib ("ar6".toList ++ '.' :: part) := by
    unfold availableRegions
    rw [if_pos ((hasWord_ar6 _).2 (h6.trans ⟨[], '.' :: part, by simp⟩)),
      if_pos ((hasWord_ar6 _).2 ⟨[], '.' :: part, by simp⟩),
      splitDot_append hb, splitDot_append (by decide)]
    cases hs : splitDot part with
    | nil => rfl
    | cons a l => cases l <;> rfl
  unfold maskWithRegionmask
  rw [key]

/-- **C123** The published sources: region `k` of "giorgi", "srex" and "prudence" is the `k`-th, region `k` of
"ar6.all" is the one after the `k`-th; a single region gives a mask of zeros and ones. -/
theorem C123_published [IsStrictOrderedRing K] (source : List Char) (part : List Char) (start : ℤ)
    (hs : (source, part, start) ∈ [("giorgi".toList, "giorgi".toList, (1 : ℤ)), ("srex".toList, "srex".toList, 1),
      ("prudence".toList, "prudence".toList, 1), ("ar6.all".toList, "all".toList, 0)])
    (masks : List (ℕ → ℕ → Bool))
    (hm : (if part = "all".toList then lib.ar6 part else lib.defined part) = some masks)
    (k : ℤ) (hk : start ≤ k ∧ k < start + masks.length) :
    ∃ (r : TagFile κ K) (mk : ℕ → ℕ → Bool),
      maskWithRegionmask lib lat lon source (.many [k]) = .ok r ∧ masks[(k - start).toNat]? = some mk ∧
      r.latitude = lat ∧ r.longitude = lon ∧ r.time = none ∧ ∀ t i j, r.mask t i j = if mk i j then 1 else 0 := by
  have hlen : (k - start).toNat < masks.length := by omega
  have main : ∀ one : Bool, start = (if one then 1 else 0) →
      ∃ r : TagFile κ K, maskWithRegions lat lon masks one [k] = .ok r ∧
        r.latitude = lat ∧ r.longitude = lon ∧ r.time = none ∧
        ∀ t i j, r.mask t i j = if masks[(k - start).toNat] i j then 1 else 0 := by
    intro one ho
    have hidx : npIndex masks (k - start) = .ok masks[(k - start).toNat] := by
      unfold npIndex
      simp only
      rw [if_neg (by omega), if_neg (by omega), List.getElem?_eq_getElem hlen]
    have hids : regionIds one [k] = [k - start] := by
      cases one <;> simp [regionIds, ho]
    refine ⟨⟨lat, lon, none, fun _ i j => meanMask ([masks[(k - start).toNat]].map fun mk => mk i j)⟩, ?_, rfl, rfl, rfl, ?_⟩
    · unfold maskWithRegions
      rw [hids, List.mapM_cons, hidx]
      rfl
    · intro t i j
      simp only [meanMask, boolMask, List.map_cons, List.map_nil, List.foldl_cons, List.foldl_nil, List.length_cons,
        List.length_nil]
      cases masks[(k - start).toNat] i j <;> simp
  simp only [List.mem_cons, Prod.mk.injEq, List.not_mem_nil, or_false] at hs
  have fin : ∀ one : Bool, NamesRegions lib source part masks → ¬ Refused part → (countsFromOne part = one) →
      start = (if one then 1 else 0) → ∃ (r : TagFile κ K) (mk : ℕ → ℕ → Bool),
      maskWithRegionmask lib lat lon source (.many [k]) = .ok r ∧ masks[(k - start).toNat]? = some mk ∧
      r.latitude = lat ∧ r.longitude = lon ∧ r.time = none ∧ ∀ t i j, r.mask t i j = if mk i j then 1 else 0 := by
    intro one h1 h2 h3 h4
    obtain ⟨r, hr, hrest⟩ := main one h4
    refine ⟨r, _, ?_, List.getElem?_eq_getElem hlen, hrest⟩
    unfold maskWithRegionmask
    rw [(available_ok _ _ _ _).2 h1]
    simp only
    rw [if_neg (by rw [refused_iff]; exact h2), h3]
    exact hr
  rcases hs with ⟨rfl, rfl, rfl⟩ | ⟨rfl, rfl, rfl⟩ | ⟨rfl, rfl, rfl⟩ | ⟨rfl, rfl, rfl⟩
  · rw [if_neg (by decide)] at hm
    exact fin true (.plain _ _ (by decide) hm) (by unfold Refused; decide) (by decide) rfl
  · rw [if_neg (by decide)] at hm
    exact fin true (.plain _ _ (by decide) hm) (by unfold Refused; decide) (by decide) rfl
  · rw [if_neg (by decide)] at hm
    exact fin true (.plain _ _ (by decide) hm) (by unfold Refused; decide) (by decide) rfl
  · rw [if_pos rfl] at hm
    exact fin false (.ar6 "ar6".toList "all".toList _ (by decide) (by decide) (by decide) hm)
      (by unfold Refused; decide) (by decide) rfl

end

/-! ### Examples -/

/-- two regions: the northern row and the western column -/
def regionDemo : RegionLibrary where
  defined s := if s = "srex".toList then some [fun i _ => decide (i = 0), fun _ j => decide (j = 0)] else none
  ar6 s := if s = "all".toList ∨ s = "land".toList then some [fun i _ => decide (i = 0), fun _ j => decide (j = 0)] else none

example : ∃ r : TagFile ℚ ℚ, maskWithRegionmask regionDemo [1, 0] [0, 1] "srex".toList (.many [2]) = .ok r ∧
    r.mask 0 0 0 = 1 ∧ r.mask 0 0 1 = 0 := by
  obtain ⟨r, mk, h1, h2, -, -, -, h3⟩ := C123_published (K := ℚ) regionDemo [(1 : ℚ), 0] [0, 1] "srex".toList "srex".toList 1
    (by decide) [fun i _ => decide (i = 0), fun _ j => decide (j = 0)] rfl 2 (by decide)
  refine ⟨r, h1, ?_⟩
  have : mk = fun _ j => decide (j = 0) := (Option.some.inj h2).symm
  subst this
  rw [h3, h3]
  simp

/-- two regions of the AR6 set: the mean of the two -/
example : ∃ r : TagFile ℚ ℚ, maskWithRegionmask regionDemo [1, 0] [0, 1] "ar6.all".toList (.many [0, 1]) = .ok r ∧
    r.mask 0 0 1 = 1 / 2 := by
  refine ⟨_, rfl, ?_⟩
  decide +kernel

example : (maskWithRegionmask regionDemo [(1 : ℚ), 0] [0, 1] "ar6.land".toList (.many [0]) : Except Err (TagFile ℚ ℚ)) =
    .error .keyError :=
  (C123_errors (K := ℚ) regionDemo _ _ _ _).2.1 "land".toList _
    (.ar6 "ar6".toList "land".toList [fun i _ => decide (i = 0), fun _ j => decide (j = 0)] (by decide) (by decide) (by decide) rfl)
    (by unfold Refused; decide)

example : (maskWithRegionmask regionDemo [(1 : ℚ), 0] [0, 1] "ar6".toList (.many [0]) : Except Err (TagFile ℚ ℚ)) =
    .error .valueError := (C123_errors (K := ℚ) regionDemo _ _ _ _).2.2.2 (by decide) (by decide)

example : (maskWithRegionmask regionDemo [(1 : ℚ), 0] [0, 1] "not ar6.all".toList (.many [0]) : Except Err (TagFile ℚ ℚ)) =
    maskWithRegionmask regionDemo [1, 0] [0, 1] ("ar6".toList ++ '.' :: "all".toList) (.many [0]) :=
  C123_before_the_dot regionDemo _ _ "not ar6".toList "all".toList _ (by decide) (by decide)

end Wam
