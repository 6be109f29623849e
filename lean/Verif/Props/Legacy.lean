import Verif.Spec.Legacy
import Verif.Props.Column
import Mathlib.Data.List.Sort

/-!
# C125: the functions for pressure levels that are no longer called
-/

set_option linter.unusedSectionVars false
set_option linter.unusedVariables false

namespace Wam
open Spec

section
variable {K : Type} [Field K] [LinearOrder K] [IsStrictOrderedRing K]

/-! ### Interpolation -/

private theorem npInterp_knot (pts : List (K × K)) (hs : pts.Pairwise fun a b => a.1 < b.1) (i : ℕ)
    (hi : i < pts.length) : npInterp pts[i].1 pts = pts[i].2 := by
  induction pts generalizing i with
  | nil => simp at hi
  | cons a l ih =>
    cases l with
    | nil =>
      have : i = 0 := by simpa using hi
      subst this
      rfl
    | cons b l =>
      have hab : a.1 < b.1 := (List.pairwise_cons.1 hs).1 b (List.mem_cons_self ..)
      cases i with
      | zero =>
        have h1 : NpOps.le b.1 a.1 = false := decide_eq_false (not_le.2 hab)
        have h2 : NpOps.le a.1 a.1 = true := decide_eq_true le_rfl
        show npInterp a.1 (a :: b :: l) = a.2
        simp only [npInterp, h1, h2, Bool.and_self, if_true, Bool.false_eq_true, if_false]
      | succ i =>
        have hs' := (List.pairwise_cons.1 hs).2
        have hi' : i < (b :: l).length := by simpa using hi
        have h1 : NpOps.le b.1 (b :: l)[i].1 = true := by
          refine decide_eq_true ?_
          cases i with
          | zero => exact le_rfl
          | succ i => exact (List.pairwise_iff_getElem.1 hs' 0 (i + 1) (by simp) hi' (by omega)).le
        show npInterp (b :: l)[i].1 (a :: b :: l) = (b :: l)[i].2
        rw [npInterp, if_pos h1]
        exact ih hs' i hi'

private theorem npInterp_line (x : K) (pts : List (K × K)) (hs : pts.Pairwise fun a b => a.1 < b.1) (i : ℕ)
    (hi : i + 1 < pts.length) (h1 : pts[i].1 < x) (h2 : x < pts[i + 1].1) :
    npInterp x pts = line pts[i].1 pts[i].2 pts[i + 1].1 pts[i + 1].2 x := by
  induction pts generalizing i with
  | nil => simp at hi
  | cons a l ih =>
    cases l with
    | nil => simp at hi
    | cons b l =>
      cases i with
      | zero =>
        have h3 : NpOps.le b.1 x = false := decide_eq_false (not_le.2 h2)
        have h4 : NpOps.le x a.1 = false := decide_eq_false (not_le.2 h1)
        simp only [npInterp, h3, h4, Bool.false_and, Bool.false_eq_true, if_false, List.getElem_cons_zero,
          List.getElem_cons_succ, line]
        ring
      | succ i =>
        have hs' := (List.pairwise_cons.1 hs).2
        have hi' : i + 1 < (b :: l).length := by simpa using hi
        have h3 : NpOps.le b.1 x = true := by
          refine decide_eq_true ?_
          refine le_trans ?_ h1.le
          show b.1 ≤ (b :: l)[i].1
          cases i with
          | zero => exact le_rfl
          | succ i => exact (List.pairwise_iff_getElem.1 hs' 0 (i + 1) (by simp) (by omega) (by omega)).le
        rw [npInterp, if_pos h3]
        exact ih hs' i hi' h1 h2

private theorem fst_zip {xp fp : List K} (h : fp.length = xp.length) : (xp.zip fp).map Prod.fst = xp :=
  List.map_fst_zip (by omega)

private theorem old_sorted (x : K) (xp fp : List K) (hlen : fp.length = xp.length) (hs : xp.Pairwise (· < ·))
    (h2 : 2 ≤ xp.length) :
    (if NpOps.lt x (xp[0]) || NpOps.lt (xp[xp.length - 1]) x then (.error .valueError : Except Err K)
      else .ok (npInterp x (xp.zip fp))) = interpolate x xp fp false := by
  have hs' : xp.Pairwise (· ≤ ·) := hs.imp le_of_lt
  split_ifs with hb
  · rw [Bool.or_eq_true] at hb
    refine ((interpolate_error x xp fp).2.2 h2 hs' ?_).symm
    exact hb.imp of_decide_eq_true of_decide_eq_true
  · have hb' : ¬ (x < xp[0] ∨ xp[xp.length - 1] < x) := fun h => hb (by
      rw [Bool.or_eq_true]; exact h.imp decide_eq_true decide_eq_true)
    replace hb' : xp[0] ≤ x ∧ x ≤ xp[xp.length - 1] := ⟨not_lt.1 fun h => hb' (.inl h), not_lt.1 fun h => hb' (.inr h)⟩
    have hz : (xp.zip fp).length = xp.length := by rw [List.length_zip, hlen, min_self]
    have hp : (xp.zip fp).Pairwise fun a b => a.1 < b.1 := by
      have := hs
      rw [← fst_zip hlen, List.pairwise_map] at this
      exact this
    have hspan : xp[0] < xp[xp.length - 1] := List.pairwise_iff_getElem.1 hs _ _ _ _ (by omega)
    obtain ⟨-, hB, hC⟩ := C49_piecewise_linear x xp fp hlen hs' h2 hspan
    have hknot : ∀ (i : ℕ) (hi : i < xp.length), x = xp[i] → Except.ok (npInterp x (xp.zip fp)) = interpolate x xp fp false := by
      intro i hi hx
      have := npInterp_knot (xp.zip fp) hp i (by omega)
      rw [List.getElem_zip] at this
      rw [hx, C49_exact_at_samples xp fp hlen hs h2 i hi]
      exact congrArg Except.ok this
    rcases hb'.1.eq_or_lt with h | h
    · exact hknot 0 (by omega) h.symm
    · obtain ⟨i, hi, h3, h4⟩ := hC h hb'.2
      rcases h4.eq_or_lt with h5 | h5
      · exact hknot (i + 1) hi h5
      · rw [hB i hi h3 h4]
        have := npInterp_line x (xp.zip fp) hp i (by omega) (by rw [List.getElem_zip]; exact h3)
          (by rw [List.getElem_zip]; exact h5)
        rw [List.getElem_zip, List.getElem_zip] at this
        rw [this]

private theorem le_trans' (a b c : K × K) (h1 : NpOps.le a.1 b.1 = true) (h2 : NpOps.le b.1 c.1 = true) :
    NpOps.le a.1 c.1 = true :=
  decide_eq_true ((of_decide_eq_true h1 : a.1 ≤ b.1).trans (of_decide_eq_true h2))

private theorem le_total' (a b : K × K) : (NpOps.le a.1 b.1 || NpOps.le b.1 a.1) = true := by
  rw [Bool.or_eq_true]
  exact (le_total a.1 b.1).imp decide_eq_true decide_eq_true

/-- sorting gives the only arrangement with increasing coordinates -/
private theorem sort_unique (l s : List (K × K)) (hp : l.Perm s) (hs : s.Pairwise fun a b => a.1 < b.1) :
    l.mergeSort (fun a b => NpOps.le a.1 b.1) = s := by
  have h1 := List.pairwise_mergeSort (le := fun a b : K × K => NpOps.le a.1 b.1) le_trans' le_total' l
  have h2 : (l.mergeSort fun a b => NpOps.le a.1 b.1).Perm s := (List.mergeSort_perm l _).trans hp
  have h3 : (l.mergeSort fun a b => NpOps.le a.1 b.1).Pairwise fun a b => a.1 < b.1 := by
    have hn : (l.mergeSort fun a b => NpOps.le a.1 b.1).Pairwise fun a b => a.1 ≠ b.1 := by
      refine (h2.pairwise_iff ?_).2 (hs.imp ne_of_lt)
      intro a b h
      exact h.symm
    exact (h1.and hn).imp fun h => lt_of_le_of_ne (of_decide_eq_true h.1) h.2
  refine h2.eq_of_pairwise (fun a b _ _ h4 h5 => absurd h4 (not_lt.2 h5.le)) h3 hs

private theorem filterMap_some (l : List K) : (l.map some).filterMap id = l := by
  rw [List.filterMap_map]; simp

/-- **C125** `interpolate_old` on samples in any order, with masked values where both coordinate and variable are masked, is
`interpolate` on the unmasked samples in increasing order: the same value, and the same error outside of the samples. -/
theorem C125_interpolate_old (x : K) (xp fp : List (Option K)) (s : List (K × K))
    (hpts : ((xp.filterMap id).zip (fp.filterMap id)).Perm s)
    (hlen : (xp.filterMap id).length = (fp.filterMap id).length)
    (hs : s.Pairwise fun a b => a.1 < b.1) (h2 : 2 ≤ s.length) :
    interpolateOld x xp fp = interpolate x (s.map Prod.fst) (s.map Prod.snd) false := by
  unfold interpolateOld
  simp only
  rw [if_neg (by rw [hlen]; simp), sort_unique _ s hpts hs]
  have hm : (s.map Prod.fst).Pairwise (· < ·) := List.pairwise_map.2 hs
  rw [← old_sorted x (s.map Prod.fst) (s.map Prod.snd) (by simp) hm (by simpa using h2)]
  have h0 : s.head? = some s[0] := by rw [List.head?_eq_getElem?, List.getElem?_eq_getElem]
  have h1 : s.getLast? = some s[s.length - 1] := by rw [List.getLast?_eq_getElem?, List.getElem?_eq_getElem]
  rw [h0, h1]
  have hz : (s.map Prod.fst).zip (s.map Prod.snd) = s := by
    have := List.zip_unzip s
    rw [List.unzip_eq_map] at this
    exact this
  simp only [hz, List.getElem_map, List.length_map]

/-- **C125** On a decreasing axis `interpolate_old` is `interpolate` with `descending=True`. -/
theorem C125_interpolate_old_descending (x : K) (xp fp : List K) (hlen : fp.length = xp.length)
    (hs : xp.Pairwise (· > ·)) (h2 : 2 ≤ xp.length) :
    interpolateOld x (xp.map some) (fp.map some) = interpolate x xp fp true := by
  have hd := C49_descending x xp.reverse fp.reverse
  rw [List.reverse_reverse, List.reverse_reverse] at hd
  rw [hd]
  have hz : (xp.zip fp).reverse.map Prod.fst = xp.reverse ∧ (xp.zip fp).reverse.map Prod.snd = fp.reverse := by
    rw [List.map_reverse, List.map_reverse, fst_zip hlen, List.map_snd_zip (by omega)]
    exact ⟨rfl, rfl⟩
  have hzl : (xp.zip fp).length = xp.length := by rw [List.length_zip, hlen, min_self]
  have key := C125_interpolate_old x (xp.map some) (fp.map some) (xp.zip fp).reverse
    (by rw [filterMap_some, filterMap_some]; exact (List.reverse_perm _).symm)
    (by rw [filterMap_some, filterMap_some, hlen])
    (by
      rw [List.pairwise_reverse]
      have := hs
      rw [← fst_zip hlen, List.pairwise_map] at this
      exact this)
    (by rw [List.length_reverse]; omega)
  rw [key, hz.1, hz.2]

/-! ### Joining levels -/

/-- **C125** `join_levels` gives all levels and the surface, with falling pressure; of levels that fall and lie below 1100 hPa
the surface comes first and the rest is unchanged. -/
theorem C125_join_levels (data : List (K × K)) (surface : K) (h : data ≠ []) :
    ∃ r, joinLevels data surface = .ok r ∧ r.Perm ((110000, surface) :: data) ∧ r.Pairwise (fun a b => b.1 ≤ a.1) ∧
      (data.Pairwise (fun a b => b.1 < a.1) → (∀ a ∈ data, a.1 < 110000) → r = (110000, surface) :: data) := by
  have e : (ofRat 110000 : K) = 110000 := by
    show ((110000 : ℚ) : K) = 110000
    norm_num
  cases data with
  | nil => exact absurd rfl h
  | cons d data =>
    refine ⟨_, rfl, ?_, ?_, ?_⟩
    · unfold sortLevDescending
      refine (List.reverse_perm _).trans ((List.mergeSort_perm _ _).trans ?_)
      rw [e]
      exact List.perm_append_singleton _ _
    · unfold sortLevDescending
      rw [List.pairwise_reverse]
      exact (List.pairwise_mergeSort (le := fun a b : K × K => NpOps.le a.1 b.1) le_trans' le_total' _).imp
        fun h => of_decide_eq_true h
    · intro h1 h2
      unfold sortLevDescending
      rw [e, sort_unique _ ((110000, surface) :: d :: data).reverse]
      · rw [List.reverse_reverse]
      · exact (List.perm_append_singleton _ _).trans (List.reverse_perm _).symm
      · rw [List.pairwise_reverse, List.pairwise_cons]
        exact ⟨h2, h1⟩

/-- **C125** `repeat_upper_level` keeps the levels and adds one at 100 hPa with the value of the last level or the given
value. -/
theorem C125_repeat_upper_level (data : List (K × K)) (last : K × K) (fill : Option K) :
    repeatUpperLevel (data ++ [last]) fill = .ok (data ++ [last] ++ [(10000, fill.getD last.2)]) := by
  have e : (ofRat 10000 : K) = 10000 := by
    show ((10000 : ℚ) : K) = 10000
    norm_num
  have e1 : (ofRat 1 : K) = 1 := by
    show ((1 : ℚ) : K) = 1
    norm_num
  unfold repeatUpperLevel
  rw [List.getLast?_append_of_ne_nil _ (by simp)]
  cases fill <;> simp [e, e1]

/-! ### New levels -/

private theorem shift_above (pb : K) (a : List K) (x : K) (l : List K) (ha : ∀ y ∈ a, pb < y) :
    shiftLevels pb (x :: (a ++ l)) = a ++ shiftLevels pb ((x :: a).getLast (by simp) :: l) := by
  have e1 : (ofRat 1 : K) = 1 := by
    show ((1 : ℚ) : K) = 1
    norm_num
  induction a generalizing x with
  | nil => rfl
  | cons y a ih =>
    have hy : (NpOps.lt pb y : Bool) = true := decide_eq_true (ha y (List.mem_cons_self ..))
    rw [List.cons_append, shiftLevels, ih y (fun z hz => ha z (List.mem_cons_of_mem _ hz))]
    simp only [hy, if_true, e1, sub_self, zero_mul, one_mul, add_zero, List.cons_append]
    have e : (x :: y :: a).getLast (by simp) = (y :: a).getLast (by simp) := List.getLast_cons (by simp)
    rw [e]

private theorem shift_below (pb : K) (x : K) (l : List K) (hl : ∀ y ∈ l, ¬ pb < y) :
    shiftLevels pb (x :: l) = x :: l := by
  have e1 : (ofRat 1 : K) = 1 := by
    show ((1 : ℚ) : K) = 1
    norm_num
  have e0 : (ofRat 0 : K) = 0 := by
    show ((0 : ℚ) : K) = 0
    norm_num
  induction l generalizing x with
  | nil => rfl
  | cons y l ih =>
    have hy : (NpOps.lt pb y : Bool) = false := decide_eq_false (hl y (List.mem_cons_self ..))
    rw [shiftLevels, ih y (fun z hz => hl z (List.mem_cons_of_mem _ hz))]
    simp only [hy, Bool.false_eq_true, if_false, e1, e0, sub_zero, zero_mul, one_mul, zero_add]

private def mark (pb a b : K) : K := if NpOps.le a b && NpOps.le b a then pb else b

private theorem mark_ne {pb a b : K} (h : a ≠ b) : mark pb a b = b := by
  unfold mark
  rw [if_neg]
  rw [Bool.and_eq_true]
  rintro ⟨h1, h2⟩
  exact h (le_antisymm (of_decide_eq_true h1) (of_decide_eq_true h2))

private theorem mark_eq (pb a : K) : mark pb a a = pb := by
  unfold mark
  have : (NpOps.le a a : Bool) = true := decide_eq_true le_rfl
  rw [this]; rfl

private theorem zip_mark (pb x : K) (l : List K) (h : (x :: l).Pairwise (· > ·)) :
    List.zipWith (mark pb) (x :: l) l = l := by
  induction l generalizing x with
  | nil => rfl
  | cons y l ih =>
    obtain ⟨h1, h2⟩ := List.pairwise_cons.1 h
    rw [List.zipWith_cons_cons, ih y h2, mark_ne (h1 y (List.mem_cons_self ..)).ne']

private theorem zip_mark_twice (pb x : K) (l r : List K) (h : (x :: (l ++ r)).Pairwise (· > ·)) :
    List.zipWith (mark pb) (x :: (l ++ (x :: l).getLast (by simp) :: r)) (l ++ (x :: l).getLast (by simp) :: r) =
      l ++ pb :: r := by
  induction l generalizing x with
  | nil =>
    simp only [List.nil_append, List.getLast_singleton, List.zipWith_cons_cons, mark_eq]
    rw [zip_mark pb x r h]
  | cons y l ih =>
    obtain ⟨h1, h2⟩ := List.pairwise_cons.1 h
    have e : (x :: y :: l).getLast (by simp) = (y :: l).getLast (by simp) := List.getLast_cons (by simp)
    rw [e, List.cons_append, List.zipWith_cons_cons, ih y h2, mark_ne (h1 y (List.mem_cons_self ..)).ne']
    rfl

private theorem regular_eq (ps : K) (n : ℕ) : regularLevels ps n = 0 :: Spec.equalLevels ps n ++ [0] := by
  unfold regularLevels Spec.equalLevels
  have h : ∀ q : ℚ, (ofRat q : K) = (q : K) := fun _ => rfl
  simp only [h]
  norm_num
  intro k _
  ring

private theorem equal_decreasing (ps : K) (n : ℕ) (hps : 20000 < ps) (hn : 2 ≤ n) :
    (Spec.equalLevels ps n ++ [0]).Pairwise (· > ·) := by
  have hn1 : (0 : K) < n - 1 := by
    have : (2 : K) ≤ n := by exact_mod_cast hn
    linarith
  rw [List.pairwise_append]
  refine ⟨?_, List.pairwise_singleton _ _, ?_⟩
  · unfold Spec.equalLevels
    rw [List.pairwise_map]
    refine List.pairwise_lt_range.imp ?_
    intro a b hab
    have h1 : (a : K) < b := by exact_mod_cast hab
    have h2 : (ps - 20000) * a / (n - 1) < (ps - 20000) * b / (n - 1) :=
      div_lt_div_of_pos_right (mul_lt_mul_of_pos_left h1 (by linarith)) hn1
    show ps - _ < ps - _
    linarith
  · intro a ha b hb
    rw [List.mem_singleton] at hb
    subst hb
    obtain ⟨k, hk, rfl⟩ := List.mem_map.1 ha
    rw [List.mem_range] at hk
    have h1 : (k : K) ≤ n - 1 := by
      have : ((k + 1 : ℕ) : K) ≤ n := by exact_mod_cast hk
      push_cast at this
      linarith
    have h2 : (ps - 20000) * k / (n - 1) ≤ ps - 20000 := by
      rw [div_le_iff₀ hn1]
      exact mul_le_mul_of_nonneg_left h1 (by linarith)
    show (0 : K) < ps - _
    linarith

private theorem split_at (pb : K) (l : List K) (h : l.Pairwise (· > ·)) :
    l = l.filter (fun y => decide (pb < y)) ++ l.filter (fun y => decide (y ≤ pb)) := by
  induction l with
  | nil => rfl
  | cons a l ih =>
    obtain ⟨h1, h2⟩ := List.pairwise_cons.1 h
    by_cases ha : pb < a
    · rw [List.filter_cons_of_pos (by simpa using ha), List.filter_cons_of_neg (by simpa using ha), List.cons_append, ← ih h2]
    · have hn : l.filter (fun y => decide (pb < y)) = [] := by
        rw [List.filter_eq_nil_iff]
        intro b hb
        have := h1 b hb
        rw [decide_eq_true_iff, not_lt]
        exact (le_of_lt this).trans (not_lt.1 ha)
      rw [List.filter_cons_of_neg (by simpa using ha), hn, List.nil_append,
        List.filter_cons_of_pos (by simpa using ha)]
      congr 1
      symm
      rw [List.filter_eq_self]
      intro b hb
      have := h1 b hb
      rw [decide_eq_true_iff]
      exact (le_of_lt this).trans (not_lt.1 ha)

/-- **C125** `get_new_target_levels`: the equally spaced levels from the surface to 200 hPa with the boundary in its place
and a zero at the end, if the boundary lies above the surface. -/
theorem C125_target_levels (ps pb : K) (n : ℕ) (hps : 20000 < ps) (hn : 2 ≤ n) (h0 : 0 ≤ pb) (hb : pb < ps) :
    getNewTargetLevels ps pb n =
      (Spec.equalLevels ps n).filter (fun y => decide (pb < y)) ++
        pb :: (Spec.equalLevels ps n).filter (fun y => decide (y ≤ pb)) ++ [0] := by
  have hd := equal_decreasing ps n hps hn
  have hsplit := split_at pb (Spec.equalLevels ps n) (List.pairwise_append.1 hd).1
  unfold getNewTargetLevels
  rw [regular_eq]
  generalize hA : (Spec.equalLevels ps n).filter (fun y => decide (pb < y)) = A at *
  generalize hB : (Spec.equalLevels ps n).filter (fun y => decide (y ≤ pb)) = B at *
  have hA0 : ps ∈ A := by
    rw [← hA, List.mem_filter]
    refine ⟨?_, decide_eq_true hb⟩
    unfold Spec.equalLevels
    exact List.mem_map.2 ⟨0, by rw [List.mem_range]; omega, by simp⟩
  have hAgt : ∀ y ∈ A, pb < y := by
    intro y hy
    rw [← hA, List.mem_filter] at hy
    exact of_decide_eq_true hy.2
  have hBle : ∀ y ∈ B ++ [0], ¬ pb < y := by
    intro y hy
    rw [List.mem_append, List.mem_singleton] at hy
    rcases hy with hy | rfl
    · rw [← hB, List.mem_filter] at hy
      exact not_lt.2 (of_decide_eq_true hy.2)
    · exact not_lt.2 h0
  rw [hsplit] at hd ⊢
  have e1 : (0 : K) :: (A ++ B) ++ [0] = 0 :: (A ++ (B ++ [0])) := by simp
  rw [e1, shift_above pb A 0 (B ++ [0]) hAgt, shift_below _ _ _ hBle]
  cases A with
  | nil => cases hA0
  | cons a A =>
    have e2 : (0 :: a :: A).getLast (by simp) = (a :: A).getLast (by simp) := List.getLast_cons (by simp)
    rw [e2, List.cons_append, markBoundary]
    have := zip_mark_twice pb a A (B ++ [0]) (by simpa using hd)
    unfold mark at this
    rw [this]
    simp

/-- **C125** So there are `n + 2` levels, the boundary is one of them, and the pressure falls. -/
theorem C125_target_levels_fall (ps pb : K) (n : ℕ) (hps : 20000 < ps) (hn : 2 ≤ n) (h0 : 0 ≤ pb) (hb : pb < ps) :
    (getNewTargetLevels ps pb n).length = n + 2 ∧ pb ∈ getNewTargetLevels ps pb n ∧
      (getNewTargetLevels ps pb n).Pairwise (· ≥ ·) := by
  have hd := equal_decreasing ps n hps hn
  have hsplit := split_at pb (Spec.equalLevels ps n) (List.pairwise_append.1 hd).1
  have hl : (Spec.equalLevels ps n).length = n := by unfold Spec.equalLevels; simp
  rw [C125_target_levels ps pb n hps hn h0 hb]
  refine ⟨?_, by simp, ?_⟩
  · have := congrArg List.length hsplit
    rw [hl, List.length_append] at this
    simp only [List.length_append, List.length_cons, List.length_nil]
    omega
  · have hp : ((Spec.equalLevels ps n).filter (fun y => decide (pb < y)) ++
        (Spec.equalLevels ps n).filter (fun y => decide (y ≤ pb)) ++ [0]).Pairwise (· > ·) := by
      rw [← hsplit]; exact hd
    rw [List.append_assoc, List.pairwise_append] at hp ⊢
    obtain ⟨p1, p2, p3⟩ := hp
    refine ⟨p1.imp le_of_lt, ?_, ?_⟩
    · rw [List.cons_append, List.pairwise_cons]
      refine ⟨?_, p2.imp le_of_lt⟩
      intro y hy
      rw [List.mem_append, List.mem_filter, List.mem_singleton] at hy
      rcases hy with hy | rfl
      · exact of_decide_eq_true hy.2
      · exact h0
    · intro x hx y hy
      rw [List.cons_append, List.mem_cons] at hy
      rcases hy with rfl | hy
      · rw [List.mem_filter] at hx
        exact le_of_lt (of_decide_eq_true hx.2)
      · exact le_of_lt (p3 x hx y hy)

/-- **C125** A boundary at or below the surface is left out, without an error. -/
theorem C125_boundary_below_surface (ps pb : K) (n : ℕ) (hps : 20000 < ps) (hn : 2 ≤ n) (hb : ps ≤ pb) :
    getNewTargetLevels ps pb n = 0 :: Spec.equalLevels ps n ++ [0] := by
  have hd := equal_decreasing ps n hps hn
  unfold getNewTargetLevels
  rw [regular_eq]
  have hle : ∀ y ∈ Spec.equalLevels ps n ++ [0], ¬ pb < y := by
    intro y hy
    rw [not_lt]
    refine le_trans ?_ hb
    have hmem : ps ∈ Spec.equalLevels ps n ++ [0] := by
      refine List.mem_append_left _ ?_
      unfold Spec.equalLevels
      exact List.mem_map.2 ⟨0, by rw [List.mem_range]; omega, by simp⟩
    rw [List.mem_append, List.mem_singleton] at hy
    rcases hy with hy | rfl
    · unfold Spec.equalLevels at hy
      obtain ⟨k, hk, rfl⟩ := List.mem_map.1 hy
      have hn1 : (0 : K) < n - 1 := by
        have : (2 : K) ≤ n := by exact_mod_cast hn
        linarith
      have : 0 ≤ (ps - 20000) * k / (n - 1) :=
        div_nonneg (mul_nonneg (by linarith) (Nat.cast_nonneg k)) hn1.le
      linarith
    · linarith
  rw [List.cons_append, shift_below _ _ _ hle, markBoundary]
  congr 1
  obtain ⟨a, l, e⟩ : ∃ a l, Spec.equalLevels ps n ++ [0] = a :: l := by
    rcases h : Spec.equalLevels ps n ++ [0] with _ | ⟨a, l⟩
    · simp at h
    · exact ⟨a, l, rfl⟩
  have ha : a ≠ 0 := by
    have hl : l ≠ [] := by
      intro hl
      have := congrArg List.length e
      rw [hl] at this
      unfold Spec.equalLevels at this
      simp at this
      omega
    have hz : (0 : K) ∈ l := by
      have h1 : (a :: l).getLast (by simp) = 0 := by
        have : (Spec.equalLevels ps n ++ [0]).getLast (by simp) = 0 := by simp
        simpa [e] using this
      rw [List.getLast_cons hl] at h1
      rw [← h1]
      exact List.getLast_mem hl
    rw [e] at hd
    exact ((List.pairwise_cons.1 hd).1 0 hz).ne'
  rw [e] at hd ⊢
  show List.zipWith (mark pb) (0 :: a :: l) (a :: l) = a :: l
  rw [List.zipWith_cons_cons, zip_mark pb a l hd, mark_ne (Ne.symm ha)]

end

/-! ### Examples -/

/-- the comment in the code expects `[0, 1000, 900, 850, ...]`; the zero is at the other end -/
example : getNewTargetLevels (100000 : ℚ) 85000 5 = [100000, 85000, 80000, 60000, 40000, 20000, 0] := by decide +kernel
example : getNewTargetLevels (100000 : ℚ) 100000 5 = [0, 100000, 80000, 60000, 40000, 20000, 0] := by decide +kernel
example : (getNewTargetLevels (100000 : ℚ) 85000 40).length = 42 :=
  (C125_target_levels_fall 100000 85000 40 (by norm_num) (by norm_num) (by norm_num) (by norm_num)).1

example : interpolateOld (5 / 2 : ℚ) [some 3, none, some 1, some 7] [some 8, none, some 0, some 1] =
    interpolate (5 / 2) [1, 3, 7] [0, 8, 1] false ∧ interpolateOld (5 / 2 : ℚ) [some 3, none, some 1, some 7]
      [some 8, none, some 0, some 1] = .ok 6 := by
  have h := C125_interpolate_old (5 / 2 : ℚ) [some 3, none, some 1, some 7] [some 8, none, some 0, some 1]
    [(1, 0), (3, 8), (7, 1)] (by decide +kernel) (by decide +kernel) (by decide +kernel) (by decide +kernel)
  refine ⟨h, h.trans ?_⟩
  decide +kernel

example : interpolateOld (4 : ℚ) [some 7, some 3] [some 1, some 9] = .ok 7 := by
  have h := C125_interpolate_old_descending (4 : ℚ) [7, 3] [1, 9] rfl (by decide +kernel) (by decide +kernel)
  refine h.trans ?_
  decide +kernel

/-- masks that differ: the values belong to other levels than they should, without an error -/
example : interpolateOld (2 : ℚ) [some 1, none, some 3] [none, some 4, some 8] = .ok 6 := by
  have h := C125_interpolate_old (2 : ℚ) [some 1, none, some 3] [none, some 4, some 8]
    [(1, 4), (3, 8)] (by decide +kernel) (by decide +kernel) (by decide +kernel) (by decide +kernel)
  refine h.trans ?_
  decide +kernel

example : joinLevels [(85000, 3), (50000, (1 : ℚ))] 7 = .ok [(110000, 7), (85000, 3), (50000, 1)] := by
  obtain ⟨r, h1, -, -, h2⟩ := C125_join_levels [(85000, 3), (50000, (1 : ℚ))] 7 (by simp)
  rw [h1, h2 (by decide +kernel) (by decide +kernel)]

example : repeatUpperLevel [(85000, 3), (50000, (1 : ℚ))] none = .ok [(85000, 3), (50000, 1), (10000, 1)] :=
  C125_repeat_upper_level [(85000, 3)] (50000, 1) none

end Wam
