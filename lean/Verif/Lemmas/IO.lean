import Verif.Lemmas.Names
import Mathlib.Data.List.Sort
import Mathlib.Tactic.Linarith

/-! # Lemmas about selection and loading -/

namespace Wam
open Spec

section Lists
variable {κ : Type*}

theorem filterMap_range' (xs : List κ) (l k : ℕ) :
    ((List.range' l k).filterMap fun i => xs[i]?) = (xs.drop l).take k := by
  induction k generalizing l with
  | zero => simp
  | succ k ih =>
    rw [List.range'_succ, List.filterMap_cons, ih]
    by_cases h : l < xs.length
    · rw [List.getElem?_eq_getElem h]
      simp only
      rw [List.drop_eq_getElem_cons h, List.take_succ_cons]
    · rw [List.getElem?_eq_none (by omega)]
      simp only
      rw [List.drop_eq_nil_of_le (by omega), List.drop_eq_nil_of_le (by omega)]
      simp

theorem filterMap_range (xs : List κ) :
    ((List.range xs.length).filterMap fun i => xs[i]?) = xs := by
  rw [List.range_eq_range', filterMap_range']
  simp

theorem filterMap_rotate (xs : List κ) (r : ℕ) :
    (((List.range xs.length).rotate r).filterMap fun i => xs[i]?) = xs.rotate r := by
  rw [List.rotate_eq_drop_append_take_mod, List.filterMap_append,
    List.rotate_eq_drop_append_take_mod, List.length_range]
  have hd : ∀ k, (((List.range xs.length).drop k).filterMap fun i => xs[i]?) = xs.drop k := by
    intro k
    rw [List.range_eq_range', List.drop_range', filterMap_range']
    simp
  have ht : ∀ k, (((List.range xs.length).take k).filterMap fun i => xs[i]?) = xs.take k := by
    intro k
    rw [List.take_range, List.range_eq_range', filterMap_range']
    simp
  rw [hd, ht]

theorem filterMap_filter (xs : List κ) (p : κ → Bool) :
    (((List.range xs.length).filter fun j => (xs.map p).getD j false).filterMap fun i => xs[i]?) =
      xs.filter p := by
  conv_rhs => rw [← filterMap_range xs]
  rw [List.filter_filterMap, List.filterMap_filter]
  apply List.filterMap_congr
  intro j hj
  rw [List.mem_range] at hj
  rw [List.getD_eq_getElem?_getD, List.getElem?_map, List.getElem?_eq_getElem hj]
  simp only [Option.map_some, Option.getD_some]
  rw [Option.filter_some]

end Lists

/-! ### Attached data -/

theorem Dataset.isel_attached {κ α : Type*} (ds : Dataset κ α) (rows cols : List ℕ)
    (hr : ∀ i ∈ rows, i < ds.latitude.length) (hc : ∀ j ∈ cols, j < ds.longitude.length) :
    Attached ds (ds.isel rows cols) := by
  have key : ∀ {γ : Type _} (xs : List γ) (is : List ℕ), (∀ i ∈ is, i < xs.length) → ∀ i y,
      (is.filterMap fun i => xs[i]?)[i]? = some y → xs[is.getD i 0]? = some y := by
    intro γ xs is h
    induction is with
    | nil => intro i y hy; simp at hy
    | cons a is ih =>
      intro i y hy
      have ha := h a (by simp)
      rw [List.filterMap_cons, List.getElem?_eq_getElem ha] at hy
      simp only at hy
      cases i with
      | zero =>
        simp only [List.getElem?_cons_zero, Option.some.injEq] at hy
        simp [List.getElem?_eq_getElem ha, hy]
      | succ i =>
        rw [List.getElem?_cons_succ] at hy
        have := ih (fun i hi => h i (by simp [hi])) i y hy
        simpa using this
  intro i j y x hy hx
  exact ⟨_, _, key _ _ hr _ _ hy, key _ _ hc _ _ hx, fun v => rfl⟩

theorem Spec.Attached.trans {κ α : Type*} {a b c : Dataset κ α} (h : Attached a b)
    (h' : Attached b c) : Attached a c := by
  intro i j y x hy hx
  obtain ⟨i1, j1, h1, h2, h3⟩ := h' i j y x hy hx
  obtain ⟨i0, j0, g1, g2, g3⟩ := h i1 j1 y x h1 h2
  exact ⟨i0, j0, g1, g2, fun v => (h3 v).trans (g3 v)⟩

/-! ### Label slices -/

section Slice
variable {κ : Type} [LinearOrder κ]

theorem take_drop_filter (p q : κ → Bool) (xs : List κ)
    (hp : xs.Pairwise fun a b => p b = true → p a = true)
    (hq : xs.Pairwise fun a b => q b = true → q a = true)
    (hpq : ∀ a ∈ xs, p a = true → q a = true) :
    (xs.drop (xs.countP p)).take (xs.countP q - xs.countP p) = xs.filter fun x => !p x && q x := by
  induction xs with
  | nil => simp
  | cons a xs ih =>
    rw [List.pairwise_cons] at hp hq
    have ih := ih hp.2 hq.2 (fun b hb => hpq b (by simp [hb]))
    by_cases pa : p a = true
    · have qa : q a = true := hpq a (by simp) pa
      rw [List.countP_cons_of_pos pa, List.countP_cons_of_pos qa, List.drop_succ_cons,
        Nat.add_sub_add_right, ih]
      simp [pa]
    · have h0 : xs.countP p = 0 := by
        rw [List.countP_eq_zero]
        intro b hb h
        exact pa (hp.1 b hb h)
      rw [List.countP_cons_of_neg pa, h0]
      rw [h0] at ih
      simp only [List.drop_zero, Nat.sub_zero] at ih ⊢
      by_cases qa : q a = true
      · rw [List.countP_cons_of_pos qa, List.take_succ_cons, ih]
        simp [pa, qa]
      · have h1 : xs.countP q = 0 := by
          rw [List.countP_eq_zero]
          intro b hb h
          exact qa (hq.1 b hb h)
        rw [List.countP_cons_of_neg qa, h1]
        symm
        simp only [List.take_zero, List.filter_eq_nil_iff]
        intro b hb h
        simp only [Bool.and_eq_true] at h
        rcases List.mem_cons.1 hb with rfl | hb
        · exact qa h.2
        · exact qa (hq.1 b hb h.2)

/-- a label slice on an increasing axis selects the labels in `[a, b]` -/
theorem labelSlice_increasing (xs : List κ) (hx : xs.Pairwise (· ≤ ·)) (a b : κ) (hab : a ≤ b) :
    ∃ is, labelSlice xs a b = .ok is ∧ (∀ i ∈ is, i < xs.length) ∧
      (is.filterMap fun i => xs[i]?) = xs.filter fun x => decide (a ≤ x ∧ x ≤ b) := by
  refine ⟨_, by rw [labelSlice, if_pos hx], ?_, ?_⟩
  · intro i hi
    have := List.countP_le_length (p := fun x => decide (x ≤ b)) (l := xs)
    rw [List.mem_range'_1] at hi
    omega
  · rw [filterMap_range', take_drop_filter (fun x => decide (x < a)) (fun x => decide (x ≤ b))]
    · apply List.filter_congr
      intro x _
      rw [← decide_not, ← Bool.decide_and]
      simp only [not_lt]
    · exact hx.imp fun h => by simpa using lt_of_le_of_lt h
    · exact hx.imp fun h => by simpa using le_trans h
    · intro x _ h
      simp only [decide_eq_true_eq] at h ⊢
      exact h.le.trans hab

/-- a label slice on a decreasing axis with at least two labels selects the labels in `[b, a]` -/
theorem labelSlice_decreasing (xs : List κ) (hx : xs.Pairwise (· > ·)) (h2 : 2 ≤ xs.length)
    (a b : κ) (hab : b ≤ a) :
    ∃ is, labelSlice xs a b = .ok is ∧ (∀ i ∈ is, i < xs.length) ∧
      (is.filterMap fun i => xs[i]?) = xs.filter fun x => decide (b ≤ x ∧ x ≤ a) := by
  have hn : ¬ xs.Pairwise (· ≤ ·) := by
    match xs, h2 with
    | x :: y :: l, _ =>
      intro h
      have e1 := (List.pairwise_cons.1 h).1 y (by simp)
      have e2 := (List.pairwise_cons.1 hx).1 y (by simp)
      exact absurd e1 (not_le.2 e2)
  have hx' : xs.Pairwise (· ≥ ·) := hx.imp fun h => le_of_lt h
  refine ⟨_, by rw [labelSlice, if_neg hn, if_pos hx'], ?_, ?_⟩
  · intro i hi
    have := List.countP_le_length (p := fun x => decide (b ≤ x)) (l := xs)
    rw [List.mem_range'_1] at hi
    omega
  · rw [filterMap_range', take_drop_filter (fun x => decide (a < x)) (fun x => decide (b ≤ x))]
    · apply List.filter_congr
      intro x _
      rw [← decide_not, ← Bool.decide_and]
      simp only [not_lt, and_comm]
    · exact hx'.imp fun h => by simpa using fun h' => lt_of_lt_of_le h' h
    · exact hx'.imp fun h => by simpa using fun h' => le_trans h' h
    · intro x _ h
      simp only [decide_eq_true_eq] at h ⊢
      exact hab.trans h.le

/-- an increasing axis splits into the labels below `a`, in `[a, b]`, and above `b` -/
theorem split_increasing (xs : List κ) (hx : xs.Pairwise (· < ·)) (a b : κ) (hab : a ≤ b) :
    xs = (xs.filter fun x => decide (x < a)) ++ ((xs.filter fun x => decide (a ≤ x ∧ x ≤ b)) ++
      xs.filter fun x => decide (b < x)) := by
  induction xs with
  | nil => simp
  | cons y xs ih =>
    rw [List.pairwise_cons] at hx
    have ih := ih hx.2
    by_cases h1 : y < a
    · rw [List.filter_cons_of_pos (by simpa using h1), List.filter_cons_of_neg
        (by simp only [decide_eq_true_eq, not_and]; intro h; exact absurd h1 (not_lt.2 h)),
        List.filter_cons_of_neg (by simp only [decide_eq_true_eq]; exact not_lt.2 (h1.le.trans hab)),
        List.cons_append]
      rw [← ih]
    · have e1 : (xs.filter fun x => decide (x < a)) = [] := by
        rw [List.filter_eq_nil_iff]
        intro z hz
        simp only [decide_eq_true_eq, not_lt]
        exact (not_lt.1 h1).trans (hx.1 z hz).le
      rw [e1, List.nil_append] at ih
      rw [List.filter_cons_of_neg (by simpa using h1), e1, List.nil_append]
      by_cases h2 : y ≤ b
      · rw [List.filter_cons_of_pos (by simpa using ⟨not_lt.1 h1, h2⟩),
          List.filter_cons_of_neg (by simpa using h2), List.cons_append]
        rw [← ih]
      · have e2 : (xs.filter fun x => decide (a ≤ x ∧ x ≤ b)) = [] := by
          rw [List.filter_eq_nil_iff]
          intro z hz
          simp only [decide_eq_true_eq, not_and, not_le]
          intro _
          exact (not_le.1 h2).trans (hx.1 z hz)
        rw [e2, List.nil_append] at ih
        rw [List.filter_cons_of_neg (by simp [h2]), e2, List.nil_append,
          List.filter_cons_of_pos (by simpa using h2)]
        rw [← ih]

end Slice

end Wam
