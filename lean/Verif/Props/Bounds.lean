import Verif.Spec.Validate
import Verif.Lemmas.NumK
import Verif.Lemmas.XF
import Verif.Lemmas.Column
import Mathlib.Tactic.Linarith
import Mathlib.Tactic.Ring
import Mathlib.Tactic.NormNum
import Mathlib.Data.List.GetD

/-! # C61: `add_bounds` -/

set_option linter.unusedSectionVars false
set_option linter.unusedVariables false

namespace Wam
open Spec

section
variable {K : Type} [Field K] [LinearOrder K] [IsStrictOrderedRing K]

/-- an element in the middle of a sorted list whose value occurs in more than half of the places -/
theorem middle_of_majority (s : List K) (hs : s.Pairwise (· ≤ ·)) (d : K)
    (hc : s.length < 2 * s.count d) (m : ℕ) (hm : m < s.length) (h1 : s.length ≤ 2 * m + 2)
    (h2 : 2 * m ≤ s.length) : s[m] = d := by
  rw [List.pairwise_iff_getElem] at hs
  rcases lt_trichotomy s[m] d with h | h | h
  · exfalso
    have hz : (s.take (m + 1)).count d = 0 := by
      rw [List.count_eq_zero]
      intro hd
      obtain ⟨i, hi, he⟩ := List.getElem_of_mem hd
      rw [List.length_take] at hi
      rw [List.getElem_take] at he
      have : s[i] ≤ s[m] := by
        rcases Nat.lt_or_ge i m with hlt | hge
        · exact hs i m (by omega) hm hlt
        · have : i = m := by omega
          subst this; exact le_rfl
      rw [he] at this
      exact absurd h (not_lt.2 this)
    have hsum : s.count d = (s.take (m + 1)).count d + (s.drop (m + 1)).count d := by
      rw [← List.count_append, List.take_append_drop]
    have hle : (s.drop (m + 1)).count d ≤ s.length - (m + 1) := by
      have := List.count_le_length (a := d) (l := s.drop (m + 1))
      rwa [List.length_drop] at this
    omega
  · exact h
  · exfalso
    have hz : (s.drop m).count d = 0 := by
      rw [List.count_eq_zero]
      intro hd
      obtain ⟨i, hi, he⟩ := List.getElem_of_mem hd
      rw [List.length_drop] at hi
      rw [List.getElem_drop] at he
      have : s[m] ≤ s[m + i] := by
        rcases Nat.eq_zero_or_pos i with h0 | h0
        · subst h0; exact le_rfl
        · exact hs m (m + i) hm (by omega) (by omega)
      rw [he] at this
      exact absurd h (not_lt.2 this)
    have hsum : s.count d = (s.take m).count d + (s.drop m).count d := by
      rw [← List.count_append, List.take_append_drop]
    have hle : (s.take m).count d ≤ m := by
      have := List.count_le_length (a := d) (l := s.take m)
      rw [List.length_take] at this
      omega
    omega

theorem npMedian_majority (xs : List K) (d : K) (hc : xs.length < 2 * xs.count d) :
    npMedian xs = d := by
  set s := xs.insertionSort fun a b => NpOps.le a b = true with hsdef
  have hp : s.Perm xs := List.perm_insertionSort _ _
  have hsort : s.Pairwise (· ≤ ·) := by
    haveI : Std.Total (fun a b : K => NpOps.le a b = true) := ⟨fun a b => by
      simp only [np_le, decide_eq_true_eq]; exact le_total a b⟩
    haveI : IsTrans K (fun a b : K => NpOps.le a b = true) := ⟨fun a b c => by
      simp only [np_le, decide_eq_true_eq]; exact le_trans⟩
    have := List.pairwise_insertionSort (fun a b : K => NpOps.le a b = true) xs
    exact this.imp fun h => by simpa using h
  have hlen : s.length = xs.length := hp.length_eq
  have hcount : s.length < 2 * s.count d := by rw [hlen, hp.count_eq]; exact hc
  have h0 : 0 < s.length := by
    rcases Nat.eq_zero_or_pos s.length with h | h
    · have : s = [] := List.eq_nil_of_length_eq_zero h
      rw [this] at hcount; simp at hcount
    · exact h
  unfold npMedian
  rw [← hsdef]
  dsimp only
  rw [if_neg (by omega)]
  by_cases hodd : s.length % 2 = 1
  · rw [if_pos hodd, List.getD_eq_getElem _ _ (by omega)]
    exact middle_of_majority s hsort d hcount _ (by omega) (by omega) (by omega)
  · rw [if_neg hodd, List.getD_eq_getElem _ _ (by omega), List.getD_eq_getElem _ _ (by omega),
      middle_of_majority s hsort d hcount _ (by omega) (by omega) (by omega),
      middle_of_majority s hsort d hcount _ (by omega) (by omega) (by omega)]
    rw [ofRat_two]; ring

theorem npDiff_getElem (xs : List K) (i : ℕ) (x y : K) (hx : xs[i]? = some x)
    (hy : xs[i + 1]? = some y) : (npDiff xs)[i]? = some (y - x) := by
  induction xs generalizing i with
  | nil => simp at hx
  | cons a xs ih =>
    cases xs with
    | nil => simp at hy
    | cons b xs =>
      cases i with
      | zero => simp at hx hy; subst hx; subst hy; simp [npDiff]
      | succ i =>
        rw [npDiff, List.getElem?_cons_succ]
        rw [List.getElem?_cons_succ] at hx hy
        exact ih i hx hy

theorem npDiff_uniform (xs : List K) (d : K) (h : UniformAxis xs d) :
    npDiff xs = List.replicate (xs.length - 1) d := by
  apply List.ext_getElem
  · rw [npDiff_length, List.length_replicate]
  · intro i h1 h2
    rw [npDiff_length] at h1
    have hx : xs[i]? = some (xs[i]'(by omega)) := List.getElem?_eq_getElem _
    have hy : xs[i + 1]? = some (xs[i + 1]'(by omega)) := List.getElem?_eq_getElem _
    have hd := npDiff_getElem xs i _ _ hx hy
    rw [h i _ _ hx hy, List.getElem?_eq_getElem (by rw [npDiff_length]; exact h1)] at hd
    rw [List.getElem_replicate]
    exact Option.some.inj hd

/-- On an axis with the spacing `d` every cell reaches half a spacing to both sides of its coordinate, ... -/
theorem C61_uniform (xs : List K) (d : K) (h : UniformAxis xs d) (hlen : 2 ≤ xs.length) :
    axisBounds xs = xs.map (fun x => (x - d / 2, x + d / 2)) ∧ SharedEdges (axisBounds xs) := by
  have hm : npMedian (npDiff xs) = d := by
    apply npMedian_majority
    rw [npDiff_uniform xs d h, List.length_replicate, List.count_replicate_self]
    omega
  have he : axisBounds xs = xs.map (fun x => (x - d / 2, x + d / 2)) := by
    unfold axisBounds
    rw [hm, ofRat_two]
  refine ⟨he, ?_⟩
  intro i b b' hb hb'
  rw [he, List.getElem?_map, Option.map_eq_some_iff] at hb hb'
  obtain ⟨x, hx, rfl⟩ := hb
  obtain ⟨y, hy, rfl⟩ := hb'
  have := h i x y hx hy
  dsimp only
  linarith

/-- ... and neighbouring cells share their edges exactly if the axis is uniform. -/
theorem C61_shared_edges_iff (xs : List K) (hlen : 2 ≤ xs.length) :
    SharedEdges (axisBounds xs) ↔ ∃ d, UniformAxis xs d := by
  constructor
  · intro h
    refine ⟨npMedian (npDiff xs), ?_⟩
    intro i x y hx hy
    have := h i _ _ (by rw [axisBounds, List.getElem?_map, hx]; rfl)
      (by rw [axisBounds, List.getElem?_map, hy]; rfl)
    simp only [ofRat_two] at this
    linarith
  · rintro ⟨d, hd⟩
    exact (C61_uniform xs d hd hlen).2

/-- A minority of irregular spacings (for instance the jump of a domain across the date line) has no
influence on the bounds. -/
theorem C61_majority (xs : List K) (d : K)
    (h : (npDiff xs).length < 2 * (npDiff xs).count d) :
    axisBounds xs = xs.map fun x => (x - d / 2, x + d / 2) := by
  unfold axisBounds
  rw [npMedian_majority _ _ h, ofRat_two]

/-- Orientation: the first bound is the lower one exactly on an axis that (mostly) increases; on ERA5's
decreasing latitudes the first bound is the northern one.  A latitude of 90 degrees gets a bound beyond
the pole. -/
theorem C61_orientation (xs : List K) (d : K)
    (h : (npDiff xs).length < 2 * (npDiff xs).count d) (b : K × K) (hb : b ∈ axisBounds xs) :
    (b.1 < b.2 ↔ 0 < d) ∧ (b.2 < b.1 ↔ d < 0) := by
  rw [C61_majority xs d h] at hb
  obtain ⟨x, -, rfl⟩ := List.mem_map.1 hb
  constructor <;> constructor <;> intro h <;> simp only at h ⊢ <;> linarith

theorem C61_beyond_the_pole (xs : List K) (d : K) (hd : d ≠ 0)
    (h : (npDiff xs).length < 2 * (npDiff xs).count d) (hp : (90 : K) ∈ xs) :
    ∃ b ∈ axisBounds xs, 90 < b.1 ∨ 90 < b.2 := by
  rw [C61_majority xs d h]
  refine ⟨_, List.mem_map.2 ⟨90, hp, rfl⟩, ?_⟩
  rcases lt_or_gt_of_ne hd with h | h
  · left; simp only; linarith
  · right; simp only; linarith

/-- Consecutive cells of a uniform axis tile the interval from the first to the last bound. -/
theorem C61_tiling (xs : List K) (d : K) (h : UniformAxis xs d) (hd : 0 < d) (hlen : 2 ≤ xs.length)
    (x0 x1 : K) (h0 : xs.head? = some x0) (h1 : xs.getLast? = some x1) (y : K)
    (hy0 : x0 - d / 2 ≤ y) (hy1 : y < x1 + d / 2) :
    ∃! i : ℕ, ∃ b, (axisBounds xs)[i]? = some b ∧ b.1 ≤ y ∧ y < b.2 := by
  have hx : ∀ i (hi : i < xs.length), xs[i] = x0 + i * d := by
    intro i
    induction i with
    | zero =>
      intro hi
      have : xs[0]? = some x0 := by rw [← List.head?_eq_getElem?]; exact h0
      rw [List.getElem?_eq_getElem hi] at this
      rw [Option.some.inj this]; simp
    | succ i ih =>
      intro hi
      have := h i _ _ (List.getElem?_eq_getElem (by omega)) (List.getElem?_eq_getElem hi)
      rw [ih (by omega)] at this
      push_cast
      linarith
  have hb : ∀ (i : ℕ) (b : K × K), (axisBounds xs)[i]? = some b ↔ i < xs.length ∧
      b = (x0 + i * d - d / 2, x0 + i * d + d / 2) := by
    intro i b
    rw [(C61_uniform xs d h hlen).1, List.getElem?_map, Option.map_eq_some_iff]
    constructor
    · rintro ⟨x, hxi, rfl⟩
      have hi : i < xs.length := by
        by_contra hge
        rw [List.getElem?_eq_none (by omega)] at hxi
        simp at hxi
      rw [List.getElem?_eq_getElem hi] at hxi
      rw [← Option.some.inj hxi, hx i hi]
      exact ⟨hi, rfl⟩
    · rintro ⟨hi, rfl⟩
      exact ⟨xs[i], List.getElem?_eq_getElem hi, by rw [hx i hi]⟩
  have hlast : x1 = x0 + (xs.length - 1 : ℕ) * d := by
    rw [List.getLast?_eq_getElem?, List.getElem?_eq_getElem (by omega)] at h1
    rw [← Option.some.inj h1, hx _ (by omega)]
  -- the first cell whose upper bound lies above y
  have hex : ∃ i : ℕ, y < x0 + i * d + d / 2 := ⟨xs.length - 1, by rw [← hlast]; exact hy1⟩
  classical
  let i := Nat.find hex
  have hi : y < x0 + (i : K) * d + d / 2 := Nat.find_spec hex
  have hile : i ≤ xs.length - 1 := Nat.find_min' hex (by rw [← hlast]; exact hy1)
  have hlow : x0 + (i : K) * d - d / 2 ≤ y := by
    rcases Nat.eq_zero_or_pos i with h0 | hpos
    · rw [h0]; simpa using hy0
    · have := Nat.find_min hex (m := i - 1) (by show i - 1 < i; omega)
      rw [Nat.cast_pred hpos] at this
      push Not at this
      nlinarith
  refine ⟨i, ⟨_, (hb i _).2 ⟨by omega, rfl⟩, hlow, hi⟩, ?_⟩
  rintro j ⟨b, hbj, hj1, hj2⟩
  obtain ⟨-, rfl⟩ := (hb j b).1 hbj
  simp only at hj1 hj2
  have k1 : ((j : K)) < i + 1 := by
    by_contra hge
    push Not at hge
    have := mul_le_mul_of_nonneg_right hge hd.le
    linarith
  have k2 : ((i : K)) < j + 1 := by
    by_contra hge
    push Not at hge
    have := mul_le_mul_of_nonneg_right hge hd.le
    linarith
  have k1' : j < i + 1 := by exact_mod_cast k1
  have k2' : i < j + 1 := by exact_mod_cast k2
  omega

/-- The bounds of an axis with a single value are NaN. -/
theorem C61_single_value (x : XF K) (b : XF K × XF K) (hb : b ∈ axisBounds [x]) :
    b.1 = .nan ∧ b.2 = .nan := by
  simp only [axisBounds, npDiff, List.map_cons, List.map_nil, List.mem_singleton] at hb
  subst hb
  have : npMedian ([] : List (XF K)) = .nan := by
    simp [npMedian, XF.fin_div_zero]
  rw [this]
  cases x <;> exact ⟨rfl, rfl⟩

end

example : axisBounds ([-180, -179, 178, 179, 180] : List ℚ) =
    [(-361/2, -359/2), (-359/2, -357/2), (355/2, 357/2), (357/2, 359/2), (359/2, 361/2)] ∧
    axisBounds ([50, 49, 48] : List ℚ) = [(101/2, 99/2), (99/2, 97/2), (97/2, 95/2)] := by
  decide +kernel

example : UniformAxis ([50, 49, 48] : List ℚ) (-1) := by
  intro i x y hx hy
  match i, hx, hy with
  | 0, hx, hy => simp at hx hy; subst hx; subst hy; norm_num
  | 1, hx, hy => simp at hx hy; subst hx; subst hy; norm_num
  | i + 2, hx, hy => simp at hy

end Wam
