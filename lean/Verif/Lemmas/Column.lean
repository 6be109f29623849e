import Verif.Spec.Column
import Verif.Lemmas.NumK
import Mathlib.Tactic.Linarith
import Mathlib.Tactic.FieldSimp
import Mathlib.Tactic.Ring
import Mathlib.Tactic.Positivity
import Mathlib.Data.List.Sort
import Mathlib.Data.List.Pairwise

/-! # Lemmas about the vertical integration -/

set_option linter.unusedSectionVars false
set_option linter.unusedVariables false

namespace Wam
open Spec

section
variable {K : Type} [Field K] [LinearOrder K] [IsStrictOrderedRing K]

/-! ### numpy helpers -/

theorem npDiff_all_iff (l : List K) :
    ((npDiff l).all fun d => NpOps.le (ofRat 0) d) = true ↔ l.Pairwise (· ≤ ·) := by
  rw [← List.isChain_iff_pairwise]
  induction l with
  | nil => simp [npDiff]
  | cons a l ih =>
    cases l with
    | nil => simp [npDiff]
    | cons b l =>
      rw [npDiff, List.all_cons, List.isChain_cons_cons, Bool.and_eq_true, ih]
      simp

theorem npDiff_isEmpty {α : Type} [Sub α] (l : List α) :
    (npDiff l).isEmpty = decide (l.length < 2) := by
  rcases l with _ | ⟨a, _ | ⟨b, l⟩⟩ <;> simp [npDiff]

theorem npDiff_length {α : Type} [Sub α] (l : List α) : (npDiff l).length = l.length - 1 := by
  induction l with
  | nil => rfl
  | cons a l ih =>
    cases l with
    | nil => rfl
    | cons b l => rw [npDiff, List.length_cons, ih]; simp

theorem interpMid_length {α : Type} [Add α] [Sub α] [Mul α] [NpOps α] (l : List α) :
    (interpMid l).length = l.length - 1 := by
  induction l with
  | nil => rfl
  | cons a l ih =>
    cases l with
    | nil => rfl
    | cons b l => rw [interpMid, List.length_cons, ih]; simp

theorem npIndex_nat {α : Type} (l : List α) (i : ℕ) (h : i < l.length) :
    npIndex l (i : ℤ) = .ok l[i] := by
  unfold npIndex
  have h1 : ¬ ((i : ℤ) < 0) := by omega
  simp [h1, List.getElem?_eq_getElem h]

theorem npIndex_nat_error {α : Type} (l : List α) (i : ℕ) (h : l.length ≤ i) :
    npIndex l (i : ℤ) = .error .indexError := by
  unfold npIndex
  have h1 : ¬ ((i : ℤ) < 0) := by omega
  simp [h1, List.getElem?_eq_none h]

theorem npIndex_neg_one {α : Type} (l : List α) (h : 0 < l.length) :
    npIndex l (-1) = .ok (l[l.length - 1]'(by omega)) := by
  unfold npIndex
  have h1 : ((-1 : ℤ) < 0) := by omega
  have h2 : ¬ ((-1 : ℤ) + l.length < 0) := by omega
  have h3 : ((-1 : ℤ) + l.length).toNat = l.length - 1 := by omega
  simp only [h1, if_true, h2, if_false, h3]
  rw [List.getElem?_eq_getElem (by omega)]

theorem countP_lt_iff (l : List K) (hs : l.Pairwise (· ≤ ·)) (x : K) (i : ℕ) (hi : i < l.length) :
    l[i] < x ↔ i < l.countP (fun y => decide (y < x)) := by
  induction l generalizing i with
  | nil => simp at hi
  | cons a l ih =>
    rw [List.pairwise_cons] at hs
    rw [List.countP_cons]
    by_cases ha : a < x
    · cases i with
      | zero => simp [ha]
      | succ i =>
        have := ih hs.2 i (by simpa using hi)
        simp only [List.getElem_cons_succ, ha, decide_true, if_true]
        rw [this]; omega
    · have hall : ∀ y ∈ l, ¬ y < x := fun y hy h => ha (lt_of_le_of_lt (hs.1 y hy) h)
      have h0 : l.countP (fun y => decide (y < x)) = 0 := by
        rw [List.countP_eq_zero]; simpa using hall
      rw [h0]
      cases i with
      | zero => simp [ha]
      | succ i =>
        have hi' : i < l.length := by simpa using hi
        have := hall l[i] (List.getElem_mem _)
        simp [ha, this]

/-- Everything `interpolate` does, for a column of at least two points (ascending case). -/
theorem interpolate_ok (x : K) (xp fp : List K) (hlen : fp.length = xp.length)
    (hs : xp.Pairwise (· ≤ ·)) (h2 : 2 ≤ xp.length)
    (hlo : xp[0] ≤ x) (hhi : x ≤ xp[xp.length - 1]) :
    let k := xp.countP (fun y => decide (y < x))
    (k = 0 ∧ x = xp[0] ∧
      interpolate x xp fp false =
        .ok (line (xp[xp.length - 1]) (fp[xp.length - 1]'(by omega)) xp[0] (fp[0]'(by omega)) x)) ∨
    ∃ (i : ℕ) (hi : i + 1 < xp.length), k = i + 1 ∧ xp[i] < x ∧ x ≤ xp[i + 1] ∧
      interpolate x xp fp false =
        .ok (line xp[i] (fp[i]'(by omega)) xp[i + 1] (fp[i + 1]'(by omega)) x) := by
  intro k
  have hk : k < xp.length := by
    by_contra hc
    have := (countP_lt_iff xp hs x (xp.length - 1) (by omega)).2 (by omega)
    exact absurd this (not_lt.2 hhi)
  have e1 : (npDiff xp).isEmpty = false := by rw [npDiff_isEmpty]; simpa using h2
  have e2 := (npDiff_all_iff xp).2 hs
  have e3 : npIndex xp 0 = .ok xp[0] := npIndex_nat xp 0 (by omega)
  have e4 := npIndex_neg_one xp (by omega)
  have hb : interpolate x xp fp false = (do
      let f0 ← npIndex fp ((k : ℤ) - 1)
      let f1 ← npIndex fp (k : ℤ)
      let x0 ← npIndex xp ((k : ℤ) - 1)
      let x1 ← npIndex xp (k : ℤ)
      pure (f0 + (f1 - f0) * (x - x0) / (x1 - x0))) := by
    unfold interpolate
    simp only [Bool.false_eq_true, if_false, e1, e2, Bool.not_true, e3, e4, np_lt,
      decide_eq_true_eq, not_lt.2 hlo, not_lt.2 hhi, bind, Except.bind, pure, Except.pure]
    rfl
  rw [hb]
  rcases Nat.eq_zero_or_pos k with h0 | hpos
  · left
    refine ⟨h0, ?_, ?_⟩
    · have := (not_congr (countP_lt_iff xp hs x 0 (by omega))).2 (by
        change ¬ (0 < k); omega)
      exact le_antisymm (not_lt.1 this) hlo
    · have e5 := npIndex_neg_one fp (by omega)
      have e6 : npIndex fp 0 = .ok (fp[0]'(by omega)) := npIndex_nat fp 0 (by omega)
      rw [h0]
      simp only [Nat.cast_zero, zero_sub, e3, e4, e5, e6, bind, Except.bind, pure, Except.pure]
      simp only [hlen, line]
  · right
    obtain ⟨i, hi⟩ : ∃ i, k = i + 1 := ⟨k - 1, by omega⟩
    refine ⟨i, by omega, hi, ?_, ?_, ?_⟩
    · exact (countP_lt_iff xp hs x i (by omega)).2 (by change i < k; omega)
    · have := (not_congr (countP_lt_iff xp hs x (i + 1) (by omega))).2 (by
        change ¬ (i + 1 < k); omega)
      exact not_lt.1 this
    · have c1 : ((k : ℤ) - 1) = (i : ℤ) := by omega
      rw [c1, hi]
      simp only [npIndex_nat fp i (by omega), npIndex_nat fp (i + 1) (by omega),
        npIndex_nat xp i (by omega), npIndex_nat xp (i + 1) (by omega), bind, Except.bind, pure,
        Except.pure, line]

/-- When `interpolate` fails (ascending case, axes of equal length). -/
theorem interpolate_error (x : K) (xp fp : List K) :
    (xp.length < 2 → interpolate x xp fp false = .error .valueError) ∧
    (2 ≤ xp.length → ¬ xp.Pairwise (· ≤ ·) →
      interpolate x xp fp false = .error (.other "AssertionError")) ∧
    (∀ h : 2 ≤ xp.length, xp.Pairwise (· ≤ ·) → (x < xp[0] ∨ xp[xp.length - 1] < x) →
      interpolate x xp fp false = .error .valueError) := by
  refine ⟨?_, ?_, ?_⟩
  · intro h
    have e1 : (npDiff xp).isEmpty = true := by rw [npDiff_isEmpty]; simpa using h
    unfold interpolate
    simp only [Bool.false_eq_true, if_false, e1, if_true, throw, throwThe, MonadExceptOf.throw,
      bind, Except.bind]
  · intro h hs
    have e1 : (npDiff xp).isEmpty = false := by rw [npDiff_isEmpty]; simpa using h
    have e2 : ((npDiff xp).all fun d => NpOps.le (ofRat 0) d) = false := by
      rw [Bool.eq_false_iff]; exact fun hc => hs ((npDiff_all_iff xp).1 hc)
    unfold interpolate
    simp only [Bool.false_eq_true, if_false, e1, e2, Bool.not_false, if_true, throw, throwThe,
      MonadExceptOf.throw, bind, Except.bind, pure, Except.pure]
  · intro h hs ho
    have e1 : (npDiff xp).isEmpty = false := by rw [npDiff_isEmpty]; simpa using h
    have e2 := (npDiff_all_iff xp).2 hs
    have e3 : npIndex xp 0 = .ok xp[0] := npIndex_nat xp 0 (by omega)
    have e4 := npIndex_neg_one xp (by omega)
    unfold interpolate
    simp only [Bool.false_eq_true, if_false, e1, e2, Bool.not_true, e3, e4, np_lt,
      decide_eq_true_eq, bind, Except.bind, pure, Except.pure, throw, throwThe,
      MonadExceptOf.throw]
    by_cases hx : x < xp[0]
    · simp only [hx, if_true]
    · have := ho.resolve_left hx
      simp only [hx, if_false, this, if_true]

theorem interpolate_descending (x : K) (xp fp : List K) :
    interpolate x xp fp true = interpolate x xp.reverse fp.reverse false := rfl

/-! ### Sorting -/

theorem sortby_levels (argsort : List K → List ℕ) (ha : IsArgsort argsort) (L : List (Level K)) :
    ∃ E : List (Level K), E.Perm L ∧ E.Pairwise (fun a b => a.p ≤ b.p) ∧
      ∀ f : Level K → K, sortbyNdarray argsort (L.map f) (L.map Level.p) = E.map f := by
  obtain ⟨hp, hs⟩ := ha (L.map Level.p)
  set idx := argsort (L.map Level.p) with hidx
  let d : Level K := ⟨0, 0, 0, 0⟩
  have hmem : ∀ i ∈ idx, i < L.length := by
    intro i hi
    have := (hp.mem_iff).1 hi
    simpa using this
  have key : ∀ f : Level K → K, idx.map (fun i => (L.map f).getD i (ofRat 0)) =
      (idx.map fun i => L.getD i d).map f := by
    intro f
    rw [List.map_map]
    apply List.map_congr_left
    intro i hi
    have := hmem i hi
    simp [List.getD_eq_getElem?_getD, List.getElem?_eq_getElem this]
  refine ⟨idx.map fun i => L.getD i d, ?_, ?_, ?_⟩
  · have h1 := hp.map (fun i => L.getD i d)
    refine h1.trans (List.Perm.of_eq ?_)
    apply List.ext_getElem
    · simp
    · intro i h1 h2
      simp [List.getD_eq_getElem?_getD, List.getElem?_eq_getElem h2]
  · have h2 := key Level.p
    rw [ofRat_zero] at h2
    rw [h2] at hs
    exact List.pairwise_map.1 hs
  · intro f
    exact key f

/-- Interpolation of all variables of a sorted column to one pressure. -/
theorem interpolate_levels (E : List (Level K)) (hs : E.Pairwise (fun a b => a.p ≤ b.p)) (x : K)
    (hne : E ≠ []) (hlt : ∃ a ∈ E, ∃ b ∈ E, a.p < b.p)
    (hlo : ∃ a ∈ E, a.p ≤ x) (hhi : ∃ a ∈ E, x ≤ a.p) :
    (∃ a ∈ E, x = a.p ∧ (∀ c ∈ E, a.p ≤ c.p) ∧
      ∀ f : Level K → K, interpolate x (E.map Level.p) (E.map f) false = .ok (f a)) ∨
    ∃ a ∈ E, ∃ b ∈ E, a.p < x ∧ x ≤ b.p ∧ (∀ c ∈ E, c.p ≤ a.p ∨ b.p ≤ c.p) ∧
      ∀ f : Level K → K,
        interpolate x (E.map Level.p) (E.map f) false = .ok (line a.p (f a) b.p (f b) x) := by
  have hsp : (E.map Level.p).Pairwise (· ≤ ·) := List.pairwise_map.2 hs
  have hmono : ∀ (i j : ℕ) (hi : i < E.length) (hj : j < E.length), i ≤ j → E[i].p ≤ E[j].p := by
    intro i j hi hj hij
    rcases Nat.lt_or_eq_of_le hij with h | rfl
    · exact List.pairwise_iff_getElem.1 hs i j hi hj h
    · exact le_rfl
  have h2 : 2 ≤ E.length := by
    obtain ⟨a, ha, b, hb, hab⟩ := hlt
    obtain ⟨i, hi, rfl⟩ := List.getElem_of_mem ha
    obtain ⟨j, hj, rfl⟩ := List.getElem_of_mem hb
    have : i ≠ j := by rintro rfl; exact lt_irrefl _ hab
    omega
  have h0 : E[0].p ≤ x := by
    obtain ⟨a, ha, hax⟩ := hlo
    obtain ⟨i, hi, rfl⟩ := List.getElem_of_mem ha
    exact (hmono 0 i (by omega) hi (by omega)).trans hax
  have h1 : x ≤ E[E.length - 1].p := by
    obtain ⟨a, ha, hax⟩ := hhi
    obtain ⟨i, hi, rfl⟩ := List.getElem_of_mem ha
    exact hax.trans (hmono i _ hi (by omega) (by omega))
  have hends : E[0].p < E[E.length - 1].p := by
    obtain ⟨a, ha, b, hb, hab⟩ := hlt
    obtain ⟨i, hi, rfl⟩ := List.getElem_of_mem ha
    obtain ⟨j, hj, rfl⟩ := List.getElem_of_mem hb
    exact ((hmono 0 i (by omega) hi (by omega)).trans_lt hab).trans_le
      (hmono j _ hj (by omega) (by omega))
  have main := fun f : Level K → K => interpolate_ok x (E.map Level.p) (E.map f) (by simp) hsp
    (by simpa using h2) (by simpa using h0) (by simpa using h1)
  rcases Nat.eq_zero_or_pos ((E.map Level.p).countP fun y => decide (y < x)) with hk | hk
  · left
    have hx : x = E[0].p := by
      rcases main Level.p with ⟨-, h, -⟩ | ⟨i, hi, h, -⟩
      · simpa using h
      · omega
    refine ⟨E[0], List.getElem_mem _, hx, ?_, ?_⟩
    · intro c hc
      obtain ⟨i, hi, rfl⟩ := List.getElem_of_mem hc
      exact hmono 0 i (by omega) hi (by omega)
    · intro f
      rcases main f with ⟨-, -, h⟩ | ⟨i, hi, h, -⟩
      · rw [h]
        congr 1
        simp only [List.getElem_map, List.length_map, line]
        rw [hx]
        have : E[0].p - E[E.length - 1].p ≠ 0 := by
          intro h; linarith
        field_simp
        ring
      · omega
  · right
    obtain ⟨i, hi⟩ : ∃ i, ((E.map Level.p).countP fun y => decide (y < x)) = i + 1 :=
      ⟨_, (Nat.succ_pred_eq_of_pos hk).symm⟩
    have hlen : i + 1 < E.length := by
      rcases main Level.p with ⟨h, -⟩ | ⟨j, hj, h, -⟩
      · omega
      · have : i = j := by omega
        subst this; simpa using hj
    have hb : E[i].p < x ∧ x ≤ E[i + 1].p := by
      rcases main Level.p with ⟨h, -⟩ | ⟨j, hj, h, h3, h4, -⟩
      · omega
      · have : i = j := by omega
        subst this
        exact ⟨by simpa using h3, by simpa using h4⟩
    refine ⟨E[i], List.getElem_mem _, E[i + 1], List.getElem_mem _, hb.1, hb.2, ?_, ?_⟩
    · intro c hc
      obtain ⟨j, hj, rfl⟩ := List.getElem_of_mem hc
      rcases Nat.lt_or_ge i j with h | h
      · exact Or.inr (hmono (i + 1) j hlen hj h)
      · exact Or.inl (hmono j i hj (by omega) h)
    · intro f
      rcases main f with ⟨h, -⟩ | ⟨j, hj, h, -, -, h5⟩
      · omega
      · have : i = j := by omega
        subst this
        rw [h5]
        simp only [List.getElem_map]

theorem argmin_levels (L : List (Level K)) (hne : L ≠ []) :
    ∃ (i : ℕ) (hi : i < L.length), npArgmin (L.map Level.p) = .ok i ∧ ∀ l ∈ L, L[i].p ≤ l.p := by
  unfold npArgmin
  obtain ⟨m, hm, hmin⟩ : ∃ m ∈ L, ∀ l ∈ L, m.p ≤ l.p := by
    clear * - hne
    induction L with
    | nil => exact absurd rfl hne
    | cons a L ih =>
      by_cases hL : L = []
      · exact ⟨a, by simp, by simp [hL]⟩
      · obtain ⟨m, hm, h⟩ := ih hL
        rcases le_total a.p m.p with ham | ham
        · refine ⟨a, by simp, ?_⟩
          intro l hl
          rcases List.mem_cons.1 hl with rfl | hl
          · exact le_rfl
          · exact ham.trans (h l hl)
        · refine ⟨m, by simp [hm], ?_⟩
          intro l hl
          rcases List.mem_cons.1 hl with rfl | hl
          · exact ham
          · exact h l hl
  cases hf : (L.map Level.p).findIdx? (fun x => (L.map Level.p).all fun y => NpOps.le x y) with
  | none =>
    rw [List.findIdx?_eq_none_iff] at hf
    have := hf m.p (List.mem_map_of_mem hm)
    simp at this
    obtain ⟨l, hl, h⟩ := this
    exact absurd (hmin l hl) (not_le.2 h)
  | some i =>
    rw [List.findIdx?_eq_some_iff_getElem] at hf
    obtain ⟨hi, h, -⟩ := hf
    refine ⟨i, by simpa using hi, rfl, ?_⟩
    simpa using h

/-! ### The extended column -/

theorem extend_ok (argsort : List K → List ℕ) (ha : IsArgsort argsort) (factor offset : K)
    (levels : List (Level K)) (hne : levels ≠ []) (sfc : Level K) (hps : 0 < sfc.p)
    (hlo : 0 ≤ factor * sfc.p + offset) (hhi : factor * sfc.p + offset ≤ sfc.p) :
    ∃ E, IsExtended levels sfc (factor * sfc.p + offset) E ∧
      extendPressurelevels argsort factor offset (column levels) (surface sfc) =
        .ok (column E, factor * sfc.p + offset) := by
  set pb := factor * sfc.p + offset with hpb
  obtain ⟨i, hi, hmin, htop⟩ := argmin_levels levels hne
  let toa : Level K := ⟨0, 0, levels[i].u, levels[i].v⟩
  obtain ⟨E1, hperm1, hsort1, hE1⟩ := sortby_levels argsort ha (sfc :: toa :: levels)
  have hmem1 : ∀ l, l ∈ E1 ↔ l ∈ sfc :: toa :: levels := fun l => hperm1.mem_iff
  have hsfc : sfc ∈ E1 := (hmem1 _).2 (by simp)
  have htoa : toa ∈ E1 := (hmem1 _).2 (by simp)
  have hint : ∃ bdy : Level K, bdy.p = pb ∧ Interpolated (sfc :: toa :: levels) bdy ∧
      interpolate pb (E1.map Level.p) (E1.map Level.q) false = .ok bdy.q ∧
      interpolate pb (E1.map Level.p) (E1.map Level.u) false = .ok bdy.u ∧
      interpolate pb (E1.map Level.p) (E1.map Level.v) false = .ok bdy.v := by
    rcases interpolate_levels E1 hsort1 pb (List.ne_nil_of_mem hsfc)
      ⟨toa, htoa, sfc, hsfc, hps⟩ ⟨toa, htoa, hlo⟩ ⟨sfc, hsfc, hhi⟩ with
      ⟨a, ha, hx, -, hf⟩ | ⟨a, ha, b, hb, h1, h2, h3, hf⟩
    · exact ⟨a, hx.symm, Or.inl ⟨a, (hmem1 a).1 ha, rfl⟩, hf _, hf _, hf _⟩
    · refine ⟨⟨pb, line a.p a.q b.p b.q pb, line a.p a.u b.p b.u pb, line a.p a.v b.p b.v pb⟩, rfl,
        Or.inr ⟨a, (hmem1 a).1 ha, b, (hmem1 b).1 hb, h1, h2, ?_, rfl, rfl, rfl⟩, hf _, hf _, hf _⟩
      intro c hc
      exact h3 c ((hmem1 c).2 hc)
  obtain ⟨bdy, hbp, hbi, hbq, hbu, hbv⟩ := hint
  obtain ⟨E, hperm, hsort, hE⟩ := sortby_levels argsort ha (bdy :: E1)
  refine ⟨E, ⟨hsort, levels[i], List.getElem_mem _, bdy, htop, hbp, hbi,
    hperm.trans (hperm1.cons _)⟩, ?_⟩
  have e1 : npIndex (levels.map Level.u) (i : ℤ) = .ok levels[i].u := by
    rw [npIndex_nat _ _ (by simpa using hi)]; simp
  have e2 : npIndex (levels.map Level.v) (i : ℤ) = .ok levels[i].v := by
    rw [npIndex_nat _ _ (by simpa using hi)]; simp
  have eu := hE1 Level.u
  have ev := hE1 Level.v
  have eq := hE1 Level.q
  have ep := hE1 Level.p
  simp only [List.map_cons] at eu ev eq ep
  have fu := hE Level.u
  have fv := hE Level.v
  have fq := hE Level.q
  have fp := hE Level.p
  simp only [List.map_cons, hbp] at fu fv fq fp
  unfold extendPressurelevels
  simp only [column, surface, hmin, e1, e2, bind, Except.bind, pure, Except.pure, ofRat_zero]
  rw [eu, ev, eq, ep]
  simp only [← hpb, hbu, hbv, hbq]
  rw [fu, fv, fq, fp]

/-! ### Pairs of consecutive levels -/

/-- consecutive levels -/
def pairs (E : List (Level K)) : List (Level K × Level K) := E.zip E.tail

theorem pairs_cons (a b : Level K) (l : List (Level K)) :
    pairs (a :: b :: l) = (a, b) :: pairs (b :: l) := rfl

theorem npDiff_levels (E : List (Level K)) :
    npDiff (E.map Level.p) = (pairs E).map fun ab => ab.2.p - ab.1.p := by
  induction E with
  | nil => rfl
  | cons a E ih =>
    cases E with
    | nil => rfl
    | cons b E =>
      change (b.p - a.p) :: npDiff ((b :: E).map Level.p) = _
      rw [ih]; rfl

theorem interpMid_levels (f : Level K → K) (E : List (Level K)) :
    interpMid (E.map f) = (pairs E).map fun ab => (f ab.1 + f ab.2) / 2 := by
  induction E with
  | nil => rfl
  | cons a E ih =>
    cases E with
    | nil => rfl
    | cons b E =>
      change (f a + (f b - f a) * ofRat (1 / 2)) :: interpMid ((b :: E).map f) = _
      rw [ih, pairs_cons, List.map_cons, ofRat_half]
      congr 1
      ring

theorem pairSum_eq (f : Level K → Level K → K) (E : List (Level K)) :
    pairSum f E = ((pairs E).map fun ab => f ab.1 ab.2).sum := by
  induction E with
  | nil => rfl
  | cons a E ih =>
    cases E with
    | nil => rfl
    | cons b E => rw [pairs_cons, List.map_cons, List.sum_cons, ← ih]; rfl

theorem nanSum_map {β : Type} (c : β → Bool) (f : β → K) (l : List β) :
    nanSum (l.map fun x => if c x then some (f x) else none) =
      (l.map fun x => if c x then f x else 0).sum := by
  induction l with
  | nil => simp [nanSum]
  | cons a l ih =>
    simp only [List.map_cons, List.sum_cons, ← ih]
    cases h : c a <;> simp [nanSum, NpOps.isnan]

theorem whereMask_map {α β : Type} (m : β → Bool) (x : β → Option α) (l : List β) :
    whereMask (l.map m) (l.map x) = l.map fun b => if m b then x b else none := by
  induction l with
  | nil => rfl
  | cons a l ih =>
    simp only [List.map_cons]
    rw [← ih]; rfl

theorem zipWith_map_map {α β γ δ : Type} (f : α → β → γ) (a : δ → α) (b : δ → β) (l : List δ) :
    List.zipWith f (l.map a) (l.map b) = l.map fun x => f (a x) (b x) := by
  induction l with
  | nil => rfl
  | cons x l ih => simp [ih]

/-- sum of `f` over the pairs whose mid pressure satisfies `P` -/
def pairSumIf (P : K → Bool) (f : Level K → Level K → K) (E : List (Level K)) : K :=
  ((pairs E).map fun ab => if P ((ab.1.p + ab.2.p) / 2) then f ab.1 ab.2 else 0).sum

theorem pairSumIf_cons (P : K → Bool) (f : Level K → Level K → K) (a b : Level K)
    (l : List (Level K)) : pairSumIf P f (a :: b :: l) =
      (if P ((a.p + b.p) / 2) then f a b else 0) + pairSumIf P f (b :: l) := by
  unfold pairSumIf
  rw [pairs_cons, List.map_cons, List.sum_cons]

theorem pairSumIf_zero (P : K → Bool) (f : Level K → Level K → K) (E : List (Level K))
    (hs : E.Pairwise (fun a b => a.p ≤ b.p))
    (h : ∀ a ∈ E, ∀ b ∈ E, P ((a.p + b.p) / 2) = true → f a b = 0) : pairSumIf P f E = 0 := by
  induction E with
  | nil => rfl
  | cons a E ih =>
    cases E with
    | nil => rfl
    | cons b E =>
      rw [pairSumIf_cons, ih (List.pairwise_cons.1 hs).2
        (fun x hx y hy => h x (List.mem_cons_of_mem _ hx) y (List.mem_cons_of_mem _ hy)), add_zero]
      split
      · next hP => exact h a (by simp) b (by simp) hP
      · rfl

/-- Summing where the mid pressure is below a pressure `t` of the column = summing over the levels
up to `t`. -/
theorem pairSumIf_upto (Q : K → Bool) (f : Level K → Level K → K)
    (hf : ∀ a b : Level K, a.p = b.p → f a b = 0) (t : K) (E : List (Level K))
    (hs : E.Pairwise (fun a b => a.p ≤ b.p)) (ht : ∃ e ∈ E, e.p = t) :
    pairSumIf (fun m => decide (m < t) && Q m) f E =
      pairSumIf Q f (E.filter fun l => decide (l.p ≤ t)) := by
  induction E with
  | nil => simp at ht
  | cons a E ih =>
    have hs' := List.pairwise_cons.1 hs
    by_cases hat : a.p < t
    · have ht' : ∃ e ∈ E, e.p = t := by
        obtain ⟨e, he, rfl⟩ := ht
        rcases List.mem_cons.1 he with rfl | he
        · exact absurd hat (lt_irrefl _)
        · exact ⟨e, he, rfl⟩
      have ih' := ih hs'.2 ht'
      cases E with
      | nil => simp at ht'
      | cons b E =>
        have hbt : b.p ≤ t := by
          obtain ⟨e, he, rfl⟩ := ht'
          rcases List.mem_cons.1 he with rfl | he
          · exact le_rfl
          · exact (List.pairwise_cons.1 hs'.2).1 e he
        rw [pairSumIf_cons, ih', List.filter_cons_of_pos (a := b) (by simpa using hbt),
          List.filter_cons_of_pos (a := a) (by simpa using hat.le),
          List.filter_cons_of_pos (a := b) (by simpa using hbt), pairSumIf_cons]
        have hm : (a.p + b.p) / 2 < t := by linarith
        simp [hm]
    · -- everything from here on is at or beyond `t`
      have hge : ∀ e ∈ a :: E, t ≤ e.p := by
        intro e he
        rcases List.mem_cons.1 he with rfl | he
        · exact not_lt.1 hat
        · exact (not_lt.1 hat).trans (hs'.1 e he)
      rw [pairSumIf_zero _ f (a :: E) hs, pairSumIf_zero]
      · exact hs.filter _
      · intro x hx y hy _
        simp only [List.mem_filter, decide_eq_true_eq] at hx hy
        exact hf x y (by
          have h1 := hge x hx.1
          have h2 := hge y hy.1
          exact (le_antisymm hx.2 h1).trans (le_antisymm hy.2 h2).symm)
      · intro x hx y hy hP
        simp only [Bool.and_eq_true, decide_eq_true_eq] at hP
        have h1 := hge x hx
        have h2 := hge y hy
        linarith [hP.1]

/-- Summing where the mid pressure is not below a pressure `t` of the column = summing over the
levels from `t` on. -/
theorem pairSumIf_from (f : Level K → Level K → K)
    (hf : ∀ a b : Level K, a.p = b.p → f a b = 0) (t : K) (E : List (Level K))
    (hs : E.Pairwise (fun a b => a.p ≤ b.p)) (ht : ∃ e ∈ E, e.p = t) :
    pairSumIf (fun m => !decide (m < t)) f E =
      pairSum f (E.filter fun l => decide (t ≤ l.p)) := by
  induction E with
  | nil => simp at ht
  | cons a E ih =>
    have hs' := List.pairwise_cons.1 hs
    by_cases hat : a.p < t
    · have ht' : ∃ e ∈ E, e.p = t := by
        obtain ⟨e, he, rfl⟩ := ht
        rcases List.mem_cons.1 he with rfl | he
        · exact absurd hat (lt_irrefl _)
        · exact ⟨e, he, rfl⟩
      rw [List.filter_cons_of_neg (by simpa using hat), ← ih hs'.2 ht']
      cases E with
      | nil => simp at ht'
      | cons b E =>
        have hbt : b.p ≤ t := by
          obtain ⟨e, he, rfl⟩ := ht'
          rcases List.mem_cons.1 he with rfl | he
          · exact le_rfl
          · exact (List.pairwise_cons.1 hs'.2).1 e he
        rw [pairSumIf_cons]
        have hm : (a.p + b.p) / 2 < t := by linarith
        simp [hm]
    · have hge : ∀ e ∈ a :: E, t ≤ e.p := by
        intro e he
        rcases List.mem_cons.1 he with rfl | he
        · exact not_lt.1 hat
        · exact (not_lt.1 hat).trans (hs'.1 e he)
      have hfil : (a :: E).filter (fun l => decide (t ≤ l.p)) = a :: E := by
        rw [List.filter_eq_self]; simpa using hge
      rw [hfil, pairSum_eq]
      unfold pairSumIf
      congr 1
      apply List.map_congr_left
      rintro ⟨x, y⟩ hxy
      have hx := hge x (List.of_mem_zip hxy).1
      have hy := hge y (List.mem_of_mem_tail (List.of_mem_zip hxy).2)
      have : ¬ ((x.p + y.p) / 2 < t) := by
        rw [not_lt]; linarith
      simp [this]

/-! ### Integration -/

/-- the factor by which the column is scaled to the given total column water -/
def tcwFactor (tcw : Option K) (total : K) : K :=
  match tcw with
  | none => 1
  | some t => t / total

theorem ofRat_grav : (ofRat (980665 / 100000) : K) = grav := rfl

theorem sum_mul_if {β : Type} (c : β → Bool) (f : β → K) (k : K) (l : List β) :
    (l.map fun x => if c x then k * f x else 0).sum = k * (l.map fun x => if c x then f x else 0).sum := by
  induction l with
  | nil => simp
  | cons a l ih => simp only [List.map_cons, List.sum_cons, ih, mul_add]; cases c a <;> simp

theorem integrateLayers_map {β : Type} (l : List β) (c up : β → Bool) (p : List (Option K))
    (q u v d : β → K) (tcw : Option K) :
    integrateLayers ⟨p, l.map fun x => if c x then some (q x) else none,
        l.map fun x => if c x then some (u x) else none,
        l.map fun x => if c x then some (v x) else none⟩ (l.map d) (l.map up) tcw =
      scale (tcwFactor tcw (l.map fun x => if c x then q x * d x / grav else 0).sum)
        { s_upper := (l.map fun x => if c x && up x then q x * d x / grav else 0).sum
          s_lower := (l.map fun x => if c x && !up x then q x * d x / grav else 0).sum
          fx_upper := (l.map fun x => if c x && up x then u x * (q x * d x / grav) else 0).sum
          fx_lower := (l.map fun x => if c x && !up x then u x * (q x * d x / grav) else 0).sum
          fy_upper := (l.map fun x => if c x && up x then v x * (q x * d x / grav) else 0).sum
          fy_lower := (l.map fun x => if c x && !up x then v x * (q x * d x / grav) else 0).sum } := by
  have hcwv : List.zipWith (fun q d => q.map fun q => q * d / ofRat (980665 / 100000))
      (l.map fun x => if c x then some (q x) else none) (l.map d) =
      l.map fun x => if c x then some (q x * d x / grav) else none := by
    rw [zipWith_map_map]
    apply List.map_congr_left
    intro x _
    cases c x <;> simp [ofRat_grav]
  -- the column water, in both cases
  have hcw : columnWater (l.map fun x => if c x then some (q x * d x / grav) else none) tcw =
      l.map fun x => if c x then some (tcwFactor tcw
        (l.map fun x => if c x then q x * d x / grav else 0).sum * (q x * d x / grav)) else none := by
    cases tcw with
    | none => simp [tcwFactor, columnWater]
    | some t =>
      simp only [columnWater, nanSum_map, List.map_map, tcwFactor]
      apply List.map_congr_left
      intro x _
      simp only [Function.comp]
      cases c x <;> simp
  unfold integrateLayers
  simp only [hcwv]
  simp only [hcw]
  set k := tcwFactor tcw (l.map fun x => if c x then q x * d x / grav else 0).sum with hk
  have hmul : ∀ w : β → K, mulNan (l.map fun x => if c x then some (w x) else none)
      (l.map fun x => if c x then some (k * (q x * d x / grav)) else none) =
      l.map fun x => if c x then some (k * (w x * (q x * d x / grav))) else none := by
    intro w
    unfold mulNan
    refine (zipWith_map_map _ _ _ _).trans ?_
    apply List.map_congr_left
    intro x _
    cases c x
    · simp
    · simp only [if_true, Option.some.injEq]; ring
  have hw : ∀ (m : β → Bool) (f : β → K),
      nanSum (whereMask (l.map m) (l.map fun x => if c x then some (k * f x) else none)) =
        k * (l.map fun x => if c x && m x then f x else 0).sum := by
    intro m f
    rw [whereMask_map, ← sum_mul_if, ← nanSum_map]
    congr 1
    apply List.map_congr_left
    intro x _
    cases c x <;> cases m x <;> simp
  simp only [hmul, List.map_map, hw, scale]
  rfl

theorem water_eq_zero (a b : Level K) (h : a.p = b.p) : water a b = 0 := by simp [water, h]
theorem transportX_eq_zero (a b : Level K) (h : a.p = b.p) : transportX a b = 0 := by
  simp [transportX, water_eq_zero a b h]
theorem transportY_eq_zero (a b : Level K) (h : a.p = b.p) : transportY a b = 0 := by
  simp [transportY, water_eq_zero a b h]

theorem filter_filter_between (lo hi : K) (E : List (Level K)) :
    (E.filter fun l => decide (l.p ≤ hi)).filter (fun l => decide (lo ≤ l.p)) = between lo hi E := by
  rw [List.filter_filter]; rfl

theorem filter_upto_between (hi : K) (E : List (Level K)) (h0 : ∀ l ∈ E, 0 ≤ l.p) :
    (E.filter fun l => decide (l.p ≤ hi)) = between 0 hi E := by
  unfold between
  apply List.filter_congr
  intro l hl
  simp [h0 l hl]

theorem pairSumIf_true (f : Level K → Level K → K) (E : List (Level K)) :
    pairSumIf (fun _ => true) f E = pairSum f E := by
  rw [pairSum_eq]; simp [pairSumIf]

/-- The upper layer: mid pressure below both boundaries. -/
theorem upper_sum (f : Level K → Level K → K) (hf : ∀ a b : Level K, a.p = b.p → f a b = 0)
    (ps pb : K) (hpb : pb ≤ ps) (E : List (Level K)) (hs : E.Pairwise (fun a b => a.p ≤ b.p))
    (h0 : ∀ l ∈ E, 0 ≤ l.p) (hb : ∃ e ∈ E, e.p = pb) :
    pairSumIf (fun m => decide (m < ps) && decide (m < pb)) f E = pairSum f (between 0 pb E) := by
  have : (fun m : K => decide (m < ps) && decide (m < pb)) =
      fun m => decide (m < pb) && (fun _ => true) m := by
    funext m
    rw [Bool.and_true, Bool.and_eq_right_iff_imp]
    simp only [decide_eq_true_eq]
    exact fun h => h.trans_le hpb
  rw [this, pairSumIf_upto _ f hf pb E hs hb, pairSumIf_true, filter_upto_between pb E h0]

/-- The lower layer. -/
theorem lower_sum (f : Level K → Level K → K) (hf : ∀ a b : Level K, a.p = b.p → f a b = 0)
    (ps pb : K) (hpb : pb ≤ ps) (E : List (Level K)) (hs : E.Pairwise (fun a b => a.p ≤ b.p))
    (hb : ∃ e ∈ E, e.p = pb) (hsf : ∃ e ∈ E, e.p = ps) :
    pairSumIf (fun m => decide (m < ps) && !decide (m < pb)) f E = pairSum f (between pb ps E) := by
  rw [pairSumIf_upto (fun m => !decide (m < pb)) f hf ps E hs hsf, pairSumIf_from f hf pb _
    (hs.filter _), filter_filter_between]
  obtain ⟨e, he, rfl⟩ := hb
  exact ⟨e, List.mem_filter.2 ⟨he, by simpa using hpb⟩, rfl⟩

/-- The whole column above ground. -/
theorem whole_sum (f : Level K → Level K → K) (hf : ∀ a b : Level K, a.p = b.p → f a b = 0)
    (ps : K) (E : List (Level K)) (hs : E.Pairwise (fun a b => a.p ≤ b.p))
    (h0 : ∀ l ∈ E, 0 ≤ l.p) (hsf : ∃ e ∈ E, e.p = ps) :
    pairSumIf (fun m => decide (m < ps)) f E = pairSum f (between 0 ps E) := by
  have : (fun m : K => decide (m < ps)) = fun m => decide (m < ps) && (fun _ => true) m := by
    funext m; simp
  rw [this, pairSumIf_upto _ f hf ps E hs hsf, pairSumIf_true, filter_upto_between ps E h0]

theorem pairSumIf_split (P Q : K → Bool) (f : Level K → Level K → K) (E : List (Level K)) :
    pairSumIf (fun m => P m && Q m) f E + pairSumIf (fun m => P m && !Q m) f E =
      pairSumIf P f E := by
  unfold pairSumIf
  induction pairs E with
  | nil => simp
  | cons a l ih =>
    have hif : ∀ (p q : Bool) (x : K),
        (if (p && q) = true then x else 0) + (if (p && !q) = true then x else 0) =
          if p = true then x else 0 := by
      intro p q x; cases p <;> cases q <;> simp
    simp only [List.map_cons, List.sum_cons]
    rw [← ih, ← hif (P ((a.1.p + a.2.p) / 2)) (Q ((a.1.p + a.2.p) / 2))]
    ring

/-- The water of a column is the water of its two layers. -/
theorem pairSum_between (f : Level K → Level K → K) (hf : ∀ a b : Level K, a.p = b.p → f a b = 0)
    (ps pb : K) (hpb : pb ≤ ps) (E : List (Level K)) (hs : E.Pairwise (fun a b => a.p ≤ b.p))
    (h0 : ∀ l ∈ E, 0 ≤ l.p) (hb : ∃ e ∈ E, e.p = pb) (hsf : ∃ e ∈ E, e.p = ps) :
    pairSum f (between 0 pb E) + pairSum f (between pb ps E) = pairSum f (between 0 ps E) := by
  rw [← upper_sum f hf ps pb hpb E hs h0 hb, ← lower_sum f hf ps pb hpb E hs hb hsf,
    ← whole_sum f hf ps E hs h0 hsf]
  exact pairSumIf_split _ _ _ _

theorem preprocessPressure_eq (argsort : List K → List ℕ) (factor offset : K)
    (levels E : List (Level K)) (sfc : Level K) (tcw : Option K) (pb : K) (hpb : pb ≤ sfc.p)
    (hext : extendPressurelevels argsort factor offset (column levels) (surface sfc) =
      .ok (column E, pb))
    (hs : E.Pairwise (fun a b => a.p ≤ b.p)) (h0 : ∀ l ∈ E, 0 ≤ l.p)
    (hb : ∃ e ∈ E, e.p = pb) (hsf : ∃ e ∈ E, e.p = sfc.p) :
    preprocessPressure argsort factor offset (column levels) (surface sfc) tcw =
      .ok (scale (tcwFactor tcw (pairSum water (between 0 sfc.p E)))
        (layerIntegrals sfc.p pb E)) := by
  have e1 : ((npDiff (E.map Level.p)).all fun d => NpOps.le (ofRat 0) d) = true :=
    (npDiff_all_iff _).2 (List.pairwise_map.2 hs)
  have e2 : interpDpMidpoints (column E) = .ok (⟨interpMid (E.map Level.p),
      interpMid (E.map Level.q), interpMid (E.map Level.u), interpMid (E.map Level.v)⟩,
      npDiff (E.map Level.p)) := by
    simp only [interpDpMidpoints, column, e1, Bool.not_true,
      Bool.false_eq_true, if_false, bind, Except.bind, pure, Except.pure]
  unfold preprocessPressure
  simp only [hext, bind, Except.bind, e2, pure, Except.pure]
  congr 1
  simp only [interpMid_levels, npDiff_levels, maskBelowSurface, surface, List.map_map,
    whereMask_map, Function.comp_def, np_lt]
  have hup : ((pairs E).map fun ab => ltNan (if decide ((ab.1.p + ab.2.p) / 2 < sfc.p) then
      some ((ab.1.p + ab.2.p) / 2) else none) pb) = (pairs E).map fun ab => decide ((ab.1.p + ab.2.p) / 2 < sfc.p) &&
        decide ((ab.1.p + ab.2.p) / 2 < pb) := by
    apply List.map_congr_left
    intro ab _
    by_cases h : (ab.1.p + ab.2.p) / 2 < sfc.p <;> simp [h, ltNan]
  rw [hup, integrateLayers_map]
  have hwater : ∀ ab : Level K × Level K, (ab.1.q + ab.2.q) / 2 * (ab.2.p - ab.1.p) / grav =
    water ab.1 ab.2 := fun ab => rfl
  have hX : ∀ ab : Level K × Level K, (ab.1.u + ab.2.u) / 2 * water ab.1 ab.2 =
    transportX ab.1 ab.2 := fun ab => rfl
  have hY : ∀ ab : Level K × Level K, (ab.1.v + ab.2.v) / 2 * water ab.1 ab.2 =
    transportY ab.1 ab.2 := fun ab => rfl
  simp only [hwater, hX, hY]
  have hu : ∀ ab : Level K × Level K, (decide ((ab.1.p + ab.2.p) / 2 < sfc.p) &&
      (decide ((ab.1.p + ab.2.p) / 2 < sfc.p) && decide ((ab.1.p + ab.2.p) / 2 < pb))) =
      (decide ((ab.1.p + ab.2.p) / 2 < sfc.p) && decide ((ab.1.p + ab.2.p) / 2 < pb)) := by
    intro ab; rw [← Bool.and_assoc, Bool.and_self]
  have hl : ∀ ab : Level K × Level K, (decide ((ab.1.p + ab.2.p) / 2 < sfc.p) &&
      !(decide ((ab.1.p + ab.2.p) / 2 < sfc.p) && decide ((ab.1.p + ab.2.p) / 2 < pb))) =
      (decide ((ab.1.p + ab.2.p) / 2 < sfc.p) && !decide ((ab.1.p + ab.2.p) / 2 < pb)) := by
    intro ab
    cases decide ((ab.1.p + ab.2.p) / 2 < sfc.p) <;> simp
  simp only [hu, hl]
  have hwhole := whole_sum water water_eq_zero sfc.p E hs h0 hsf
  have uW := upper_sum water water_eq_zero sfc.p pb hpb E hs h0 hb
  have uX := upper_sum transportX transportX_eq_zero sfc.p pb hpb E hs h0 hb
  have uY := upper_sum transportY transportY_eq_zero sfc.p pb hpb E hs h0 hb
  have lW := lower_sum water water_eq_zero sfc.p pb hpb E hs hb hsf
  have lX := lower_sum transportX transportX_eq_zero sfc.p pb hpb E hs hb hsf
  have lY := lower_sum transportY transportY_eq_zero sfc.p pb hpb E hs hb hsf
  unfold pairSumIf at hwhole uW uX uY lW lX lY
  rw [hwhole, uW, uX, uY, lW, lX, lY]
  rfl

end

end Wam
