import Verif.Lemmas.Lift
import Verif.Lemmas.Stability
import Verif.Spec.Warnings
import Mathlib.Algebra.BigOperators.Fin
import Mathlib.Data.List.MinMax

/-! # C36: the stability warnings

Stated for floats with NaN (`XF K`), because the code divides 0 by 0 in every cell without flux,
and finite input. -/

set_option linter.unusedSectionVars false
set_option linter.unusedVariables false

namespace Wam
open Spec
variable {K : Type*} [Field K] [LinearOrder K] [IsStrictOrderedRing K] {m n : ℕ}

/-- The field given to the tracker is the one `stabilize_fluxes` puts back into the fluxes. -/
theorem stabilizeComponent_fyStable {α : Type*} [Add α] [Mul α] [Div α] [NpOps α]
    (dt a s fx fy : α) :
    stabilizeComponent dt a s fx fy fy = NpOps.sign (fy * dt) * fyStable dt a s fx fy / dt := rfl

theorem cut_eq (dt a s fx fy : K) :
    cut dt a s fx fy = min 1 (s * a / (2 * (dt * (|fx| + |fy|)))) := by
  unfold cut
  congr 1
  rw [show (2 : K) * (dt * (|fx| + |fy|)) = 2 * ((|fx| + |fy|) * dt) by ring,
    one_div, mul_comm (2⁻¹ : K), ← div_eq_mul_inv, div_div]

theorem fyStable_lift (dt a s fx fy : K) (hdt : 0 < dt) :
    fyStable (XF.fin dt) (XF.fin a) (XF.fin s) (XF.fin fx) (XF.fin fy) =
      if fx = 0 ∧ fy = 0 then XF.nan else XF.fin (|fy| * dt * cut dt a s fx fy) := by
  unfold fyStable
  simp only [XF.fin_mul, XF.fin_abs, XF.fin_add, XF.ofRat_eq, np_abs, abs_mul, abs_of_pos hdt,
    ofRat_one, ofRat_two]
  rw [XF.fin_div _ _ two_ne_zero, XF.fin_mul]
  split_ifs with h
  · rcases h with ⟨rfl, rfl⟩
    simp only [abs_zero, zero_mul, mul_zero, add_zero, XF.fin_div_zero, XF.nan_mul, XF.min_nan]
  · have hT : 0 < |fx| + |fy| := by
      rcases not_and_or.1 h with h | h
      · exact add_pos_of_pos_of_nonneg (abs_pos.2 h) (abs_nonneg _)
      · exact add_pos_of_nonneg_of_pos (abs_nonneg _) (abs_pos.2 h)
    have e : |fx| * dt + |fy| * dt = (|fx| + |fy|) * dt := by ring
    have hne : (|fx| + |fy|) * dt ≠ 0 := (mul_pos hT hdt).ne'
    rw [e, XF.fin_div _ _ hne, XF.fin_mul, XF.fin_min, np_min]
    congr 1
    rw [cut, mul_min_of_nonneg _ _ (by positivity), mul_one]
    congr 1
    field_simp

theorem cut_lt_one (dt a s fx fy : K) (hdt : 0 < dt) (h : fy ≠ 0) :
    cut dt a s fx fy < 1 ↔ ¬ halfCell dt a s fx fy := by
  have hT : 0 < (|fx| + |fy|) * dt :=
    mul_pos (add_pos_of_nonneg_of_pos (abs_nonneg _) (abs_pos.2 h)) hdt
  unfold cut halfCell
  rw [min_lt_iff, div_lt_one hT]
  simp

instance (dt a s fx fy : K) : Decidable (halfCell dt a s fx fy) := by
  unfold halfCell; infer_instance

theorem fy_lt_lift (dt a s fx fy : K) (hdt : 0 < dt) :
    NpOps.lt (fyStable (XF.fin dt) (XF.fin a) (XF.fin s) (XF.fin fx) (XF.fin fy))
      (absolute (XF.fin fy * XF.fin dt)) = decide (fy ≠ 0 ∧ ¬ halfCell dt a s fx fy) := by
  rw [fyStable_lift _ _ _ _ _ hdt]
  by_cases h : fy = 0
  · subst h
    split_ifs with h2 <;> simp
  · rw [if_neg (fun hh => h hh.2)]
    simp only [XF.fin_mul, XF.fin_abs, np_abs, abs_mul, abs_of_pos hdt, XF.fin_lt, np_lt]
    have hp : 0 < |fy| * dt := mul_pos (abs_pos.2 h) hdt
    rw [decide_eq_decide, ← cut_lt_one _ _ _ _ _ hdt h]
    simp only [ne_eq, h, not_false_eq_true, true_and]
    exact mul_lt_iff_lt_one_right hp

theorem fy_factor_lift (dt a s fx fy : K) (hdt : 0 < dt) :
    fyStable (XF.fin dt) (XF.fin a) (XF.fin s) (XF.fin fx) (XF.fin fy) /
      absolute (XF.fin fy * XF.fin dt) =
      if fy = 0 then XF.nan else XF.fin (cut dt a s fx fy) := by
  rw [fyStable_lift _ _ _ _ _ hdt]
  by_cases h : fy = 0
  · subst h
    rw [if_pos rfl]
    split_ifs with h2
    · simp
    · simp [XF.fin_div_zero]
  · rw [if_neg (fun hh => h hh.2), if_neg h]
    have hp : |fy| * dt ≠ 0 := (mul_pos (abs_pos.2 h) hdt).ne'
    simp only [XF.fin_mul, XF.fin_abs, np_abs, abs_mul, abs_of_pos hdt]
    rw [XF.fin_div _ _ hp]
    congr 1
    field_simp

theorem mem_toList {β : Type*} (f : Arr m n β) (x : β) :
    x ∈ Arr.toList f ↔ ∃ i j, x = f i j := by
  simp [Arr.toList, eq_comm]

theorem foldl_min_lift (xs : List K) (x : K) :
    (xs.map XF.fin).foldl minimum (XF.fin x) = XF.fin (xs.foldl min x) := by
  induction xs generalizing x with
  | nil => rfl
  | cons y ys ih => simp only [List.map_cons, List.foldl_cons, XF.fin_min, np_min, ih]

theorem foldl_min_isLeast (xs : List K) (x : K) :
    IsLeast {y | y ∈ x :: xs} (xs.foldl min x) := by
  induction xs generalizing x with
  | nil => simp [IsLeast, lowerBounds]
  | cons y ys ih =>
    rw [List.foldl_cons]
    obtain ⟨h1, h2⟩ := ih (min x y)
    have h0 := h2 (show min x y ∈ {z | z ∈ min x y :: ys} from List.mem_cons_self)
    refine ⟨?_, ?_⟩
    · rcases List.mem_cons.1 h1 with h | h
      · rcases min_choice x y with h' | h' <;> rw [h, h'] <;> simp
      · simp [h]
    · intro z hz
      rcases List.mem_cons.1 hz with rfl | hz
      · exact h0.trans (min_le_left _ _)
      rcases List.mem_cons.1 hz with rfl | hz
      · exact h0.trans (min_le_right _ _)
      · exact h2 (List.mem_cons_of_mem _ hz)

/-- The skip-NaN minimum of a field whose values are finite or NaN -/
theorem npNanMin_lift (P : Fin m → Fin n → Prop) [∀ i j, Decidable (P i j)] (c : Arr m n K) :
    (npNanMin (fun i j => if P i j then XF.nan else XF.fin (c i j)) = XF.nan ∧ ∀ i j, P i j) ∨
    ∃ v, npNanMin (fun i j => if P i j then XF.nan else XF.fin (c i j)) = XF.fin v ∧
      IsLeast {x | ∃ i j, ¬ P i j ∧ x = c i j} v := by
  set f : Arr m n (XF K) := fun i j => if P i j then XF.nan else XF.fin (c i j) with hf
  have key : ∀ L : List (XF K), (∀ x ∈ L, x = XF.nan ∨ ∃ v, x = XF.fin v) →
      ∃ xs : List K, L.filter (fun x => !NpOps.isnan x) = xs.map XF.fin := by
    intro L
    induction L with
    | nil => exact fun _ => ⟨[], rfl⟩
    | cons x xs ih =>
      intro h
      obtain ⟨ys, hy⟩ := ih fun z hz => h z (List.mem_cons_of_mem _ hz)
      rcases h x List.mem_cons_self with rfl | ⟨v, rfl⟩
      · exact ⟨ys, by rw [List.filter_cons_of_neg (by simp [NpOps.isnan, XF.isNaN]), hy]⟩
      · exact ⟨v :: ys, by
          rw [List.filter_cons_of_pos (by simp [NpOps.isnan, XF.isNaN]), hy, List.map_cons]⟩
  obtain ⟨xs, hx⟩ := key (Arr.toList f) (by
    intro x h
    obtain ⟨i, j, rfl⟩ := (mem_toList _ _).1 h
    rw [hf]
    by_cases hp : P i j
    · left; simp [hp]
    · right; exact ⟨c i j, by simp [hp]⟩)
  have hmem : ∀ v : K, v ∈ xs ↔ ∃ i j, ¬ P i j ∧ v = c i j := by
    intro v
    have h1 : v ∈ xs ↔ XF.fin v ∈ (Arr.toList f).filter (fun x => !NpOps.isnan x) := by
      rw [hx, List.mem_map]
      constructor
      · exact fun h => ⟨v, h, rfl⟩
      · rintro ⟨w, h, e⟩
        cases e
        exact h
    rw [h1, List.mem_filter, mem_toList]
    constructor
    · rintro ⟨⟨i, j, e⟩, -⟩
      by_cases hp : P i j
      · simp [hf, hp] at e
      · simp only [hf, hp, if_false, XF.fin.injEq] at e
        exact ⟨i, j, hp, e⟩
    · rintro ⟨i, j, hp, rfl⟩
      exact ⟨⟨i, j, by simp [hf, hp]⟩, rfl⟩
  have hset : {x | ∃ i j, ¬ P i j ∧ x = c i j} = {x | x ∈ xs} := by
    ext x; exact (hmem x).symm
  rw [hset]
  unfold npNanMin
  rw [hx]
  cases xs with
  | nil =>
    left
    refine ⟨by simp [XF.fin_div_zero], ?_⟩
    intro i j
    by_contra hp
    exact absurd ((hmem _).2 ⟨i, j, hp, rfl⟩) List.not_mem_nil
  | cons x xs =>
    right
    exact ⟨_, foldl_min_lift xs x, foldl_min_isLeast xs x⟩

theorem toList_length {β : Type*} (f : Arr m n β) : (Arr.toList f).length = m * n := by
  simp [Arr.toList]

theorem toList_count (f : Fin m → Fin n → Prop) [∀ i j, Decidable (f i j)] :
    (Arr.toList fun i j => decide (f i j)).count true =
      (Finset.univ.filter fun p : Fin m × Fin n => f p.1 p.2).card := by
  rw [Finset.card_filter, Fintype.sum_prod_type, Fin.sum_univ_def]
  unfold Arr.toList
  rw [List.count_flatMap]
  congr 1
  apply List.map_congr_left
  intro i _
  rw [Fin.sum_univ_def, Function.comp]
  induction List.finRange n with
  | nil => rfl
  | cons j js ih =>
    simp only [List.map_cons, List.count_cons, List.sum_cons, ih]
    by_cases h : f i j <;> simp [h, add_comm]

theorem correctedPercent_lift (dt : K) (a : Fin m → K) (l : Layer m n K) (hdt : 0 < dt)
    (hm : 0 < m) (hn : 0 < n) :
    correctedPercent
      (fun i j => fyStable (XF.fin dt) (XF.fin (a i)) (XF.fin (l.s i j)) (XF.fin (l.fx i j))
        (XF.fin (l.fy i j)))
      (fun i j => absolute (XF.fin (l.fy i j) * XF.fin dt)) = XF.fin (percent dt a l) := by
  unfold correctedPercent
  simp only [fy_lt_lift _ _ _ _ _ hdt, toList_length]
  rw [toList_count (fun i j => l.fy i j ≠ 0 ∧ ¬ halfCell dt (a i) (l.s i j) (l.fx i j) (l.fy i j))]
  simp only [XF.ofRat_eq]
  rw [XF.fin_div _ _ (by
    rw [ofRat_cast]
    have : 0 < m * n := Nat.mul_pos hm hn
    exact_mod_cast this.ne'), XF.fin_mul]
  congr 1
  simp only [ofRat_cast, percent, halfCell]
  push_cast
  rw [div_mul_eq_mul_div, mul_comm]
  congr

/-- Lower bound on what a call can see -/
theorem cut_nonneg (dt a s fx fy : K) (hdt : 0 < dt) (ha : 0 ≤ a) (hs : 0 ≤ s) :
    0 ≤ cut dt a s fx fy := by
  unfold cut
  apply le_min zero_le_one
  positivity

theorem percent_le (dt : K) (a : Fin m → K) (l : Layer m n K) (hm : 0 < m) (hn : 0 < n) :
    0 ≤ percent dt a l ∧ percent dt a l ≤ 100 := by
  unfold percent
  have hpos : (0 : K) < ((m * n : ℕ) : K) := by exact_mod_cast Nat.mul_pos hm hn
  constructor
  · positivity
  · rw [div_le_iff₀ hpos]
    have : (Finset.univ.filter fun p : Fin m × Fin n =>
      l.fy p.1 p.2 ≠ 0 ∧
        ¬ (|l.fx p.1 p.2| + |l.fy p.1 p.2|) * dt ≤ 1 / 2 * (l.s p.1 p.2 * a p.1)).card ≤ m * n := by
      refine (Finset.card_filter_le _ _).trans ?_
      simp
    have h : ((Finset.univ.filter fun p : Fin m × Fin n =>
      l.fy p.1 p.2 ≠ 0 ∧
        ¬ (|l.fx p.1 p.2| + |l.fy p.1 p.2|) * dt ≤ 1 / 2 * (l.s p.1 p.2 * a p.1)).card : K) ≤
        ((m * n : ℕ) : K) := by exact_mod_cast this
    linarith

/-- **C36.**  Exact criterion.  For finite data a warning of the first kind is issued iff some cell
with a meridional flux is cut by a factor more than 10% below the last warned factor; a warning
of the second kind iff that is not the case and more than 5% of the cells and 10% more than at the
last such warning are cut; the thresholds become the strongest cut and the percentage of the
warning, and stay as they are otherwise.  The fluxes in these cells are really reduced by `cut`. -/
theorem C36_warning_iff (dt : K) (a : Fin m → K) (l : Layer m n K) (st : WarnState K)
    (hdt : 0 < dt) (hm : 0 < m) (hn : 0 < n) :
    ∃ st' w, warnLayer (XF.fin dt) (fun i => XF.fin (a i)) (WarnState.lift st) (Layer.lift l) =
        (WarnState.lift st', w) ∧
      (w = some .factor ↔ ∃ c ∈ cuts dt a l, c < 10 / 11 * st.previous_factor) ∧
      (w = some .area ↔ (∀ c ∈ cuts dt a l, 10 / 11 * st.previous_factor ≤ c) ∧
        5 < percent dt a l ∧ 11 / 10 * st.previous_grid < percent dt a l) ∧
      (w = some .factor →
        IsLeast (cuts dt a l) st'.previous_factor ∧ st'.previous_grid = st.previous_grid) ∧
      (w = some .area →
        st'.previous_grid = percent dt a l ∧ st'.previous_factor = st.previous_factor) ∧
      (w = none → st' = st) := by
  have hmin := npNanMin_lift (fun i j => l.fy i j = 0)
    (fun i j => cut dt (a i) (l.s i j) (l.fx i j) (l.fy i j))
  have e11 : (XF.fin st.previous_factor / ofRat (11 / 10) : XF K) =
      XF.fin (10 / 11 * st.previous_factor) := by
    rw [XF.ofRat_eq, XF.fin_div _ _ (by rw [ofRat_cast]; norm_num)]
    congr 1
    rw [ofRat_cast]
    push_cast
    ring
  have e10 : (XF.fin st.previous_grid * ofRat (11 / 10) : XF K) =
      XF.fin (11 / 10 * st.previous_grid) := by
    rw [XF.ofRat_eq, XF.fin_mul]
    congr 1
    rw [ofRat_cast]
    push_cast
    ring
  have e5 : (ofRat 5 : XF K) = XF.fin 5 := by
    rw [XF.ofRat_eq, ofRat_cast]; norm_num
  have hS : cuts dt a l = {x | ∃ i j, ¬ l.fy i j = 0 ∧
      x = cut dt (a i) (l.s i j) (l.fx i j) (l.fy i j)} := rfl
  rw [← hS] at hmin
  unfold warnLayer trackStabilityCorrection
  simp only [Layer.lift, WarnState.lift, fy_factor_lift _ _ _ _ _ hdt,
    correctedPercent_lift dt a l hdt hm hn, e11, e10, e5, XF.fin_lt, np_lt]
  rcases hmin with ⟨hnan, hall⟩ | ⟨v, hv, hleast⟩
  · have hempty : ∀ c, c ∉ cuts dt a l := by
      rintro c ⟨i, j, h, _⟩
      exact h (hall i j)
    rw [hnan, XF.nan_lt]
    simp only [Bool.false_eq_true, if_false]
    by_cases hA : (5 < percent dt a l) ∧ 11 / 10 * st.previous_grid < percent dt a l
    · refine ⟨⟨percent dt a l, st.previous_factor⟩, some .area, ?_, ?_, ?_, ?_, ?_, ?_⟩
      · simp [hA.1, hA.2]
      · simpa using fun c hc => absurd hc (hempty c)
      · simp only [true_iff]
        exact ⟨fun c hc => absurd hc (hempty c), hA⟩
      · simp
      · simp
      · simp
    · refine ⟨st, none, ?_, ?_, ?_, ?_, ?_, ?_⟩
      · rw [if_neg]; simpa using hA
      · simpa using fun c hc => absurd hc (hempty c)
      · simp only [reduceCtorEq, false_iff]
        exact fun h => hA h.2
      · simp
      · simp
      · simp
  · rw [hv, XF.fin_lt, np_lt]
    by_cases hF : v < 10 / 11 * st.previous_factor
    · refine ⟨⟨st.previous_grid, v⟩, some .factor, ?_, ?_, ?_, ?_, ?_, ?_⟩
      · rw [if_pos (by simpa using hF)]
      · simp only [true_iff]
        exact ⟨v, hleast.1, hF⟩
      · simp only [Option.some.injEq, reduceCtorEq, false_iff]
        exact fun h => absurd (h.1 v hleast.1) (not_le.2 hF)
      · exact fun _ => ⟨hleast, rfl⟩
      · simp
      · simp
    · have hnone : ∀ c ∈ cuts dt a l, 10 / 11 * st.previous_factor ≤ c :=
        fun c hc => (not_lt.1 hF).trans (hleast.2 hc)
      have hno : ¬ ∃ c ∈ cuts dt a l, c < 10 / 11 * st.previous_factor := by
        rintro ⟨c, hc, h⟩
        exact absurd h (not_lt.2 (hnone c hc))
      rw [if_neg (by simpa using hF)]
      by_cases hA : (5 < percent dt a l) ∧ 11 / 10 * st.previous_grid < percent dt a l
      · refine ⟨⟨percent dt a l, st.previous_factor⟩, some .area, ?_, ?_, ?_, ?_, ?_, ?_⟩
        · simp [hA.1, hA.2]
        · simpa using hnone
        · simp only [true_iff]
          exact ⟨hnone, hA⟩
        · simp
        · simp
        · simp
      · refine ⟨st, none, ?_, ?_, ?_, ?_, ?_, ?_⟩
        · rw [if_neg]; simpa using hA
        · simpa using hnone
        · simp only [reduceCtorEq, false_iff]
          exact fun h => hA h.2
        · simp
        · simp
        · simp

/-- The factor the warnings speak of is the factor by which the flux is really reduced. -/
theorem C36_cut_is_applied (dt a s fx fy : K) (hdt : 0 < dt) (h : fy ≠ 0) :
    stabilizeComponent dt a s fx fy fy = cut dt a s fx fy * fy ∧
    stabilizeComponent dt a s fx fy fx = cut dt a s fx fy * fx ∧
    (cut dt a s fx fy < 1 ↔ ¬ halfCell dt a s fx fy) := by
  refine ⟨?_, ?_, cut_lt_one _ _ _ _ _ hdt h⟩
  · rw [stabilizeComponent_eq _ _ _ _ _ _ hdt (Or.inr h), cut_eq, mul_comm]
  · rw [stabilizeComponent_eq _ _ _ _ _ _ hdt (Or.inr h), cut_eq, mul_comm]

/-! ### Sequences of calls -/

/-- A layer with non-negative storages -/
def Wet (l : Layer m n K) : Prop := ∀ i j, 0 ≤ l.s i j

/-- What any number of calls does to the thresholds and how many warnings it can issue. -/
theorem warnAll_spec (dt : K) (a : Fin m → K) (hdt : 0 < dt) (ha : ∀ i, 0 ≤ a i) (hm : 0 < m)
    (hn : 0 < n) (ls : List (Layer m n K)) (hs : ∀ l ∈ ls, Wet l) :
    ∀ st : WarnState K, 0 ≤ st.previous_grid → 0 ≤ st.previous_factor → st.previous_grid ≤ 100 →
    ∃ st' ws, warnAll (XF.fin dt) (fun i => XF.fin (a i)) (WarnState.lift st)
        (ls.map Layer.lift) = (WarnState.lift st', ws) ∧
      st.previous_grid ≤ st'.previous_grid ∧ st'.previous_grid ≤ 100 ∧
      st'.previous_factor ≤ st.previous_factor ∧ 0 ≤ st'.previous_factor ∧
      st.previous_grid * (11 / 10) ^ (ws.count .area) ≤ st'.previous_grid ∧
      (0 < ws.count .area → 5 * (11 / 10) ^ (ws.count .area - 1) < st'.previous_grid) ∧
      st'.previous_factor ≤ st.previous_factor * (10 / 11) ^ (ws.count .factor) ∧
      (0 < ws.count .factor → st'.previous_factor < st.previous_factor * (10 / 11) ^ (ws.count .factor) ∧
        ∃ l ∈ ls, st'.previous_factor ∈ cuts dt a l) := by
  induction ls with
  | nil =>
    intro st hg hf h100
    exact ⟨st, [], rfl, le_rfl, h100, le_rfl, hf, by simp, by simp, by simp, by simp⟩
  | cons l ls ih =>
    intro st hg hf h100
    obtain ⟨st1, w, e, hF, hA, hF', hA', hN⟩ := C36_warning_iff dt a l st hdt hm hn
    have hcut0 : ∀ c ∈ cuts dt a l, 0 ≤ c := by
      rintro c ⟨i, j, -, rfl⟩
      exact cut_nonneg _ _ _ _ _ hdt (ha i) (hs l List.mem_cons_self i j)
    have hp := percent_le dt a l hm hn
    -- state after the first call
    have h1 : 0 ≤ st1.previous_grid ∧ 0 ≤ st1.previous_factor ∧ st1.previous_grid ≤ 100 := by
      rcases w with _ | _ | _
      · rw [hN rfl]; exact ⟨hg, hf, h100⟩
      · obtain ⟨h, h'⟩ := hF' rfl
        exact ⟨h' ▸ hg, hcut0 _ h.1, h' ▸ h100⟩
      · obtain ⟨h, h'⟩ := hA' rfl
        exact ⟨h ▸ hp.1, h' ▸ hf, h ▸ hp.2⟩
    obtain ⟨st', ws, e', i1, i2, i3, i4, i5, i6, i7, i8⟩ :=
      ih (fun l hl => hs l (List.mem_cons_of_mem _ hl)) st1 h1.1 h1.2.1 h1.2.2
    refine ⟨st', w.toList ++ ws, ?_, ?_⟩
    · simp only [List.map_cons, warnAll, e, e']
    have pos : ∀ k : ℕ, (0 : K) < (11 / 10) ^ k := fun k => by positivity
    have pos' : ∀ k : ℕ, (0 : K) < (10 / 11) ^ k := fun k => by positivity
    have one' : ∀ k : ℕ, (1 : K) ≤ (11 / 10) ^ k := fun k => one_le_pow₀ (by norm_num)
    rcases w with _ | _ | _
    · have := hN rfl
      subst this
      simp only [Option.toList_none, List.nil_append]
      refine ⟨i1, i2, i3, i4, i5, i6, i7, fun h => ?_⟩
      obtain ⟨h1, l', hl', h2⟩ := i8 h
      exact ⟨h1, l', List.mem_cons_of_mem _ hl', h2⟩
    · obtain ⟨hl, hgr⟩ := hF' rfl
      obtain ⟨c, hc, hlt⟩ := hF.1 rfl
      have hlt' : st1.previous_factor < 10 / 11 * st.previous_factor := (hl.2 hc).trans_lt hlt
      have hca : (Option.toList (some WarnKind.factor) ++ ws).count .area = ws.count .area := by
        simp [List.count_cons]
      have hcf : (Option.toList (some WarnKind.factor) ++ ws).count .factor =
          ws.count .factor + 1 := by
        simp [List.count_cons]
      rw [hca, hcf]
      have key : st1.previous_factor * (10 / 11) ^ (ws.count .factor) <
          st.previous_factor * (10 / 11) ^ (ws.count .factor + 1) := by
        have := mul_lt_mul_of_pos_right hlt' (pos' (ws.count .factor))
        calc _ < _ := this
          _ = _ := by rw [pow_succ]; ring
      refine ⟨hgr ▸ i1, i2, ?_, i4, hgr ▸ i5, i6, i7.trans key.le, fun _ => ⟨i7.trans_lt key, ?_⟩⟩
      · have : (10 : K) / 11 * st.previous_factor ≤ st.previous_factor := by linarith
        exact i3.trans (hlt'.le.trans this)
      · rcases Nat.eq_zero_or_pos (ws.count .factor) with h0 | h0
        · -- no further warning of the first kind: the threshold is the one just stored
          have hst : ∀ (ls : List (Layer m n K)) (st st' : WarnState K) (ws : List WarnKind),
              warnAll (XF.fin dt) (fun i => XF.fin (a i)) (WarnState.lift st)
                (ls.map Layer.lift) = (WarnState.lift st', ws) → ws.count .factor = 0 →
              st'.previous_factor = st.previous_factor := by
            intro ls
            induction ls with
            | nil =>
              intro st st' ws h _
              simp only [List.map_nil, warnAll, WarnState.lift, Prod.mk.injEq,
                WarnState.mk.injEq, XF.fin.injEq] at h
              exact h.1.2.symm
            | cons l ls ih =>
              intro st st' ws h h0
              obtain ⟨st1, w, e, _, _, _, hA', hN⟩ := C36_warning_iff dt a l st hdt hm hn
              simp only [List.map_cons, warnAll, e] at h
              have hc0 : ∀ r, r = warnAll (XF.fin dt) (fun i => XF.fin (a i))
                  (WarnState.lift st1) (ls.map Layer.lift) →
                  r.1 = WarnState.lift st' ∧ w.toList ++ r.2 = ws := by
                rintro r rfl
                exact ⟨(Prod.mk.inj h).1, (Prod.mk.inj h).2⟩
              obtain ⟨hr1, hr2⟩ := hc0 _ rfl
              rw [← hr2, List.count_append, Nat.add_eq_zero_iff] at h0
              have hw : st1.previous_factor = st.previous_factor := by
                rcases w with _ | _ | _
                · rw [hN rfl]
                · simp at h0
                · exact (hA' rfl).2
              rw [← hw]
              exact ih st1 st' _ (Prod.ext hr1 rfl) h0.2
          rw [hst ls st1 st' ws e' h0]
          exact ⟨l, List.mem_cons_self, hl.1⟩
        · obtain ⟨_, l', hl', h2⟩ := i8 h0
          exact ⟨l', List.mem_cons_of_mem _ hl', h2⟩
    · obtain ⟨hgr, hfa⟩ := hA' rfl
      obtain ⟨-, h5, h10⟩ := hA.1 rfl
      have hca : (Option.toList (some WarnKind.area) ++ ws).count .area = ws.count .area + 1 := by
        simp [List.count_cons]
      have hcf : (Option.toList (some WarnKind.area) ++ ws).count .factor = ws.count .factor := by
        simp [List.count_cons]
      rw [hca, hcf]
      rw [← hgr] at h5 h10
      refine ⟨?_, i2, hfa ▸ i3, i4, ?_, ?_, hfa ▸ i7, fun h => ?_⟩
      · have : st.previous_grid ≤ 11 / 10 * st.previous_grid := by linarith
        exact this.trans (h10.le.trans i1)
      · have := mul_le_mul_of_nonneg_right h10.le (pos (ws.count .area)).le
        calc st.previous_grid * (11 / 10) ^ (ws.count .area + 1)
            = 11 / 10 * st.previous_grid * (11 / 10) ^ (ws.count .area) := by rw [pow_succ]; ring
          _ ≤ _ := this
          _ ≤ _ := i5
      · intro _
        rw [Nat.add_sub_cancel]
        exact (mul_lt_mul_of_pos_right h5 (pos _)).trans_le i5
      · obtain ⟨h1, l', hl', h2⟩ := i8 h
        exact ⟨hfa ▸ h1, l', List.mem_cons_of_mem _ hl', h2⟩

/-- **C36.**  The thresholds never relax, whatever the calls. -/
theorem C36_thresholds_never_relax (dt : K) (a : Fin m → K) (hdt : 0 < dt) (ha : ∀ i, 0 ≤ a i)
    (hm : 0 < m) (hn : 0 < n) (before after : List (Layer m n K))
    (hs : ∀ l ∈ before ++ after, Wet l) :
    ∃ st1 st2 : WarnState K, ∃ w1 w2,
      warnAll (XF.fin dt) (fun i => XF.fin (a i)) WarnState.start (before.map Layer.lift) =
        (WarnState.lift st1, w1) ∧
      warnAll (XF.fin dt) (fun i => XF.fin (a i)) WarnState.start
        ((before ++ after).map Layer.lift) = (WarnState.lift st2, w1 ++ w2) ∧
      st1.previous_grid ≤ st2.previous_grid ∧ st2.previous_factor ≤ st1.previous_factor := by
  have e0 : (WarnState.start : WarnState (XF K)) = WarnState.lift ⟨0, 1⟩ := by
    simp [WarnState.start, WarnState.lift]
  obtain ⟨st1, w1, e1, a1, a2, a3, a4, -⟩ := warnAll_spec dt a hdt ha hm hn before
    (fun l h => hs l (List.mem_append_left _ h)) ⟨0, 1⟩ le_rfl zero_le_one (by norm_num)
  obtain ⟨st2, w2, e2, b1, b2, b3, b4, -⟩ := warnAll_spec dt a hdt ha hm hn after
    (fun l h => hs l (List.mem_append_right _ h)) st1 a1 a4 a2
  refine ⟨st1, st2, w1, w2, by rw [e0, e1], ?_, b1, b3⟩
  have happ : ∀ (ls ls' : List (Layer m n (XF K))) (st : WarnState (XF K)),
      warnAll (XF.fin dt) (fun i => XF.fin (a i)) st (ls ++ ls') =
        ((warnAll (XF.fin dt) (fun i => XF.fin (a i))
            (warnAll (XF.fin dt) (fun i => XF.fin (a i)) st ls).1 ls').1,
          (warnAll (XF.fin dt) (fun i => XF.fin (a i)) st ls).2 ++
          (warnAll (XF.fin dt) (fun i => XF.fin (a i))
            (warnAll (XF.fin dt) (fun i => XF.fin (a i)) st ls).1 ls').2) := by
    intro ls ls'
    induction ls with
    | nil => intro st; simp [warnAll]
    | cons l ls ih => intro st; simp [warnAll, ih]
  rw [List.map_append, happ, e0, e1, e2]

/-- The calls of a run, on floats, are the calls `C36_warnings_bounded` speaks of. -/
theorem runWarnings_lift (dt : K) (a : Fin m → K) (steps : List (Fluxes m n K × States m n K)) :
    runWarnings (XF.fin dt) (fun i => XF.fin (a i))
      (steps.map fun p => (liftF p.1, liftS p.2)) =
    (warnAll (XF.fin dt) (fun i => XF.fin (a i)) WarnState.start
      ((steps.flatMap fun p => bothLayers p.1 p.2).map Layer.lift)).2 := by
  unfold runWarnings
  rw [List.flatMap_map, List.map_flatMap]
  rfl

/-- **C36.**  A run issues at most 32 warnings of the second kind, and after `k` warnings of the
first kind some cell was cut by a factor below `(10/11)^k`: without arbitrarily strong cuts, the
warnings stop. -/
theorem C36_warnings_bounded (dt : K) (a : Fin m → K) (hdt : 0 < dt) (ha : ∀ i, 0 ≤ a i)
    (hm : 0 < m) (hn : 0 < n) (steps : List (Fluxes m n K × States m n K))
    (hs : ∀ p ∈ steps, ∀ l ∈ bothLayers p.1 p.2, Wet l) :
    let ws := runWarnings (XF.fin dt) (fun i => XF.fin (a i))
      (steps.map fun p => (liftF p.1, liftS p.2))
    ws.count .area ≤ 32 ∧
    (0 < ws.count .factor → ∃ p ∈ steps, ∃ l ∈ bothLayers p.1 p.2,
      ∃ c ∈ cuts dt a l, c < (10 / 11) ^ ws.count .factor) := by
  have e0 : (WarnState.start : WarnState (XF K)) = WarnState.lift ⟨0, 1⟩ := by
    simp [WarnState.start, WarnState.lift]
  obtain ⟨st1, w1, e1, a1, a2, a3, a4, a5, a6, a7, a8⟩ := warnAll_spec dt a hdt ha hm hn
    (steps.flatMap fun p => bothLayers p.1 p.2)
    (fun l h => by
      obtain ⟨p, hp, hl⟩ := List.mem_flatMap.1 h
      exact hs p hp l hl) ⟨0, 1⟩ le_rfl zero_le_one (by norm_num)
  have ew : runWarnings (XF.fin dt) (fun i => XF.fin (a i))
      (steps.map fun p => (liftF p.1, liftS p.2)) = w1 := by
    rw [runWarnings_lift, e0, e1]
  intro ws
  have hws : ws = w1 := ew
  clear_value ws
  subst hws
  refine ⟨?_, fun h => ?_⟩
  · by_contra hc
    rw [not_le] at hc
    have h1 := a6 (by omega)
    have h2 : (5 : K) * (11 / 10) ^ 32 ≤ 5 * (11 / 10) ^ (ws.count .area - 1) := by
      apply mul_le_mul_of_nonneg_left _ (by norm_num)
      exact pow_le_pow_right₀ (by norm_num) (by omega)
    have h3 : (100 : K) < 5 * (11 / 10) ^ 32 := by norm_num
    linarith
  · obtain ⟨h1, l, hl, h2⟩ := a8 h
    obtain ⟨p, hp, hl⟩ := List.mem_flatMap.1 hl
    exact ⟨p, hp, l, hl, _, h2, by simpa using h1⟩

/-- **C36.**  Zonal blindness: where the meridional flux vanishes nothing is ever reported, however
much the zonal flux is cut. -/
theorem C36_blind_to_zonal_cuts (dt : K) (a : Fin m → K) (hdt : 0 < dt) (hm : 0 < m) (hn : 0 < n)
    (st : WarnState K) (hg : 0 ≤ st.previous_grid) (l : Layer m n K) (hfy : ∀ i j, l.fy i j = 0) :
    (warnLayer (XF.fin dt) (fun i => XF.fin (a i)) (WarnState.lift st) (Layer.lift l)).2 =
      none := by
  obtain ⟨st1, w, e, hF, hA, hF', hA', hN⟩ := C36_warning_iff dt a l st hdt hm hn
  rw [e]
  have hp : percent dt a l = 0 := by
    unfold percent
    rw [Finset.filter_false_of_mem (by intro p _; simp [hfy])]
    simp
  rcases w with _ | _ | _
  · rfl
  · obtain ⟨c, ⟨i, j, h, _⟩, _⟩ := hF.1 rfl
    exact absurd (hfy i j) h
  · obtain ⟨_, h, _⟩ := hA.1 rfl
    rw [hp] at h
    exact absurd h (by norm_num)

/-- non-vacuity: a purely zonal flux that is cut to a hundredth stays unreported, while the same
meridional flux is reported at once -/
example : stabilizeComponent (1 : ℚ) 1 2 100 0 100 = 1 ∧
    (warnLayer (XF.fin (1 : ℚ)) (fun _ => XF.fin 1) WarnState.start
      (Layer.lift (⟨fun _ _ => 2, fun _ _ => 100, fun _ _ => 0⟩ : Layer 2 2 ℚ))).2 = none ∧
    (warnLayer (XF.fin (1 : ℚ)) (fun _ => XF.fin 1) WarnState.start
      (Layer.lift (⟨fun _ _ => 2, fun _ _ => 0, fun _ _ => 100⟩ : Layer 2 2 ℚ))).2 =
        some .factor := by decide +kernel

/-- non-vacuity: a second-kind warning (all cells cut by 5%: the factor 0.95 is above 1/1.1), then
silence for the same field, then a first-kind warning -/
example : (warnAll (XF.fin (1 : ℚ)) (fun _ => XF.fin 1) WarnState.start
    ([(⟨fun _ _ => 19, fun _ _ => 0, fun _ _ => 10⟩ : Layer 2 2 ℚ),
      ⟨fun _ _ => 19, fun _ _ => 0, fun _ _ => 10⟩,
      ⟨fun _ _ => 10, fun _ _ => 0, fun _ _ => 10⟩].map Layer.lift)).2 =
    [.area, .factor] := by decide +kernel

end Wam
