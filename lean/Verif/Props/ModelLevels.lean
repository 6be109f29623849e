import Verif.Lemmas.Column
import Verif.Model.Era5Table

/-!
# Model levels: C54, and the model-level part of C51
-/

set_option linter.unusedSectionVars false
set_option linter.unusedVariables false

namespace Wam
open Spec

section
variable {K : Type} [Field K] [LinearOrder K] [IsStrictOrderedRing K]

theorem npMidpoints_length {α : Type} [Add α] [Div α] [NpOps α] (l : List α) :
    (npMidpoints l).length = l.length - 1 := by
  induction l with
  | nil => rfl
  | cons a l ih =>
    cases l with
    | nil => rfl
    | cons b l => rw [npMidpoints, List.length_cons, ih]; simp

theorem npMidpoints_getElem (l : List K) (i : ℕ) (h : i < (npMidpoints l).length) :
    (npMidpoints l)[i] = (l[i]'(by rw [npMidpoints_length] at h; omega) +
      l[i + 1]'(by rw [npMidpoints_length] at h; omega)) / 2 := by
  induction l generalizing i with
  | nil => simp [npMidpoints] at h
  | cons a l ih =>
    cases l with
    | nil => simp [npMidpoints] at h
    | cons b l =>
      cases i with
      | zero => simp [npMidpoints, add_comm]
      | succ i =>
        have h' : i < (npMidpoints (b :: l)).length := by
          rw [npMidpoints, List.length_cons] at h; omega
        have := ih i h'
        simpa [npMidpoints] using this

theorem npDiff_sum (a : K) (l : List K) (b : K) : (npDiff (a :: l ++ [b])).sum = b - a := by
  induction l generalizing a with
  | nil => simp [npDiff]
  | cons c l ih =>
    have := ih c
    simp only [List.cons_append] at this ⊢
    rw [npDiff, List.sum_cons, this]
    ring

/-- the values at the selected levels: `midpoints(a)[levels]` -/
def fullLevels (a : List K) (levels : List ℤ) : List K :=
  levels.map fun l => (a.getD (l - 1).toNat 0 + a.getD l.toNat 0) / 2

theorem mapM_npIndex (a : List K) (levels : List ℤ)
    (h : ∀ l ∈ levels, 1 ≤ l ∧ l < a.length) :
    (levels.map fun i => i - 1).mapM (npIndex (npMidpoints a)) = .ok (fullLevels a levels) := by
  induction levels with
  | nil => rfl
  | cons l ls ih =>
    have hl := h l (by simp)
    have e : npIndex (npMidpoints a) (l - 1) =
        .ok ((a.getD (l - 1).toNat 0 + a.getD l.toNat 0) / 2) := by
      obtain ⟨n, hn⟩ : ∃ n : ℕ, l = n + 1 := ⟨(l - 1).toNat, by omega⟩
      have hlt : n < (npMidpoints a).length := by rw [npMidpoints_length]; omega
      have h1 : l - 1 = (n : ℤ) := by omega
      have h2 : (l - 1).toNat = n := by omega
      have h3 : l.toNat = n + 1 := by omega
      rw [h2, h3, h1, npIndex_nat _ _ hlt, npMidpoints_getElem]
      rw [npMidpoints_length] at hlt
      rw [List.getD_eq_getElem?_getD, List.getD_eq_getElem?_getD,
        List.getElem?_eq_getElem (by omega), List.getElem?_eq_getElem (by omega)]
      rfl
    simp only [List.map_cons, List.mapM_cons, e, ih fun x hx => h x (List.mem_cons_of_mem _ hx),
      fullLevels, bind, Except.bind, pure, Except.pure]

theorem zipWith_append_singleton {α β γ : Type} (f : α → β → γ) (l : List α) (m : List β) (a : α)
    (b : β) (h : l.length = m.length) :
    List.zipWith f (l ++ [a]) (m ++ [b]) = List.zipWith f l m ++ [f a b] := by
  rw [List.zipWith_append h]; rfl

/-- What `get_dp_modellevels` computes for valid levels. -/
theorem getDp_eq (a b : List K) (hlen : a.length = b.length) (h1 : 0 < a.length) (sp : K)
    (levels : List ℤ) (hne : levels ≠ []) (h : ∀ l ∈ levels, 1 ≤ l ∧ l < a.length) :
    getDpModellevels a b sp levels =
      .ok (npDiff ((a[0] + b[0] * sp) ::
        List.zipWith (fun a b => a + b * sp) (npMidpoints (fullLevels a levels))
          (npMidpoints (fullLevels b levels)) ++
        [a[a.length - 1] + b[b.length - 1] * sp])) := by
  have hl : ∀ c : List K, (npMidpoints (fullLevels c levels)).length = levels.length - 1 := by
    intro c; rw [npMidpoints_length]; simp [fullLevels]
  have hpos : 0 < levels.length := List.length_pos_iff.2 hne
  have e1 := npIndex_nat a 0 h1
  have e2 := npIndex_neg_one a h1
  have e3 := npIndex_nat b 0 (by omega)
  have e4 := npIndex_neg_one b (by omega)
  simp only [Nat.cast_zero] at e1 e3
  unfold getDpModellevels getEdges
  simp only [mapM_npIndex a levels h, mapM_npIndex b levels (fun l hl' => by
    rw [← hlen]; exact h l hl'), e1, e2, e3, e4, bind, Except.bind, pure, Except.pure]
  have hlen' : ¬ (a[0] :: npMidpoints (fullLevels a levels) ++ [a[a.length - 1]]).length ≠
      levels.length + 1 := by
    simp only [List.length_append, List.length_cons, List.length_nil, hl a]
    omega
  simp only [hlen', if_false]
  rw [List.cons_append, List.cons_append, List.zipWith_cons_cons,
    zipWith_append_singleton _ _ _ _ _ (by rw [hl, hl])]
  rfl

/-- For every list of levels of the table the thicknesses, one per level, add up to the pressure difference between
the two ends of the table. -/
theorem C54_thicknesses_add_up (a b : List K) (hlen : a.length = b.length) (h1 : 0 < a.length)
    (sp : K) (levels : List ℤ) (hne : levels ≠ []) (h : ∀ l ∈ levels, 1 ≤ l ∧ l < a.length) :
    ∃ dp, getDpModellevels a b sp levels = .ok dp ∧ dp.length = levels.length ∧
      dp.sum = (a[a.length - 1] - a[0]) + (b[b.length - 1] - b[0]) * sp := by
  have hpos : 0 < levels.length := List.length_pos_iff.2 hne
  refine ⟨_, getDp_eq a b hlen h1 sp levels hne h, ?_, ?_⟩
  · rw [npDiff_length]
    simp only [List.cons_append, List.length_cons, List.length_append, List.length_nil,
      List.length_zipWith, npMidpoints_length, fullLevels, List.length_map]
    omega
  · rw [npDiff_sum]; ring

theorem era5A_length : (era5A K).length = 138 := by
  rw [era5A, List.length_map]; decide +kernel
theorem era5B_length : (era5B K).length = 138 := by
  rw [era5B, List.length_map]; decide +kernel

theorem era5_ends : (era5A K)[0]'(by rw [era5A_length]; omega) = 0 ∧
    (era5A K)[137]'(by rw [era5A_length]; omega) = 0 ∧
    (era5B K)[0]'(by rw [era5B_length]; omega) = 0 ∧
    (era5B K)[137]'(by rw [era5B_length]; omega) = 1 := by
  have a0 : era5AInt[0]'(by decide +kernel) = 0 := by decide +kernel
  have a1 : era5AInt[137]'(by decide +kernel) = 0 := by decide +kernel
  have b0 : era5BInt[0]'(by decide +kernel) = 0 := by decide +kernel
  have b1 : era5BInt[137]'(by decide +kernel) = 1000000 := by decide +kernel
  refine ⟨?_, ?_, ?_, ?_⟩
  · simp only [era5A, List.getElem_map, a0, ofRat_cast, Rat.mkRat_zero, Rat.zero_mkRat,
      Rat.cast_zero]
  · simp only [era5A, List.getElem_map, a1, ofRat_cast, Rat.mkRat_zero, Rat.zero_mkRat,
      Rat.cast_zero]
  · simp only [era5B, List.getElem_map, b0, ofRat_cast, Rat.mkRat_zero, Rat.zero_mkRat,
      Rat.cast_zero]
  · simp only [era5B, List.getElem_map, b1, ofRat_cast]
    have : mkRat 1000000 1000000 = 1 := by decide +kernel
    rw [this, Rat.cast_one]

/-- For the ERA5 table the thicknesses of any selection of levels add up to the surface
pressure. -/
theorem C54_era5_surface_pressure (sp : K) (levels : List ℤ) (hne : levels ≠ [])
    (h : ∀ l ∈ levels, 1 ≤ l ∧ l ≤ 137) :
    ∃ dp, getDpModellevels (era5A K) (era5B K) sp levels = .ok dp ∧
      dp.length = levels.length ∧ dp.sum = sp := by
  obtain ⟨dp, e1, e2, e3⟩ := C54_thicknesses_add_up (era5A K) (era5B K)
    (by rw [era5A_length, era5B_length]) (by rw [era5A_length]; omega) sp levels hne
    (fun l hl => by
      have := h l hl
      rw [era5A_length]
      constructor <;> push_cast <;> omega)
  refine ⟨dp, e1, e2, ?_⟩
  obtain ⟨a0, a1, b0, b1⟩ := era5_ends (K := K)
  simp only [era5A_length, era5B_length] at e3
  rw [e3, a0, a1, b0, b1]
  ring

/-! ### Thicknesses are non-negative -/

theorem getD_mono (l : List K) (hs : l.Pairwise (· ≤ ·)) (i j : ℕ) (hij : i ≤ j)
    (hj : j < l.length) : l.getD i 0 ≤ l.getD j 0 := by
  rw [List.getD_eq_getElem?_getD, List.getD_eq_getElem?_getD,
    List.getElem?_eq_getElem hj, List.getElem?_eq_getElem (by omega)]
  simp only [Option.getD_some]
  rcases Nat.lt_or_eq_of_le hij with h | rfl
  · exact List.pairwise_iff_getElem.1 hs _ _ _ _ h
  · exact le_rfl

theorem midpoints_pairwise (l : List K) (hs : l.Pairwise (· ≤ ·)) (lo hi : K)
    (hb : ∀ x ∈ l, lo ≤ x ∧ x ≤ hi) :
    (npMidpoints l).Pairwise (· ≤ ·) ∧ ∀ x ∈ npMidpoints l, lo ≤ x ∧ x ≤ hi := by
  refine ⟨?_, ?_⟩
  · rw [List.pairwise_iff_getElem]
    intro i j hi hj hij
    rw [npMidpoints_getElem, npMidpoints_getElem]
    rw [npMidpoints_length] at hi hj
    have h1 := List.pairwise_iff_getElem.1 hs i j (by omega) (by omega) hij
    have h2 := List.pairwise_iff_getElem.1 hs (i + 1) (j + 1) (by omega) (by omega) (by omega)
    linarith
  · intro x hx
    obtain ⟨i, hi, rfl⟩ := List.getElem_of_mem hx
    rw [npMidpoints_getElem]
    rw [npMidpoints_length] at hi
    have h1 := hb _ (List.getElem_mem (l := l) (n := i) (by omega))
    have h2 := hb _ (List.getElem_mem (l := l) (n := i + 1) (by omega))
    constructor <;> linarith [h1.1, h1.2, h2.1, h2.2]

theorem zipWith_fullLevels (a b : List K) (sp : K) (hlen : a.length = b.length) (levels : List ℤ)
    (h : ∀ l ∈ levels, 1 ≤ l ∧ l < a.length) :
    List.zipWith (fun a b => a + b * sp) (npMidpoints (fullLevels a levels))
      (npMidpoints (fullLevels b levels)) =
    npMidpoints (fullLevels (List.zipWith (fun a b => a + b * sp) a b) levels) := by
  apply List.ext_getElem
  · simp [npMidpoints_length, fullLevels]
  · intro i h1 h2
    rw [List.getElem_zipWith, npMidpoints_getElem, npMidpoints_getElem, npMidpoints_getElem]
    rw [npMidpoints_length] at h2
    simp only [fullLevels, List.length_map] at h2
    have g : ∀ k : ℕ, k < a.length → (List.zipWith (fun a b => a + b * sp) a b).getD k 0 =
        a.getD k 0 + b.getD k 0 * sp := by
      intro k hk
      have hk' : k < b.length := by omega
      have hk'' : k < (List.zipWith (fun a b => a + b * sp) a b).length := by
        rw [List.length_zipWith]; omega
      simp [List.getD_eq_getElem?_getD, List.getElem?_eq_getElem hk, List.getElem?_eq_getElem hk',
        List.getElem?_eq_getElem hk'']
    have v : ∀ k (hk : k < levels.length), 1 ≤ levels[k] ∧ levels[k] < a.length :=
      fun k hk => h _ (List.getElem_mem _)
    have v1 := v i (by omega)
    have v2 := v (i + 1) (by omega)
    simp only [fullLevels, List.getElem_map]
    rw [g _ (by omega), g _ (by omega), g _ (by omega), g _ (by omega)]
    ring

/-- If the pressure increases along the table, the thicknesses of levels given in increasing
order are non-negative. -/
theorem C54_nonneg (a b : List K) (hlen : a.length = b.length) (h1 : 0 < a.length)
    (sp : K) (hmono : (List.zipWith (fun a b => a + b * sp) a b).Pairwise (· ≤ ·))
    (levels : List ℤ) (hne : levels ≠ []) (hsort : levels.Pairwise (· ≤ ·))
    (h : ∀ l ∈ levels, 1 ≤ l ∧ l < a.length) :
    ∃ dp, getDpModellevels a b sp levels = .ok dp ∧ ∀ d ∈ dp, 0 ≤ d := by
  refine ⟨_, getDp_eq a b hlen h1 sp levels hne h, ?_⟩
  set P := List.zipWith (fun a b => a + b * sp) a b with hP
  have hPl : P.length = a.length := by rw [hP, List.length_zipWith]; omega
  rw [zipWith_fullLevels a b sp hlen levels h, ← hP]
  have p0 : a[0] + b[0] * sp = P.getD 0 0 := by
    rw [List.getD_eq_getElem?_getD, List.getElem?_eq_getElem (by omega)]
    simp [hP]
  have pN : a[a.length - 1] + b[b.length - 1] * sp = P.getD (a.length - 1) 0 := by
    rw [List.getD_eq_getElem?_getD, List.getElem?_eq_getElem (by omega)]
    simp [hP, hlen]
  rw [p0, pN]
  have hfull : (fullLevels P levels).Pairwise (· ≤ ·) := by
    unfold fullLevels
    rw [List.pairwise_map]
    refine hsort.imp_of_mem ?_
    intro x y hx hy hxy
    have vx := h x hx
    have vy := h y hy
    have m1 := getD_mono P hmono (x - 1).toNat (y - 1).toNat (by omega) (by omega)
    have m2 := getD_mono P hmono x.toNat y.toNat (by omega) (by omega)
    linarith
  have hbound : ∀ x ∈ fullLevels P levels, P.getD 0 0 ≤ x ∧ x ≤ P.getD (a.length - 1) 0 := by
    intro x hx
    unfold fullLevels at hx
    obtain ⟨l, hl, rfl⟩ := List.mem_map.1 hx
    have v := h l hl
    have m1 := getD_mono P hmono 0 (l - 1).toNat (by omega) (by omega)
    have m2 := getD_mono P hmono 0 l.toNat (by omega) (by omega)
    have m3 := getD_mono P hmono (l - 1).toNat (a.length - 1) (by omega) (by omega)
    have m4 := getD_mono P hmono l.toNat (a.length - 1) (by omega) (by omega)
    constructor <;> linarith
  obtain ⟨m1, m2⟩ := midpoints_pairwise _ hfull _ _ hbound
  have hall : (P.getD 0 0 :: npMidpoints (fullLevels P levels) ++
      [P.getD (a.length - 1) 0]).Pairwise (· ≤ ·) := by
    rw [List.cons_append, List.pairwise_cons, List.pairwise_append]
    refine ⟨?_, m1, by simp, ?_⟩
    · intro x hx
      rcases List.mem_append.1 hx with hx | hx
      · exact (m2 x hx).1
      · simp only [List.mem_singleton] at hx
        subst hx
        exact getD_mono P hmono 0 _ (by omega) (by omega)
    · intro x hx y hy
      simp only [List.mem_singleton] at hy
      subst hy
      exact (m2 x hx).2
  have := (npDiff_all_iff _).2 hall
  simpa [List.all_eq_true] using this

/-- consecutive rows of the table: `a` decreases slower than `30331 b` grows, and `b` does not
decrease -/
theorem era5_table_monotone : ((era5AInt.zip era5BInt).zip (era5AInt.zip era5BInt).tail).all
    (fun r => decide (r.1.2 ≤ r.2.2) &&
      decide (r.1.1 + r.1.2 * 30331 ≤ r.2.1 + r.2.2 * 30331)) = true := by
  decide +kernel

theorem chain_of_zip_tail {β : Type} (R : β → β → Prop) (l : List β)
    (h : ∀ x ∈ l.zip l.tail, R x.1 x.2) : l.IsChain R := by
  induction l with
  | nil => exact .nil
  | cons a l ih =>
    cases l with
    | nil => exact .singleton a
    | cons b l =>
      rw [List.isChain_cons_cons]
      exact ⟨h (a, b) (by simp), ih fun x hx => h x (by simp at hx ⊢; exact Or.inr hx)⟩

theorem era5_pressures_monotone (sp : K) (hsp : 30331 ≤ sp) :
    (List.zipWith (fun a b => a + b * sp) (era5A K) (era5B K)).Pairwise (· ≤ ·) := by
  have e : List.zipWith (fun a b => a + b * sp) (era5A K) (era5B K) =
      (era5AInt.zip era5BInt).map fun r =>
        ((r.1 : K) / 1000000) + ((r.2 : K) / 1000000) * sp := by
    rw [era5A, era5B, List.zipWith_map, List.zip, List.map_zipWith]
    congr 1
    funext x y
    simp only [ofRat_cast, Rat.mkRat_eq_div]
    push_cast
    ring
  rw [e, ← List.isChain_iff_pairwise, List.isChain_map]
  apply chain_of_zip_tail
  intro r hr
  have := List.all_eq_true.1 era5_table_monotone r hr
  simp only [Bool.and_eq_true, decide_eq_true_eq] at this
  obtain ⟨h1, h2⟩ := this
  have h1' : (r.1.2 : K) ≤ (r.2.2 : K) := by exact_mod_cast h1
  have h2' : (r.1.1 : K) + (r.1.2 : K) * 30331 ≤ (r.2.1 : K) + (r.2.2 : K) * 30331 := by
    exact_mod_cast h2
  nlinarith [mul_le_mul_of_nonneg_left hsp (sub_nonneg.2 h1')]

/-- For the ERA5 table the thicknesses of increasing levels are non-negative for every surface
pressure of at least 303.31 hPa (the lowest surface pressure on earth is about 480 hPa). -/
theorem C54_era5_nonneg (sp : K) (hsp : 30331 ≤ sp) (levels : List ℤ) (hne : levels ≠ [])
    (hsort : levels.Pairwise (· ≤ ·)) (h : ∀ l ∈ levels, 1 ≤ l ∧ l ≤ 137) :
    ∃ dp, getDpModellevels (era5A K) (era5B K) sp levels = .ok dp ∧ ∀ d ∈ dp, 0 ≤ d := by
  refine C54_nonneg (era5A K) (era5B K) (by rw [era5A_length, era5B_length])
    (by rw [era5A_length]; omega) sp (era5_pressures_monotone sp hsp) levels hne hsort ?_
  intro l hl
  have := h l hl
  rw [era5A_length]
  constructor <;> push_cast <;> omega

/-- A level outside the table stops preprocessing. -/
theorem C54_level_out_of_table (a b : List K) (sp : K) (levels : List ℤ) (l : ℤ) (hl : l ∈ levels)
    (hout : (a.length : ℤ) ≤ l) (hfirst : ∀ x ∈ levels, 1 ≤ x) (h1 : 0 < a.length) :
    getDpModellevels a b sp levels = .error .indexError := by
  have key : (levels.map fun i => i - 1).mapM (npIndex (npMidpoints a)) = .error .indexError := by
    clear h1
    induction levels with
    | nil => simp at hl
    | cons x xs ih =>
      have hx1 := hfirst x (by simp)
      by_cases hx : (a.length : ℤ) ≤ x
      · have : npIndex (npMidpoints a) (x - 1) = .error .indexError := by
          obtain ⟨n, hn⟩ : ∃ n : ℕ, x - 1 = n := ⟨(x - 1).toNat, by omega⟩
          rw [hn]
          apply npIndex_nat_error
          rw [npMidpoints_length]; omega
        simp [List.mapM_cons, this, bind, Except.bind]
      · rcases List.mem_cons.1 hl with rfl | hl
        · exact absurd hout hx
        · have := mapM_npIndex a [x] (by
            intro y hy
            simp only [List.mem_singleton] at hy
            subst hy; omega)
          have ih' := ih hl fun y hy => hfirst y (List.mem_cons_of_mem _ hy)
          have hi : ∃ v, npIndex (npMidpoints a) (x - 1) = .ok v := by
            obtain ⟨n, hn⟩ : ∃ n : ℕ, x - 1 = n := ⟨(x - 1).toNat, by omega⟩
            rw [hn]
            exact ⟨_, npIndex_nat _ _ (by rw [npMidpoints_length]; omega)⟩
          obtain ⟨v, hv⟩ := hi
          simp only [List.map_cons, List.mapM_cons, hv, bind, Except.bind] at ih' ⊢
          rw [ih']
  unfold getDpModellevels getEdges
  simp only [key, bind, Except.bind]

end

/-- Level numbers start at one, but level zero is not rejected: Python's index -1 makes it an
alias of the lowest level, 137. -/
theorem C54_level_zero_is_137 (sp : ℚ) (levels : List ℤ) :
    getDpModellevels (era5A ℚ) (era5B ℚ) sp (0 :: levels) =
      getDpModellevels (era5A ℚ) (era5B ℚ) sp (137 :: levels) := by
  have hA : npIndex (npMidpoints (era5A ℚ)) (0 - 1) = npIndex (npMidpoints (era5A ℚ)) (137 - 1) := by
    decide +kernel
  have hB : npIndex (npMidpoints (era5B ℚ)) (0 - 1) = npIndex (npMidpoints (era5B ℚ)) (137 - 1) := by
    decide +kernel
  unfold getDpModellevels getEdges
  simp only [List.map_cons, List.mapM_cons, hA, hB, List.length_cons]

/-- Listing all 137 levels does not give the thicknesses of the table itself: the edges are
averaged twice.  The first layer reaches from 0 to about 1.78 Pa instead of 2.000365 Pa. -/
theorem C54_all_levels_not_exact :
    (getDpModellevels (era5A ℚ) (era5B ℚ) 100000
      ((List.range 137).map fun i : ℕ => (i : ℤ) + 1)).toOption.map List.head? =
      some (some (7102971 / 4000000)) ∧
    (npDiff (List.zipWith (fun a b => a + b * 100000) (era5A ℚ) (era5B ℚ))).head? =
      some (2000365 / 1000000) := by
  decide +kernel

example : ([105, 114, 123, 137] : List ℤ).Pairwise (· ≤ ·) ∧
    (getDpModellevels (era5A ℚ) (era5B ℚ) 100000 [105, 114, 123, 137]).toOption.map
      (fun dp => (dp.sum, dp.length)) = some (100000, 4) := by
  decide +kernel

/-! ## C51 for model levels -/

section
variable {K : Type} [Field K] [LinearOrder K] [IsStrictOrderedRing K]

/-- Sum of `x * y` level by level. -/
def dot (x y : List K) : K := (List.zipWith (· * ·) x y).sum

theorem sum_map_mul_const {β : Type} (l : List β) (f : β → K) (c : K) :
    (l.map fun i => f i * c).sum = (l.map f).sum * c := by
  induction l with
  | nil => simp
  | cons a l ih => simp only [List.map_cons, List.sum_cons, ih, add_mul]

theorem list_as_map (n : ℕ) (l : List K) (h : l.length = n) :
    l = (List.range n).map fun i => l.getD i 0 := by
  subst h
  apply List.ext_getElem
  · simp
  · intro i h1 h2
    simp [List.getD_eq_getElem?_getD, List.getElem?_eq_getElem h1]

/-- Model levels: both layers together hold all the water vapour `Σ q·dp/g` (or exactly the given
total column water, if there is any vapour), and the layers are split at the level number
`boundary`. -/
theorem C51_partition_model_levels (a b : List K) (levels : List ℤ) (boundary : ℤ)
    (p q u v : List K) (sp : K) (dp : List K)
    (hdp : getDpModellevels a b sp levels = .ok dp) (hl : dp.length = levels.length)
    (hq : q.length = levels.length) (hu : u.length = levels.length) (hv : v.length = levels.length) :
    (∃ r, preprocessModel a b levels boundary ⟨p, q, u, v⟩ sp none = .ok r ∧
      r.s_upper + r.s_lower = dot q dp / grav ∧
      r.fx_upper + r.fx_lower = dot u (List.zipWith (· * ·) q dp) / grav ∧
      r.fy_upper + r.fy_lower = dot v (List.zipWith (· * ·) q dp) / grav ∧
      r.s_lower = ((List.range levels.length).map fun i =>
        if boundary < levels.getD i 0 then q.getD i 0 * dp.getD i 0 / grav else 0).sum) ∧
    (∀ tcw, dot q dp ≠ 0 →
      ∃ r, preprocessModel a b levels boundary ⟨p, q, u, v⟩ sp (some tcw) = .ok r ∧
        r.s_upper + r.s_lower = tcw) := by
  set n := levels.length with hn
  have qm := list_as_map n q hq
  have um := list_as_map n u hu
  have vm := list_as_map n v hv
  have dm := list_as_map n dp hl
  set Q := fun i : ℕ => q.getD i 0 with hQ
  set U := fun i : ℕ => u.getD i 0 with hU
  set V := fun i : ℕ => v.getD i 0 with hV
  set D := fun i : ℕ => dp.getD i 0 with hD
  set L := fun i : ℕ => levels.getD i 0 with hL
  have lm : levels = (List.range n).map L := by
    apply List.ext_getElem
    · simp [hn]
    · intro i h1 h2
      simp [hL, List.getD_eq_getElem?_getD, List.getElem?_eq_getElem h1]
  have hmain : ∀ tcw, preprocessModel a b levels boundary ⟨p, q, u, v⟩ sp tcw =
      .ok (scale (tcwFactor tcw ((List.range n).map fun i => Q i * D i / grav).sum)
        { s_upper := ((List.range n).map fun i =>
            if (!decide (boundary < L i)) then Q i * D i / grav else 0).sum
          s_lower := ((List.range n).map fun i =>
            if decide (boundary < L i) then Q i * D i / grav else 0).sum
          fx_upper := ((List.range n).map fun i =>
            if (!decide (boundary < L i)) then U i * (Q i * D i / grav) else 0).sum
          fx_lower := ((List.range n).map fun i =>
            if decide (boundary < L i) then U i * (Q i * D i / grav) else 0).sum
          fy_upper := ((List.range n).map fun i =>
            if (!decide (boundary < L i)) then V i * (Q i * D i / grav) else 0).sum
          fy_lower := ((List.range n).map fun i =>
            if decide (boundary < L i) then V i * (Q i * D i / grav) else 0).sum }) := by
    intro tcw
    unfold preprocessModel
    simp only [hdp, bind, Except.bind, pure, Except.pure]
    congr 1
    have key := integrateLayers_map (List.range n) (fun _ => true)
      (fun i => !decide (boundary < L i)) (p.map some) Q U V D tcw
    simp only [if_true, Bool.true_and, Bool.not_not] at key
    rw [← key]
    congr 1
    · rw [qm, um, vm]; simp only [List.map_map]; rfl
    · conv_lhs => rw [lm]
      rw [List.map_map]; rfl
  have hsplit : ∀ w : ℕ → K, ((List.range n).map fun i =>
        if (!decide (boundary < L i)) then w i else 0).sum +
      ((List.range n).map fun i => if decide (boundary < L i) then w i else 0).sum =
      ((List.range n).map w).sum := by
    intro w
    rw [← List.sum_map_add]
    congr 1
    apply List.map_congr_left
    intro i _
    by_cases h : boundary < L i <;> simp [h]
  have hzip : ∀ x y : List K, x.length = n → y.length = n →
      List.zipWith (· * ·) x y = (List.range n).map fun i => x.getD i 0 * y.getD i 0 := by
    intro x y hx hy
    conv_lhs => rw [list_as_map n x hx, list_as_map n y hy]
    rw [zipWith_map_map]
  have hdot : dot q dp / grav = ((List.range n).map fun i => Q i * D i / grav).sum := by
    unfold dot
    rw [hzip q dp hq hl]
    simp only [div_eq_mul_inv]
    rw [sum_map_mul_const]
  have hdotw : ∀ w : List K, w.length = n → dot w (List.zipWith (· * ·) q dp) / grav =
      ((List.range n).map fun i => w.getD i 0 * (Q i * D i / grav)).sum := by
    intro w hw
    unfold dot
    conv_lhs => rw [hzip q dp hq hl, list_as_map n w hw]
    rw [zipWith_map_map]
    have : ∀ i, w.getD i 0 * (Q i * D i / grav) = w.getD i 0 * (q.getD i 0 * dp.getD i 0) * grav⁻¹ := by
      intro i; simp only [hQ, hD, div_eq_mul_inv]; ring
    simp only [this]
    rw [sum_map_mul_const, div_eq_mul_inv]
  refine ⟨⟨_, hmain none, ?_, ?_, ?_, ?_⟩, ?_⟩
  · simp only [scale, tcwFactor, one_mul]
    rw [hsplit, hdot]
  · simp only [scale, tcwFactor, one_mul]
    rw [hsplit, hdotw u hu]
  · simp only [scale, tcwFactor, one_mul]
    rw [hsplit, hdotw v hv]
  · simp only [scale, tcwFactor, one_mul, decide_eq_true_eq]
    rfl
  · intro tcw hz
    refine ⟨_, hmain (some tcw), ?_⟩
    simp only [scale, tcwFactor]
    rw [← mul_add, hsplit, ← hdot]
    have hg : (grav : K) ≠ 0 := by unfold grav; norm_num
    have : dot q dp / grav ≠ 0 := div_ne_zero hz hg
    rw [div_mul_cancel₀ _ this]

end

example : (preprocessModel (era5A ℚ) (era5B ℚ) [105, 114, 123, 137] 110
    ⟨[], [1/1000, 2/1000, 5/1000, 1/100], [1, 2, 3, 4], [0, 1, -1, 2]⟩ 100000 (some 30)).toOption.map
    (fun r => (r.s_upper + r.s_lower, decide (0 < r.s_lower), decide (0 < r.s_upper))) =
      some (30, true, true) := by
  decide +kernel

end Wam
