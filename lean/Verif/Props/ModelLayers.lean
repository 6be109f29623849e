import Verif.Props.ModelLevels
import Verif.Spec.ModelLevels

/-!
# The layer integrals on model levels: C54
-/

set_option linter.unusedSectionVars false
set_option linter.unusedVariables false

namespace Wam
open Spec

section
variable {K : Type} [Field K] [LinearOrder K] [IsStrictOrderedRing K]

theorem sum_filter_if {β : Type} (p : β → Bool) (f : β → K) (l : List β) :
    ((l.filter p).map f).sum = (l.map fun x => if p x then f x else 0).sum := by
  induction l with
  | nil => rfl
  | cons a l ih =>
    cases h : p a <;> simp [h, ih]

theorem npDiff_getElem? : ∀ (l : List K) (k : ℕ) (d x y : K), (npDiff l)[k]? = some d → l[k]? = some x →
    l[k + 1]? = some y → d = y - x
  | [], _, _, _, _, h, _, _ => by simp [npDiff] at h
  | [_], _, _, _, _, h, _, _ => by simp [npDiff] at h
  | a :: b :: l, 0, d, x, y, h, hx, hy => by
    simp [npDiff] at h hx hy
    rw [← h, hx, hy]
  | a :: b :: l, k + 1, d, x, y, h, hx, hy => by
    rw [npDiff, List.getElem?_cons_succ] at h
    rw [List.getElem?_cons_succ] at hx hy
    exact npDiff_getElem? (b :: l) k d x y h hx hy

/-- **C54** What the thicknesses are: for levels of the table there are edges, at the top of the table, at its end and half way between
successive listed levels, and the thickness of a level is the pressure difference between its two edges. -/
theorem C54_edges (a b : List K) (hlen : a.length = b.length) (h1 : 0 < a.length) (sp : K)
    (levels : List ℤ) (hne : levels ≠ []) (h : ∀ l ∈ levels, 1 ≤ l ∧ l < a.length) :
    ∃ dp edges, getDpModellevels a b sp levels = .ok dp ∧ LevelEdges a b sp levels edges ∧
      dp.length = levels.length ∧ ThicknessOf edges dp := by
  have hpos : 0 < levels.length := List.length_pos_iff.2 hne
  have hl : ∀ c : List K, (npMidpoints (fullLevels c levels)).length = levels.length - 1 := by
    intro c; rw [npMidpoints_length]; simp [fullLevels]
  set mid := List.zipWith (fun a b => a + b * sp) (npMidpoints (fullLevels a levels))
          (npMidpoints (fullLevels b levels)) with hmid
  have hml : mid.length = levels.length - 1 := by rw [hmid, List.length_zipWith, hl, hl]; simp
  have hge := getDp_eq a b hlen h1 sp levels hne h
  rw [← hmid] at hge
  set edges := (a[0] + b[0] * sp) :: mid ++ [a[a.length - 1] + b[b.length - 1] * sp] with hedges
  have hel : edges.length = levels.length + 1 := by
    rw [hedges]; simp only [List.cons_append, List.length_cons, List.length_append, List.length_nil, hml]; omega
  have hdl : (npDiff edges).length = levels.length := by rw [npDiff_length, hel]; omega
  refine ⟨_, edges, hge, ⟨hel, ?_, ?_, ?_⟩, hdl, by rw [hdl, hel], npDiff_getElem? edges⟩
  · simp only [hedges, halfPressure, List.cons_append, List.getElem?_cons_zero, List.getD_eq_getElem?_getD]
    rw [List.getElem?_eq_getElem h1, List.getElem?_eq_getElem (by omega)]
    rfl
  · rw [hedges, List.getElem?_append_right (by simp only [List.length_cons]; omega)]
    have : levels.length - ((a[0] + b[0] * sp) :: mid).length = 0 := by simp only [List.length_cons]; omega
    rw [this]
    simp only [List.getElem?_cons_zero, halfPressure, List.getD_eq_getElem?_getD]
    rw [List.getElem?_eq_getElem (by omega), List.getElem?_eq_getElem (by omega)]
    simp [hlen]
  · intro k l m hk hk1
    have hlt : k + 1 < levels.length := (List.getElem?_eq_some_iff.mp hk1).1
    rw [hedges, List.cons_append, List.getElem?_cons_succ, List.getElem?_append_left (by omega), hmid,
      List.getElem?_zipWith, List.getElem?_eq_getElem (by rw [hl]; omega), List.getElem?_eq_getElem (by rw [hl]; omega)]
    simp only [npMidpoints_getElem]
    obtain ⟨e1, rfl⟩ := List.getElem?_eq_some_iff.mp hk
    obtain ⟨e2, rfl⟩ := List.getElem?_eq_some_iff.mp hk1
    simp only [fullLevels, List.getElem_map, fullPressure, halfPressure, Option.some.injEq]
    ring

/-- **C54** The layer integrals on model levels.  The upper layer is the levels up to and including number `boundary`, the lower
layer the others; storage is humidity times thickness over gravity, transport that times the wind.  With total
column water everything is scaled by its ratio to the integral. -/
theorem C54_layer_integrals (a b : List K) (boundary : ℤ) (ls : List (ModelLevel K)) (p : List K) (sp : K)
    (hdp : getDpModellevels a b sp (ls.map ModelLevel.number) = .ok (ls.map ModelLevel.dp)) :
    (preprocessModel a b (ls.map ModelLevel.number) boundary ⟨p, ls.map ModelLevel.q, ls.map ModelLevel.u, ls.map ModelLevel.v⟩ sp
      none = .ok (modelIntegrals boundary ls)) ∧
    ∀ w, preprocessModel a b (ls.map ModelLevel.number) boundary
      ⟨p, ls.map ModelLevel.q, ls.map ModelLevel.u, ls.map ModelLevel.v⟩ sp (some w) =
        .ok (scale (w / (ls.map ModelLevel.water).sum) (modelIntegrals boundary ls)) := by
  have hmain : ∀ tcw, preprocessModel a b (ls.map ModelLevel.number) boundary
      ⟨p, ls.map ModelLevel.q, ls.map ModelLevel.u, ls.map ModelLevel.v⟩ sp tcw =
      .ok (scale (tcwFactor tcw (ls.map ModelLevel.water).sum) (modelIntegrals boundary ls)) := by
    intro tcw
    unfold preprocessModel
    simp only [hdp, bind, Except.bind, pure, Except.pure]
    congr 1
    have key := integrateLayers_map ls (fun _ => true) (fun l => !decide (boundary < l.number)) (p.map some)
      ModelLevel.q ModelLevel.u ModelLevel.v ModelLevel.dp tcw
    simp only [if_true, Bool.true_and, Bool.not_not] at key
    have e : ∀ l : ModelLevel K, (!decide (boundary < l.number)) = decide (l.number ≤ boundary) := by
      intro l
      rw [← decide_not]
      congr 1
      simp
    simp only [e] at key
    simp only [modelIntegrals, upperSum, lowerSum, sum_filter_if, ModelLevel.water]
    simp only [List.map_map]
    refine Eq.trans ?_ key
    congr 1
    apply List.map_congr_left
    intro l _
    exact e l
  refine ⟨?_, fun w => hmain (some w)⟩
  rw [hmain none]
  simp only [tcwFactor, scale, one_mul]

private theorem upper_lower_nonneg (boundary : ℤ) (f : ModelLevel K → K) (ls : List (ModelLevel K))
    (h : ∀ l ∈ ls, 0 ≤ f l) : 0 ≤ upperSum boundary f ls ∧ 0 ≤ lowerSum boundary f ls := by
  constructor
  all_goals
    apply List.sum_nonneg
    intro x hx
    obtain ⟨l, hl, rfl⟩ := List.mem_map.1 hx
    exact h l (List.mem_of_mem_filter hl)

/-- **C51** Model levels: non-negative humidity (and total column water) gives non-negative storages in both layers, for
increasing level numbers of the ERA5 table and every surface pressure of at least 303.31 hPa. -/
theorem C51_storages_nonneg_model_levels (sp : K) (hsp : 30331 ≤ sp) (boundary : ℤ) (levels : List ℤ) (hne : levels ≠ [])
    (hsort : levels.Pairwise (· ≤ ·)) (h : ∀ l ∈ levels, 1 ≤ l ∧ l ≤ 137) (p q u v : List K)
    (hq : q.length = levels.length) (hu : u.length = levels.length) (hv : v.length = levels.length)
    (hpos : ∀ x ∈ q, 0 ≤ x) (tcw : Option K) (htcw : ∀ t, tcw = some t → 0 ≤ t) :
    ∃ r, preprocessModel (era5A K) (era5B K) levels boundary ⟨p, q, u, v⟩ sp tcw = .ok r ∧
      0 ≤ r.s_upper ∧ 0 ≤ r.s_lower := by
  obtain ⟨dp, hdp, hlen, -⟩ := C54_era5_surface_pressure sp levels hne h
  obtain ⟨dp', hdp', hdpos⟩ := C54_era5_nonneg sp hsp levels hne hsort h
  rw [hdp] at hdp'
  injection hdp' with e
  subst e
  obtain ⟨ls, h1, h2, h3, h4, h5⟩ : ∃ ls : List (ModelLevel K), ls.map ModelLevel.number = levels ∧
      ls.map ModelLevel.dp = dp ∧ ls.map ModelLevel.q = q ∧ ls.map ModelLevel.u = u ∧ ls.map ModelLevel.v = v := by
    clear hdp hdpos hpos hsort h hne
    induction levels generalizing dp q u v with
    | nil =>
      obtain rfl := List.length_eq_zero_iff.1 hlen
      obtain rfl := List.length_eq_zero_iff.1 hq
      obtain rfl := List.length_eq_zero_iff.1 hu
      obtain rfl := List.length_eq_zero_iff.1 hv
      exact ⟨[], rfl, rfl, rfl, rfl, rfl⟩
    | cons l levels ih =>
      obtain ⟨d, dp, rfl⟩ := List.exists_cons_of_length_eq_add_one hlen
      obtain ⟨x, q, rfl⟩ := List.exists_cons_of_length_eq_add_one hq
      obtain ⟨y, u, rfl⟩ := List.exists_cons_of_length_eq_add_one hu
      obtain ⟨z, v, rfl⟩ := List.exists_cons_of_length_eq_add_one hv
      obtain ⟨ls, g1, g2, g3, g4, g5⟩ := ih q u v (by simpa using hq) (by simpa using hu) (by simpa using hv) dp (by simpa using hlen)
      exact ⟨⟨l, d, x, y, z⟩ :: ls, by simp [g1], by simp [g2], by simp [g3], by simp [g4], by simp [g5]⟩
  have hw : ∀ l ∈ ls, 0 ≤ l.water := by
    intro l hl
    have a1 : 0 ≤ l.q := hpos _ (h3 ▸ List.mem_map_of_mem hl)
    have a2 : 0 ≤ l.dp := hdpos _ (h2 ▸ List.mem_map_of_mem hl)
    have a3 : (0 : K) < grav := by unfold grav; positivity
    unfold ModelLevel.water
    positivity
  have hs := upper_lower_nonneg boundary ModelLevel.water ls hw
  have hsum : 0 ≤ (ls.map ModelLevel.water).sum := by
    apply List.sum_nonneg
    intro x hx
    obtain ⟨l, hl, rfl⟩ := List.mem_map.1 hx
    exact hw l hl
  have key := C54_layer_integrals (era5A K) (era5B K) boundary ls p sp (by rw [h1, h2]; exact hdp)
  rw [h1, h3, h4, h5] at key
  cases tcw with
  | none => exact ⟨_, key.1, hs⟩
  | some w =>
    refine ⟨_, key.2 w, ?_⟩
    have hf : 0 ≤ w / (ls.map ModelLevel.water).sum := div_nonneg (htcw w rfl) hsum
    exact ⟨mul_nonneg hf hs.1, mul_nonneg hf hs.2⟩

/-- four of the model levels with constant humidity -/
example : (preprocessModel (era5A ℚ) (era5B ℚ) [105, 114, 123, 137] 110
      ⟨[], [1, 1, 1, 1], [0, 0, 0, 0], [0, 0, 0, 0]⟩ 100000 none).toOption.map
      (fun r => decide (0 < r.s_upper ∧ 0 < r.s_lower)) = some true := by
  decide +kernel

/-- the two layers together are the whole column -/
theorem upper_add_lower (boundary : ℤ) (f : ModelLevel K → K) (ls : List (ModelLevel K)) :
    upperSum boundary f ls + lowerSum boundary f ls = (ls.map f).sum := by
  unfold upperSum lowerSum
  induction ls with
  | nil => simp
  | cons l ls ih =>
    rw [List.map_cons, List.sum_cons, ← ih]
    by_cases h : l.number ≤ boundary
    · have h' : ¬ boundary < l.number := by omega
      simp only [List.filter_cons, h, h', decide_true, decide_false, if_true, Bool.false_eq_true, if_false,
        List.map_cons, List.sum_cons]
      ring
    · have h' : boundary < l.number := by omega
      simp only [List.filter_cons, h, h', decide_true, decide_false, if_true, Bool.false_eq_true, if_false,
        List.map_cons, List.sum_cons]
      ring

end

/-- `C54_edges` and `C54_layer_integrals` apply to four of the model levels -/
example : ∃ dp edges, getDpModellevels (era5A ℚ) (era5B ℚ) 100000 [105, 114, 123, 137] = .ok dp ∧
    LevelEdges (era5A ℚ) (era5B ℚ) 100000 [105, 114, 123, 137] edges ∧ dp.length = 4 ∧ ThicknessOf edges dp :=
  C54_edges (era5A ℚ) (era5B ℚ) (by rw [era5A_length, era5B_length]) (by rw [era5A_length]; omega) 100000 _ (by simp)
    (by rw [era5A_length]; decide)

example : ∃ ls : List (ModelLevel ℚ), ls.map ModelLevel.number = [105, 114, 123, 137] ∧
    getDpModellevels (era5A ℚ) (era5B ℚ) 100000 (ls.map ModelLevel.number) = .ok (ls.map ModelLevel.dp) ∧
    0 < (modelIntegrals 110 ls).s_upper ∧ 0 < (modelIntegrals 110 ls).s_lower := by
  refine ⟨List.zipWith (fun (n : ℤ) d => ⟨n, d, 1 / 100, 2, 3⟩) [105, 114, 123, 137]
    ((getDpModellevels (era5A ℚ) (era5B ℚ) 100000 [105, 114, 123, 137]).toOption.getD []), ?_⟩
  decide +kernel

end Wam
