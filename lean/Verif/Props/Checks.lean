import Verif.Spec.Validate
import Verif.Props.Bounds

/-! # C63: `analysis/checks.py` -/

set_option linter.unusedSectionVars false
set_option linter.unusedVariables false

namespace Wam
open Spec

section
variable {K : Type} [Field K] [LinearOrder K] [IsStrictOrderedRing K]

theorem npMin_le (x : K) (xs : List K) (c : K) : c ≤ npMin x xs ↔ ∀ y ∈ x :: xs, c ≤ y := by
  induction xs generalizing x with
  | nil => simp [npMin]
  | cons a xs ih =>
    have : npMin x (a :: xs) = npMin (min x a) xs := rfl
    rw [this, ih]
    simp only [List.mem_cons, forall_eq_or_imp, le_min_iff]
    tauto

theorem le_npMax (x : K) (xs : List K) (c : K) : npMax x xs ≤ c ↔ ∀ y ∈ x :: xs, y ≤ c := by
  induction xs generalizing x with
  | nil => simp [npMax]
  | cons a xs ih =>
    have : npMax x (a :: xs) = npMax (max x a) xs := rfl
    rw [this, ih]
    simp only [List.mem_cons, forall_eq_or_imp, max_le_iff]
    tauto

/-- When `check_range` warns: some value is below the range *and none is above it*. -/
theorem C63_range_warns_iff (x : K) (xs : List K) (lo hi : K) :
    checkRangeWarns x xs lo hi = true ↔
      (∃ y ∈ x :: xs, y < lo) ∧ ∀ y ∈ x :: xs, y ≤ hi := by
  simp only [checkRangeWarns, np_le, Bool.and_eq_true, Bool.not_eq_true', decide_eq_false_iff_not,
    decide_eq_true_eq, npMin_le, le_npMax]
  push Not
  rfl

/-- The documented meaning (warn exactly if a value is outside) therefore fails exactly for data with a value
above the range: such data never gives a warning, whatever else it contains. -/
theorem C63_range_wrong_iff (x : K) (xs : List K) (lo hi : K) (h : lo ≤ hi) :
    (checkRangeWarns x xs lo hi = true ↔ ∃ y ∈ x :: xs, y < lo ∨ hi < y) ↔
      ∀ y ∈ x :: xs, y ≤ hi := by
  rw [C63_range_warns_iff]
  constructor
  · intro hiff y hy
    by_contra hc
    push Not at hc
    exact absurd ((hiff.2 ⟨y, hy, .inr hc⟩).2 y hy) (not_le.2 hc)
  · intro hle
    constructor
    · rintro ⟨⟨y, hy, hl⟩, -⟩; exact ⟨y, hy, .inl hl⟩
    · rintro ⟨y, hy, hl | hl⟩
      · exact ⟨⟨y, hy, hl⟩, hle⟩
      · exact absurd (hle y hy) (not_le.2 hl)

/-- `check_order_of_magnitude` warns if all values are at most, and one is below, the power of ten; it
does not warn for values of a higher order of magnitude. -/
theorem C63_magnitude_warns_iff (x : K) (xs : List K) (p : K) :
    checkMagnitudeWarns x xs p = true ↔ (∃ y ∈ x :: xs, y < p) ∧ ∀ y ∈ x :: xs, y ≤ p :=
  C63_range_warns_iff x xs p p

/-- `check_positive` warns exactly if a value is negative (not: not positive), `check_negative` exactly if a
value is positive. -/
theorem C63_sign_warns_iff (x : K) (xs : List K) :
    (checkPositiveWarns x xs = true ↔ ∃ y ∈ x :: xs, y < 0) ∧
    (checkNegativeWarns x xs = true ↔ ∃ y ∈ x :: xs, 0 < y) := by
  simp only [checkPositiveWarns, checkNegativeWarns, np_le, Bool.not_eq_true', ofRat_zero,
    decide_eq_false_iff_not, npMin_le, le_npMax]
  push Not
  exact ⟨Iff.rfl, Iff.rfl⟩

theorem mem_npDiff (xs : List K) (e : K) :
    e ∈ npDiff xs ↔ ∃ (i : ℕ) (x y : K), xs[i]? = some x ∧ xs[i + 1]? = some y ∧ e = y - x := by
  constructor
  · intro he
    obtain ⟨i, hi, hie⟩ := List.getElem_of_mem he
    rw [npDiff_length] at hi
    have hx : xs[i]? = some (xs[i]'(by omega)) := List.getElem?_eq_getElem _
    have hy : xs[i + 1]? = some (xs[i + 1]'(by omega)) := List.getElem?_eq_getElem _
    refine ⟨i, _, _, hx, hy, ?_⟩
    have := npDiff_getElem xs i _ _ hx hy
    rw [List.getElem?_eq_getElem (by rw [npDiff_length]; omega), hie] at this
    exact Option.some.inj this
  · rintro ⟨i, x, y, hx, hy, rfl⟩
    exact List.mem_of_getElem? (npDiff_getElem xs i x y hx hy)

theorem pairwise_step (R : K → K → Prop) (htr : ∀ a b c, R a b → R b c → R a c) (xs : List K) :
    xs.Pairwise R ↔ ∀ (i : ℕ) (x y : K), xs[i]? = some x → xs[i + 1]? = some y → R x y := by
  constructor
  · intro h i x y hx hy
    rw [List.pairwise_iff_getElem] at h
    obtain ⟨h1, e1⟩ := List.getElem?_eq_some_iff.1 hx
    obtain ⟨h2, e2⟩ := List.getElem?_eq_some_iff.1 hy
    rw [← e1, ← e2]
    exact h i (i + 1) h1 h2 (by omega)
  · intro h
    rw [List.pairwise_iff_getElem]
    intro i j hi hj hij
    induction j with
    | zero => omega
    | succ j ih =>
      have hs := h j _ _ (List.getElem?_eq_getElem (by omega)) (List.getElem?_eq_getElem hj)
      rcases Nat.lt_or_ge i j with hlt | hge
      · exact htr _ _ _ (ih (by omega) hlt) hs
      · have : i = j := by omega
        subst this; exact hs

/-- The checks for monotonic axes warn exactly if the axis has a single value or is not monotonic
(constant stretches are accepted in both directions). -/
theorem C63_monotonic_warns_iff (xs : List K) (hne : xs ≠ []) :
    (checkIncreaseWarns xs = true ↔ xs.length = 1 ∨ ¬ xs.Pairwise (· ≤ ·)) ∧
    (checkDecreaseWarns xs = true ↔ xs.length = 1 ∨ ¬ xs.Pairwise (· ≥ ·)) := by
  have hl := npDiff_length xs
  have hpos : 0 < xs.length := List.length_pos_iff.2 hne
  rw [pairwise_step (· ≤ ·) (fun a b c => le_trans),
    pairwise_step (· ≥ ·) (fun a b c h1 h2 => le_trans h2 h1)]
  unfold checkIncreaseWarns checkDecreaseWarns
  cases hd : npDiff xs with
  | nil =>
    rw [hd] at hl
    simp at hl
    have : xs.length = 1 := by omega
    simp [this]
  | cons d ds =>
    rw [hd] at hl
    simp at hl
    have h1 : ¬ xs.length = 1 := by omega
    simp only [h1, false_or]
    simp only [np_le, Bool.not_eq_true', ofRat_zero, decide_eq_false_iff_not, npMin_le, le_npMax,
      ← hd, mem_npDiff]
    refine ⟨not_congr ?_, not_congr ?_⟩
    · constructor
      · intro h i x y hx hy
        have := h _ ⟨i, x, y, hx, hy, rfl⟩; linarith
      · rintro h e ⟨i, x, y, hx, hy, rfl⟩
        have := h i x y hx hy; linarith
    · constructor
      · intro h i x y hx hy
        have := h _ ⟨i, x, y, hx, hy, rfl⟩
        show y ≤ x
        linarith
      · rintro h e ⟨i, x, y, hx, hy, rfl⟩
        have : y ≤ x := h i x y hx hy
        linarith

/-- `check_uniform` never warns: uniform axes pass, every other axis raises. -/
theorem C63_uniform_iff (xs : List K) :
    checkUniform xs = .ok () ↔ 2 ≤ xs.length ∧ ∃ d, UniformAxis xs d := by
  have hl := npDiff_length xs
  unfold checkUniform
  cases hd : npDiff xs with
  | nil =>
    rw [hd] at hl
    simp at hl
    simp
    omega
  | cons d ds =>
    rw [hd] at hl
    simp at hl
    dsimp only
    have hlen : 2 ≤ xs.length := by omega
    by_cases hle : npMax d ds ≤ npMin d ds
    · simp only [np_le, hle, decide_true, if_true, true_iff]
      refine ⟨hlen, npMin d ds, ?_⟩
      intro i x y hx hy
      have hm : y - x ∈ d :: ds := by rw [← hd, mem_npDiff]; exact ⟨i, x, y, hx, hy, rfl⟩
      exact le_antisymm (le_trans ((le_npMax d ds _).1 le_rfl _ hm) hle)
        ((npMin_le d ds _).1 le_rfl _ hm)
    · simp only [np_le, hle, decide_false, Bool.false_eq_true, if_false, reduceCtorEq, false_iff,
        not_and, not_exists]
      intro _ e he
      apply hle
      have hall : ∀ y ∈ d :: ds, y = e := by
        intro y hy
        rw [← hd, mem_npDiff] at hy
        obtain ⟨i, a, b, ha, hb, rfl⟩ := hy
        exact he i a b ha hb
      exact ((le_npMax d ds e).2 fun y hy => (hall y hy).le).trans
        ((npMin_le d ds e).2 fun y hy => (hall y hy).ge)

/-! ### `check_input` -/

theorem checkCoordsLoop_ok (x : CheckedArray K) (coords : List String) (ws : List CheckWarning)
    (h : checkCoordsLoop x coords = .ok ws) :
    ∀ c ∈ coords, ∃ xs, x.coords.lookup c = some xs ∧ 2 ≤ xs.length ∧ ∃ d, UniformAxis xs d := by
  induction coords generalizing ws with
  | nil => simp
  | cons c coords ih =>
    rw [checkCoordsLoop] at h
    cases hc : x.coords.lookup c with
    | none => rw [hc] at h; simp at h
    | some xs =>
      rw [hc] at h
      simp only [bind, Except.bind] at h
      cases hu : checkUniform xs with
      | error e => rw [hu] at h; simp at h
      | ok u =>
        rw [hu] at h
        dsimp only at h
        cases hr : checkCoordsLoop x coords with
        | error e => rw [hr] at h; simp at h
        | ok ws' =>
          intro c' hc'
          rcases List.mem_cons.1 hc' with rfl | hm
          · exact ⟨xs, hc, (C63_uniform_iff xs).1 hu⟩
          · exact ih ws' hr c' hm

/-- `check_input` gets to an end only if all eight variables are there and all three axes of each of them
are uniform (of at least two values). -/
theorem C63_check_input_completes (data : String → Option (CheckedArray K))
    (ws : List (String × CheckWarning)) (h : checkInput data = .ok ws) :
    ∀ v ∈ ["evap", "precip", "s_upper", "s_lower", "fx_upper", "fy_upper", "fx_lower", "fy_lower"],
      ∃ x, data v = some x ∧ ∀ c ∈ ["time", "latitude", "longitude"],
        ∃ xs, x.coords.lookup c = some xs ∧ 2 ≤ xs.length ∧ ∃ d, UniformAxis xs d := by
  have key : ∀ (l : List VarInfo) (ws : List (String × CheckWarning)),
      checkInputLoop data l = .ok ws → ∀ i ∈ l, ∃ x, data i.name = some x ∧
        ∀ c ∈ ["time", "latitude", "longitude"],
          ∃ xs, x.coords.lookup c = some xs ∧ 2 ≤ xs.length ∧ ∃ d, UniformAxis xs d := by
    intro l
    induction l with
    | nil => simp
    | cons info l ih =>
      intro ws h
      rw [checkInputLoop] at h
      cases hx : data info.name with
      | none => rw [hx] at h; simp at h
      | some x =>
        rw [hx] at h
        simp only [bind, Except.bind] at h
        cases hv : checkVariable x info with
        | error e => rw [hv] at h; simp at h
        | ok w =>
          rw [hv] at h
          dsimp only at h
          cases hr : checkInputLoop data l with
          | error e => rw [hr] at h; simp at h
          | ok ws' =>
            intro i hi
            rcases List.mem_cons.1 hi with rfl | hm
            · refine ⟨x, hx, ?_⟩
              simp only [checkVariable, checkCoords, bind, Except.bind] at hv
              cases hco : checkCoordsLoop x ["time", "latitude", "longitude"] with
              | error e => rw [hco] at hv; simp at hv
              | ok w2 => exact checkCoordsLoop_ok x _ w2 hco
            · exact ih ws' hr i hm
  intro v hv
  have hn : v ∈ checkTable.map VarInfo.name := hv
  obtain ⟨i, hi, rfl⟩ := List.mem_map.1 hn
  exact key checkTable ws h i hi

theorem goodAxis_warns (xs : List K) (d : K) (h : UniformAxis xs d) (hlen : 2 ≤ xs.length) :
    (checkIncreaseWarns xs = false ↔ 0 ≤ d) ∧ (checkDecreaseWarns xs = false ↔ d ≤ 0) := by
  have hd := npDiff_uniform xs d h
  obtain ⟨k, hk⟩ : ∃ k, xs.length - 1 = k + 1 := ⟨xs.length - 2, by omega⟩
  rw [hk, List.replicate_succ] at hd
  unfold checkIncreaseWarns checkDecreaseWarns
  rw [hd]
  simp only [np_le, Bool.not_eq_false', ofRat_zero, decide_eq_true_eq, npMin_le, le_npMax,
    List.mem_cons, List.mem_replicate]
  constructor
  · constructor
    · intro h; exact h d (.inl rfl)
    · rintro h y (rfl | ⟨-, rfl⟩) <;> exact h
  · constructor
    · intro h; exact h d (.inl rfl)
    · rintro h y (rfl | ⟨-, rfl⟩) <;> exact h

/-- one coordinate of the loop -/
theorem checkCoordsLoop_quiet (x : CheckedArray K) (c : String) (cs : List String) :
    checkCoordsLoop x (c :: cs) = .ok [] ↔
      GoodAxis x c (decide (c = "latitude")) ∧ checkCoordsLoop x cs = .ok [] := by
  rw [checkCoordsLoop]
  unfold GoodAxis
  cases hc : x.coords.lookup c with
  | none => simp
  | some xs =>
    simp only [bind, Except.bind]
    cases hu : checkUniform xs with
    | error e =>
      simp only [reduceCtorEq, false_iff, not_and]
      rintro ⟨ys, d, hys, hl, hun, -⟩
      injection hys with hys
      subst hys
      rw [(C63_uniform_iff xs).2 ⟨hl, d, hun⟩] at hu
      simp at hu
    | ok u =>
      obtain ⟨hl, d, hun⟩ := (C63_uniform_iff xs).1 hu
      have hg : (∃ ys d, some xs = some ys ∧ 2 ≤ ys.length ∧ UniformAxis ys d ∧
          if decide (c = "latitude") = true then d ≤ 0 else 0 ≤ d) ↔
          if c = "latitude" then checkDecreaseWarns xs = false else checkIncreaseWarns xs = false := by
        have hw := goodAxis_warns xs d hun hl
        constructor
        · rintro ⟨ys, d', hys, hl', hun', hd'⟩
          injection hys with hys
          subst hys
          have hw' := goodAxis_warns xs d' hun' hl'
          by_cases h : c = "latitude"
          · simp only [h, decide_true, if_true] at hd' ⊢; exact hw'.2.2 hd'
          · simp only [h, decide_false, if_false, Bool.false_eq_true] at hd' ⊢; exact hw'.1.2 hd'
        · intro h'
          refine ⟨xs, d, rfl, hl, hun, ?_⟩
          by_cases h : c = "latitude"
          · simp only [h, decide_true, if_true] at h' ⊢; exact hw.2.1 h'
          · simp only [h, decide_false, if_false, Bool.false_eq_true] at h' ⊢; exact hw.1.1 h'
      rw [hg]
      cases hr : checkCoordsLoop x cs with
      | error e => simp
      | ok ws =>
        simp only [Except.ok.injEq, List.append_eq_nil_iff]
        refine and_congr ?_ Iff.rfl
        by_cases h : c = "latitude"
        · simp only [h, if_true]
          cases checkDecreaseWarns xs <;> simp
        · simp only [h, if_false]
          cases checkIncreaseWarns xs <;> simp

theorem checkVariable_quiet (x : CheckedArray K) (info : VarInfo) :
    checkVariable x info = .ok [] ↔
      Quiet x info.valid_units (info.lo : K) (info.hi : K) info.all_positive := by
  have hcoords : checkCoords x ["time", "latitude", "longitude"] = .ok [] ↔
      x.ndim = 3 ∧ GoodAxis x "time" false ∧ GoodAxis x "latitude" true ∧
        GoodAxis x "longitude" false := by
    have h3 : checkCoordsLoop x ["time", "latitude", "longitude"] = .ok [] ↔
        GoodAxis x "time" false ∧ GoodAxis x "latitude" true ∧ GoodAxis x "longitude" false := by
      rw [checkCoordsLoop_quiet, checkCoordsLoop_quiet, checkCoordsLoop_quiet]
      simp [checkCoordsLoop]
    rw [← h3]
    simp only [checkCoords, bind, Except.bind]
    cases checkCoordsLoop x ["time", "latitude", "longitude"] with
    | error e => simp
    | ok ws =>
      by_cases hn : x.ndim = 3 <;> simp [hn]
  have hunits : checkUnitsWarns x.units info.valid_units = false ↔
      ∃ u ∈ info.valid_units, x.units = some u := by
    unfold checkUnitsWarns
    cases x.units with
    | none => simp
    | some u => simp
  have hrange : checkRangeWarns x.first x.rest (ofRat info.lo : K) (ofRat info.hi) = false ↔
      (∀ y ∈ x.first :: x.rest, (info.lo : K) ≤ y) ∨ ∃ y ∈ x.first :: x.rest, (info.hi : K) < y := by
    rw [← not_iff_not, Bool.not_eq_false, C63_range_warns_iff, ofRat_cast, ofRat_cast]
    push Not
    rfl
  have hpos : checkPositiveWarns x.first x.rest = false ↔ ∀ y ∈ x.first :: x.rest, 0 ≤ y := by
    rw [← not_iff_not, Bool.not_eq_false, (C63_sign_warns_iff _ _).1]
    push Not
    rfl
  have key : checkVariable x info = .ok [] ↔
      checkUnitsWarns x.units info.valid_units = false ∧
      checkCoords x ["time", "latitude", "longitude"] = .ok [] ∧
      checkRangeWarns x.first x.rest (ofRat info.lo : K) (ofRat info.hi) = false ∧
      (info.all_positive = true → checkPositiveWarns x.first x.rest = false) := by
    simp only [checkVariable, bind, Except.bind]
    cases checkCoords x ["time", "latitude", "longitude"] with
    | error e => simp
    | ok ws =>
      simp only [Except.ok.injEq, List.append_eq_nil_iff]
      cases checkUnitsWarns x.units info.valid_units <;>
      cases checkRangeWarns x.first x.rest (ofRat info.lo : K) (ofRat info.hi) <;>
      cases info.all_positive <;>
      cases checkPositiveWarns x.first x.rest <;> simp
  rw [key, hunits, hcoords, hrange, hpos]
  constructor
  · rintro ⟨h1, ⟨h2, h3, h4, h5⟩, h6, h7⟩; exact ⟨h1, h2, h3, h4, h5, h6, h7⟩
  · rintro ⟨h1, h2, h3, h4, h5, h6, h7⟩; exact ⟨h1, ⟨h2, h3, h4, h5⟩, h6, h7⟩

/-- `check_input` ends without warnings exactly for data sets all of whose variables are `Quiet`. -/
theorem C63_check_input_silent_iff (data : String → Option (CheckedArray K)) :
    checkInput data = .ok [] ↔
      (∃ x, data "evap" = some x ∧ Quiet x ["kg m-2 s-1", "kg/m2/s"] 0 (1 / 1000) true) ∧
      (∃ x, data "precip" = some x ∧ Quiet x ["kg m-2 s-1", "kg/m2/s"] 0 (1 / 10) true) ∧
      (∀ v ∈ ["s_upper", "s_lower"],
        ∃ x, data v = some x ∧ Quiet x ["kg m-2", "kg/m2"] 0 1000 true) ∧
      (∀ v ∈ ["fx_upper", "fy_upper", "fx_lower", "fy_lower"],
        ∃ x, data v = some x ∧
          Quiet x ["kg m-1 s-1", "kg m^-1 s^-1", "kg m**-1 s**-1"] (-1000) 1000 false) := by
  have step : ∀ (i : VarInfo) (l : List VarInfo), checkInputLoop data (i :: l) = .ok [] ↔
      (∃ x, data i.name = some x ∧ Quiet x i.valid_units (i.lo : K) (i.hi : K) i.all_positive) ∧
      checkInputLoop data l = .ok [] := by
    intro i l
    rw [checkInputLoop]
    cases hx : data i.name with
    | none => simp
    | some x =>
      simp only [bind, Except.bind, Option.some.injEq]
      have hq := checkVariable_quiet x i
      have hq' : (∃ y, x = y ∧ Quiet y i.valid_units (i.lo : K) (i.hi : K) i.all_positive) ↔
          checkVariable x i = .ok [] := by
        rw [hq]
        constructor
        · rintro ⟨y, rfl, h⟩; exact h
        · intro h; exact ⟨x, rfl, h⟩
      rw [hq']
      cases checkVariable x i with
      | error e => simp
      | ok w =>
        cases checkInputLoop data l with
        | error e => simp
        | ok ws => simp
  unfold checkInput checkTable
  rw [step, step, step, step, step, step, step, step]
  simp only [checkInputLoop, transportUnits, List.mem_cons, List.not_mem_nil, or_false,
    forall_eq_or_imp, forall_eq]
  push_cast
  simp only [and_true]
  tauto

/-- So evaporation of 1000 kg m-2 s-1 (limit 0.001) is accepted in silence, like any value above the
limit. -/
theorem C63_upper_limit_has_no_effect (x : CheckedArray K) (units : List String) (lo hi hi' : K)
    (h : Quiet x units lo hi true) (hlo : lo = 0) : Quiet x units lo hi' true :=
  ⟨h.units, h.ndim, h.time, h.latitude, h.longitude, .inl (hlo ▸ h.sign rfl), h.sign⟩

end

/-- an array for the examples -/
def demoChecked (units : String) (y : ℚ) : CheckedArray ℚ :=
  ⟨some units, 3, [("time", [0, 1, 2]), ("latitude", [2, 1, 0]), ("longitude", [5, 6])], y, [1]⟩

/-- a data set for the examples -/
def demoData (y : ℚ) : String → Option (CheckedArray ℚ) := fun v =>
  if v = "evap" ∨ v = "precip" then some (demoChecked "kg m-2 s-1" y)
  else if v = "s_upper" ∨ v = "s_lower" then some (demoChecked "kg m-2" y)
  else some (demoChecked "kg m-1 s-1" y)

example : (checkInput (demoData 5000)).toOption = some [] ∧
    (checkInput (demoData (-5000))).toOption.map List.length = some 10 := by
  constructor <;> decide +kernel

end Wam
