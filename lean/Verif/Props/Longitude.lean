import Verif.Spec.Prep
import Verif.Lemmas.NumK
import Verif.Lemmas.IO
import Mathlib.Algebra.Order.Floor.Ring
import Mathlib.Data.List.GetD
import Mathlib.Data.Rat.Floor
import Mathlib.Tactic.Linarith
import Mathlib.Tactic.FieldSimp
import Mathlib.Tactic.Ring
import Mathlib.Tactic.Positivity
import Mathlib.Tactic.NormNum

/-! # C55: `shift_longitude` -/

set_option linter.unusedSectionVars false
set_option linter.unusedVariables false

namespace Wam
open Spec

section
variable {K α : Type} [Field K] [LinearOrder K] [IsStrictOrderedRing K] [FloorRing K]

theorem wrapLongitude_eq (x : K) : wrapLongitude x = x + 360 * ((-⌊(x + 180) / 360⌋ : ℤ) : K) := by
  simp only [wrapLongitude, NpMod.mod, ofRat_cast]
  push_cast
  ring

theorem wrapLongitude_range (x : K) : -180 ≤ wrapLongitude x ∧ wrapLongitude x < 180 := by
  rw [wrapLongitude_eq]
  have h1 := Int.floor_le ((x + 180) / 360)
  have h2 := Int.lt_floor_add_one ((x + 180) / 360)
  rw [le_div_iff₀ (by norm_num)] at h1
  rw [div_lt_iff₀ (by norm_num)] at h2
  push_cast
  constructor <;> linarith

theorem wrapLongitude_meridian (x : K) : SameMeridian (wrapLongitude x) x := ⟨_, wrapLongitude_eq x⟩

/-- there is only one representative in `[-180, 180)` -/
theorem sameMeridian_unique {x y : K} (hx : -180 ≤ x ∧ x < 180) (hy : -180 ≤ y ∧ y < 180)
    (h : SameMeridian x y) : x = y := by
  obtain ⟨k, hk⟩ := h
  have h1 : (k : K) < 1 := by linarith [hx.2, hy.1]
  have h2 : (-1 : K) < k := by linarith [hx.1, hy.2]
  have h1' : k < 1 := by exact_mod_cast h1
  have h2' : -1 < k := by exact_mod_cast h2
  have : k = 0 := by omega
  rw [hk, this]; simp

theorem Spec.SameMeridian.symm {x y : K} (h : SameMeridian x y) : SameMeridian y x := by
  obtain ⟨k, hk⟩ := h
  exact ⟨-k, by rw [hk]; push_cast; ring⟩

theorem Spec.SameMeridian.trans {x y z : K} (h : SameMeridian x y) (h' : SameMeridian y z) :
    SameMeridian x z := by
  obtain ⟨k, hk⟩ := h
  obtain ⟨l, hl⟩ := h'
  exact ⟨k + l, by rw [hk, hl]; push_cast; ring⟩

theorem wrapLongitude_eq_iff (x y : K) : wrapLongitude x = wrapLongitude y ↔ SameMeridian x y := by
  constructor
  · intro h
    exact (wrapLongitude_meridian x).symm.trans (h ▸ wrapLongitude_meridian y)
  · intro h
    exact sameMeridian_unique (wrapLongitude_range x) (wrapLongitude_range y)
      ((wrapLongitude_meridian x).trans (h.trans (wrapLongitude_meridian y).symm))

theorem wrapLongitude_of_range {x : K} (h : -180 ≤ x ∧ x < 180) : wrapLongitude x = x :=
  sameMeridian_unique (wrapLongitude_range x) h (wrapLongitude_meridian x)

theorem sortedPositions_perm (xs : List K) : (sortedPositions xs).Perm (List.range xs.length) :=
  List.perm_insertionSort _ _

theorem sortedPositions_pairwise (xs : List K) :
    (sortedPositions xs).Pairwise fun i j => xs.getD i 0 ≤ xs.getD j 0 := by
  unfold sortedPositions
  have : (fun i j : ℕ => (NpOps.le (xs.getD i (ofRat 0)) (xs.getD j (ofRat 0)) = true)) =
      fun i j => xs.getD i 0 ≤ xs.getD j 0 := by
    funext i j; simp
  let r : ℕ → ℕ → Prop := fun i j =>
    NpOps.le (xs.getD i (ofRat 0)) (xs.getD j (ofRat 0)) = true
  haveI : Std.Total r := ⟨fun i j => by
    simp only [r, np_le, decide_eq_true_eq]; exact le_total _ _⟩
  haveI : IsTrans ℕ r := ⟨fun i j k h h' => by
    simp only [r, np_le, decide_eq_true_eq] at *; exact le_trans h h'⟩
  have h := List.pairwise_insertionSort r (List.range xs.length)
  refine h.imp ?_
  intro i j hij
  simpa [r] using hij

theorem filterMap_sorted (xs : List K) (order : List ℕ) (h : ∀ j ∈ order, j < xs.length) :
    (order.filterMap fun j => xs[j]?) = order.map fun j => xs.getD j 0 := by
  induction order with
  | nil => rfl
  | cons j l ih =>
    have hj := h j (by simp)
    rw [List.filterMap_cons, List.getElem?_eq_getElem hj]
    simp only [List.map_cons, ih fun i hi => h i (List.mem_cons_of_mem _ hi)]
    rw [List.getD_eq_getElem _ _ hj]

/-- the condition of `shift_longitude` -/
def NeedsShift (ds : Dataset K α) : Prop := ∃ x ∈ ds.longitude, 180 < x ∨ x < 0

theorem needsShift_iff (ds : Dataset K α) :
    (ds.longitude.any (fun x => NpOps.lt (ofRat 180) x) ||
      ds.longitude.any (fun x => NpOps.lt x (ofRat 0))) = true ↔ NeedsShift ds := by
  simp only [Bool.or_eq_true, List.any_eq_true, np_lt, decide_eq_true_eq, ofRat_zero, NeedsShift,
    ofRat_cast]
  push_cast
  constructor
  · rintro (⟨x, hx, h⟩ | ⟨x, hx, h⟩)
    · exact ⟨x, hx, .inl h⟩
    · exact ⟨x, hx, .inr h⟩
  · rintro ⟨x, hx, h | h⟩
    · exact .inl ⟨x, hx, h⟩
    · exact .inr ⟨x, hx, h⟩

/-- If no longitude is above 180 or below 0, nothing changes. -/
theorem C55_unchanged (ds : Dataset K α) (h : ∀ x ∈ ds.longitude, 0 ≤ x ∧ x ≤ 180) :
    shiftLongitude ds = ds := by
  unfold shiftLongitude
  rw [if_neg]
  rw [needsShift_iff]
  rintro ⟨x, hx, h' | h'⟩
  · exact absurd h' (not_lt.mpr (h x hx).2)
  · exact absurd h' (not_lt.mpr (h x hx).1)

theorem shiftLongitude_fired (ds : Dataset K α) (h : NeedsShift ds) :
    let lon := ds.longitude.map wrapLongitude
    shiftLongitude ds = { latitude := ds.latitude
                          longitude := (sortedPositions lon).map fun j => lon.getD j 0
                          vars := ds.vars
                          data := fun v i j => ds.data v ((List.range ds.latitude.length).getD i 0)
                            ((sortedPositions lon).getD j 0) } := by
  intro lon
  unfold shiftLongitude
  rw [if_pos ((needsShift_iff ds).2 h)]
  simp only [Dataset.isel]
  congr 1
  · exact filterMap_range ds.latitude
  · exact filterMap_sorted _ _ fun j hj => by
      have := (sortedPositions_perm _).mem_iff.1 hj
      simpa using this

/-- Otherwise all longitudes end up in `[-180, 180)`, in increasing order, ... -/
theorem C55_range_and_order (ds : Dataset K α) (h : ∃ x ∈ ds.longitude, 180 < x ∨ x < 0) :
    (∀ x ∈ (shiftLongitude ds).longitude, -180 ≤ x ∧ x < 180) ∧
    (shiftLongitude ds).longitude.Pairwise (· ≤ ·) := by
  rw [shiftLongitude_fired ds h]
  constructor
  · intro x hx
    simp only [List.mem_map] at hx
    obtain ⟨j, hj, rfl⟩ := hx
    have hlt : j < ds.longitude.length := by
      have := (sortedPositions_perm _).mem_iff.1 hj
      simpa using this
    rw [List.getD_eq_getElem _ _ (by simpa using hlt), List.getElem_map]
    exact wrapLongitude_range _
  · rw [List.pairwise_map]
    exact sortedPositions_pairwise _

/-- ... and the columns are the old columns, each exactly once, with their data and on the same
meridian. -/
theorem C55_columns (ds : Dataset K α) (h : ∃ x ∈ ds.longitude, 180 < x ∨ x < 0) :
    ∃ order, Rearranged ds (shiftLongitude ds) order := by
  refine ⟨sortedPositions (ds.longitude.map wrapLongitude), ?_⟩
  have hp := sortedPositions_perm (ds.longitude.map wrapLongitude)
  rw [List.length_map] at hp
  rw [shiftLongitude_fired ds h]
  refine ⟨hp, rfl, rfl, ?_, ?_, ?_⟩
  · simp only [List.length_map]
    rw [hp.length_eq, List.length_range]
  · intro j x hx
    simp only [List.getElem?_map, Option.map_eq_some_iff] at hx
    obtain ⟨j0, hj0, hx⟩ := hx
    have hlt : j0 < ds.longitude.length := by
      have := hp.mem_iff.1 (List.mem_of_getElem? hj0)
      simpa using this
    refine ⟨j0, ds.longitude[j0], hj0, List.getElem?_eq_getElem hlt, ?_⟩
    rw [← hx, List.getD_eq_getElem _ _ (by simpa using hlt), List.getElem_map]
    exact wrapLongitude_meridian _
  · intro v i j j0 hi hj
    simp only
    rw [List.getD_eq_getElem _ _ (by simpa using hi), List.getElem_range,
      List.getD_eq_getElem?_getD, hj]
    rfl

/-- The new axis has no duplicates exactly if the old axis does not contain one meridian twice
(an axis from -180 to 180 inclusive does). -/
theorem C55_strict_iff (ds : Dataset K α) (h : ∃ x ∈ ds.longitude, 180 < x ∨ x < 0) :
    (shiftLongitude ds).longitude.Pairwise (· < ·) ↔
      ds.longitude.Pairwise fun x y => ¬ SameMeridian x y := by
  have hs := (C55_range_and_order ds h).2
  have h1 : (shiftLongitude ds).longitude.Pairwise (· < ·) ↔ (shiftLongitude ds).longitude.Nodup := by
    constructor
    · intro h; exact h.imp fun h => h.ne
    · intro hn
      exact (hs.and hn).imp fun h => lt_of_le_of_ne h.1 h.2
  have hp : (shiftLongitude ds).longitude.Perm (ds.longitude.map wrapLongitude) := by
    rw [shiftLongitude_fired ds h]
    have hp := (sortedPositions_perm (ds.longitude.map wrapLongitude)).map
      fun j => (ds.longitude.map wrapLongitude).getD j 0
    refine hp.trans (List.Perm.of_eq ?_)
    apply List.ext_getElem
    · simp
    · intro i h1 h2
      rw [List.getElem_map, List.getElem_range, List.getD_eq_getElem _ _ h2]
  rw [h1, hp.nodup_iff, List.Nodup, List.pairwise_map]
  constructor <;> intro h
  · exact h.imp fun h' e => h' ((wrapLongitude_eq_iff _ _).2 e)
  · exact h.imp fun h' e => h' ((wrapLongitude_eq_iff _ _).1 e)

/-- Applying it a second time changes nothing. -/
theorem C55_idempotent (ds : Dataset K α) :
    let ds' := shiftLongitude ds
    let ds'' := shiftLongitude ds'
    ds''.latitude = ds'.latitude ∧ ds''.longitude = ds'.longitude ∧ ds''.vars = ds'.vars ∧
    ∀ v i j, i < ds'.latitude.length → j < ds'.longitude.length →
      ds''.data v i j = ds'.data v i j := by
  intro ds' ds''
  by_cases h2 : NeedsShift ds'
  · have h1 : NeedsShift ds := by
      by_contra h1
      have : ds' = ds := C55_unchanged ds fun x hx => by
        by_contra hc
        apply h1
        refine ⟨x, hx, ?_⟩
        by_contra hc'
        exact hc ⟨not_lt.mp fun e => hc' (.inr e), not_lt.mp fun e => hc' (.inl e)⟩
      exact h1 (this ▸ h2)
    obtain ⟨hr, hs⟩ := C55_range_and_order ds h1
    have hw : ds'.longitude.map wrapLongitude = ds'.longitude := by
      conv_rhs => rw [← List.map_id ds'.longitude]
      exact List.map_congr_left fun x hx => wrapLongitude_of_range (hr x hx)
    have hsp : sortedPositions ds'.longitude = List.range ds'.longitude.length := by
      unfold sortedPositions
      apply List.Pairwise.insertionSort_eq
      rw [List.pairwise_iff_getElem]
      intro i j hi hj hij
      rw [List.length_range] at hi hj
      simp only [List.getElem_range, np_le, decide_eq_true_eq]
      rw [List.getD_eq_getElem _ _ hi, List.getD_eq_getElem _ _ hj]
      exact (List.pairwise_iff_getElem.1 hs) i j hi hj hij
    have e : ds'' = _ := shiftLongitude_fired ds' h2
    simp only [hw, hsp] at e
    rw [e]
    refine ⟨rfl, ?_, rfl, ?_⟩
    · apply List.ext_getElem
      · simp
      · intro i h1 h2
        simp only [List.getElem_map, List.getElem_range]
        rw [List.getD_eq_getElem _ _ h2]
    · intro v i j hi hj
      simp only
      rw [List.getD_eq_getElem _ _ (by simpa using hi), List.getElem_range,
        List.getD_eq_getElem _ _ (by simpa using hj), List.getElem_range]
  · have : ds'' = ds' := C55_unchanged ds' fun x hx => by
      by_contra hc
      apply h2
      refine ⟨x, hx, ?_⟩
      by_contra hc'
      exact hc ⟨not_lt.mp fun e => hc' (.inr e), not_lt.mp fun e => hc' (.inl e)⟩
    rw [this]
    exact ⟨rfl, rfl, rfl, fun _ _ _ _ _ => rfl⟩

/-- The usual case: a global grid `0, d, 2d, ..., 360 - d` with an even number `2k` of columns becomes
`-180, -180 + d, ..., 180 - d`, and the eastern and western halves change places. -/
theorem C55_global_grid (ds : Dataset K α) (k : ℕ) (d : K) (hk : 2 ≤ k) (hd : k * d = 180)
    (hlon : ds.longitude = (List.range (2 * k)).map fun i : ℕ => (i : K) * d) :
    (shiftLongitude ds).longitude = ((List.range (2 * k)).map fun i : ℕ => -180 + (i : K) * d) ∧
    ∀ v i j, i < ds.latitude.length → j < 2 * k →
      (shiftLongitude ds).data v i j = ds.data v i ((j + k) % (2 * k)) := by
  have hkpos : (0 : K) < k := by exact_mod_cast (by omega : 0 < k)
  have hdpos : 0 < d := by
    by_contra hc
    have := mul_nonpos_of_nonneg_of_nonpos hkpos.le (not_lt.mp hc)
    linarith
  have hneed : NeedsShift ds := by
    refine ⟨((k + 1 : ℕ) : K) * d, ?_, .inl ?_⟩
    · rw [hlon]
      exact List.mem_map.2 ⟨k + 1, List.mem_range.2 (by omega), rfl⟩
    · push_cast; linarith
  -- the longitude of column `i` after wrapping
  have hwrap : ∀ j, j < 2 * k → wrapLongitude ((((j + k) % (2 * k) : ℕ) : K) * d) =
      -180 + (j : K) * d := by
    intro j hj
    have hj' : (j : K) < 2 * k := by exact_mod_cast hj
    have hr : -180 ≤ (-180 + (j : K) * d) ∧ (-180 + (j : K) * d) < 180 := by
      constructor
      · have : (0 : K) ≤ (j : K) * d := by positivity
        linarith
      · have : (j : K) * d < 2 * k * d := mul_lt_mul_of_pos_right hj' hdpos
        linarith
    rw [← wrapLongitude_of_range hr, wrapLongitude_eq_iff]
    by_cases hjk : j < k
    · rw [Nat.mod_eq_of_lt (by omega)]
      exact ⟨1, by push_cast; linarith⟩
    · have : (j + k) % (2 * k) = j - k := by
        rw [Nat.mod_eq_sub_mod (by omega), Nat.mod_eq_of_lt (by omega)]; omega
      rw [this]
      refine ⟨0, ?_⟩
      rw [Nat.cast_sub (by omega)]
      push_cast
      linarith
  have hinj : ∀ i j, i < 2 * k → j < 2 * k →
      wrapLongitude ((i : K) * d) = wrapLongitude ((j : K) * d) → i = j := by
    intro i j hi hj he
    obtain ⟨m, hm⟩ := (wrapLongitude_eq_iff _ _).1 he
    have hcast : (i : K) = j + 2 * k * m := by
      have : (i : K) * d = (j + 2 * k * m) * d := by rw [hm]; linear_combination (-2 * (m : K)) * hd
      exact mul_right_cancel₀ hdpos.ne' this
    have hz : (i : ℤ) = j + 2 * k * m := by exact_mod_cast hcast
    have hm0 : m = 0 := by
      rcases lt_trichotomy m 0 with h | h | h
      · have : 2 * (k : ℤ) * m ≤ 2 * (k : ℤ) * (-1) := by
          apply mul_le_mul_of_nonneg_left <;> omega
        omega
      · exact h
      · have : 2 * (k : ℤ) * 1 ≤ 2 * (k : ℤ) * m := by
          apply mul_le_mul_of_nonneg_left <;> omega
        omega
    rw [hm0] at hz; omega
  set lon := ds.longitude.map wrapLongitude with hlondef
  have hlen : lon.length = 2 * k := by simp [hlondef, hlon]
  have hget : ∀ i, i < 2 * k → lon.getD i 0 = wrapLongitude ((i : K) * d) := by
    intro i hi
    rw [List.getD_eq_getElem _ _ (by omega)]
    simp [hlondef, hlon]
  have horder : sortedPositions lon = (List.range (2 * k)).map fun j => (j + k) % (2 * k) := by
    have hp1 : (sortedPositions lon).Perm (List.range (2 * k)) := hlen ▸ sortedPositions_perm lon
    have hp2 : ((List.range (2 * k)).map fun j => (j + k) % (2 * k)).Perm (List.range (2 * k)) := by
      apply (List.perm_ext_iff_of_nodup _ List.nodup_range).2
      · intro a
        simp only [List.mem_map, List.mem_range]
        constructor
        · rintro ⟨b, hb, rfl⟩; exact Nat.mod_lt _ (by omega)
        · intro ha
          refine ⟨(a + k) % (2 * k), Nat.mod_lt _ (by omega), ?_⟩
          rw [Nat.mod_add_mod, Nat.add_assoc, ← two_mul, Nat.add_mod_right, Nat.mod_eq_of_lt ha]
      · apply List.Nodup.map_on _ List.nodup_range
        intro a ha b hb hab
        rw [List.mem_range] at ha hb
        have hw := hwrap a ha
        rw [hab, hwrap b hb] at hw
        have : (b : K) = a := by
          have : (b : K) * d = a * d := by linarith
          exact mul_right_cancel₀ hdpos.ne' this
        exact_mod_cast this.symm
    refine List.Perm.eq_of_pairwise (le := fun i j => lon.getD i 0 ≤ lon.getD j 0) ?_
      (sortedPositions_pairwise lon) ?_ (hp1.trans hp2.symm)
    · intro a b ha hb h1 h2
      have ha' := List.mem_range.1 (hp1.mem_iff.1 ha)
      have hb' := List.mem_range.1 (hp2.mem_iff.1 hb)
      have := le_antisymm h1 h2
      rw [hget a ha', hget b hb'] at this
      exact hinj a b ha' hb' this
    · rw [List.pairwise_map, List.pairwise_iff_getElem]
      intro i j hi hj hij
      rw [List.length_range] at hi hj
      simp only [List.getElem_range]
      rw [hget _ (Nat.mod_lt _ (by omega)), hget _ (Nat.mod_lt _ (by omega)), hwrap i hi, hwrap j hj]
      have : (i : K) ≤ j := by exact_mod_cast hij.le
      have := mul_le_mul_of_nonneg_right this hdpos.le
      linarith
  rw [shiftLongitude_fired ds hneed]
  simp only [← hlondef]
  constructor
  · rw [horder, List.map_map]
    apply List.map_congr_left
    intro j hj
    rw [List.mem_range] at hj
    simp only [Function.comp]
    rw [hget _ (Nat.mod_lt _ (by omega)), hwrap j hj]
  · intro v i j hi hj
    rw [List.getD_eq_getElem _ _ (by simpa using hi), List.getElem_range, horder,
      List.getD_eq_getElem _ _ (by simpa using hj), List.getElem_map, List.getElem_range]

end

/-- a global grid of 8 columns -/
def demoGlobal : Dataset ℚ ℚ :=
  { latitude := [10, 0], longitude := (List.range 8).map fun i : ℕ => (i : ℚ) * 45, vars := allVars
    data := fun _ i j => 100 * i + j }

example : NeedsShift demoGlobal := ⟨225, by decide +kernel, .inl (by decide +kernel)⟩
example : (shiftLongitude demoGlobal).longitude = [-180, -135, -90, -45, 0, 45, 90, 135] := by
  decide +kernel
example : (List.range 8).map ((shiftLongitude demoGlobal).data .evap 1) =
    [104, 105, 106, 107, 100, 101, 102, 103] := by decide +kernel
/-- both ends of a closed axis become the same meridian -/
example : (shiftLongitude { demoGlobal with longitude := [-180, -90, 0, 90, 180] }).longitude =
    [-180, -180, -90, 0, 90] := by decide +kernel

end Wam
