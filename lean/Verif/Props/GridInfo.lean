import Verif.Spec.Grid
import Verif.Lemmas.NumK
import Mathlib.Analysis.SpecialFunctions.Trigonometric.Bounds
import Mathlib.Tactic.Linarith
import Mathlib.Tactic.Ring
import Mathlib.Tactic.FieldSimp
import Mathlib.Tactic.NormNum
import Mathlib.Tactic.Positivity

/-! # C62: `get_grid_info` -/

set_option linter.unusedSectionVars false
set_option linter.unusedVariables false

namespace Wam
open Spec Real

variable {m n : ℕ}

theorem sphereArea_eq (s e w : ℝ) :
    sphereArea s e w = rad w * (earthRadius ^ 2 * (sin (rad e) - sin (rad s))) := by
  unfold sphereArea
  rw [intervalIntegral.integral_const_mul, integral_cos]

theorem rad_le {x y : ℝ} (h : x ≤ y) : rad x ≤ rad y := by
  unfold rad
  have := Real.pi_pos
  have := mul_le_mul_of_nonneg_right h Real.pi_pos.le
  linarith

theorem rad_lt {x y : ℝ} (h : x < y) : rad x < rad y := by
  unfold rad
  have := mul_lt_mul_of_pos_right h Real.pi_pos
  linarith

theorem rad_90 : rad 90 = π / 2 := by unfold rad; ring
theorem rad_neg (x : ℝ) : rad (-x) = -rad x := by unfold rad; ring

theorem sin_rad_le {x y : ℝ} (hx : -90 ≤ x) (hxy : x ≤ y) (hy : y ≤ 90) :
    sin (rad x) ≤ sin (rad y) := by
  apply Real.sin_le_sin_of_le_of_le_pi_div_two _ _ (rad_le hxy)
  · have := rad_le hx; rw [rad_neg, rad_90] at this; exact this
  · have := rad_le hy; rwa [rad_90] at this

theorem sin_rad_lt {x y : ℝ} (hx : -90 ≤ x) (hxy : x < y) (hy : y ≤ 90) :
    sin (rad x) < sin (rad y) := by
  apply Real.sin_lt_sin_of_lt_of_le_pi_div_two _ _ (rad_lt hxy)
  · have := rad_le hx; rw [rad_neg, rad_90] at this; exact this
  · have := rad_le hy; rwa [rad_90] at this

/-- The area of a cell is the exact area on the sphere of the cell that reaches half a longitude spacing to
the north and to the south of its latitude (not beyond the poles). -/
theorem C62_area (lat : Fin (m + 2) → ℝ) (lon : Fin (n + 2) → ℝ) (i : Fin (m + 2))
    (h1 : -90 ≤ lat i) (h2 : lat i ≤ 90) :
    (getGridInfo lat lon).a i = sphereArea (max (-90) (lat i - |lon 1 - lon 0| / 2))
      (min 90 (lat i + |lon 1 - lon 0| / 2)) |lon 1 - lon 0| := by
  have hd : 0 ≤ |lon 1 - lon 0| := abs_nonneg _
  set δ := |lon 1 - lon 0| with hδ
  have hle : max (-90) (lat i - δ / 2) ≤ min 90 (lat i + δ / 2) := by
    apply max_le <;> apply le_min <;> linarith
  have hs := sin_rad_le (le_max_left (-90) (lat i - δ / 2)) hle (min_le_left 90 (lat i + δ / 2))
  rw [sphereArea_eq]
  simp only [getGridInfo, np_abs, np_min, np_max, ofRat_cast, ← hδ, NpTrig.pi, NpTrig.sin]
  push_cast
  have e1 : (1 / 2 : ℝ) * δ = δ / 2 := by ring
  rw [e1]
  have r1 : max (-90) (lat i - δ / 2) * π / 180 = rad (max (-90) (lat i - δ / 2)) := rfl
  have r2 : min 90 (lat i + δ / 2) * π / 180 = rad (min 90 (lat i + δ / 2)) := rfl
  rw [r1, r2, abs_sub_comm, abs_of_nonneg (by linarith)]
  unfold earthRadius
  unfold rad
  ring

/-- Cell areas are positive. -/
theorem C62_area_pos (lat : Fin (m + 2) → ℝ) (lon : Fin (n + 2) → ℝ) (i : Fin (m + 2))
    (h1 : -90 ≤ lat i) (h2 : lat i ≤ 90) (hlon : lon 1 ≠ lon 0) : 0 < (getGridInfo lat lon).a i := by
  have hd : 0 < |lon 1 - lon 0| := abs_pos.2 (sub_ne_zero.2 hlon)
  rw [C62_area lat lon i h1 h2, sphereArea_eq]
  have hlt : max (-90) (lat i - |lon 1 - lon 0| / 2) < min 90 (lat i + |lon 1 - lon 0| / 2) := by
    apply max_lt <;> apply lt_min <;> linarith
  have hs := sin_rad_lt (le_max_left _ _) hlt (min_le_left _ _)
  have hr : 0 < rad |lon 1 - lon 0| := by have := rad_lt hd; simpa [rad] using this
  have : 0 < earthRadius ^ 2 := by unfold earthRadius; norm_num
  apply mul_pos hr (mul_pos this (by linarith))

theorem telescope (f : ℕ → ℝ) (k : ℕ) :
    ∑ i : Fin k, (f i - f (i + 1)) = f 0 - f k := by
  rw [Fin.sum_univ_eq_sum_range fun i => f i - f (i + 1)]
  exact Finset.sum_range_sub' f k

theorem telescope_up (f : ℕ → ℝ) (k : ℕ) :
    ∑ i : Fin k, (f (i + 1) - f i) = f k - f 0 := by
  rw [Fin.sum_univ_eq_sum_range fun i => f (i + 1) - f i]
  exact Finset.sum_range_sub f k

/-- total over a grid whose rows tile the sphere -/
theorem total_area (lat : Fin (m + 2) → ℝ) (lon : Fin (n + 2) → ℝ) (δ : ℝ)
    (hδ : |lon 1 - lon 0| = δ) (hlon : (n + 2) * δ = 360) (edge : ℕ → ℝ)
    (hin : ∀ i, -90 ≤ lat i ∧ lat i ≤ 90)
    (he : (∀ i : Fin (m + 2), min 90 (lat i + δ / 2) = edge i ∧ max (-90) (lat i - δ / 2) = edge (i + 1)) ∧
        edge 0 = 90 ∧ edge (m + 2) = -90 ∨
      (∀ i : Fin (m + 2), max (-90) (lat i - δ / 2) = edge i ∧ min 90 (lat i + δ / 2) = edge (i + 1)) ∧
        edge 0 = -90 ∧ edge (m + 2) = 90) :
    ∑ i : Fin (m + 2), ∑ _j : Fin (n + 2), (getGridInfo lat lon).a i = 4 * π * earthRadius ^ 2 := by
  have harea : ∀ i, (getGridInfo lat lon).a i = rad δ * (earthRadius ^ 2 *
      (sin (rad (min 90 (lat i + δ / 2))) - sin (rad (max (-90) (lat i - δ / 2))))) := by
    intro i
    rw [C62_area lat lon i (hin i).1 (hin i).2, hδ, sphereArea_eq]
  have hsum : ∑ i : Fin (m + 2), (sin (rad (min 90 (lat i + δ / 2))) -
      sin (rad (max (-90) (lat i - δ / 2)))) = 2 := by
    rcases he with ⟨he, h0, h1⟩ | ⟨he, h0, h1⟩
    · have : ∀ i : Fin (m + 2), sin (rad (min 90 (lat i + δ / 2))) -
          sin (rad (max (-90) (lat i - δ / 2))) = sin (rad (edge i)) - sin (rad (edge (i + 1))) := by
        intro i; rw [(he i).1, (he i).2]
      rw [Finset.sum_congr rfl fun i _ => this i, telescope fun i => sin (rad (edge i)), h0, h1,
        rad_neg, rad_90, Real.sin_neg, Real.sin_pi_div_two]
      norm_num
    · have : ∀ i : Fin (m + 2), sin (rad (min 90 (lat i + δ / 2))) -
          sin (rad (max (-90) (lat i - δ / 2))) = sin (rad (edge (i + 1))) - sin (rad (edge i)) := by
        intro i; rw [(he i).1, (he i).2]
      rw [Finset.sum_congr rfl fun i _ => this i, telescope_up fun i => sin (rad (edge i)), h0, h1,
        rad_neg, rad_90, Real.sin_neg, Real.sin_pi_div_two]
      norm_num
  simp only [Finset.sum_const, Finset.card_univ, Fintype.card_fin, nsmul_eq_mul]
  rw [← Finset.mul_sum, Finset.sum_congr rfl fun i _ => harea i, ← Finset.mul_sum, ← Finset.mul_sum,
    hsum]
  have : ((n + 2 : ℕ) : ℝ) * rad δ = 2 * π := by
    unfold rad
    have : ((n + 2 : ℕ) : ℝ) * δ = 360 := by push_cast; exact hlon
    calc ((n + 2 : ℕ) : ℝ) * (δ * π / 180) = (((n + 2 : ℕ) : ℝ) * δ) * π / 180 := by ring
      _ = 2 * π := by rw [this]; ring
  calc ((n + 2 : ℕ) : ℝ) * (rad δ * (earthRadius ^ 2 * 2))
      = (((n + 2 : ℕ) : ℝ) * rad δ) * earthRadius ^ 2 * 2 := by ring
    _ = 4 * π * earthRadius ^ 2 := by rw [this]; ring

/-- Global grids with the poles on the grid, with equal spacing in both directions (ERA5: decreasing
latitudes): the cells cover the whole sphere exactly once. -/
theorem C62_global_with_poles (lat : Fin (m + 2) → ℝ) (lon : Fin (n + 2) → ℝ) (δ : ℝ)
    (hδ : |lon 1 - lon 0| = δ) (hlon : (n + 2) * δ = 360) (hlat : (m + 1) * δ = 180)
    (h : (∀ i, lat i = 90 - (i : ℕ) * δ) ∨ ∀ i, lat i = -90 + (i : ℕ) * δ) :
    ∑ i : Fin (m + 2), ∑ _j : Fin (n + 2), (getGridInfo lat lon).a i = 4 * π * earthRadius ^ 2 := by
  have hpos : 0 < δ := by
    by_contra hc
    push Not at hc
    have : ((m : ℝ) + 1) * δ ≤ 0 := mul_nonpos_of_nonneg_of_nonpos (by positivity) hc
    linarith
  have hi : ∀ i : Fin (m + 2), ((i : ℕ) : ℝ) * δ ≤ 180 := by
    intro i
    have : ((i : ℕ) : ℝ) ≤ m + 1 := by exact_mod_cast Nat.lt_succ_iff.1 i.2
    rw [← hlat]
    exact mul_le_mul_of_nonneg_right this hpos.le
  have hi0 : ∀ i : Fin (m + 2), 0 ≤ ((i : ℕ) : ℝ) * δ := fun i => mul_nonneg (Nat.cast_nonneg _) hpos.le
  have hb : ∀ i : Fin (m + 2), ((i : ℕ) = 0 ∨ δ ≤ ((i : ℕ) : ℝ) * δ) ∧
      ((i : ℕ) = m + 1 ∨ ((i : ℕ) : ℝ) * δ + δ ≤ 180) := by
    intro i
    constructor
    · rcases Nat.eq_zero_or_pos (i : ℕ) with h0 | h0
      · exact .inl h0
      · right
        have : (1 : ℝ) ≤ ((i : ℕ) : ℝ) := by exact_mod_cast h0
        have := mul_le_mul_of_nonneg_right this hpos.le
        linarith
    · rcases Nat.lt_or_ge (i : ℕ) (m + 1) with h0 | h0
      · right
        have : ((i : ℕ) : ℝ) + 1 ≤ m + 1 := by exact_mod_cast h0
        have := mul_le_mul_of_nonneg_right this hpos.le
        linarith
      · left; have := i.2; omega
  rcases h with h | h
  · refine total_area lat lon δ hδ hlon
      (fun k => if k = 0 then 90 else if k = m + 2 then -90 else 90 - (k : ℝ) * δ + δ / 2)
      (fun i => ?_) (.inl ⟨fun i => ?_, by simp, by simp⟩)
    · rw [h i]; have := hi i; have := hi0 i; constructor <;> linarith
    · rw [h i]
      have hlt := i.2
      constructor
      · by_cases h0 : (i : ℕ) = 0
        · simp only [h0, if_true]
          rw [min_eq_left]; push_cast; linarith
        · have := (hb i).1.resolve_left h0
          rw [if_neg h0, if_neg (by omega), min_eq_right] <;> linarith
      · by_cases h0 : (i : ℕ) = m + 1
        · rw [if_neg (by omega), if_pos (by omega), max_eq_left]
          rw [h0]; push_cast; linarith
        · have := (hb i).2.resolve_left h0
          rw [if_neg (by omega), if_neg (by omega), max_eq_right]
          · push_cast; ring
          · linarith
  · refine total_area lat lon δ hδ hlon
      (fun k => if k = 0 then -90 else if k = m + 2 then 90 else -90 + (k : ℝ) * δ - δ / 2)
      (fun i => ?_) (.inr ⟨fun i => ?_, by simp, by simp⟩)
    · rw [h i]; have := hi i; have := hi0 i; constructor <;> linarith
    · rw [h i]
      have hlt := i.2
      constructor
      · by_cases h0 : (i : ℕ) = 0
        · simp only [h0, if_true]
          rw [max_eq_left]; push_cast; linarith
        · have := (hb i).1.resolve_left h0
          rw [if_neg h0, if_neg (by omega), max_eq_right] <;> linarith
      · by_cases h0 : (i : ℕ) = m + 1
        · rw [if_neg (by omega), if_pos (by omega), min_eq_left]
          rw [h0]; push_cast; linarith
        · have := (hb i).2.resolve_left h0
          rw [if_neg (by omega), if_neg (by omega), min_eq_right]
          · push_cast; ring
          · linarith

/-- The same for global grids whose cell edges are at the poles. -/
theorem C62_global_between_poles (lat : Fin (m + 2) → ℝ) (lon : Fin (n + 2) → ℝ) (δ : ℝ)
    (hδ : |lon 1 - lon 0| = δ) (hlon : (n + 2) * δ = 360) (hlat : (m + 2) * δ = 180)
    (h : (∀ i, lat i = 90 - δ / 2 - (i : ℕ) * δ) ∨ ∀ i, lat i = -90 + δ / 2 + (i : ℕ) * δ) :
    ∑ i : Fin (m + 2), ∑ _j : Fin (n + 2), (getGridInfo lat lon).a i = 4 * π * earthRadius ^ 2 := by
  have hpos : 0 < δ := by
    by_contra hc
    push Not at hc
    have : ((m : ℝ) + 2) * δ ≤ 0 := mul_nonpos_of_nonneg_of_nonpos (by positivity) hc
    linarith
  have hi : ∀ i : Fin (m + 2), ((i : ℕ) : ℝ) * δ + δ ≤ 180 := by
    intro i
    have : ((i : ℕ) : ℝ) + 1 ≤ m + 2 := by exact_mod_cast i.2
    have := mul_le_mul_of_nonneg_right this hpos.le
    linarith
  have hi0 : ∀ i : Fin (m + 2), 0 ≤ ((i : ℕ) : ℝ) * δ := fun i => mul_nonneg (Nat.cast_nonneg _) hpos.le
  rcases h with h | h
  · refine total_area lat lon δ hδ hlon (fun k => 90 - (k : ℝ) * δ)
      (fun i => ?_) (.inl ⟨fun i => ?_, by simp, by push_cast; linarith⟩)
    · rw [h i]; have := hi i; have := hi0 i; constructor <;> linarith
    · rw [h i]
      have := hi i
      have := hi0 i
      constructor
      · rw [min_eq_right] <;> linarith
      · rw [max_eq_right]
        · push_cast; ring
        · linarith
  · refine total_area lat lon δ hδ hlon (fun k => -90 + (k : ℝ) * δ)
      (fun i => ?_) (.inr ⟨fun i => ?_, by simp, by push_cast; linarith⟩)
    · rw [h i]; have := hi i; have := hi0 i; constructor <;> linarith
    · rw [h i]
      have := hi i
      have := hi0 i
      constructor
      · rw [max_eq_right] <;> linarith
      · rw [min_eq_right]
        · push_cast; ring
        · linarith

/-- With different spacings: for a cell away from the poles the area is right exactly if the latitude spacing
`dy` equals the longitude spacing. -/
theorem C62_area_right_iff (lat : Fin (m + 2) → ℝ) (lon : Fin (n + 2) → ℝ) (i : Fin (m + 2)) (dy : ℝ)
    (hdx : 0 < |lon 1 - lon 0|) (hdy : 0 < dy)
    (hx1 : -90 ≤ lat i - |lon 1 - lon 0| / 2) (hx2 : lat i + |lon 1 - lon 0| / 2 ≤ 90)
    (hy1 : -90 ≤ lat i - dy / 2) (hy2 : lat i + dy / 2 ≤ 90) :
    (getGridInfo lat lon).a i = sphereArea (lat i - dy / 2) (lat i + dy / 2) |lon 1 - lon 0| ↔
      dy = |lon 1 - lon 0| := by
  rw [C62_area lat lon i (by linarith) (by linarith), max_eq_right hx1, min_eq_right hx2]
  set δ := |lon 1 - lon 0| with hδ
  constructor
  · intro h
    rw [sphereArea_eq, sphereArea_eq] at h
    have hr : 0 < rad δ := by have := rad_lt hdx; simpa [rad] using this
    have hR : 0 < earthRadius ^ 2 := by unfold earthRadius; norm_num
    have h' := mul_left_cancel₀ hr.ne' h
    have h'' := mul_left_cancel₀ hR.ne' h'
    rcases lt_trichotomy dy δ with hlt | heq | hgt
    · exfalso
      have a1 := sin_rad_lt (x := lat i + dy / 2) (y := lat i + δ / 2) (by linarith) (by linarith) hx2
      have a2 := sin_rad_lt (x := lat i - δ / 2) (y := lat i - dy / 2) hx1 (by linarith) (by linarith)
      linarith
    · exact heq
    · exfalso
      have a1 := sin_rad_lt (x := lat i + δ / 2) (y := lat i + dy / 2) (by linarith) (by linarith) hy2
      have a2 := sin_rad_lt (x := lat i - dy / 2) (y := lat i - δ / 2) hy1 (by linarith) (by linarith)
      linarith
  · rintro rfl; rfl

/-- The zonal side of a cell is the length of its parallel (at 111089.56 m per degree) times the cosine of
half the spacing; it vanishes exactly at the poles. -/
theorem C62_dx (lat : Fin (m + 2) → ℝ) (lon : Fin (n + 2) → ℝ) (i : Fin (m + 2)) :
    (getGridInfo lat lon).dx i =
      |lon 1 - lon 0| * (11108956 / 100) * cos (rad (lat i)) * cos (rad (|lon 1 - lon 0| / 2)) := by
  simp only [getGridInfo, np_abs, ofRat_cast, NpTrig.pi, NpTrig.cos]
  push_cast
  set δ := |lon 1 - lon 0|
  have e1 : (lat i + δ / 2) * π / 180 = rad (lat i) + rad (δ / 2) := by unfold rad; ring
  have e2 : (lat i - δ / 2) * π / 180 = rad (lat i) - rad (δ / 2) := by unfold rad; ring
  rw [e1, e2, Real.cos_add, Real.cos_sub]
  ring

theorem C62_dx_pos (lat : Fin (m + 2) → ℝ) (lon : Fin (n + 2) → ℝ) (i : Fin (m + 2))
    (hlon : lon 1 ≠ lon 0) (hw : |lon 1 - lon 0| < 180) (h1 : -90 < lat i) (h2 : lat i < 90) :
    0 < (getGridInfo lat lon).dx i := by
  rw [C62_dx]
  have hd : 0 < |lon 1 - lon 0| := abs_pos.2 (sub_ne_zero.2 hlon)
  have c : ∀ x, -90 < x → x < 90 → 0 < cos (rad x) := by
    intro x h1 h2
    apply Real.cos_pos_of_mem_Ioo
    have a := rad_lt h1
    have b := rad_lt h2
    rw [rad_neg, rad_90] at a
    rw [rad_90] at b
    exact ⟨a, b⟩
  have c1 := c _ h1 h2
  have c2 := c (|lon 1 - lon 0| / 2) (by linarith) (by linarith)
  positivity

theorem C62_dx_pole (lat : Fin (m + 2) → ℝ) (lon : Fin (n + 2) → ℝ) (i : Fin (m + 2))
    (h : lat i = 90 ∨ lat i = -90) : (getGridInfo lat lon).dx i = 0 := by
  rw [C62_dx]
  have : cos (rad (lat i)) = 0 := by
    rcases h with h | h <;> rw [h]
    · rw [rad_90, Real.cos_pi_div_two]
    · rw [rad_neg, rad_90, Real.cos_neg, Real.cos_pi_div_two]
  rw [this]; ring

/-- the meridional side -/
theorem C62_dy (lat : Fin (m + 2) → ℝ) (lon : Fin (n + 2) → ℝ) :
    (getGridInfo lat lon).dy = |lat 1 - lat 0| * (11108956 / 100) ∧
      (lat 1 ≠ lat 0 → 0 < (getGridInfo lat lon).dy) := by
  have : (getGridInfo lat lon).dy = |lat 1 - lat 0| * (11108956 / 100) := by
    simp only [getGridInfo, np_abs, ofRat_cast]
    push_cast
    rfl
  refine ⟨this, fun h => ?_⟩
  rw [this]
  have hd : 0 < |lat 1 - lat 0| := abs_pos.2 (sub_ne_zero.2 h)
  positivity

/-- If the first two longitudes lie on the two sides of the date line (a subdomain across it), the spacing is
taken to be 360 degrees minus the spacing, and a cell at the equator gets that share of the surface of the
whole Earth. -/
theorem C62_date_line (lat : Fin (m + 2) → ℝ) (lon : Fin (n + 2) → ℝ) (i : Fin (m + 2)) (δ : ℝ)
    (h0 : 0 < δ) (h1 : δ ≤ 180) (hlon0 : lon 0 = 180 - δ) (hlon1 : lon 1 = -180) (hi : lat i = 0) :
    (getGridInfo lat lon).a i = (360 - δ) / 360 * (4 * π * earthRadius ^ 2) := by
  have hd : |lon 1 - lon 0| = 360 - δ := by
    rw [hlon0, hlon1, abs_of_nonpos (by linarith)]; ring
  rw [C62_area lat lon i (by rw [hi]; norm_num) (by rw [hi]; norm_num), hd, hi, max_eq_left (by linarith),
    min_eq_left (by linarith), sphereArea_eq, rad_neg, rad_90, Real.sin_neg, Real.sin_pi_div_two]
  unfold rad
  ring

/-- ERA5: 0.25 degrees, 721 latitudes from 90 to -90, 1440 longitudes -/
example : ∑ i : Fin (719 + 2), ∑ _j : Fin (1438 + 2),
    (getGridInfo (fun i : Fin (719 + 2) => (90 - (i : ℕ) * (1 / 4) : ℝ))
      (fun j : Fin (1438 + 2) => (-180 + (j : ℕ) * (1 / 4) : ℝ))).a i = 4 * π * earthRadius ^ 2 := by
  apply C62_global_with_poles _ _ (1 / 4)
  · norm_num
  · norm_num
  · norm_num
  · left; intro i; rfl

end Wam
