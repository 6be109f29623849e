import Verif.Lemmas.ColumnRounded
import Verif.Lemmas.Column

/-! Rounding errors of the extension of pressure levels: interpolation, midpoints and comparisons. -/

set_option linter.unusedSectionVars false
set_option linter.unusedVariables false

namespace Wam
open Spec

variable {K : Type} [Field K] [LinearOrder K] [IsStrictOrderedRing K] {R : Rounding K} {u η : K}

/-! ### One operation -/

theorem rnd_close (A : Accurate R u η) {x y e s : K} (h : |x - y| ≤ e) (hx : |x| ≤ s) :
    |R.rnd x - y| ≤ u * s + η + e := by
  have h1 := A.err x
  have h2 := mul_le_mul_of_nonneg_left hx A.u_nonneg
  calc |R.rnd x - y| = |(R.rnd x - x) + (x - y)| := by congr 1; ring
    _ ≤ |R.rnd x - x| + |x - y| := abs_add_le _ _
    _ ≤ _ := by linarith

/-- a difference of pressures that is not tiny -/
theorem rnd_gap (A : Accurate R u η) {d g : K} (hg : 0 ≤ g) (hd : g ≤ d) (hη : η ≤ u * g) :
    |R.rnd d - d| ≤ 2 * u * d ∧ d * (1 - 2 * u) ≤ R.rnd d ∧ R.rnd d ≤ d * (1 + 2 * u) := by
  have hu := A.u_nonneg
  have h1 := A.err d
  have h0 : 0 ≤ d := hg.trans hd
  rw [abs_of_nonneg h0] at h1
  have h2 := mul_le_mul_of_nonneg_left hd hu
  have h3 : |R.rnd d - d| ≤ 2 * u * d := by linarith
  have h4 := abs_le.1 h3
  exact ⟨h3, by linarith [h4.1], by linarith [h4.2]⟩

/-- the quotient `(x - x0) / (x1 - x0)` -/
theorem ratio_close (A : Accurate R u η) {a d g : K} (hg : 0 < g) (ha : g ≤ a) (had : a ≤ d) (hη : η ≤ u * g) :
    |R.rnd a / R.rnd d - a / d| ≤ 5 * u ∧ 0 ≤ R.rnd a / R.rnd d ∧ R.rnd a / R.rnd d ≤ 101 / 100 ∧
      99 / 100 * g ≤ R.rnd d := by
  have hu := A.u_nonneg
  have hu1 := A.u_small
  have hd0 : 0 < d := by linarith
  have ha0 : 0 < a := by linarith
  obtain ⟨a1, a2, a3⟩ := rnd_gap A hg.le ha hη
  obtain ⟨d1, d2, d3⟩ := rnd_gap A hg.le (ha.trans had) hη
  have hd9 : 99 / 100 * d ≤ R.rnd d := by nlinarith
  have hrd : 0 < R.rnd d := by linarith
  have hra : 0 ≤ R.rnd a := Fl.rnd_nonneg ha0.le
  have key : |R.rnd a / R.rnd d - a / d| ≤ 5 * u := by
    have e : R.rnd a / R.rnd d - a / d = ((R.rnd a - a) * d - a * (R.rnd d - d)) / (R.rnd d * d) := by
      field_simp
      ring
    rw [e, abs_div, abs_of_pos (mul_pos hrd hd0), div_le_iff₀ (mul_pos hrd hd0)]
    have h1 : |(R.rnd a - a) * d - a * (R.rnd d - d)| ≤ 2 * u * a * d + a * (2 * u * d) := by
      refine (abs_sub _ _).trans (add_le_add ?_ ?_)
      · rw [abs_mul, abs_of_pos hd0]
        exact mul_le_mul_of_nonneg_right a1 hd0.le
      · rw [abs_mul, abs_of_pos ha0]
        exact mul_le_mul_of_nonneg_left d1 ha0.le
    have h2 : 5 * u * (99 / 100 * d * d) ≤ 5 * u * (R.rnd d * d) :=
      mul_le_mul_of_nonneg_left (mul_le_mul_of_nonneg_right hd9 hd0.le) (by positivity)
    have h3 : u * d * a ≤ u * d * d := mul_le_mul_of_nonneg_left had (by positivity)
    have h4 : 0 ≤ u * d * d := by positivity
    nlinarith
  have hr : a / d ≤ 1 := (div_le_one hd0).2 had
  refine ⟨key, div_nonneg hra hrd.le, ?_, by nlinarith⟩
  have := (abs_le.1 key).2
  linarith

/-- **interpolation**: the rounded straight line -/
theorem line_close (A : Accurate R u η) {B g : K} (f0 f1 x x0 x1 : Fl R) (hB : 0 ≤ B) (hg : 0 < g)
    (hf0 : |f0.val| ≤ B) (hf1 : |f1.val| ≤ B) (h0 : g ≤ x.val - x0.val) (h1 : x.val ≤ x1.val)
    (hη1 : η ≤ u * g) (hη2 : η ≤ u * B) (hη3 : η ≤ u * (B * g)) :
    |(f0 + (f1 - f0) * (x - x0) / (x1 - x0)).val -
        (f0.val + (f1.val - f0.val) * (x.val - x0.val) / (x1.val - x0.val))| ≤ 32 * (u * B) := by
  have hu := A.u_nonneg
  have hu1 := A.u_small
  have hη0 := A.η_nonneg
  have hd : 0 < x1.val - x0.val := by linarith
  obtain ⟨r1, r2, r3, r4⟩ := ratio_close A hg h0 (by linarith : x.val - x0.val ≤ x1.val - x0.val) hη1
  simp only [Fl.val_add, Fl.val_div, Fl.val_mul, Fl.val_sub]
  set D := f1.val - f0.val with hD
  set a := R.rnd (x.val - x0.val) with ha
  set d := R.rnd (x1.val - x0.val) with hdd
  set r := (x.val - x0.val) / (x1.val - x0.val) with hr
  have hd0 : 0 < d := by nlinarith
  have huB : 0 ≤ u * B := by positivity
  have huB1 : u * B ≤ 1 / 1000 * B := mul_le_mul_of_nonneg_right (by linarith) hB
  have hDB : |D| ≤ 2 * B := (abs_sub _ _).trans (by linarith)
  have hr0 : 0 ≤ r := div_nonneg (by linarith) hd.le
  have hr1 : r ≤ 1 := (div_le_one hd).2 (by linarith)
  -- the difference
  have e1 : |R.rnd D - D| ≤ 3 * (u * B) := by
    have := A.err D
    have h := mul_le_mul_of_nonneg_left hDB hu
    linarith
  have s1 : |R.rnd D| ≤ 201 / 100 * B := by
    calc |R.rnd D| = |(R.rnd D - D) + D| := by congr 1; ring
      _ ≤ |R.rnd D - D| + |D| := abs_add_le _ _
      _ ≤ _ := by linarith
  -- the ratio of floats
  set ρ := a / d with hρ
  have sρ : |R.rnd D * ρ| ≤ 204 / 100 * B := by
    rw [abs_mul, abs_of_nonneg r2]
    calc |R.rnd D| * ρ ≤ 201 / 100 * B * (101 / 100) := mul_le_mul s1 r3 r2 (by positivity)
      _ ≤ _ := by linarith
  -- product, then quotient
  have e2 : |R.rnd (R.rnd D * a) / d - R.rnd D * ρ| ≤ 4 * (u * B) := by
    have e : R.rnd (R.rnd D * a) / d - R.rnd D * ρ = (R.rnd (R.rnd D * a) - R.rnd D * a) / d := by
      rw [hρ]; field_simp
    have h := A.err (R.rnd D * a)
    have ea : |R.rnd D * a| = |R.rnd D * ρ| * d := by
      rw [hρ]
      rw [← abs_of_pos hd0, ← abs_mul, abs_of_pos hd0]
      congr 1
      field_simp
    rw [e, abs_div, abs_of_pos hd0, div_le_iff₀ hd0]
    rw [ea] at h
    have h2 : u * (|R.rnd D * ρ| * d) ≤ u * (204 / 100 * B * d) :=
      mul_le_mul_of_nonneg_left (mul_le_mul_of_nonneg_right sρ hd0.le) hu
    have h3 : u * B * (99 / 100 * g) ≤ u * B * d := mul_le_mul_of_nonneg_left r4 huB
    have h4 : η ≤ u * B * g := by linarith
    have h5 : 0 ≤ u * B * d := by positivity
    nlinarith
  have s2 : |R.rnd (R.rnd D * a) / d| ≤ 205 / 100 * B := by
    calc |R.rnd (R.rnd D * a) / d| = |(R.rnd (R.rnd D * a) / d - R.rnd D * ρ) + R.rnd D * ρ| := by congr 1; ring
      _ ≤ _ := abs_add_le _ _
      _ ≤ _ := by linarith
  have e3 : |R.rnd D * ρ - D * r| ≤ 14 * (u * B) := by
    calc |R.rnd D * ρ - D * r| = |(R.rnd D - D) * ρ + D * (ρ - r)| := by congr 1; ring
      _ ≤ |(R.rnd D - D) * ρ| + |D * (ρ - r)| := abs_add_le _ _
      _ = |R.rnd D - D| * ρ + |D| * |ρ - r| := by rw [abs_mul, abs_mul, abs_of_nonneg r2]
      _ ≤ 3 * (u * B) * (101 / 100) + 2 * B * (5 * u) :=
        add_le_add (mul_le_mul e1 r3 r2 (by positivity)) (mul_le_mul hDB r1 (abs_nonneg _) (by positivity))
      _ ≤ _ := by nlinarith
  have e4 : |R.rnd (R.rnd (R.rnd D * a) / d) - D * r| ≤ 22 * (u * B) := by
    have h := rnd_close A (y := D * r) (e := 18 * (u * B)) ?_ s2
    · have : u * (205 / 100 * B) = 205 / 100 * (u * B) := by ring
      linarith
    · calc |R.rnd (R.rnd D * a) / d - D * r| =
          |(R.rnd (R.rnd D * a) / d - R.rnd D * ρ) + (R.rnd D * ρ - D * r)| := by congr 1; ring
        _ ≤ _ := abs_add_le _ _
        _ ≤ _ := by linarith
  have eD : D * (x.val - x0.val) / (x1.val - x0.val) = D * r := by rw [hr]; ring
  rw [eD]
  have sDr : |D * r| ≤ 2 * B := by
    rw [abs_mul, abs_of_nonneg hr0]
    calc |D| * r ≤ 2 * B * 1 := mul_le_mul hDB hr1 hr0 (by positivity)
      _ = _ := by ring
  have h := rnd_close A (x := f0.val + R.rnd (R.rnd (R.rnd D * a) / d)) (y := f0.val + D * r)
    (e := 22 * (u * B)) (s := 304 / 100 * B) ?_ ?_
  · have : u * (304 / 100 * B) = 304 / 100 * (u * B) := by ring
    linarith
  · rw [add_sub_add_left_eq_sub]; exact e4
  · calc |f0.val + R.rnd (R.rnd (R.rnd D * a) / d)| =
        |f0.val + D * r + (R.rnd (R.rnd (R.rnd D * a) / d) - D * r)| := by congr 1; ring
      _ ≤ |f0.val + D * r| + _ := abs_add_le _ _
      _ ≤ |f0.val| + |D * r| + 22 * (u * B) := add_le_add (abs_add_le _ _) e4
      _ ≤ _ := by linarith

/-- the exact straight line stays between its ends -/
theorem line_abs {B f0 f1 x x0 x1 : K} (h0 : x0 < x) (h1 : x ≤ x1) (hf0 : |f0| ≤ B) (hf1 : |f1| ≤ B) :
    |f0 + (f1 - f0) * (x - x0) / (x1 - x0)| ≤ B := by
  have hd : 0 < x1 - x0 := by linarith
  set r := (x - x0) / (x1 - x0) with hr
  have hr0 : 0 ≤ r := div_nonneg (by linarith) hd.le
  have hr1 : r ≤ 1 := (div_le_one hd).2 (by linarith)
  have e : f0 + (f1 - f0) * (x - x0) / (x1 - x0) = (1 - r) * f0 + r * f1 := by
    rw [mul_div_assoc, ← hr]; ring
  rw [e]
  calc |(1 - r) * f0 + r * f1| ≤ |(1 - r) * f0| + |r * f1| := abs_add_le _ _
    _ = (1 - r) * |f0| + r * |f1| := by rw [abs_mul, abs_mul, abs_of_nonneg hr0, abs_of_nonneg (by linarith : 0 ≤ 1 - r)]
    _ ≤ (1 - r) * B + r * B :=
      add_le_add (mul_le_mul_of_nonneg_left hf0 (by linarith)) (mul_le_mul_of_nonneg_left hf1 hr0)
    _ = B := by ring

/-- the literal one half -/
theorem half_close (A : Accurate R u η) (hη : η ≤ u) : |(ofRat (1 / 2) : Fl R).val - 1 / 2| ≤ 3 / 2 * u := by
  have h := A.err ((1 / 2 : ℚ) : K)
  have e : (((1 / 2 : ℚ)) : K) = 1 / 2 := by push_cast; rfl
  rw [e, abs_of_nonneg (by norm_num : (0 : K) ≤ 1 / 2)] at h
  change |R.rnd ((1 / 2 : ℚ) : K) - 1 / 2| ≤ _
  rw [e]
  linarith

/-- **midpoints** of values that are already rounded -/
theorem mid_close (A : Accurate R u η) {B : K} (x y : Fl R) {x' y' : K} (hB : 0 ≤ B) (hη : η ≤ u) (hηB : η ≤ u * B)
    (hx : |x.val - x'| ≤ 32 * (u * B)) (hy : |y.val - y'| ≤ 32 * (u * B)) (hx' : |x'| ≤ B) (hy' : |y'| ≤ B) :
    |(x + (y - x) * ofRat (1 / 2)).val - (x' + (y' - x') * ofRat (1 / 2))| ≤ 42 * (u * B) := by
  have hu := A.u_nonneg
  have hu1 := A.u_small
  have hη0 := A.η_nonneg
  have huB : 0 ≤ u * B := by positivity
  have huB1 : u * B ≤ 1 / 10000 * B := mul_le_mul_of_nonneg_right (by linarith) hB
  have hX : |x.val| ≤ 101 / 100 * B := by
    calc |x.val| = |(x.val - x') + x'| := by congr 1; ring
      _ ≤ _ := abs_add_le _ _
      _ ≤ _ := by linarith
  have hY : |y.val| ≤ 101 / 100 * B := by
    calc |y.val| = |(y.val - y') + y'| := by congr 1; ring
      _ ≤ _ := abs_add_le _ _
      _ ≤ _ := by linarith
  have hh := half_close A hη
  rw [ofRat_half]
  simp only [Fl.val_add, Fl.val_mul, Fl.val_sub]
  set X := x.val
  set Y := y.val
  set h := (ofRat (1 / 2) : Fl R).val with hhdef
  have hh1 : |h| ≤ 51 / 100 := by
    calc |h| = |(h - 1 / 2) + 1 / 2| := by congr 1; ring
      _ ≤ |h - 1 / 2| + |1 / 2| := abs_add_le _ _
      _ ≤ _ := by rw [abs_of_nonneg (by norm_num : (0 : K) ≤ 1 / 2)]; linarith
  have d0 : |Y - X| ≤ 202 / 100 * B := (abs_sub _ _).trans (by linarith)
  have d1 : |R.rnd (Y - X) - (Y - X)| ≤ 302 / 100 * (u * B) := by
    have h1 := A.err (Y - X)
    have h2 := mul_le_mul_of_nonneg_left d0 hu
    linarith
  have d2 : |R.rnd (Y - X)| ≤ 203 / 100 * B := by
    calc |R.rnd (Y - X)| = |(R.rnd (Y - X) - (Y - X)) + (Y - X)| := by congr 1; ring
      _ ≤ _ := abs_add_le _ _
      _ ≤ _ := by linarith
  have m0 : |R.rnd (Y - X) * h| ≤ 104 / 100 * B := by
    rw [abs_mul]
    calc |R.rnd (Y - X)| * |h| ≤ 203 / 100 * B * (51 / 100) := mul_le_mul d2 hh1 (abs_nonneg _) (by positivity)
      _ ≤ _ := by linarith
  have m1 : |R.rnd (Y - X) * h - (Y - X) / 2| ≤ 46 / 10 * (u * B) := by
    calc |R.rnd (Y - X) * h - (Y - X) / 2| = |R.rnd (Y - X) * (h - 1 / 2) + (R.rnd (Y - X) - (Y - X)) / 2| := by
          congr 1; ring
      _ ≤ |R.rnd (Y - X) * (h - 1 / 2)| + |(R.rnd (Y - X) - (Y - X)) / 2| := abs_add_le _ _
      _ = |R.rnd (Y - X)| * |h - 1 / 2| + |R.rnd (Y - X) - (Y - X)| / 2 := by
          rw [abs_mul, abs_div, abs_of_pos (by norm_num : (0 : K) < 2)]
      _ ≤ 203 / 100 * B * (3 / 2 * u) + 302 / 100 * (u * B) / 2 :=
          add_le_add (mul_le_mul d2 hh (abs_nonneg _) (by positivity)) (by linarith)
      _ ≤ _ := by nlinarith
  have m2 := rnd_close A m1 m0
  have m3 : |R.rnd (R.rnd (Y - X) * h) - (Y - X) / 2| ≤ 67 / 10 * (u * B) := by
    have : u * (104 / 100 * B) = 104 / 100 * (u * B) := by ring
    linarith
  have s0 : |X + (Y - X) / 2| ≤ 101 / 100 * B := by
    calc |X + (Y - X) / 2| = |X / 2 + Y / 2| := by congr 1; ring
      _ ≤ |X / 2| + |Y / 2| := abs_add_le _ _
      _ = |X| / 2 + |Y| / 2 := by rw [abs_div, abs_div, abs_of_pos (by norm_num : (0 : K) < 2)]
      _ ≤ _ := by linarith
  have s1 : |X + R.rnd (R.rnd (Y - X) * h)| ≤ 102 / 100 * B := by
    calc |X + R.rnd (R.rnd (Y - X) * h)| = |(X + (Y - X) / 2) + (R.rnd (R.rnd (Y - X) * h) - (Y - X) / 2)| := by
          congr 1; ring
      _ ≤ _ := abs_add_le _ _
      _ ≤ _ := by linarith
  have f : |X + R.rnd (R.rnd (Y - X) * h) - (x' + (y' - x') * (1 / 2))| ≤ 67 / 10 * (u * B) + 32 * (u * B) := by
    calc |X + R.rnd (R.rnd (Y - X) * h) - (x' + (y' - x') * (1 / 2))| =
        |(R.rnd (R.rnd (Y - X) * h) - (Y - X) / 2) + ((X - x') / 2 + (Y - y') / 2)| := by congr 1; ring
      _ ≤ _ := abs_add_le _ _
      _ ≤ _ + (|(X - x') / 2| + |(Y - y') / 2|) := add_le_add le_rfl (abs_add_le _ _)
      _ = _ + (|X - x'| / 2 + |Y - y'| / 2) := by rw [abs_div, abs_div, abs_of_pos (by norm_num : (0 : K) < 2)]
      _ ≤ _ := by linarith
  have g := rnd_close A f s1
  have : u * (102 / 100 * B) = 102 / 100 * (u * B) := by ring
  linarith

theorem mid_abs {B x y : K} (hx : |x| ≤ B) (hy : |y| ≤ B) : |x + (y - x) * ofRat (1 / 2)| ≤ B := by
  rw [ofRat_half]
  calc |x + (y - x) * (1 / 2)| = |x / 2 + y / 2| := by congr 1; ring
    _ ≤ |x / 2| + |y / 2| := abs_add_le _ _
    _ = |x| / 2 + |y| / 2 := by rw [abs_div, abs_div, abs_of_pos (by norm_num : (0 : K) < 2)]
    _ ≤ _ := by linarith

/-- **comparison of a midpoint**: a threshold that is not between two levels separates the rounded midpoint as it
separates the exact one. -/
theorem mid_lt_iff (A : Accurate R u η) (hη : η ≤ u) {P g : K} (x y z : Fl R) (hxy : x.val ≤ y.val)
    (hgap : x.val = y.val ∨ g ≤ y.val - x.val) (hg : 8 * (u * P) ≤ g) (hηg : η ≤ u * g) (hx0 : 0 ≤ x.val)
    (hy : y.val ≤ P) (hz : y.val ≤ z.val ∨ z.val ≤ x.val) :
    (x + (y - x) * ofRat (1 / 2)).val < z.val ↔ x.val + (y.val - x.val) * ofRat (1 / 2) < z.val := by
  have hu := A.u_nonneg
  have hu1 := A.u_small
  have hη0 := A.η_nonneg
  have hP : 0 ≤ P := by linarith
  have hh := abs_le.1 (half_close A hη)
  rw [ofRat_half]
  have hnn : 0 ≤ (ofRat (1 / 2) : Fl R) := Fl.ofRat_nonneg (by norm_num)
  have hge : x.val ≤ (x + (y - x) * ofRat (1 / 2)).val :=
    Fl.le_add_right (Fl.mul_nonneg (Fl.sub_nonneg ((Fl.le_def _ _).2 hxy)) hnn)
  rcases hz with hz | hz
  · rcases hgap with he | hgap
    · have e : y = x := Fl.ext he.symm
      subst e
      rw [Fl.sub_self, Fl.zero_mul, Fl.add_zero, sub_self, zero_mul, add_zero]
    · have hg0 : 0 ≤ g := le_trans (by positivity) hg
      by_cases hgz : y.val = x.val
      · have e : y = x := Fl.ext hgz
        subst e
        rw [Fl.sub_self, Fl.zero_mul, Fl.add_zero, sub_self, zero_mul, add_zero]
      have hpos : 0 < y.val - x.val := by
        rcases hxy.lt_or_eq with h | h
        · linarith
        · exact absurd h.symm hgz
      refine iff_of_true ?_ (by linarith)
      refine lt_of_lt_of_le ?_ hz
      simp only [Fl.val_add, Fl.val_mul, Fl.val_sub]
      set h := (ofRat (1 / 2) : Fl R).val
      obtain ⟨-, -, d3⟩ := rnd_gap A hg0 hgap hηg
      have dn : 0 ≤ R.rnd (y.val - x.val) := Fl.rnd_nonneg hpos.le
      set D := y.val - x.val with hD
      set d := R.rnd D
      have huD : u * D ≤ 1 / 10000000 * D := mul_le_mul_of_nonneg_right hu1 hpos.le
      have hd2 : d ≤ 101 / 100 * D := by nlinarith
      have hdh : d * h ≤ D * (1 / 2) + 4 * (u * D) := by
        have h1 : d * h ≤ d * (1 / 2 + 3 / 2 * u) := mul_le_mul_of_nonneg_left (by linarith [hh.2]) dn
        have h2 : d * (3 / 2 * u) ≤ 101 / 100 * D * (3 / 2 * u) := mul_le_mul_of_nonneg_right hd2 (by positivity)
        have h3 : 0 ≤ u * D := by positivity
        nlinarith
      have hdh0 : 0 ≤ d * h := mul_nonneg dn ((Fl.le_def _ _).1 hnn)
      have hm := A.err (d * h)
      rw [abs_of_nonneg hdh0] at hm
      have hm2 := (abs_le.1 hm).2
      have hηD : η ≤ u * D := hηg.trans (mul_le_mul_of_nonneg_left hgap hu)
      have h1 : u * (d * h) ≤ u * D := mul_le_mul_of_nonneg_left (by linarith) hu
      have hmm : R.rnd (d * h) ≤ D * (1 / 2) + 6 * (u * D) := by linarith
      have hm0 : 0 ≤ R.rnd (d * h) := Fl.rnd_nonneg hdh0
      have hs := A.err (x.val + R.rnd (d * h))
      have hs0 : 0 ≤ x.val + R.rnd (d * h) := by linarith
      rw [abs_of_nonneg hs0] at hs
      have hs2 := (abs_le.1 hs).2
      have hsP : x.val + R.rnd (d * h) ≤ P := by linarith
      have h2 : u * (x.val + R.rnd (d * h)) ≤ u * P := mul_le_mul_of_nonneg_left hsP hu
      linarith
  · refine iff_of_false (by linarith) (by linarith)

end Wam
