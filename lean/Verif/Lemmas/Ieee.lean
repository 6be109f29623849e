import Verif.Model.Ieee
import Verif.Spec.Accuracy
import Mathlib.Tactic.Linarith
import Mathlib.Tactic.Ring
import Mathlib.Tactic.Positivity

/-! # IEEE-754 rounding is a rounding -/
set_option linter.unusedSectionVars false
set_option linter.unusedVariables false

namespace Wam

variable {K : Type*} [Field K] [LinearOrder K] [IsStrictOrderedRing K] [FloorRing K]

/-- a rounding to integers with error at most `h` -/
structure IntRounding (K : Type*) [Field K] [LinearOrder K] where
  ri : K → ℤ
  mono : Monotone ri
  fix : ∀ n : ℤ, ri (n : K) = n

theorem halfEven_floor (x : K) : ⌊x⌋ ≤ halfEven x ∧ halfEven x ≤ ⌊x⌋ + 1 := by
  unfold halfEven; split_ifs <;> constructor <;> omega

/-- round to nearest, ties to even -/
def IntRounding.halfEven : IntRounding K where
  ri := Wam.halfEven
  mono := by
    intro x y h
    have hf := Int.floor_mono h
    rcases hf.lt_or_eq with lt | eq
    · have := (halfEven_floor x).2
      have := (halfEven_floor y).1
      omega
    · have hd : x - ⌊x⌋ ≤ y - ⌊y⌋ := by rw [eq]; linarith
      unfold Wam.halfEven
      rw [eq] at *
      split_ifs with h1 h2 h3 h4 h5 h6 h7 h8 h9 <;> first | omega | (exfalso; linarith)
  fix := by intro n; simp [Wam.halfEven]

theorem halfEven_err (x : K) : |(halfEven x : K) - x| ≤ 1 / 2 := by
  have h0 := Int.floor_le x
  have h1 := Int.lt_floor_add_one x
  unfold halfEven
  rw [abs_le]
  split_ifs <;> push_cast <;> constructor <;> linarith

/-- truncation -/
def IntRounding.floor : IntRounding K where
  ri := Int.floor
  mono := Int.floor_mono
  fix := Int.floor_intCast

section
variable (I : IntRounding K) (p : ℕ) (emin : ℤ)

theorem two_zpow_pos (k : ℤ) : (0 : K) < 2 ^ k := zpow_pos two_pos k

theorem IntRounding.nonneg {x : K} (h : 0 ≤ x) : 0 ≤ I.ri x := by
  have := I.mono h
  have z := I.fix 0
  simp only [Int.cast_zero] at z
  omega

theorem emin_le_ulp (x : K) : emin ≤ ulpExp p emin x := le_max_right _ _

theorem log_bounds {x : K} (h : 0 < x) : (2 : K) ^ Int.log 2 x ≤ x ∧ x < 2 ^ (Int.log 2 x + 1) := by
  have h1 := Int.zpow_log_le_self (b := 2) (by norm_num) h
  have h2 := Int.lt_zpow_succ_log_self (b := 2) (by norm_num) x
  exact ⟨by exact_mod_cast h1, by exact_mod_cast h2⟩

/-- the significand has at most `p` bits -/
theorem signif_le {x : K} (h : 0 < x) : I.ri (x / 2 ^ ulpExp p emin x) ≤ 2 ^ p := by
  have : x / 2 ^ ulpExp p emin x ≤ ((2 ^ p : ℤ) : K) := by
    rw [div_le_iff₀ (two_zpow_pos _)]
    refine (log_bounds h).2.le.trans ?_
    push_cast
    rw [← zpow_natCast, ← zpow_add₀ two_ne_zero]
    refine zpow_le_zpow_right₀ one_le_two ?_
    have : Int.log 2 x - p + 1 ≤ ulpExp p emin x := le_max_left _ _
    omega
  have := I.mono this
  rwa [I.fix] at this

theorem floatPos_nonneg {x : K} (h : 0 < x) : 0 ≤ floatPos I.ri p emin x := by
  unfold floatPos
  exact mul_nonneg (by exact_mod_cast I.nonneg (div_nonneg h.le (two_zpow_pos _).le)) (two_zpow_pos _).le

/-- floats are representable -/
theorem floatPos_fix (hp : 1 ≤ p) {N j : ℤ} (h0 : 0 < N) (hN : N ≤ 2 ^ p) (hj : emin ≤ j) :
    floatPos I.ri p emin ((N : K) * 2 ^ j) = N * 2 ^ j := by
  set y : K := (N : K) * 2 ^ j with hy
  have y0 : 0 < y := mul_pos (by exact_mod_cast h0) (two_zpow_pos j)
  obtain ⟨l1, l2⟩ := log_bounds y0
  set k := ulpExp p emin y with hk
  have key : ∃ z : ℤ, y / 2 ^ k = z := by
    rcases le_or_gt k j with h | h
    · refine ⟨N * 2 ^ (j - k).toNat, ?_⟩
      rw [hy, mul_div_assoc, ← zpow_sub₀ two_ne_zero]
      push_cast
      congr 1
      rw [← zpow_natCast]
      congr 1
      omega
    · have hk' : k = Int.log 2 y - p + 1 := by
        rcases max_choice (Int.log 2 y - p + 1) emin with h' | h'
        · rw [hk, ulpExp, h']
        · rw [hk, ulpExp, h'] at h; omega
      have le : y ≤ 2 ^ (p + j) := by
        rw [hy, zpow_add₀ two_ne_zero, zpow_natCast]
        exact mul_le_mul_of_nonneg_right (by exact_mod_cast hN) (two_zpow_pos j).le
      have ge : (2 : K) ^ (p + j) ≤ y :=
        (zpow_le_zpow_right₀ one_le_two (by omega)).trans l1
      have e := le_antisymm le ge
      have el : Int.log 2 y = p + j := by
        rw [e]
        have := Int.log_zpow (R := K) (b := 2) (by norm_num) (p + j)
        exact_mod_cast this
      refine ⟨2 ^ (p - 1), ?_⟩
      rw [e, ← zpow_sub₀ two_ne_zero]
      push_cast
      rw [← zpow_natCast]
      congr 1
      omega
  obtain ⟨z, hz⟩ := key
  unfold floatPos
  rw [← hk, hz, I.fix, ← hz, div_mul_cancel₀ _ (two_zpow_pos k).ne']

theorem floatPos_mono (hp : 1 ≤ p) {x y : K} (h0 : 0 < x) (h : x ≤ y) :
    floatPos I.ri p emin x ≤ floatPos I.ri p emin y := by
  have y0 : 0 < y := h0.trans_le h
  have hl : Int.log 2 x ≤ Int.log 2 y := Int.log_mono_right h0 h
  have hk : ulpExp p emin x ≤ ulpExp p emin y := max_le_max (by omega) le_rfl
  rcases hk.eq_or_lt with e | lt
  · unfold floatPos
    rw [e]
    refine mul_le_mul_of_nonneg_right ?_ (two_zpow_pos _).le
    exact_mod_cast I.mono (div_le_div_of_nonneg_right h (two_zpow_pos _).le)
  · have hky : ulpExp p emin y = Int.log 2 y - p + 1 := by
      rcases max_choice (Int.log 2 y - p + 1) emin with h' | h'
      · rw [ulpExp, h']
      · have := emin_le_ulp p emin x
        have e : ulpExp p emin y = emin := h'
        omega
    have a1 : floatPos I.ri p emin x ≤ 2 ^ (Int.log 2 y) := by
      have : ((I.ri (x / 2 ^ ulpExp p emin x) : ℤ) : K) ≤ ((2 ^ p : ℤ) : K) := by
        exact_mod_cast signif_le I p emin h0
      unfold floatPos
      refine (mul_le_mul_of_nonneg_right this (two_zpow_pos _).le).trans ?_
      push_cast
      rw [← zpow_natCast, ← zpow_add₀ two_ne_zero]
      exact zpow_le_zpow_right₀ one_le_two (by omega)
    have a2 : (2 : K) ^ (Int.log 2 y) ≤ floatPos I.ri p emin y := by
      have : ((2 ^ (p - 1) : ℤ) : K) ≤ y / 2 ^ ulpExp p emin y := by
        rw [le_div_iff₀ (two_zpow_pos _)]
        refine le_trans (le_of_eq ?_) (log_bounds y0).1
        push_cast
        rw [← zpow_natCast, ← zpow_add₀ two_ne_zero]
        congr 1
        omega
      have := I.mono this
      rw [I.fix] at this
      unfold floatPos
      refine le_trans (le_of_eq ?_) (mul_le_mul_of_nonneg_right
        (Int.cast_le (R := K).2 this) (two_zpow_pos (ulpExp p emin y)).le)
      push_cast
      rw [← zpow_natCast, ← zpow_add₀ two_ne_zero]
      congr 1
      omega
    exact a1.trans a2

theorem floatRnd_fix (hp : 1 ≤ p) {N j : ℤ} (h0 : 0 ≤ N) (hN : N ≤ 2 ^ p) (hj : emin ≤ j) :
    floatRnd I.ri p emin ((N : K) * 2 ^ j) = N * 2 ^ j := by
  rcases h0.eq_or_lt with e | h
  · rw [← e]; simp [floatRnd]
  · have : 0 < (N : K) * 2 ^ j := mul_pos (by exact_mod_cast h) (two_zpow_pos j)
    rw [floatRnd, if_pos this, floatPos_fix I p emin hp h hN hj]

theorem floatRnd_neg (x : K) : floatRnd I.ri p emin (-x) = -floatRnd I.ri p emin x := by
  unfold floatRnd
  rcases lt_trichotomy x 0 with h | h | h
  · rw [if_pos (by linarith), if_neg (by linarith), if_pos h, neg_neg]
  · subst h; simp
  · rw [if_neg (by linarith), if_pos (by linarith), if_pos h, neg_neg]

/-- a family of roundings: precision `p`, smallest subnormal number `2 ^ emin` -/
def floatRounding (hp : 1 ≤ p) (he : emin ≤ 0) : Rounding K where
  rnd := floatRnd I.ri p emin
  mono := by
    have pos : ∀ x y : K, 0 < x → x ≤ y → floatRnd I.ri p emin x ≤ floatRnd I.ri p emin y := by
      intro x y h0 h
      simp only [floatRnd, if_pos h0, if_pos (h0.trans_le h)]
      exact floatPos_mono I p emin hp h0 h
    have nn : ∀ x : K, 0 ≤ x → 0 ≤ floatRnd I.ri p emin x := by
      intro x h
      rcases h.eq_or_lt with e | h
      · rw [← e]; simp [floatRnd]
      · rw [floatRnd, if_pos h]; exact floatPos_nonneg I p emin h
    intro x y h
    rcases lt_trichotomy x 0 with hx | hx | hx
    · rcases lt_or_ge y 0 with hy | hy
      · have := pos (-y) (-x) (by linarith) (by linarith)
        rw [floatRnd_neg, floatRnd_neg] at this
        linarith
      · have h1 := nn (-x) (by linarith)
        rw [floatRnd_neg] at h1
        linarith [nn y hy]
    · subst hx
      have z : floatRnd I.ri p emin (0 : K) = 0 := by simp [floatRnd]
      rw [z]; exact nn y h
    · exact pos x y hx h
  idem := by
    intro x
    have pos : ∀ x : K, 0 < x → floatRnd I.ri p emin (floatPos I.ri p emin x) = floatPos I.ri p emin x := by
      intro x h
      exact floatRnd_fix I p emin hp (I.nonneg (div_nonneg h.le (two_zpow_pos _).le)) (signif_le I p emin h)
        (emin_le_ulp p emin x)
    rcases lt_trichotomy x 0 with h | h | h
    · have e : floatRnd I.ri p emin x = -floatPos I.ri p emin (-x) := by
        rw [floatRnd, if_neg (by linarith), if_pos h]
      rw [e, floatRnd_neg, pos _ (by linarith)]
    · subst h; simp [floatRnd]
    · have e : floatRnd I.ri p emin x = floatPos I.ri p emin x := by rw [floatRnd, if_pos h]
      rw [e, pos _ h]
  neg := floatRnd_neg I p emin
  zero := by simp [floatRnd]
  one := by
    have := floatRnd_fix (K := K) I p emin hp (N := 1) (j := 0) (by norm_num) (one_le_pow₀ (by norm_num)) he
    simpa using this

theorem floatRnd_err {h : K} (hI : ∀ x : K, |(I.ri x : K) - x| ≤ h) (x : K) :
    |floatRnd I.ri p emin x - x| ≤ h * 2 ^ (1 - (p : ℤ)) * |x| + h * 2 ^ emin := by
  have h0 : 0 ≤ h := (abs_nonneg _).trans (hI 0)
  have pos : ∀ x : K, 0 < x →
      |floatPos I.ri p emin x - x| ≤ h * 2 ^ (1 - (p : ℤ)) * x + h * 2 ^ emin := by
    intro x hx
    set k := ulpExp p emin x with hk
    have e : floatPos I.ri p emin x - x = (I.ri (x / 2 ^ k) - x / 2 ^ k) * 2 ^ k := by
      rw [sub_mul, div_mul_cancel₀ _ (two_zpow_pos k).ne']; rfl
    rw [e, abs_mul, abs_of_pos (two_zpow_pos (K := K) k)]
    refine (mul_le_mul_of_nonneg_right (hI _) (two_zpow_pos k).le).trans ?_
    rw [mul_assoc, ← mul_add]
    refine mul_le_mul_of_nonneg_left ?_ h0
    have a : (2 : K) ^ (Int.log 2 x - p + 1) ≤ 2 ^ (1 - (p : ℤ)) * x := by
      have : Int.log 2 x - p + 1 = (1 - (p : ℤ)) + Int.log 2 x := by omega
      rw [this, zpow_add₀ two_ne_zero]
      exact mul_le_mul_of_nonneg_left (log_bounds hx).1 (two_zpow_pos _).le
    have b := two_zpow_pos (K := K) emin
    have c := mul_pos (two_zpow_pos (K := K) (1 - (p : ℤ))) hx
    rcases max_choice (Int.log 2 x - p + 1) emin with h' | h' <;> rw [hk, ulpExp, h'] <;> linarith
  rcases lt_trichotomy x 0 with hx | hx | hx
  · have := pos (-x) (by linarith)
    rw [floatRnd, if_neg (by linarith), if_pos hx, abs_of_neg hx]
    rw [abs_sub_comm] at this
    refine le_trans (le_of_eq ?_) this
    congr 1
    ring
  · subst hx
    have := mul_nonneg h0 (two_zpow_pos (K := K) emin).le
    simpa [floatRnd] using this
  · rw [floatRnd, if_pos hx, abs_of_pos hx]
    exact pos x hx

end

/-- numpy's float64: 53 bits, smallest subnormal `2⁻¹⁰⁷⁴`, ties to even, core.py:9-250 -/
def binary64 : Rounding K := floatRounding IntRounding.halfEven 53 (-1074) (by norm_num) (by norm_num)
/-- numpy's float32: 24 bits, smallest subnormal `2⁻¹⁴⁹`, ties to even, core.py:9-250 -/
def binary32 : Rounding K := floatRounding IntRounding.halfEven 24 (-149) (by norm_num) (by norm_num)

/-- float64 has unit roundoff `2⁻⁵³` -/
theorem accurate64 : Spec.Accurate (binary64 : Rounding K) (1 / 2 ^ 53) (1 / 2 ^ 1075) where
  u_pos := by positivity
  u_small := by norm_num
  η_nonneg := by positivity
  err x := by
    refine (floatRnd_err IntRounding.halfEven 53 (-1074) halfEven_err x).trans (le_of_eq ?_)
    have e : (1 / 2 ^ 1075 : K) = 1 / 2 * 2 ^ (-1074 : ℤ) := by
      rw [zpow_neg, pow_succ (2 : K) 1074]
      have : (2 : K) ^ (1074 : ℤ) = 2 ^ (1074 : ℕ) := by exact_mod_cast zpow_natCast (2 : K) 1074
      rw [this]
      simp only [one_div, mul_inv]
      rw [mul_comm]
    have e' : (1 / 2 ^ 53 : K) = 1 / 2 * 2 ^ (1 - ((53 : ℕ) : ℤ)) := by norm_num [zpow_neg]
    rw [e, e']

/-- float32 has unit roundoff `2⁻²⁴` -/
theorem accurate32 : Spec.Accurate (binary32 : Rounding K) (1 / 2 ^ 24) (1 / 2 ^ 150) where
  u_pos := by positivity
  u_small := by norm_num
  η_nonneg := by positivity
  err x := by
    refine (floatRnd_err IntRounding.halfEven 24 (-149) halfEven_err x).trans (le_of_eq ?_)
    norm_num [zpow_neg]

/-- `floatRnd` with ties to even rounds to a nearest float: no float `N 2^j` is closer -/
theorem floatRnd_nearest (p : ℕ) (emin : ℤ) (hp : 1 ≤ p) (x : K) {N j : ℤ} (hN : |N| ≤ 2 ^ p) (hj : emin ≤ j) :
    |floatRnd halfEven p emin x - x| ≤ |(N : K) * 2 ^ j - x| := by
  have near : ∀ (z : K) (n : ℤ), |(halfEven z : K) - z| ≤ |(n : K) - z| := by
    intro z n
    have e := halfEven_err z
    by_cases h : n = halfEven z
    · rw [h]
    · have : (1 : K) ≤ |(n : K) - halfEven z| := by
        have : (1 : ℤ) ≤ |n - halfEven z| := Int.one_le_abs (sub_ne_zero.2 h)
        exact_mod_cast this
      have t := abs_sub_le (n : K) z (halfEven z)
      rw [abs_sub_comm z] at t
      linarith
  have pos : ∀ (x : K) (N : ℤ), 0 < x → |N| ≤ 2 ^ p → |floatPos halfEven p emin x - x| ≤ |(N : K) * 2 ^ j - x| := by
    intro x N hx hN
    set k := ulpExp p emin x with hk
    have mult : ∀ n : ℤ, |floatPos halfEven p emin x - x| ≤ |(n : K) * 2 ^ k - x| := by
      intro n
      have e : floatPos halfEven p emin x - x = (halfEven (x / 2 ^ k) - x / 2 ^ k) * 2 ^ k := by
        rw [sub_mul, div_mul_cancel₀ _ (two_zpow_pos k).ne']; rfl
      have e' : (n : K) * 2 ^ k - x = (n - x / 2 ^ k) * 2 ^ k := by
        rw [sub_mul, div_mul_cancel₀ _ (two_zpow_pos k).ne']
      rw [e, e', abs_mul, abs_mul]
      exact mul_le_mul_of_nonneg_right (near _ _) (abs_nonneg _)
    rcases le_or_gt k j with h | h
    · have e : (N : K) * 2 ^ j = ((N * 2 ^ (j - k).toNat : ℤ) : K) * 2 ^ k := by
        push_cast
        rw [mul_assoc, ← zpow_natCast, ← zpow_add₀ two_ne_zero]
        congr 2
        omega
      rw [e]; exact mult _
    · have hk' : k = Int.log 2 x - p + 1 := by
        rcases max_choice (Int.log 2 x - p + 1) emin with h' | h'
        · rw [hk, ulpExp, h']
        · rw [hk, ulpExp, h'] at h; omega
      have m := mult (2 ^ (p - 1))
      have e : (((2 ^ (p - 1) : ℤ)) : K) * 2 ^ k = 2 ^ Int.log 2 x := by
        push_cast
        rw [← zpow_natCast, ← zpow_add₀ two_ne_zero]
        congr 1
        omega
      rw [e] at m
      have l := (log_bounds hx).1
      have le : (N : K) * 2 ^ j ≤ 2 ^ Int.log 2 x := by
        have h1 : (N : K) ≤ 2 ^ p := by exact_mod_cast (le_abs_self N).trans hN
        calc (N : K) * 2 ^ j ≤ 2 ^ p * 2 ^ j := mul_le_mul_of_nonneg_right h1 (two_zpow_pos j).le
          _ ≤ _ := by
            rw [← zpow_natCast, ← zpow_add₀ two_ne_zero]
            exact zpow_le_zpow_right₀ one_le_two (by omega)
      refine m.trans ?_
      rw [abs_of_nonpos (by linarith), abs_of_nonpos (by linarith)]
      linarith
  rcases lt_trichotomy x 0 with hx | hx | hx
  · have := pos (-x) (-N) (by linarith) (by rwa [abs_neg])
    rw [floatRnd, if_neg (by linarith), if_pos hx]
    have e1 : -floatPos halfEven p emin (-x) - x = -(floatPos halfEven p emin (-x) - -x) := by ring
    have e2 : ((-N : ℤ) : K) * 2 ^ j - -x = -((N : K) * 2 ^ j - x) := by push_cast; ring
    rw [e2, abs_neg] at this
    rw [e1, abs_neg]
    exact this
  · subst hx
    have z : floatRnd halfEven p emin (0 : K) = 0 := by simp [floatRnd]
    rw [z, sub_self, abs_zero]; exact abs_nonneg _
  · rw [floatRnd, if_pos hx]; exact pos x N hx hN

/-- multiples of `2 ^ j` with at most 53 bits are floats -/
theorem rep64 {N j : ℤ} (h0 : 0 ≤ N) (hN : N ≤ 2 ^ 53) (hj : -1074 ≤ j) :
    (binary64 : Rounding K).rnd (N * 2 ^ j) = N * 2 ^ j :=
  floatRnd_fix IntRounding.halfEven 53 (-1074) (by norm_num) h0 hN hj

end Wam
