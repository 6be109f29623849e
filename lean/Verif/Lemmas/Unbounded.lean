import Verif.Lemmas.Ieee

/-! # Floats without limits on the exponent: rounding commutes with powers of two -/
set_option linter.unusedSectionVars false
set_option linter.unusedVariables false

namespace Wam

variable {K : Type*} [Field K] [LinearOrder K] [IsStrictOrderedRing K] [FloorRing K]

/-- the exponent of the last bit of a float with `p` bits and no limit on the exponent -/
def lastBit (p : ℕ) (x : K) : ℤ := Int.log 2 |x| - p + 1

/-- rounding to the nearest number with `p` bits, ties to even, no underflow -/
def unboundedRnd (p : ℕ) (x : K) : K := floatRnd halfEven p (lastBit p x) x

theorem unboundedRnd_eq {p : ℕ} {x : K} {e : ℤ} (h : e ≤ lastBit p x) : unboundedRnd p x = floatRnd halfEven p e x := by
  unfold unboundedRnd floatRnd
  split_ifs with h1 h2
  · have : ulpExp p (lastBit p x) x = ulpExp p e x := by
      unfold lastBit at h ⊢
      rw [abs_of_pos h1] at h ⊢
      simp only [ulpExp]
      omega
    unfold floatPos; rw [this]
  · have : ulpExp p (lastBit p x) (-x) = ulpExp p e (-x) := by
      unfold lastBit at h ⊢
      rw [abs_of_neg h2] at h ⊢
      simp only [ulpExp]
      omega
    unfold floatPos; rw [this]
  · rfl

theorem floatRnd_monotone (p : ℕ) (hp : 1 ≤ p) (e : ℤ) (he : e ≤ 0) {x y : K} (h : x ≤ y) :
    floatRnd halfEven p e x ≤ floatRnd halfEven p e y :=
  (floatRounding (K := K) IntRounding.halfEven p e hp he).mono h

theorem floatRnd_idem (p : ℕ) (hp : 1 ≤ p) (e : ℤ) (he : e ≤ 0) (x : K) :
    floatRnd halfEven p e (floatRnd halfEven p e x) = floatRnd halfEven p e x :=
  (floatRounding (K := K) IntRounding.halfEven p e hp he).idem x

theorem floatRnd_one (p : ℕ) (hp : 1 ≤ p) (e : ℤ) (he : e ≤ 0) : floatRnd halfEven p e (1 : K) = 1 :=
  (floatRounding (K := K) IntRounding.halfEven p e hp he).one

/-- floats with `p` bits and no limit on the exponent -/
def unbounded (p : ℕ) (hp : 1 ≤ p) : Rounding K where
  rnd := unboundedRnd p
  mono := by
    intro x y h
    have m := min_le_left (min (lastBit p x) (lastBit p y)) 0
    rw [unboundedRnd_eq (m.trans (min_le_left _ _)), unboundedRnd_eq (m.trans (min_le_right _ _))]
    exact floatRnd_monotone p hp _ (min_le_right _ _) h
  idem := by
    intro x
    have m := min_le_left (min (lastBit p x) (lastBit p (unboundedRnd p x))) 0
    have e1 := unboundedRnd_eq (x := x) (m.trans (min_le_left _ _))
    have e2 := unboundedRnd_eq (x := unboundedRnd p x) (m.trans (min_le_right _ _))
    have he : min (min (lastBit p x) (lastBit p (unboundedRnd p x))) 0 ≤ 0 := min_le_right _ _
    generalize min (min (lastBit p x) (lastBit p (unboundedRnd p x))) 0 = e at he e1 e2
    rw [e2, e1]
    exact floatRnd_idem p hp e he x
  neg := by
    intro x
    have e : lastBit p (-x) = lastBit p x := by unfold lastBit; rw [abs_neg]
    unfold unboundedRnd
    rw [e]
    exact floatRnd_neg IntRounding.halfEven p _ x
  zero := by simp [unboundedRnd, floatRnd]
  one := by
    rw [unboundedRnd_eq (min_le_left _ 0)]
    exact floatRnd_one p hp _ (min_le_right _ _)

theorem log_two_zpow_mul (k : ℤ) {x : K} (hx : 0 < x) : Int.log 2 ((2 : K) ^ k * x) = k + Int.log 2 x := by
  have hy : 0 < (2 : K) ^ k * x := mul_pos (two_zpow_pos k) hx
  have key : ∀ j : ℤ, j ≤ Int.log 2 ((2 : K) ^ k * x) ↔ j ≤ k + Int.log 2 x := by
    intro j
    have a := Int.zpow_le_iff_le_log (R := K) (b := 2) (by norm_num) (x := j) hy
    have b := Int.zpow_le_iff_le_log (R := K) (b := 2) (by norm_num) (x := j - k) hx
    push_cast at a b
    rw [← a, show j ≤ k + Int.log 2 x ↔ j - k ≤ Int.log 2 x by omega, ← b, zpow_sub₀ two_ne_zero,
      div_le_iff₀ (two_zpow_pos k), mul_comm x]
  exact le_antisymm ((key _).1 le_rfl) ((key _).2 le_rfl)

/-- multiplication by a power of two is exact -/
theorem unbounded_two_zpow (p : ℕ) (hp : 1 ≤ p) (k : ℤ) (x : K) :
    (unbounded p hp : Rounding K).rnd (2 ^ k * x) = 2 ^ k * (unbounded p hp : Rounding K).rnd x := by
  have pos : ∀ x : K, 0 < x → floatPos halfEven p (lastBit p (2 ^ k * x)) (2 ^ k * x) = 2 ^ k * floatPos halfEven p (lastBit p x) x := by
    intro x hx
    have e : ulpExp p (lastBit p (2 ^ k * x)) (2 ^ k * x) = k + ulpExp p (lastBit p x) x := by
      unfold lastBit ulpExp
      rw [abs_of_pos (mul_pos (two_zpow_pos k) hx), abs_of_pos hx, log_two_zpow_mul k hx]
      omega
    unfold floatPos
    rw [e, zpow_add₀ two_ne_zero, mul_div_mul_left _ _ (two_zpow_pos k).ne']
    ring
  show unboundedRnd p (2 ^ k * x) = 2 ^ k * unboundedRnd p x
  unfold unboundedRnd floatRnd
  rcases lt_trichotomy x 0 with h | h | h
  · have h' : (2 : K) ^ k * x < 0 := mul_neg_of_pos_of_neg (two_zpow_pos k) h
    rw [if_neg (by linarith), if_pos h', if_neg (by linarith), if_pos h]
    have := pos (-x) (by linarith)
    have e : ∀ y : K, lastBit p (-y) = lastBit p y := fun y => by unfold lastBit; rw [abs_neg]
    rw [mul_neg, e, e] at this
    rw [this, mul_neg]
  · subst h; simp
  · have h' : 0 < (2 : K) ^ k * x := mul_pos (two_zpow_pos k) h
    rw [if_pos h', if_pos h, pos x h]

end Wam
