import Verif.Model.Track
import Mathlib.Tactic.Ring
import Mathlib.Tactic.LinearCombination
import Mathlib.Tactic.Abel
import Mathlib.Tactic.Linarith
import Mathlib.Tactic.Positivity
import Mathlib.Tactic.FieldSimp
import Mathlib.Tactic.NormNum

/-! Unfolding of the numpy vocabulary at an exact ordered field, and of `np.pad`. -/

namespace Wam

section
variable {K : Type*} [Field K] [LinearOrder K]

@[simp] theorem ofRat_zero : (ofRat 0 : K) = 0 := by simp [ofRat]
@[simp] theorem ofRat_one : (ofRat 1 : K) = 1 := by simp [ofRat]
@[simp] theorem np_lt (a b : K) : NpOps.lt a b = decide (a < b) := rfl
@[simp] theorem np_le (a b : K) : NpOps.le a b = decide (a ≤ b) := rfl
@[simp] theorem np_min (a b : K) : minimum a b = min a b := rfl
@[simp] theorem np_max (a b : K) : maximum a b = max a b := rfl
@[simp] theorem np_abs [IsStrictOrderedRing K] (a : K) : absolute a = |a| := rfl
theorem np_sign (a : K) : NpOps.sign a = if 0 < a then 1 else if a < 0 then -1 else 0 := rfl

theorem ofRat_cast [IsStrictOrderedRing K] (q : ℚ) : (ofRat q : K) = (q : K) := rfl

@[simp] theorem ofRat_two [IsStrictOrderedRing K] : (ofRat 2 : K) = 2 := by
  rw [ofRat_cast]; norm_cast
@[simp] theorem ofRat_half [IsStrictOrderedRing K] : (ofRat (1 / 2) : K) = 1 / 2 := by
  rw [ofRat_cast]; push_cast; rfl

theorem sign_mul_abs [IsStrictOrderedRing K] (a : K) : NpOps.sign a * |a| = a := by
  rw [np_sign]
  split_ifs with h1 h2
  · rw [one_mul, abs_of_pos h1]
  · rw [abs_of_neg h2]; ring
  · have : a = 0 := le_antisymm (not_lt.1 h1) (not_lt.1 h2)
    simp [this]

end

namespace Arr
variable {n m : ℕ} {α : Type*}

@[simp] theorem padWith_zero (l r : α) (f : Fin n → α) : padWith l r f 0 = l := rfl
@[simp] theorem padWith_last (l r : α) (f : Fin n → α) : padWith l r f (Fin.last (n + 1)) = r := by
  unfold padWith
  rw [← Fin.succ_last, Fin.cons_succ, Fin.snoc_last]
@[simp] theorem padWith_mid (l r : α) (f : Fin n → α) (j : Fin n) :
    padWith l r f j.castSucc.succ = f j := by
  unfold padWith
  rw [Fin.cons_succ, Fin.snoc_castSucc]
@[simp] theorem padWith_mid' (l r : α) (f : Fin n → α) (j : Fin n) :
    padWith l r f j.succ.castSucc = f j := by
  rw [← Fin.succ_castSucc, padWith_mid]

theorem padWith_apply (l r : α) (f : Fin n → α) (k : Fin (n + 2)) :
    padWith l r f k =
      if h0 : k.val = 0 then l else if hl : k.val = n + 1 then r else f ⟨k.val - 1, by omega⟩ := by
  split_ifs with h0 hl
  · obtain rfl : k = 0 := Fin.ext h0
    rfl
  · obtain rfl : k = Fin.last (n + 1) := Fin.ext hl
    simp
  · have : k = (Fin.castSucc (⟨k.val - 1, by omega⟩ : Fin n)).succ := by
      apply Fin.ext; simp; omega
    conv_lhs => rw [this]
    rw [padWith_mid]

end Arr

end Wam
