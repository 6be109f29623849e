import Verif.Lemmas.NumK
import Verif.Spec.Advection
import Mathlib.Algebra.BigOperators.Fin
import Mathlib.Algebra.BigOperators.Field

set_option linter.unusedSectionVars false

namespace Wam
open Spec
variable {K : Type*} [Field K] [LinearOrder K] [IsStrictOrderedRing K] {m n : ℕ}

theorem where_eq_carried (q a b : K) :
    (if decide (0 < q) = true then q * a else q * b) = carried q a b := by
  unfold carried
  by_cases h : 0 < q
  · simp [h, max_eq_left h.le, max_eq_right (neg_nonpos.2 h.le)]
  · have h' := not_lt.1 h
    simp [h, max_eq_right h', max_eq_left (neg_nonneg.2 h')]

@[simp] theorem carried_zero (a b : K) : carried 0 a b = 0 := by simp [carried]

theorem carried_const (q c : K) : carried q c c = q * c := by
  rw [← where_eq_carried]; split_ifs <;> rfl

theorem carried_neg (q a b : K) : carried (-q) a b = - carried q b a := by
  unfold carried; rw [neg_neg]; ring

theorem donorCell_apply (sp : Arr (m + 2) (n + 2) K) (up : Arr m (n + 1) K) (vp : Arr (m + 1) n K)
    (i : Fin m) (j : Fin n) :
    donorCell sp up vp i j =
      (carried (up i j.castSucc) (sp i.castSucc.succ j.castSucc.castSucc)
          (sp i.castSucc.succ j.castSucc.succ) -
        carried (up i j.succ) (sp i.castSucc.succ j.castSucc.succ) (sp i.castSucc.succ j.succ.succ)) +
      (carried (vp i.succ j) (sp i.succ.succ j.castSucc.succ) (sp i.castSucc.succ j.castSucc.succ) -
        carried (vp i.castSucc j) (sp i.castSucc.succ j.castSucc.succ)
          (sp i.castSucc.castSucc j.castSucc.succ)) := by
  simp only [donorCell, Arr.colsButLast, Arr.colsButFirst, Arr.rowsButLast, Arr.rowsButFirst,
    Arr.rowsInner, Arr.colsInner, np_lt, ofRat_zero, where_eq_carried, Fin.succ_castSucc]

theorem sum_donorCell (sp : Arr (m + 2) (n + 2) K) (up : Arr m (n + 1) K) (vp : Arr (m + 1) n K) :
    ∑ i, ∑ j, donorCell sp up vp i j =
      (∑ i, (carried (up i 0) (sp i.castSucc.succ 0) (sp i.castSucc.succ 1) -
        carried (up i (Fin.last n)) (sp i.castSucc.succ (Fin.last n).castSucc)
          (sp i.castSucc.succ (Fin.last (n + 1))))) +
      ∑ j, (carried (vp (Fin.last m) j) (sp (Fin.last (m + 1)) j.castSucc.succ)
          (sp (Fin.last m).castSucc j.castSucc.succ) -
        carried (vp 0 j) (sp 1 j.castSucc.succ) (sp 0 j.castSucc.succ)) := by
  let us : Arr m (n + 1) K := fun i j =>
    carried (up i j) (sp i.castSucc.succ j.castSucc) (sp i.castSucc.succ j.succ)
  let vs : Arr (m + 1) n K := fun i j =>
    carried (vp i j) (sp i.succ j.castSucc.succ) (sp i.castSucc j.castSucc.succ)
  have h : ∀ i j, donorCell sp up vp i j =
      (us i j.castSucc - us i j.succ) + (vs i.succ j - vs i.castSucc j) := by
    intro i j
    rw [donorCell_apply]
    simp only [us, vs, Fin.succ_castSucc]
  have tel : ∀ {k : ℕ} (f : Fin (k + 1) → K),
      ∑ j : Fin k, (f j.castSucc - f j.succ) = f 0 - f (Fin.last k) := by
    intro k f
    rw [Finset.sum_sub_distrib]
    have h1 := Fin.sum_univ_succ f
    have h2 := Fin.sum_univ_castSucc f
    rw [h1] at h2
    linear_combination -h2
  have tel' : ∀ {k : ℕ} (f : Fin (k + 1) → K),
      ∑ j : Fin k, (f j.succ - f j.castSucc) = f (Fin.last k) - f 0 := by
    intro k f
    have := tel f
    rw [← neg_sub (f 0), ← this, ← Finset.sum_neg_distrib]
    exact Finset.sum_congr rfl fun _ _ => by ring
  simp only [h, Finset.sum_add_distrib]
  congr 1
  · refine Finset.sum_congr rfl fun i _ => ?_
    rw [tel]
    rfl
  · rw [Finset.sum_comm]
    refine Finset.sum_congr rfl fun j _ => ?_
    rw [tel' (fun i => vs i j)]
    rfl


theorem at2_in {m n : ℕ} (f : Fin m → Fin n → K) (i : Fin m) (j : Fin n) (a b : ℤ)
    (ha : a = i.val) (hb : b = j.val) : at2 f a b = f i j := by
  subst ha hb
  unfold at2
  rw [dif_pos (by omega)]
  rfl

theorem at2_out {m n : ℕ} (f : Fin m → Fin n → K) (a b : ℤ)
    (h : ¬(0 ≤ a ∧ a < m ∧ 0 ≤ b ∧ b < n)) : at2 f a b = 0 := by
  unfold at2; rw [dif_neg h]

theorem padXYZero_eq (a : Arr m n K) (i : Fin (m + 2)) (j : Fin (n + 2)) (x y : ℤ)
    (hx : x = i.val - 1) (hy : y = j.val - 1) :
    Arr.padXYZero a i j = at2 a x y := by
  unfold Arr.padXYZero Arr.padYZero
  rw [Arr.padWith_apply]
  simp only [ofRat_zero]
  split_ifs with h1 h2
  · rw [at2_out]; omega
  · rw [at2_out]; omega
  · rw [Arr.padWith_apply]
    split_ifs with h3 h4
    · rw [at2_out]; omega
    · rw [at2_out]; omega
    · symm; apply at2_in <;> (try simp) <;> omega

theorem padYZero_eq (a : Arr m n K) (i : Fin (m + 2)) (j : Fin n) (x y : ℤ)
    (hx : x = i.val - 1) (hy : y = j.val) :
    Arr.padYZero a i j = at2 a x y := by
  unfold Arr.padYZero
  rw [Arr.padWith_apply]
  simp only [ofRat_zero]
  split_ifs with h1 h2
  · rw [at2_out]; omega
  · rw [at2_out]; omega
  · symm; apply at2_in <;> (try simp) <;> omega

theorem padXWrap_eq (a : Arr m (n + 1) K) (i : Fin m) (j : Fin (n + 3)) (y : ℤ)
    (hy : y = (j.val - 1 : ℤ) % (n + 1 : ℕ)) :
    Arr.padXWrap a i j = at2 a i.val y := by
  unfold Arr.padXWrap
  rw [Arr.padWith_apply]
  split_ifs with h1 h2
  · symm; apply at2_in
    · rfl
    · rw [hy, h1]; simp
      have : (-1 : ℤ) % (n + 1 : ℤ) = n := by
        rw [show (-1 : ℤ) = n + (n + 1) * (-1) by ring, Int.add_mul_emod_self_left]
        exact Int.emod_eq_of_lt (by omega) (by omega)
      exact this
  · symm; apply at2_in
    · rfl
    · rw [hy, h2]; simp
  · symm; apply at2_in
    · rfl
    · rw [hy]; simp
      rw [Int.emod_eq_of_lt (by omega) (by omega)]; omega

theorem staggerX_eq (fx : Arr (m + 2) (n + 2) K) (x y : ℤ) :
    at2 (staggerX fx) (x - 1) y = faceX false fx x (y + 1) := by
  unfold faceX
  by_cases h : 0 ≤ x - 1 ∧ x - 1 < m ∧ 0 ≤ y ∧ y < (n + 1 : ℕ)
  · rw [if_pos (by simp; omega),
      at2_in (staggerX fx) ⟨(x - 1).toNat, by omega⟩ ⟨y.toNat, by omega⟩ _ _
        (by simp; omega) (by simp; omega),
      at2_in fx ⟨x.toNat, by omega⟩ ⟨y.toNat, by omega⟩ _ _ (by simp; omega)
        (by simp only; rw [Int.emod_eq_of_lt] <;> push_cast <;> omega),
      at2_in fx ⟨x.toNat, by omega⟩ ⟨y.toNat + 1, by omega⟩ _ _ (by simp; omega)
        (by simp only; rw [Int.emod_eq_of_lt] <;> push_cast <;> omega)]
    have e : (⟨(x - 1).toNat, by omega⟩ : Fin m).castSucc.succ = ⟨x.toNat, by omega⟩ := by
      apply Fin.ext; simp; omega
    simp only [staggerX, Arr.rowsInner, Arr.colsButLast, Arr.colsButFirst, ofRat_half, e]
    simp only [Fin.castSucc_mk, Fin.succ_mk]
    ring
  · rw [at2_out _ _ _ h, if_neg (by simp; push_cast at h; omega)]

theorem staggerXPeriodic_eq (fx : Arr (m + 2) (n + 2) K) (x y : ℤ) (hy : 0 ≤ y) (hy' : y ≤ n + 2) :
    at2 (staggerXPeriodic fx) (x - 1) y = faceX true fx x y := by
  unfold faceX
  by_cases h : 0 ≤ x - 1 ∧ x - 1 < m
  · rw [if_pos (by simp; omega),
      at2_in (staggerXPeriodic fx) ⟨(x - 1).toNat, by omega⟩ ⟨y.toNat, by omega⟩ _ _
        (by simp; omega) (by simp; omega)]
    have e : (⟨(x - 1).toNat, by omega⟩ : Fin m).castSucc.succ = ⟨x.toNat, by omega⟩ := by
      apply Fin.ext; simp; omega
    simp only [staggerXPeriodic, Arr.rowsInner, e, Arr.colsButLast, Arr.colsButFirst, ofRat_half]
    rw [Arr.padWith_apply]
    have hx : x = ((⟨x.toNat, by omega⟩ : Fin (m + 2)).val : ℤ) := by simp; omega
    have h0 : ∀ z : ℤ, z = 0 → at2 fx x (z % (n + 2 : ℕ)) = fx ⟨x.toNat, by omega⟩ 0 := fun z hz =>
      at2_in fx _ 0 _ _ hx (by subst hz; simp)
    have h1 : ∀ z : ℤ, z = n + 2 → at2 fx x (z % (n + 2 : ℕ)) = fx ⟨x.toNat, by omega⟩ 0 :=
      fun z hz => at2_in fx _ 0 _ _ hx (by subst hz; simp)
    have h2 : ∀ z : ℤ, z = -1 →
        at2 fx x (z % (n + 2 : ℕ)) = fx ⟨x.toNat, by omega⟩ (Fin.last _) :=
      fun z hz => at2_in fx _ _ _ _ hx (by
        subst hz
        rw [show (-1 : ℤ) = (n + 1) + (n + 2 : ℕ) * (-1) by push_cast; ring,
          Int.add_mul_emod_self_left, Int.emod_eq_of_lt] <;> (push_cast; omega))
    have h3 : ∀ (z : ℤ) (k : Fin (n + 2)), z = k.val →
        at2 fx x (z % (n + 2 : ℕ)) = fx ⟨x.toNat, by omega⟩ k :=
      fun z k hz => at2_in fx _ _ _ _ hx (by
        rw [hz, Int.emod_eq_of_lt] <;> push_cast <;> omega)
    split_ifs with c1 c2
    · rw [h0 y (by simp at c1; omega), h2 (y - 1) (by simp at c1; omega)]; ring
    · rw [h1 y (by simp at c2; omega), h3 (y - 1) (Fin.last _) (by simp at c2 ⊢; omega)]
      ring
    · simp only at c1 c2
      have e1 : (⟨(⟨y.toNat, by omega⟩ : Fin (n + 3)).val - 1, by simp; omega⟩ : Fin (n + 1)).castSucc =
          (⟨(y - 1).toNat, by omega⟩ : Fin (n + 2)) := by apply Fin.ext; simp
      have e2 : (⟨(⟨y.toNat, by omega⟩ : Fin (n + 3)).val - 1, by simp; omega⟩ : Fin (n + 1)).succ =
          (⟨y.toNat, by omega⟩ : Fin (n + 2)) := by apply Fin.ext; simp; omega
      rw [e1, e2, h3 (y - 1) ⟨(y - 1).toNat, by omega⟩ (by simp; omega),
        h3 y ⟨y.toNat, by omega⟩ (by simp; omega)]
      ring
  · rw [at2_out _ _ _ (by omega), if_neg (by simp; omega)]

theorem staggerY_eq (fy : Arr (m + 2) (n + 2) K) (x y : ℤ) :
    at2 (staggerY fy) (x - 1) (y - 1) = faceY false fy x y := by
  unfold faceY
  by_cases h : 0 ≤ x - 1 ∧ x - 1 < (m + 1 : ℕ) ∧ 0 ≤ y - 1 ∧ y - 1 < n
  · rw [if_pos (by simp; omega),
      at2_in (staggerY fy) ⟨(x - 1).toNat, by omega⟩ ⟨(y - 1).toNat, by omega⟩ _ _
        (by simp; omega) (by simp; omega),
      at2_in fy ⟨(x - 1).toNat, by omega⟩ ⟨y.toNat, by omega⟩ _ _ (by simp; omega) (by simp; omega),
      at2_in fy ⟨x.toNat, by omega⟩ ⟨y.toNat, by omega⟩ _ _ (by simp; omega) (by simp; omega)]
    have e : (⟨(y - 1).toNat, by omega⟩ : Fin n).castSucc.succ = ⟨y.toNat, by omega⟩ := by
      apply Fin.ext; simp; omega
    have e' : (⟨(x - 1).toNat, by omega⟩ : Fin (m + 1)).succ = ⟨x.toNat, by omega⟩ := by
      apply Fin.ext; simp; omega
    simp only [staggerY, Arr.colsInner, Arr.rowsButLast, Arr.rowsButFirst, ofRat_half, e, e']
    simp only [Fin.castSucc_mk]
    ring
  · rw [at2_out _ _ _ h, if_neg (by simp; push_cast at h; omega)]

theorem staggerYPeriodic_eq (fy : Arr (m + 2) (n + 2) K) (x y : ℤ) (hy : 0 ≤ y) (hy' : y < n + 2) :
    at2 (staggerYPeriodic fy) (x - 1) y = faceY true fy x y := by
  unfold faceY
  by_cases h : 0 ≤ x - 1 ∧ x - 1 < (m + 1 : ℕ)
  · rw [if_pos (by simp; omega),
      at2_in (staggerYPeriodic fy) ⟨(x - 1).toNat, by omega⟩ ⟨y.toNat, by omega⟩ _ _
        (by simp; omega) (by simp; omega),
      at2_in fy ⟨(x - 1).toNat, by omega⟩ ⟨y.toNat, by omega⟩ _ _ (by simp; omega) (by simp; omega),
      at2_in fy ⟨x.toNat, by omega⟩ ⟨y.toNat, by omega⟩ _ _ (by simp; omega) (by simp; omega)]
    have e' : (⟨(x - 1).toNat, by omega⟩ : Fin (m + 1)).succ = ⟨x.toNat, by omega⟩ := by
      apply Fin.ext; simp; omega
    simp only [staggerYPeriodic, Arr.rowsButLast, Arr.rowsButFirst, ofRat_half, e',
      Fin.castSucc_mk]
    ring
  · rw [at2_out _ _ _ (by omega), if_neg (by simp; omega)]

theorem at2_map (g : K → K) (hg : g 0 = 0) (f : Arr m n K) (x y : ℤ) :
    at2 (fun i j => g (f i j)) x y = g (at2 f x y) := by
  unfold at2; split_ifs <;> simp [hg]

theorem at2_rot (k : Fin (n + 2)) (f : Arr m (n + 2) K) (x y : ℤ) :
    at2 (rot k f) x (y % (n + 2 : ℕ)) = at2 f x ((y + k.val) % (n + 2 : ℕ)) := by
  have h1 := Int.emod_nonneg y (b := (n + 2 : ℕ)) (by push_cast; omega)
  have h2 := Int.emod_lt_of_pos y (b := (n + 2 : ℕ)) (by push_cast; omega)
  have h3 := Int.emod_nonneg (y + k.val) (b := (n + 2 : ℕ)) (by push_cast; omega)
  have h4 := Int.emod_lt_of_pos (y + k.val) (b := (n + 2 : ℕ)) (by push_cast; omega)
  by_cases hx : 0 ≤ x ∧ x < m
  · rw [at2_in (rot k f) ⟨x.toNat, by omega⟩ ⟨(y % (n + 2 : ℕ)).toNat, by omega⟩ _ _
      (by simp; omega) (by simp only; omega)]
    rw [at2_in f ⟨x.toNat, by omega⟩ (⟨(y % (n + 2 : ℕ)).toNat, by omega⟩ + k) _ _
      (by simp; omega)]
    · rfl
    · rw [Fin.val_add]
      push_cast
      rw [Int.toNat_of_nonneg (by push_cast at h1; exact h1)]
      simp
  · rw [at2_out _ _ _ (by omega), at2_out _ _ _ (by omega)]

theorem faceX_rot (k : Fin (n + 2)) (fx : Arr (m + 2) (n + 2) K) (x y : ℤ) :
    faceX true (rot k fx) x y = faceX true fx x (y + k.val) := by
  unfold faceX
  simp only [at2_rot]
  rw [show y - 1 + (k.val : ℤ) = y + k.val - 1 by ring]
  simp

theorem at2_mod (f : Arr m (n + 2) K) (x y : ℤ) (h0 : 0 ≤ y) (h1 : y < n + 2) :
    at2 f x y = at2 f x (y % (n + 2 : ℕ)) := by
  rw [Int.emod_eq_of_lt h0 (by push_cast; omega)]

theorem faceX_mod (fx : Arr (m + 2) (n + 2) K) (x y z : ℤ)
    (h : y % (n + 2 : ℕ) = z % (n + 2 : ℕ)) : faceX true fx x y = faceX true fx x z := by
  unfold faceX
  rw [h, Int.sub_emod, h, ← Int.sub_emod]
  simp

theorem faceY_rot (k : Fin (n + 2)) (fy : Arr (m + 2) (n + 2) K) (x : ℤ) (j : Fin (n + 2)) :
    faceY true (rot k fy) x j = faceY true fy x ((j + k : Fin (n + 2)).val : ℤ) := by
  have e : (((j + k : Fin (n + 2)).val : ℤ)) = ((j : ℤ) + k.val) % (n + 2 : ℕ) := by
    rw [Fin.val_add]; push_cast; rfl
  unfold faceY
  rw [at2_mod _ _ _ (by omega) (by omega), at2_mod _ x _ (by omega) (by omega), at2_rot, at2_rot, e]
  simp

end Wam
