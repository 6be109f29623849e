import Verif.Lemmas.Advection

/-!
# C01-C03, C05: advection
-/
set_option linter.unusedSectionVars false

namespace Wam
open Spec
variable {K : Type*} [Field K] [LinearOrder K] [IsStrictOrderedRing K] {m n : ℕ}

/-- **C01** (closed boundaries): `horizontal_advection` only redistributes. -/
theorem C01_advection_conserves_closed (s : Arr (m + 2) (n + 2) K) (u : Arr m (n + 1) K)
    (v : Arr (m + 1) n K) :
    ∑ i, ∑ j, horizontalAdvectionClosed s u v i j = 0 := by
  unfold horizontalAdvectionClosed
  rw [sum_donorCell]
  have hu0 : ∀ i, Arr.padXYZero u i 0 = 0 := fun i => by
    rw [padXYZero_eq u i 0 (i.val - 1) (-1) rfl (by simp), at2_out]; omega
  have hul : ∀ i, Arr.padXYZero u i (Fin.last (n + 2)) = 0 := fun i => by
    rw [padXYZero_eq u i _ (i.val - 1) (n + 1) rfl (by simp; omega), at2_out]; push_cast; omega
  have hv0 : ∀ j, Arr.padXYZero v 0 j = 0 := fun j => by
    rw [padXYZero_eq v 0 j (-1) (j.val - 1) (by simp) rfl, at2_out]; omega
  have hvl : ∀ j, Arr.padXYZero v (Fin.last (m + 2)) j = 0 := fun j => by
    rw [padXYZero_eq v _ j (m + 1) (j.val - 1) (by simp; omega) rfl, at2_out]; push_cast; omega
  simp [hu0, hul, hv0, hvl]

/-- **C01** (periodic boundaries): conservation holds for all fluxes that agree on the two outer
interfaces, which are the same face of the sphere. -/
theorem C01_advection_conserves_periodic (s : Arr (m + 2) (n + 2) K) (u : Arr m (n + 3) K)
    (v : Arr (m + 1) (n + 2) K) (hu : ∀ i, u i 0 = u i (Fin.last (n + 2))) :
    ∑ i, ∑ j, horizontalAdvectionPeriodic s u v i j = 0 := by
  unfold horizontalAdvectionPeriodic
  rw [sum_donorCell]
  have hv0 : ∀ j, Arr.padYZero v 0 j = 0 := fun j => by simp [Arr.padYZero]
  have hvl : ∀ j, Arr.padYZero v (Fin.last (m + 2)) j = 0 := fun j => by simp [Arr.padYZero]
  have hu' : ∀ i, Arr.padYZero u i 0 = Arr.padYZero u i (Fin.last (n + 2)) := fun i => by
    unfold Arr.padYZero; simp only [hu]
  simp only [hv0, hvl, carried_zero, sub_self, Finset.sum_const_zero, add_zero]
  refine Finset.sum_eq_zero fun i _ => ?_
  rw [hu', sub_eq_zero]
  have h1 : ∀ k, Arr.padYZero (Arr.padXWrap s) i.castSucc.succ k = Arr.padXWrap s i k := fun k => by
    simp [Arr.padYZero]
  simp only [h1]
  have w0 : Arr.padXWrap s i 0 = s i (Fin.last _) := rfl
  have w1 : Arr.padXWrap s i 1 = s i 0 :=
    Arr.padWith_mid (n := n + 2) _ _ (s i) 0
  have w2 : Arr.padXWrap s i (Fin.last (n + 2)).castSucc = s i (Fin.last _) := by
    rw [← Fin.succ_last]
    exact Arr.padWith_mid' _ _ (s i) (Fin.last (n + 1))
  have w3 : Arr.padXWrap s i (Fin.last (n + 3)) = s i 0 := Arr.padWith_last _ _ _
  rw [w0, w1, w2, w3]

/-- `stagger_x` provides equal fluxes on the two outer interfaces. -/
theorem staggerXPeriodic_seam (fx : Arr (m + 2) (n + 2) K) (i : Fin m) :
    staggerXPeriodic fx i 0 = staggerXPeriodic fx i (Fin.last (n + 2)) := by
  unfold staggerXPeriodic Arr.rowsInner
  exact (Arr.padWith_zero _ _ _).trans (Arr.padWith_last _ _ _).symm

/-- **C01** for what the tracking routines call: cell-centred fluxes, staggered, in either direction
and with either boundary condition. -/
theorem C01_advection_conserves (periodic sgn : Bool) (s fx fy : Arr (m + 2) (n + 2) K) :
    ∑ i, ∑ j, advect periodic sgn s fx fy i j = 0 := by
  unfold advect
  cases periodic
  · exact C01_advection_conserves_closed _ _ _
  · refine C01_advection_conserves_periodic _ _ _ fun i => ?_
    simp only [staggerXPeriodic_seam]

/-- Without the seam condition conservation fails, so the hypothesis of the periodic theorem is
needed (and is met by `stagger_x`, see `staggerXPeriodic_seam`). -/
example : ∑ i, ∑ j, horizontalAdvectionPeriodic (m := 1) (n := 0) (α := ℚ) (fun _ _ => 1)
    (fun _ j => if j = 0 then 1 else 0) (fun _ _ => 0) i j ≠ 0 := by decide +kernel

/-- **C02** (closed boundaries): every cell's tendency is the donor-cell tendency with its four
neighbours and the fluxes on its four faces; `at2` is 0 outside the arrays, so nothing crosses
the outer faces.  `u[i-1, j-1]`, `u[i-1, j]` are the west and east face of cell `(i, j)`,
`v[i-1, j-1]`, `v[i, j-1]` its north and south face. -/
theorem C02_donor_cell_closed (s : Arr (m + 2) (n + 2) K) (u : Arr m (n + 1) K)
    (v : Arr (m + 1) n K) (i : Fin (m + 2)) (j : Fin (n + 2)) :
    horizontalAdvectionClosed s u v i j =
      tendency (s i j) (at2 s i (j - 1)) (at2 s i (j + 1)) (at2 s (i - 1) j) (at2 s (i + 1) j)
        (at2 u (i - 1) (j - 1)) (at2 u (i - 1) j) (at2 v (i - 1) (j - 1)) (at2 v i (j - 1)) := by
  unfold horizontalAdvectionClosed tendency
  rw [donorCell_apply]
  rw [padXYZero_eq s i.castSucc.succ j.castSucc.castSucc i (j - 1) (by simp) (by simp),
    padXYZero_eq s i.castSucc.succ j.castSucc.succ i j (by simp) (by simp),
    padXYZero_eq s i.castSucc.succ j.succ.succ i (j + 1) (by simp) (by simp),
    padXYZero_eq s i.succ.succ j.castSucc.succ (i + 1) j (by simp) (by simp),
    padXYZero_eq s i.castSucc.castSucc j.castSucc.succ (i - 1) j (by simp) (by simp),
    padXYZero_eq u i j.castSucc (i - 1) (j - 1) (by simp) (by simp),
    padXYZero_eq u i j.succ (i - 1) j (by simp) (by simp),
    padXYZero_eq v i.succ j i (j - 1) (by simp) (by simp),
    padXYZero_eq v i.castSucc j (i - 1) (j - 1) (by simp) (by simp),
    at2_in s i j i j rfl rfl]
  ring

/-- **C02** (periodic boundaries): the neighbours in a row are cyclic, nothing crosses the north and
south edge of the grid. `u[i-1, j]`, `u[i-1, j+1]` are the west and east face, `v[i-1, j]`, `v[i, j]`
the north and south face of cell `(i, j)`. -/
theorem C02_donor_cell_periodic (s : Arr (m + 2) (n + 2) K) (u : Arr m (n + 3) K)
    (v : Arr (m + 1) (n + 2) K) (i : Fin (m + 2)) (j : Fin (n + 2)) :
    horizontalAdvectionPeriodic s u v i j =
      tendency (s i j) (at2 s i ((j - 1 : ℤ) % (n + 2 : ℕ))) (at2 s i ((j + 1 : ℤ) % (n + 2 : ℕ)))
        (at2 s (i - 1) j) (at2 s (i + 1) j)
        (at2 u (i - 1) j) (at2 u (i - 1) (j + 1)) (at2 v (i - 1) j) (at2 v i j) := by
  unfold horizontalAdvectionPeriodic tendency
  have hin : ∀ (k : Fin (n + 4)) (y : ℤ), y = (k.val - 1 : ℤ) % (n + 2 : ℕ) →
      Arr.padYZero (Arr.padXWrap s) i.castSucc.succ k = at2 s i y := by
    intro k y hy
    have : Arr.padYZero (Arr.padXWrap s) i.castSucc.succ k = Arr.padXWrap s i k := by
      simp [Arr.padYZero]
    rw [this, padXWrap_eq s i k y hy]
  have hout : ∀ (i' : Fin (m + 4)) (x : ℤ), x = i'.val - 1 →
      Arr.padYZero (Arr.padXWrap s) i' j.castSucc.succ = at2 s x j := by
    intro i' x hx
    rw [padYZero_eq (Arr.padXWrap s) i' j.castSucc.succ x (j + 1) hx (by simp)]
    by_cases h : 0 ≤ x ∧ x < (m + 2 : ℕ)
    · have hx1 : x = ((⟨x.toNat, by omega⟩ : Fin (m + 2)).val : ℤ) := by simp; omega
      rw [at2_in (Arr.padXWrap s) ⟨x.toNat, by omega⟩ j.castSucc.succ x _ hx1 (by simp),
        at2_in s ⟨x.toNat, by omega⟩ j x _ hx1 rfl]
      exact Arr.padWith_mid _ _ _ _
    · rw [at2_out, at2_out] <;> omega
  rw [donorCell_apply]
  rw [hin j.castSucc.castSucc ((j - 1 : ℤ) % (n + 2 : ℕ)) (by simp),
    hin j.succ.succ ((j + 1 : ℤ) % (n + 2 : ℕ)) (by simp),
    hout i.castSucc.succ i (by simp), hout i.succ.succ (i + 1) (by simp),
    hout i.castSucc.castSucc (i - 1) (by simp),
    padYZero_eq u i j.castSucc (i - 1) j (by simp) (by simp),
    padYZero_eq u i j.succ (i - 1) (j + 1) (by simp) (by simp),
    padYZero_eq v i.succ j i j (by simp) (by simp),
    padYZero_eq v i.castSucc j (i - 1) j (by simp) (by simp),
    at2_in s i j i j rfl rfl]
  ring


/-- **C02** for what the tracking routines use: `advect` on cell-centred fluxes is the donor-cell
tendency for the mean fluxes on the faces, with their sign changed when backtracking. -/
theorem C02_donor_cell (periodic sgn : Bool) (s fx fy : Arr (m + 2) (n + 2) K)
    (i : Fin (m + 2)) (j : Fin (n + 2)) :
    advect periodic sgn s fx fy i j =
      let σ : K := if sgn then -1 else 1
      tendency (s i j) (at2 s i ((j - 1 : ℤ) % (n + 2 : ℕ))) (at2 s i ((j + 1 : ℤ) % (n + 2 : ℕ)))
        (at2 s (i - 1) j) (at2 s (i + 1) j)
        (σ * faceX periodic fx i j) (σ * faceX periodic fx i (j + 1))
        (σ * faceY periodic fy i j) (σ * faceY periodic fy (i + 1) j) := by
  set g : K → K := fun x => if sgn = true then -x else x with hg
  have hgσ : ∀ x, g x = (if sgn then -1 else 1 : K) * x := by
    intro x; simp only [hg]; split_ifs <;> ring
  have hg0 : g 0 = 0 := by rw [hgσ]; ring
  have hi := i.isLt
  have hj := j.isLt
  simp only [← hgσ]
  unfold advect
  cases periodic
  · simp only [Bool.false_eq_true, if_false]
    rw [C02_donor_cell_closed]
    have ex : ∀ y : ℤ,
        at2 (fun i j => if sgn = true then -staggerX fx i j else staggerX fx i j) (i - 1) y =
          g (faceX false fx i (y + 1)) := by
      intro y
      rw [← staggerX_eq fx i y, ← at2_map g hg0]
    have ey : ∀ x : ℤ,
        at2 (fun i j => if sgn = true then -staggerY fy i j else staggerY fy i j) (x - 1) (j - 1) =
          g (faceY false fy x j) := by
      intro x
      rw [← staggerY_eq fy x j, ← at2_map g hg0]
    rw [ex, ex, ey,
      show (i : ℤ) = i + 1 - 1 by ring, ey, show (i : ℤ) + 1 - 1 = i by ring,
      show (j : ℤ) - 1 + 1 = j by ring]
    unfold tendency
    have w : carried (g (faceX false fx i j)) (at2 s i (j - 1)) (s i j) =
        carried (g (faceX false fx i j)) (at2 s i ((j - 1 : ℤ) % (n + 2 : ℕ))) (s i j) := by
      by_cases h0 : (j : ℤ) = 0
      · have : faceX false fx i j = 0 := by unfold faceX; rw [if_neg (by simp; omega)]
        rw [this, hg0]; simp
      · rw [Int.emod_eq_of_lt (a := (j : ℤ) - 1)] <;> push_cast <;> omega
    have e : carried (g (faceX false fx i (j + 1))) (s i j) (at2 s i (j + 1)) =
        carried (g (faceX false fx i (j + 1))) (s i j) (at2 s i ((j + 1 : ℤ) % (n + 2 : ℕ))) := by
      by_cases h0 : (j : ℤ) = n + 1
      · have : faceX false fx i (j + 1) = 0 := by unfold faceX; rw [if_neg (by simp; omega)]
        rw [this, hg0]; simp
      · rw [Int.emod_eq_of_lt (a := (j : ℤ) + 1)] <;> push_cast <;> omega
    rw [w, e]
  · simp only [if_true]
    rw [C02_donor_cell_periodic]
    have ex : ∀ y : ℤ, 0 ≤ y → y ≤ n + 2 →
        at2 (fun i j => if sgn = true then -staggerXPeriodic fx i j else staggerXPeriodic fx i j)
          (i - 1) y = g (faceX true fx i y) := by
      intro y h1 h2
      rw [← staggerXPeriodic_eq fx i y h1 h2, ← at2_map g hg0]
    have ey : ∀ x : ℤ,
        at2 (fun i j => if sgn = true then -staggerYPeriodic fy i j else staggerYPeriodic fy i j)
          (x - 1) j = g (faceY true fy x j) := by
      intro x
      rw [← staggerYPeriodic_eq fy x j (by omega) (by omega), ← at2_map g hg0]
    rw [ex _ (by omega) (by omega), ex _ (by omega) (by omega), ey]
    have ey' := ey (i + 1)
    rw [show (i : ℤ) + 1 - 1 = i by ring] at ey'
    rw [ey']

/-- Concrete case: a single tagged cell in the middle, unit eastward flux: half a face's water
moves to the eastern neighbour. -/
example : advect (m := 1) (n := 1) (α := ℚ) false false
    (fun i j => if i = 1 ∧ j = 1 then 1 else 0) (fun _ _ => 2) (fun _ _ => 0) 1 2 = 2 := by
  decide +kernel

/-- **C03**: a constant field is changed by the constant times the net inflow of water. -/
theorem C03_constant_field (periodic sgn : Bool) (c : K) (fx fy : Arr (m + 2) (n + 2) K)
    (i : Fin (m + 2)) (j : Fin (n + 2)) :
    advect periodic sgn (fun _ _ => c) fx fy i j =
      (if sgn then -1 else 1) * c * convergence periodic fx fy i j := by
  rw [C02_donor_cell]
  set σ : K := if sgn then -1 else 1
  have hi := i.isLt
  have hj := j.isLt
  have hN : ∀ z : ℤ, at2 (fun (_ : Fin (m + 2)) (_ : Fin (n + 2)) => c) i (z % (n + 2 : ℕ)) = c := by
    intro z
    have := Int.emod_nonneg z (b := (n + 2 : ℕ)) (by push_cast; omega)
    have := Int.emod_lt_of_pos z (b := (n + 2 : ℕ)) (by push_cast; omega)
    unfold at2; rw [dif_pos (by push_cast at *; omega)]
  have north : carried (σ * faceY periodic fy i j) c (at2 (fun _ _ => c : Arr (m + 2) (n + 2) K) (i - 1) j)
      = σ * faceY periodic fy i j * c := by
    by_cases h : (i : ℤ) = 0
    · have : faceY periodic fy i j = 0 := by unfold faceY; rw [if_neg (by omega)]
      rw [this]; simp
    · have : at2 (fun _ _ => c : Arr (m + 2) (n + 2) K) ((i : ℤ) - 1) j = c := by
        unfold at2; rw [dif_pos (by push_cast; omega)]
      rw [this, carried_const]
  have south : carried (σ * faceY periodic fy (i + 1) j)
      (at2 (fun _ _ => c : Arr (m + 2) (n + 2) K) (i + 1) j) c
      = σ * faceY periodic fy (i + 1) j * c := by
    by_cases h : (i : ℤ) = m + 1
    · have : faceY periodic fy (i + 1) j = 0 := by
        unfold faceY; rw [if_neg (by push_cast; omega)]
      rw [this]; simp
    · have : at2 (fun _ _ => c : Arr (m + 2) (n + 2) K) ((i : ℤ) + 1) j = c := by
        unfold at2; rw [dif_pos (by push_cast; omega)]
      rw [this, carried_const]
  simp only [tendency, hN, north, south, carried_const, convergence]
  ring

/-- **C04**: with periodic boundaries, advection commutes with rotating the grid by any number of
columns (there is no seam). -/
theorem C04_advect_rotation (sgn : Bool) (k : Fin (n + 2)) (s fx fy : Arr (m + 2) (n + 2) K) :
    advect true sgn (rot k s) (rot k fx) (rot k fy) = rot k (advect true sgn s fx fy) := by
  funext i j
  show _ = advect true sgn s fx fy i (j + k)
  rw [C02_donor_cell, C02_donor_cell]
  have e : (((j + k : Fin (n + 2)).val : ℤ)) = ((j : ℤ) + k.val) % (n + 2 : ℕ) := by
    rw [Fin.val_add]; push_cast; rfl
  have hc : ∀ c : ℤ, ((j : ℤ) + c + k.val) % (n + 2 : ℕ) =
      (((j + k : Fin (n + 2)).val : ℤ) + c) % (n + 2 : ℕ) := by
    intro c
    rw [e, Int.emod_add_emod]; congr 1; ring
  have hv : ∀ x : ℤ, at2 (rot k s) x (j : ℤ) = at2 s x ((j + k : Fin (n + 2)).val : ℤ) := by
    intro x
    rw [at2_mod _ _ _ (by omega) (by omega), at2_rot, e]
  have hc0 : ((j : ℤ) + k.val) % (n + 2 : ℕ) = (((j + k : Fin (n + 2)).val : ℤ)) % (n + 2 : ℕ) := by
    rw [e, Int.emod_emod_of_dvd _ (dvd_refl _)]
  have hm1 := hc (-1)
  simp only [← sub_eq_add_neg] at hm1
  simp only [faceX_rot, faceY_rot, at2_rot, hv, hc, hm1]
  rw [faceX_mod fx i (j + 1 + k.val) (((j + k : Fin (n + 2)).val : ℤ) + 1) (hc 1),
    faceX_mod fx i (j + k.val) _ hc0]
  rfl

end Wam
