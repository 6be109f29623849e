import Verif.Props.Step
import Mathlib.Data.Fin.VecNotation

/-!
# C04: with periodic boundaries the date line is nowhere special -- except in `calculate_fz`
-/
set_option linter.unusedSectionVars false

namespace Wam
open Spec
variable {K : Type*} [Field K] [LinearOrder K] [IsStrictOrderedRing K] {m n : ℕ}

/-- rotate all fields of a dataset by `k` columns -/
def Spec.rotFluxes (k : Fin (n + 1)) (F : Fluxes m (n + 1) K) : Fluxes m (n + 1) K :=
  ⟨rot k F.fx_upper, rot k F.fy_upper, rot k F.fx_lower, rot k F.fy_lower, rot k F.evap,
    rot k F.precip⟩
/-- rotate all fields of a dataset by `k` columns -/
def Spec.rotStates (k : Fin (n + 1)) (S : States m (n + 1) K) : States m (n + 1) K :=
  ⟨rot k S.s_upper, rot k S.s_lower⟩
/-- rotate all fields of a dataset by `k` columns -/
def Spec.rotFwd (k : Fin (n + 1)) (o : FwdOutput m (n + 1) K) : FwdOutput m (n + 1) K :=
  ⟨rot k o.s_track_upper, rot k o.s_track_lower, rot k o.p_track_upper, rot k o.p_track_lower,
    rot k o.tagged_evap, rot k o.losses, rot k o.gains⟩
/-- rotate all fields of a dataset by `k` columns -/
def Spec.rotBwd (k : Fin (n + 1)) (o : BwdOutput m (n + 1) K) : BwdOutput m (n + 1) K :=
  ⟨rot k o.s_track_upper, rot k o.s_track_lower, rot k o.e_track, rot k o.tagged_precip,
    rot k o.losses, rot k o.gains⟩

theorem getBoundary_periodic_col (i : Fin m) (j j' : Fin n) :
    getBoundary true i j = getBoundary true i j' := by simp [getBoundary]

theorem fwdTransport_rot (dt kvf : K) (a : Fin (m + 2) → K) (k : Fin (n + 2))
    (F : Fluxes (m + 2) (n + 2) K) (fz : Arr (m + 2) (n + 2) K)
    (S0 : States (m + 2) (n + 2) K) (region tl tu : Arr (m + 2) (n + 2) K) :
    fwdTransport true dt kvf a (rotFluxes k F) (rot k fz) (rotStates k S0) (rot k region)
      (rot k tl) (rot k tu) =
    (rot k (fwdTransport true dt kvf a F fz S0 region tl tu).1,
      rot k (fwdTransport true dt kvf a F fz S0 region tl tu).2) := by
  have hl := C04_advect_rotation false k (fun i j => relStorage (tl i j) (S0.s_lower i j))
    F.fx_lower F.fy_lower
  have hu := C04_advect_rotation false k (fun i j => relStorage (tu i j) (S0.s_upper i j))
    F.fx_upper F.fy_upper
  refine Prod.ext ?_ ?_ <;> funext i j
  · have : advect true false (fun i j => relStorage (tl i (j + k)) (S0.s_lower i (j + k)))
        (rot k F.fx_lower) (rot k F.fy_lower) i j =
        advect true false (fun i j => relStorage (tl i j) (S0.s_lower i j)) F.fx_lower F.fy_lower
          i (j + k) := congrFun (congrFun hl i) j
    simp only [fwdTransport, rotFluxes, rotStates, rot]
    rw [this]
  · have : advect true false (fun i j => relStorage (tu i (j + k)) (S0.s_upper i (j + k)))
        (rot k F.fx_upper) (rot k F.fy_upper) i j =
        advect true false (fun i j => relStorage (tu i j) (S0.s_upper i j)) F.fx_upper F.fy_upper
          i (j + k) := congrFun (congrFun hu i) j
    simp only [fwdTransport, rotFluxes, rotStates, rot]
    rw [this]

theorem bwdTransport_rot (dt kvf : K) (a : Fin (m + 2) → K) (k : Fin (n + 2))
    (F : Fluxes (m + 2) (n + 2) K) (fz : Arr (m + 2) (n + 2) K)
    (S1 : States (m + 2) (n + 2) K) (mask tl tu : Arr (m + 2) (n + 2) K) :
    bwdTransport true dt kvf a (rotFluxes k F) (rot k fz) (rotStates k S1) (rot k mask)
      (rot k tl) (rot k tu) =
    (rot k (bwdTransport true dt kvf a F fz S1 mask tl tu).1,
      rot k (bwdTransport true dt kvf a F fz S1 mask tl tu).2) := by
  have hl := C04_advect_rotation true k (fun i j => relStorage (tl i j) (S1.s_lower i j))
    F.fx_lower F.fy_lower
  have hu := C04_advect_rotation true k (fun i j => relStorage (tu i j) (S1.s_upper i j))
    F.fx_upper F.fy_upper
  refine Prod.ext ?_ ?_ <;> funext i j
  · have : advect true true (fun i j => relStorage (tl i (j + k)) (S1.s_lower i (j + k)))
        (rot k F.fx_lower) (rot k F.fy_lower) i j =
        advect true true (fun i j => relStorage (tl i j) (S1.s_lower i j)) F.fx_lower F.fy_lower
          i (j + k) := congrFun (congrFun hl i) j
    simp only [bwdTransport, rotFluxes, rotStates, rot]
    rw [this]
  · have : advect true true (fun i j => relStorage (tu i (j + k)) (S1.s_upper i (j + k)))
        (rot k F.fx_upper) (rot k F.fy_upper) i j =
        advect true true (fun i j => relStorage (tu i j) (S1.s_upper i j)) F.fx_upper F.fy_upper
          i (j + k) := congrFun (congrFun hu i) j
    simp only [bwdTransport, rotFluxes, rotStates, rot]
    rw [this]

/-- **C04** (forward step): rotating all inputs rotates all outputs. -/
theorem C04_forwardtrack_rotation (dt kvf : K) (a : Fin (m + 2) → K) (k : Fin (n + 2))
    (F : Fluxes (m + 2) (n + 2) K) (fz : Arr (m + 2) (n + 2) K)
    (S1 S0 : States (m + 2) (n + 2) K) (region : Arr (m + 2) (n + 2) K)
    (out : FwdOutput (m + 2) (n + 2) K) :
    forwardtrack true dt kvf a (rotFluxes k F) (rot k fz) (rotStates k S1) (rotStates k S0)
      (rot k region) (rotFwd k out) =
    rotFwd k (forwardtrack true dt kvf a F fz S1 S0 region out) := by
  have h := fwdTransport_rot dt kvf a k F fz S0 region out.s_track_lower out.s_track_upper
  unfold forwardtrack
  simp only [rotFwd] at h ⊢
  rw [h]
  simp only [rotFluxes, rotStates, rot, getBoundary_periodic_col (j' := (0 : Fin (n + 2)))]
  congr 1

/-- **C04** (backward step) -/
theorem C04_backtrack_rotation (dt kvf : K) (a : Fin (m + 2) → K) (k : Fin (n + 2))
    (F : Fluxes (m + 2) (n + 2) K) (fz : Arr (m + 2) (n + 2) K)
    (S1 S0 : States (m + 2) (n + 2) K) (mask : Arr (m + 2) (n + 2) K)
    (out : BwdOutput (m + 2) (n + 2) K) :
    backtrack true dt kvf a (rotFluxes k F) (rot k fz) (rotStates k S1) (rotStates k S0)
      (rot k mask) (rotBwd k out) =
    rotBwd k (backtrack true dt kvf a F fz S1 S0 mask out) := by
  have h := bwdTransport_rot dt kvf a k F fz S1 mask out.s_track_lower out.s_track_upper
  unfold backtrack
  simp only [rotBwd] at h ⊢
  rw [h]
  simp only [rotFluxes, rotStates, rot, getBoundary_periodic_col (j' := (0 : Fin (n + 2)))]
  congr 1

/-- **C04** (stabilisation) -/
theorem C04_stabilize_rotation (dt : K) (a : Fin (m + 2) → K) (k : Fin (n + 2))
    (F : Fluxes (m + 2) (n + 2) K) (S : States (m + 2) (n + 2) K) :
    stabilizeFluxes dt a (rotFluxes k F) (rotStates k S) = rotFluxes k (stabilizeFluxes dt a F S) :=
  rfl

theorem mod_succ (N j k : ℕ) (h : (j + k) % N + 1 < N) : (j + 1 + k) % N = (j + k) % N + 1 := by
  rw [show j + 1 + k = (j + k) + 1 by ring, Nat.add_mod, Nat.mod_eq_of_lt (a := 1) (by omega),
    Nat.mod_eq_of_lt h]

theorem mod_pred (N j k : ℕ) (hN : 1 < N) (hj : 0 < j) (h : 0 < (j + k) % N) :
    (j - 1 + k) % N = (j + k) % N - 1 := by
  have hx := Nat.mod_lt (j - 1 + k) (show 0 < N by omega)
  by_cases hc : (j - 1 + k) % N + 1 < N
  · have := mod_succ N (j - 1) k hc
    rw [show j - 1 + 1 = j by omega] at this
    omega
  · have : (j - 1 + k) % N + 1 = N := by omega
    have e : (j + k) % N = 0 := by
      rw [show j + k = (j - 1 + k) + 1 by omega, Nat.add_mod, Nat.mod_eq_of_lt (a := 1) (by omega),
        this, Nat.mod_self]
    omega

/-- **C04**, what holds of the vertical flux: `calculate_fz` commutes with rotation in columns that
are interior columns before and after the rotation.  In the first and last column the claim is
false, see `C04_fz_has_seam`; `C04_fz_seam_error` says by how much. -/
theorem C04_fz_rotation_interior (a : Fin (m + 2) → K) (k : Fin (n + 2))
    (F : Fluxes (m + 2) (n + 2) K) (S0 S1 : States (m + 2) (n + 2) K) (dt kvf : K)
    (i : Fin (m + 2)) (j : Fin (n + 2)) (h1 : 0 < j.val) (h2 : j.val < n + 1)
    (h3 : 0 < (j + k).val) (h4 : (j + k).val < n + 1) :
    calculateFz a (rotFluxes k F) (rotStates k S0) (rotStates k S1) dt kvf i j =
      rot k (calculateFz a F S0 S1 dt kvf) i j := by
  have h3' : 0 < (j.val + k.val) % (n + 2) := by rwa [Fin.val_add] at h3
  have h4' : (j.val + k.val) % (n + 2) + 1 < n + 2 := by rw [Fin.val_add] at h4; omega
  have g : ∀ f : Fin (n + 2) → K, npGradient (fun j' => f (j' + k)) j = npGradient f (j + k) := by
    intro f
    unfold npGradient
    rw [dif_neg (by omega), dif_neg (by omega), dif_neg (by omega), dif_neg (by omega)]
    have e1 : (⟨j.val + 1, by omega⟩ : Fin (n + 2)) + k = ⟨(j + k).val + 1, by omega⟩ := by
      apply Fin.ext
      exact mod_succ (n + 2) j k h4'
    have e2 : (⟨j.val - 1, by omega⟩ : Fin (n + 2)) + k = ⟨(j + k).val - 1, by omega⟩ := by
      apply Fin.ext
      exact mod_pred (n + 2) j k (by omega) h1 h3'
    simp only
    rw [e1, e2]
  have d : ∀ fx fy : Arr (m + 2) (n + 2) K,
      divergence (rot k fx) (rot k fy) i j = divergence fx fy i (j + k) := by
    intro fx fy
    unfold divergence
    have := g (fx i)
    simp only [rot]
    rw [this]
  unfold calculateFz
  simp only [rotFluxes, rotStates, d]
  rfl

/-- **C04**, the size of the exception: in the first and last column the divergence that
`calculate_fz` uses differs from the periodic central difference by half the second difference of
the zonal flux across the date line -- so it is right exactly where the flux is linear across the
seam. -/
theorem C04_fz_seam_error (fx fy : Arr (m + 2) (n + 2) K) (i : Fin (m + 2)) :
    divergence fx fy i 0 =
        (fx i 1 - fx i (Fin.last (n + 1))) / 2 - npGradient (fun i' => fy i' 0) i
          + (fx i 1 - 2 * fx i 0 + fx i (Fin.last (n + 1))) / 2 ∧
    divergence fx fy i (Fin.last (n + 1)) =
        (fx i 0 - fx i (Fin.castSucc (Fin.last n))) / 2
          - npGradient (fun i' => fy i' (Fin.last (n + 1))) i
          - (fx i 0 - 2 * fx i (Fin.last (n + 1)) + fx i (Fin.castSucc (Fin.last n))) / 2 ∧
    (∀ j : Fin (n + 2), j ≠ 0 → j ≠ Fin.last (n + 1) →
      divergence fx fy i j = (fx i (j + 1) - fx i (j - 1)) / 2 - npGradient (fun i' => fy i' j) i) := by
  refine ⟨?_, ?_, fun j h0 hl => ?_⟩
  · unfold divergence
    rw [npGradient.eq_def, dif_pos (by simp)]
    ring
  · unfold divergence
    rw [npGradient.eq_def, dif_neg (by simp), dif_pos (by simp)]
    ring
  · have h0' : j.val ≠ 0 := fun h => h0 (Fin.ext h)
    have hl' : j.val ≠ n + 1 := fun h => hl (Fin.ext h)
    have hj := j.isLt
    unfold divergence
    rw [npGradient.eq_def, dif_neg h0', dif_neg hl']
    have e1 : (⟨j.val + 1, by omega⟩ : Fin (n + 2)) = j + 1 := by
      apply Fin.ext
      rw [Fin.val_add, Fin.val_one, Nat.mod_eq_of_lt (by omega)]
    have e2 : (⟨j.val - 1, by omega⟩ : Fin (n + 2)) = j - 1 := by
      apply Fin.ext
      rw [Fin.val_sub_one_of_ne_zero h0]
    rw [e1, e2]
    simp [NpOps.ofRat]

/-- **C04**, the exception: `calculate_fz` treats the first and last column differently (one-sided
differences) although the domain is periodic: on a 2 x 4 grid with a flux that varies with
longitude, rotating the input does not rotate the vertical flux. -/
theorem C04_fz_has_seam :
    ∃ (F : Fluxes 2 4 ℚ) (S : States 2 4 ℚ) (k : Fin 4), 
      calculateFz (m := 0) (n := 2) (fun _ => 1) (rotFluxes k F) (rotStates k S) (rotStates k S) 1 0
        ≠ rot k (calculateFz (m := 0) (n := 2) (fun _ => 1) F S S 1 0) := by
  refine ⟨⟨fun _ j => if j = 1 then 1 else 0, fun _ _ => 0, fun _ _ => 0, fun _ _ => 0,
    fun _ _ => 0, fun _ _ => 0⟩, ⟨fun _ _ => 10, fun _ _ => 10⟩, 1, fun h => ?_⟩
  have := congrFun (congrFun h 0) 0
  revert this
  decide +kernel

/-! ### A concrete case for the hypotheses of C13-C22 -/

namespace StepExample
/-- fluxes of a 3 x 4 grid -/
def F : Fluxes 3 4 ℚ := ⟨fun i j => if i.val < j.val then 2 else -1, fun _ j => j.val - 1,
  fun _ _ => 1, fun i _ => i.val, fun _ _ => 1, fun _ j => j.val⟩
/-- states -/
def S : States 3 4 ℚ := ⟨fun _ _ => 40, fun i j => 50 + i.val + j.val⟩
/-- vertical flux -/
def fz : Arr 3 4 ℚ := fun i j => if i.val = j.val then 2 else -3
/-- previous output -/
def out : FwdOutput 3 4 ℚ := ⟨fun _ _ => 1, fun _ j => j.val, fun _ _ => 0, fun _ _ => 0,
  fun _ _ => 0, fun _ _ => 0, fun _ _ => 0⟩
/-- mask -/
def mask : Arr 3 4 ℚ := fun i j => if i.val = 1 ∧ j.val = 1 then 1 else 0

/-- all hypotheses of `C22_no_gains_forward` (and so of C13-C18) hold here ... -/
example : Wet S ∧ (∀ i j, 0 ≤ out.s_track_lower i j) ∧ (∀ i j, 0 ≤ mask i j * F.evap i j) ∧
    ∀ (i : Fin 3) (j : Fin 4), (1 : ℚ) * (outflow false F.fx_lower F.fy_lower i j / 1 + max (-fz i j) 0
        + 3 * |fz i j| + share (F.precip i j) (S.s_lower i j) (S.s_upper i j)) ≤ S.s_lower i j := by
  unfold Wet; decide +kernel

/-- ... and the step is not trivial -/
example : (forwardtrack (m := 1) (n := 2) false 1 3 (fun _ => 1) F fz S S mask out).s_track_lower 1 1
    ≠ out.s_track_lower 1 1 := by decide +kernel
end StepExample

end Wam
