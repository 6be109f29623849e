import Verif.Lemmas.Stability
import Verif.Props.Advection

/-!
# C05, C11, C12, C71: vertical exchange and the vertical flux
-/
set_option linter.unusedSectionVars false

namespace Wam
open Spec
variable {K : Type*} [Field K] [LinearOrder K] [IsStrictOrderedRing K] {m n : ℕ}

/-- **C05** (upwind): a downward flux carries the upper value, an upward flux the lower value.
`carried q a b` is the donor-cell flux of the specification. -/
theorem C05_vertical_upwind (fv s_lower s_upper : K) :
    verticalAdvection fv s_lower s_upper = carried fv s_upper s_lower := by
  unfold verticalAdvection carried
  simp only [np_le, ofRat_zero]
  by_cases h : 0 ≤ fv
  · simp [h]
  · have h' := (not_le.1 h).le
    simp [h, h']

/-- **C05** (dispersion): it acts towards the layer with the smaller tracked fraction, not at all for
equal fractions, in proportion to `kvf` and the gross flux, whatever the flux direction. -/
theorem C05_dispersion (fv s_lower s_upper kvf : K) (hk : 0 ≤ kvf) :
    (s_lower ≤ s_upper → 0 ≤ verticalDispersion fv s_lower s_upper kvf) ∧
    (s_upper ≤ s_lower → verticalDispersion fv s_lower s_upper kvf ≤ 0) ∧
    (s_upper = s_lower → verticalDispersion fv s_lower s_upper kvf = 0) ∧
    |verticalDispersion fv s_lower s_upper kvf| = kvf * |fv| * |s_upper - s_lower| ∧
    verticalDispersion (-fv) s_lower s_upper kvf = verticalDispersion fv s_lower s_upper kvf := by
  unfold verticalDispersion
  simp only [np_abs]
  have h0 : 0 ≤ kvf * |fv| := by positivity
  refine ⟨fun h => mul_nonneg h0 (sub_nonneg.2 h),
    fun h => mul_nonpos_of_nonneg_of_nonpos h0 (sub_nonpos.2 h), fun h => by simp [h], ?_, ?_⟩
  · rw [abs_mul, abs_of_nonneg h0]
  · rw [abs_neg]

/-- **C05** (forward): vertical exchange only moves water between the layers: the column total after
transport does not depend on the vertical flux or on `kvf`. -/
theorem C05_vertical_conserves_forward (periodic : Bool) (dt kvf kvf' : K) (a : Fin (m + 2) → K)
    (F : Fluxes (m + 2) (n + 2) K) (f_vert f_vert' : Arr (m + 2) (n + 2) K)
    (S0 : States (m + 2) (n + 2) K) (region tl tu : Arr (m + 2) (n + 2) K) (i j) :
    (fwdTransport periodic dt kvf a F f_vert S0 region tl tu).1 i j +
      (fwdTransport periodic dt kvf a F f_vert S0 region tl tu).2 i j =
    (fwdTransport periodic dt kvf' a F f_vert' S0 region tl tu).1 i j +
      (fwdTransport periodic dt kvf' a F f_vert' S0 region tl tu).2 i j := by
  simp only [fwdTransport]; ring

/-- **C05** (backward) -/
theorem C05_vertical_conserves_backward (periodic : Bool) (dt kvf kvf' : K) (a : Fin (m + 2) → K)
    (F : Fluxes (m + 2) (n + 2) K) (f_vert f_vert' : Arr (m + 2) (n + 2) K)
    (S1 : States (m + 2) (n + 2) K) (mask tl tu : Arr (m + 2) (n + 2) K) (i j) :
    (bwdTransport periodic dt kvf a F f_vert S1 mask tl tu).1 i j +
      (bwdTransport periodic dt kvf a F f_vert S1 mask tl tu).2 i j =
    (bwdTransport periodic dt kvf' a F f_vert' S1 mask tl tu).1 i j +
      (bwdTransport periodic dt kvf' a F f_vert' S1 mask tl tu).2 i j := by
  simp only [bwdTransport]; ring

/-- **C11**: the vertical flux times `dt (1 + kvf)` is at most the smaller mean layer storage. -/
theorem C11_vertical_flux_bound (a : Fin (m + 2) → K) (F : Fluxes (m + 2) (n + 2) K)
    (S0 S1 : States (m + 2) (n + 2) K) (dt kvf : K) (hdt : 0 < dt) (hk : 0 ≤ kvf) (i j)
    (h0u : 0 ≤ S0.s_upper i j) (h0l : 0 ≤ S0.s_lower i j)
    (h1u : 0 ≤ S1.s_upper i j) (h1l : 0 ≤ S1.s_lower i j) :
    |calculateFz a F S0 S1 dt kvf i j| * dt * (1 + kvf) ≤
      min ((S0.s_upper i j + S1.s_upper i j) / 2) ((S0.s_lower i j + S1.s_lower i j) / 2) := by
  simp only [calculateFz, fzLimit, np_min, np_abs, ofRat_one, ofRat_two]
  generalize fzClosure dt (a i) (S0.s_upper i j) (S0.s_lower i j) (S1.s_upper i j)
    (S1.s_lower i j) (divergence F.fx_upper F.fy_upper i j) (divergence F.fx_lower F.fy_lower i j)
    (F.precip i j) (F.evap i j) = fz
  set L := min ((S1.s_upper i j + S0.s_upper i j) / 2) ((S1.s_lower i j + S0.s_lower i j) / 2)
    with hL
  have hL0 : 0 ≤ L := le_min (by positivity) (by positivity)
  have hb : 0 ≤ 1 / (kvf + 1) * L := by positivity
  rw [sign_mul_min _ _ hb, abs_div, abs_of_pos hdt, div_mul_cancel₀ _ hdt.ne']
  have : |clamp (1 / (kvf + 1) * L) fz| ≤ 1 / (kvf + 1) * L := by
    unfold clamp
    rw [abs_le]
    exact ⟨le_max_left _ _, max_le (by linarith) (min_le_left _ _)⟩
  calc _ ≤ 1 / (kvf + 1) * L * (1 + kvf) := mul_le_mul_of_nonneg_right this (by linarith)
    _ = L := by field_simp; ring
    _ = _ := by rw [hL, add_comm, add_comm (S1.s_lower i j)]

/-- Consequence of **C11**: for tracked fractions in `[0,1]`, vertical advection and dispersion
together move at most the smaller mean layer storage in one step. -/
theorem C11_vertical_exchange_bound (a : Fin (m + 2) → K) (F : Fluxes (m + 2) (n + 2) K)
    (S0 S1 : States (m + 2) (n + 2) K) (dt kvf : K) (hdt : 0 < dt) (hk : 0 ≤ kvf) (i j)
    (h0u : 0 ≤ S0.s_upper i j) (h0l : 0 ≤ S0.s_lower i j)
    (h1u : 0 ≤ S1.s_upper i j) (h1l : 0 ≤ S1.s_lower i j)
    (rl ru : K) (hrl : 0 ≤ rl) (hrl' : rl ≤ 1) (hru : 0 ≤ ru) (hru' : ru ≤ 1) :
    let fv := calculateFz a F S0 S1 dt kvf i j
    |verticalAdvection fv rl ru + verticalDispersion fv rl ru kvf| * dt ≤
      min ((S0.s_upper i j + S1.s_upper i j) / 2) ((S0.s_lower i j + S1.s_lower i j) / 2) := by
  intro fv
  refine le_trans ?_ (C11_vertical_flux_bound a F S0 S1 dt kvf hdt hk i j h0u h0l h1u h1l)
  have h1 : |verticalAdvection fv rl ru| ≤ |fv| := by
    unfold verticalAdvection
    split_ifs
    · rw [abs_mul, abs_of_nonneg hru]; exact mul_le_of_le_one_right (abs_nonneg _) hru'
    · rw [abs_mul, abs_of_nonneg hrl]; exact mul_le_of_le_one_right (abs_nonneg _) hrl'
  have h2 : |verticalDispersion fv rl ru kvf| ≤ kvf * |fv| := by
    rw [(C05_dispersion fv rl ru kvf hk).2.2.2.1]
    refine mul_le_of_le_one_right (by positivity) ?_
    rw [abs_le]; constructor <;> linarith
  have h3 := abs_add_le (verticalAdvection fv rl ru) (verticalDispersion fv rl ru kvf)
  have : |verticalAdvection fv rl ru + verticalDispersion fv rl ru kvf| ≤ |fv| * (1 + kvf) := by
    linarith
  calc _ ≤ |fv| * (1 + kvf) * dt := mul_le_mul_of_nonneg_right this hdt.le
    _ = _ := by ring

/-- **C12**: there is exactly one downward amount `f₀` for which the residuals of the two layer
balances are proportional to the storages at the new time, and `calculate_fz` returns it (per unit
time), cut off at `± min(mean storages)/(1+kvf)`. -/
theorem C12_closure (a : Fin (m + 2) → K) (F : Fluxes (m + 2) (n + 2) K)
    (S0 S1 : States (m + 2) (n + 2) K) (dt kvf : K) (hdt : 0 < dt) (hk : 0 ≤ kvf) (i j)
    (h0u : 0 ≤ S0.s_upper i j) (h0l : 0 ≤ S0.s_lower i j)
    (h1u : 0 ≤ S1.s_upper i j) (h1l : 0 ≤ S1.s_lower i j)
    (hcol : S1.s_upper i j + S1.s_lower i j ≠ 0) :
    let mean_u := (S0.s_upper i j + S1.s_upper i j) / 2
    let mean_l := (S0.s_lower i j + S1.s_lower i j) / 2
    let err_u := fun f => residualUpper dt (a i) (S0.s_upper i j) (S1.s_upper i j)
      (divergence F.fx_upper F.fy_upper i j) (F.precip i j * (mean_u / (mean_u + mean_l))) f
    let err_l := fun f => residualLower dt (a i) (S0.s_lower i j) (S1.s_lower i j)
      (divergence F.fx_lower F.fy_lower i j) (F.precip i j * (mean_l / (mean_u + mean_l)))
      (F.evap i j) f
    ∃ f₀, (∀ f, err_l f * S1.s_upper i j = err_u f * S1.s_lower i j ↔ f = f₀) ∧
      calculateFz a F S0 S1 dt kvf i j * dt = clamp (min mean_u mean_l / (1 + kvf)) f₀ := by
  intro mean_u mean_l err_u err_l
  set fz := fzClosure dt (a i) (S0.s_upper i j) (S0.s_lower i j) (S1.s_upper i j) (S1.s_lower i j)
      (divergence F.fx_upper F.fy_upper i j) (divergence F.fx_lower F.fy_lower i j)
      (F.precip i j) (F.evap i j) with hfz
  have mu : (S1.s_upper i j + S0.s_upper i j) / 2 = mean_u := by simp only [mean_u]; ring
  have ml : (S1.s_lower i j + S0.s_lower i j) / 2 = mean_l := by simp only [mean_l]; ring
  have hcol' : S1.s_lower i j + S1.s_upper i j ≠ 0 := by rwa [add_comm]
  refine ⟨fz, ?_, ?_⟩
  · intro f
    simp only [fzClosure, ofRat_two, mu, ml] at hfz
    have e : err_l f * S1.s_upper i j - err_u f * S1.s_lower i j =
        (S1.s_lower i j + S1.s_upper i j) * (fz - f) := by
      rw [hfz]
      simp only [err_l, err_u, residualUpper, residualLower]
      field_simp
      ring
    constructor
    · intro h
      rw [h, sub_self] at e
      rcases mul_eq_zero.1 e.symm with h' | h'
      · exact absurd h' hcol'
      · exact (sub_eq_zero.1 h').symm
    · intro h
      rw [h, sub_self, mul_zero] at e
      rw [h]
      exact sub_eq_zero.1 e
  · simp only [calculateFz, fzLimit, np_min, np_abs, ofRat_one, ofRat_two, mu, ml, ← hfz]
    have hb : 0 ≤ 1 / (kvf + 1) * min mean_u mean_l := by
      have : 0 ≤ min mean_u mean_l := le_min (by positivity) (by positivity)
      positivity
    rw [sign_mul_min _ _ hb, div_mul_cancel₀ _ hdt.ne']
    congr 1
    field_simp
    ring

/-- Concrete case (the example of the docstring of `calculate_fz`, with `kvf = 0`): 22/15. -/
example : calculateFz (m := 1) (n := 1) (α := ℚ) (fun _ => 1)
    ⟨fun _ _ => 0, fun _ _ => 0, fun _ _ => 0, fun _ _ => 0, fun _ _ => 0, fun _ _ => 0⟩
    ⟨fun _ _ => 10, fun _ _ => 6⟩ ⟨fun _ _ => 8, fun _ _ => 7⟩ 1 0 1 1 = 22 / 15 := by
  decide +kernel

/-- **C71**: in the interior, the divergence used by `calculate_fz` is exactly minus the net inflow
through the faces that the advection uses, so both describe the same transport. -/
theorem C71_divergence_matches_advection (periodic : Bool) (fx fy : Arr (m + 2) (n + 2) K)
    (i : Fin (m + 2)) (j : Fin (n + 2)) (hi : 0 < i.val) (hi' : i.val < m + 1) (hj : 0 < j.val)
    (hj' : j.val < n + 1) :
    divergence fx fy i j = - convergence periodic fx fy i j := by
  unfold divergence npGradient convergence faceX faceY
  rw [dif_neg (by omega), dif_neg (by omega), dif_neg (by omega), dif_neg (by omega),
    if_pos (by constructor; omega; constructor; push_cast; omega; right; push_cast; omega),
    if_pos (by constructor; omega; constructor; push_cast; omega; right; push_cast; omega),
    if_pos (by constructor; omega; constructor; push_cast; omega; right; push_cast; omega),
    if_pos (by constructor; omega; constructor; push_cast; omega; right; push_cast; omega)]
  rw [show (j : ℤ) + 1 - 1 = j by ring, show (i : ℤ) + 1 - 1 = i by ring]
  have e1 : at2 fx i (((j : ℤ) - 1) % ((n + 2 : ℕ) : ℤ)) = fx i ⟨j - 1, by omega⟩ :=
    at2_in fx i ⟨j - 1, by omega⟩ _ _ rfl
      (by rw [Int.emod_eq_of_lt] <;> push_cast <;> omega)
  have e2 : at2 fx i ((j : ℤ) % ((n + 2 : ℕ) : ℤ)) = fx i j :=
    at2_in fx i j _ _ rfl (by rw [Int.emod_eq_of_lt] <;> push_cast <;> omega)
  have e3 : at2 fx i (((j : ℤ) + 1) % ((n + 2 : ℕ) : ℤ)) = fx i ⟨j + 1, by omega⟩ :=
    at2_in fx i ⟨j + 1, by omega⟩ _ _ rfl
      (by rw [Int.emod_eq_of_lt] <;> push_cast <;> omega)
  have f1 : at2 fy ((i : ℤ) - 1) j = fy ⟨i - 1, by omega⟩ j :=
    at2_in fy ⟨i - 1, by omega⟩ j _ _ (by simp only; omega) rfl
  have f2 : at2 fy i j = fy i j := at2_in fy i j _ _ rfl rfl
  have f3 : at2 fy ((i : ℤ) + 1) j = fy ⟨i + 1, by omega⟩ j :=
    at2_in fy ⟨i + 1, by omega⟩ j _ _ (by push_cast; omega) rfl
  rw [e1, e2, e3, f1, f2, f3]
  simp only [ofRat_two]
  ring

/-- **C71**, in terms of the two functions only: where all the water is tracked (relative storage one), horizontal advection
changes the interior cells by exactly minus the divergence that `calculate_fz` uses; with the fluxes reversed, as in
backward tracking, by plus it. -/
theorem C71_saturated_advection (periodic sgn : Bool) (fx fy : Arr (m + 2) (n + 2) K)
    (i : Fin (m + 2)) (j : Fin (n + 2)) (hi : 0 < i.val) (hi' : i.val < m + 1) (hj : 0 < j.val)
    (hj' : j.val < n + 1) :
    advect periodic sgn (fun _ _ => 1) fx fy i j = (if sgn then 1 else -1) * divergence fx fy i j := by
  rw [C03_constant_field, C71_divergence_matches_advection periodic fx fy i j hi hi' hj hj']
  cases sgn <;> simp

/-- a converging flow in the middle of a 3 by 3 grid -/
example : advect (m := 1) (n := 1) (α := ℚ) false false (fun _ _ => 1) (fun _ j => 3 - j.val) (fun i _ => i.val) 1 1 = 2 ∧
    divergence (m := 1) (n := 1) (α := ℚ) (fun _ j => 3 - j.val) (fun i _ => i.val) 1 1 = -2 := by
  decide +kernel

end Wam
