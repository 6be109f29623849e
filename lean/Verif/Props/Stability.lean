import Verif.Lemmas.Stability

/-!
# C06-C08, C10: `stabilize_fluxes`
-/
set_option linter.unusedSectionVars false

namespace Wam
open Spec
variable {K : Type*} [Field K] [LinearOrder K] [IsStrictOrderedRing K] {m n : ℕ}

/-- **C06**: after the correction, in every cell and layer with a horizontal flux, at most half of the
water of the cell is moved per time step. -/
theorem C06_half_cell_bound (dt : K) (a : Fin m → K) (F : Fluxes m n K) (S : States m n K)
    (hdt : 0 < dt) (ha : ∀ i, 0 < a i) (hu : ∀ i j, 0 ≤ S.s_upper i j)
    (hl : ∀ i j, 0 ≤ S.s_lower i j) (i : Fin m) (j : Fin n) :
    let F' := stabilizeFluxes dt a F S
    (F.fx_upper i j ≠ 0 ∨ F.fy_upper i j ≠ 0 →
      (|F'.fx_upper i j| + |F'.fy_upper i j|) * dt ≤ 1 / 2 * (S.s_upper i j * a i)) ∧
    (F.fx_lower i j ≠ 0 ∨ F.fy_lower i j ≠ 0 →
      (|F'.fx_lower i j| + |F'.fy_lower i j|) * dt ≤ 1 / 2 * (S.s_lower i j * a i)) := by
  constructor
  · intro h
    obtain ⟨θ, _, _, hx, hy, hb, _⟩ := stabilize_factor dt (a i) (S.s_upper i j) _ _ hdt (ha i)
      (hu i j) h
    simp only [stabilizeFluxes, hx, hy]
    exact hb
  · intro h
    obtain ⟨θ, _, _, hx, hy, hb, _⟩ := stabilize_factor dt (a i) (S.s_lower i j) _ _ hdt (ha i)
      (hl i j) h
    simp only [stabilizeFluxes, hx, hy]
    exact hb

/-- What **C07** says about one layer of one cell: `fx`, `fy` before and `fx'`, `fy'` after the
correction. -/
def Spec.GentleCorrection (dt a s fx fy fx' fy' : K) : Prop :=
  ∃ θ : K, 0 ≤ θ ∧ θ ≤ 1 ∧ fx' = θ * fx ∧ fy' = θ * fy ∧
    (θ = 1 ↔ (|fx| + |fy|) * dt ≤ 1 / 2 * (s * a)) ∧
    (θ < 1 → (|fx'| + |fy'|) * dt = 1 / 2 * (s * a))

/-- **C07**: both components of a cell are multiplied by one factor in `[0, 1]` -- so direction is kept
and nothing is amplified -- which is 1 exactly if the cell satisfied the criterion and otherwise
the largest factor for which it does; evaporation and precipitation are not touched. -/
theorem C07_gentle_correction (dt : K) (a : Fin m → K) (F : Fluxes m n K) (S : States m n K)
    (hdt : 0 < dt) (ha : ∀ i, 0 < a i) (hu : ∀ i j, 0 ≤ S.s_upper i j)
    (hl : ∀ i j, 0 ≤ S.s_lower i j) :
    let F' := stabilizeFluxes dt a F S
    (∀ i j, F.fx_upper i j ≠ 0 ∨ F.fy_upper i j ≠ 0 →
      GentleCorrection dt (a i) (S.s_upper i j) (F.fx_upper i j) (F.fy_upper i j)
        (F'.fx_upper i j) (F'.fy_upper i j)) ∧
    (∀ i j, F.fx_lower i j ≠ 0 ∨ F.fy_lower i j ≠ 0 →
      GentleCorrection dt (a i) (S.s_lower i j) (F.fx_lower i j) (F.fy_lower i j)
        (F'.fx_lower i j) (F'.fy_lower i j)) ∧
    F'.evap = F.evap ∧ F'.precip = F.precip := by
  refine ⟨fun i j h => ?_, fun i j h => ?_, rfl, rfl⟩
  · obtain ⟨θ, h0, h1, hx, hy, _, he, hm⟩ :=
      stabilize_factor dt (a i) (S.s_upper i j) _ _ hdt (ha i) (hu i j) h
    exact ⟨θ, h0, h1, hx, hy, he, by simpa only [stabilizeFluxes, hx, hy] using hm⟩
  · obtain ⟨θ, h0, h1, hx, hy, _, he, hm⟩ :=
      stabilize_factor dt (a i) (S.s_lower i j) _ _ hdt (ha i) (hl i j) h
    exact ⟨θ, h0, h1, hx, hy, he, by simpa only [stabilizeFluxes, hx, hy] using hm⟩

/-- **C07**, consequence: no component is amplified or reversed. -/
theorem C07_no_amplification (dt a s fx fy f : K) (hdt : 0 < dt) (ha : 0 < a) (hs : 0 ≤ s)
    (hf : fx ≠ 0 ∨ fy ≠ 0) :
    |stabilizeComponent dt a s fx fy f| ≤ |f| ∧ 0 ≤ stabilizeComponent dt a s fx fy f * f := by
  rw [stabilizeComponent_eq dt a s fx fy f hdt hf]
  set θ := min 1 (s * a / (2 * (dt * (|fx| + |fy|)))) with hθ
  have h0 : 0 ≤ θ := le_min zero_le_one (by positivity)
  have h1 : θ ≤ 1 := min_le_left _ _
  constructor
  · rw [abs_mul, abs_of_nonneg h0]
    exact mul_le_of_le_one_right (abs_nonneg _) h1
  · have := mul_nonneg h0 (mul_self_nonneg f)
    linarith [this]

/-- Concrete case: a flux four times too strong is reduced to a quarter. -/
example : stabilizeComponent (α := ℚ) 900 100 10 (20 / 9) 0 (20 / 9) = 5 / 9 ∧
    stabilizeComponent (α := ℚ) 900 100 10 (1 / 9) 0 (1 / 9) = 1 / 9 := by decide +kernel

/-- **C08**: where there is water and a flux, correcting twice is correcting once. -/
theorem C08_idempotent (dt : K) (a : Fin m → K) (F : Fluxes m n K) (S : States m n K)
    (hdt : 0 < dt) (ha : ∀ i, 0 < a i) (i : Fin m) (j : Fin n) :
    let F' := stabilizeFluxes dt a F S
    let F'' := stabilizeFluxes dt a F' S
    (0 < S.s_upper i j → (F.fx_upper i j ≠ 0 ∨ F.fy_upper i j ≠ 0) →
      F''.fx_upper i j = F'.fx_upper i j ∧ F''.fy_upper i j = F'.fy_upper i j) ∧
    (0 < S.s_lower i j → (F.fx_lower i j ≠ 0 ∨ F.fy_lower i j ≠ 0) →
      F''.fx_lower i j = F'.fx_lower i j ∧ F''.fy_lower i j = F'.fy_lower i j) := by
  have key : ∀ s fx fy : K, 0 < s → (fx ≠ 0 ∨ fy ≠ 0) →
      let gx := stabilizeComponent dt (a i) s fx fy fx
      let gy := stabilizeComponent dt (a i) s fx fy fy
      stabilizeComponent dt (a i) s gx gy gx = gx ∧
        stabilizeComponent dt (a i) s gx gy gy = gy := by
    intro s fx fy hs hf gx gy
    obtain ⟨θ, h0, h1, hx, hy, hb, _, hm⟩ := stabilize_factor dt (a i) s fx fy hdt (ha i) hs.le hf
    have hθ : θ ≠ 0 := by
      rintro rfl
      have := hm zero_lt_one
      have h2 : 0 < 1 / 2 * (s * a i) := by have := ha i; positivity
      simp at this
      rcases this with h | h
      · exact hs.ne' h
      · exact (ha i).ne' h
    have hg : gx ≠ 0 ∨ gy ≠ 0 := by
      rcases hf with h | h
      · left; simp only [gx, hx]; exact mul_ne_zero hθ h
      · right; simp only [gy, hy]; exact mul_ne_zero hθ h
    have hb' : halfCell dt (a i) s gx gy := by simp only [gx, gy, hx, hy]; exact hb
    obtain ⟨θ', _, _, hx', hy', _, he, _⟩ := stabilize_factor dt (a i) s gx gy hdt (ha i) hs.le hg
    rw [he.2 hb'] at hx' hy'
    exact ⟨by rw [hx', one_mul], by rw [hy', one_mul]⟩
  exact ⟨fun hs hf => key _ _ _ hs hf, fun hs hf => key _ _ _ hs hf⟩

/-- **C10**, one layer: if every cell satisfies the half-cell criterion with the capacity `B`, the
water leaving any cell through its faces in one step is at most `B`. -/
theorem C10_outflow_bound_layer (periodic : Bool) (dt B : K) (hdt : 0 < dt)
    (fx fy : Arr (m + 2) (n + 2) K) (hB : 0 ≤ B)
    (h : ∀ i j, (|fx i j| + |fy i j|) * dt ≤ 1 / 2 * B) (x y : ℤ) :
    outflow periodic fx fy x y * dt ≤ B := by
  have hx : ∀ p q, |at2 fx p q| * dt ≤ 1 / 2 * B := by
    intro p q
    unfold at2
    split_ifs
    · have h1 := h ⟨p.toNat, by omega⟩ ⟨q.toNat, by omega⟩
      have h2 : 0 ≤ |fy ⟨p.toNat, by omega⟩ ⟨q.toNat, by omega⟩| * dt := by positivity
      linarith [add_mul (|fx ⟨p.toNat, by omega⟩ ⟨q.toNat, by omega⟩|)
        (|fy ⟨p.toNat, by omega⟩ ⟨q.toNat, by omega⟩|) dt]
    · simp; linarith
  have hy : ∀ p q, |at2 fy p q| * dt ≤ 1 / 2 * B := by
    intro p q
    unfold at2
    split_ifs
    · have h1 := h ⟨p.toNat, by omega⟩ ⟨q.toNat, by omega⟩
      have h2 : 0 ≤ |fx ⟨p.toNat, by omega⟩ ⟨q.toNat, by omega⟩| * dt := by positivity
      linarith [add_mul (|fx ⟨p.toNat, by omega⟩ ⟨q.toNat, by omega⟩|)
        (|fy ⟨p.toNat, by omega⟩ ⟨q.toNat, by omega⟩|) dt]
    · simp; linarith
  have key : ∀ w p e : K, |w| * dt ≤ 1 / 2 * B → |p| * dt ≤ 1 / 2 * B → |e| * dt ≤ 1 / 2 * B →
      ∀ fw fe : K, (fw = 0 ∨ fw = (w + p) / 2) → (fe = 0 ∨ fe = (p + e) / 2) →
      (max (-fw) 0 + max fe 0) * dt ≤ 1 / 2 * B := by
    intro w p e hw hp he fw fe hfw hfe
    rw [← abs_of_pos hdt, ← abs_mul, abs_le] at hw hp he
    rcases hfw with rfl | rfl <;> rcases hfe with rfl | rfl <;>
      rcases max_choice (-_ : K) 0 with h1 | h1 <;> rcases max_choice (_ : K) 0 with h2 | h2 <;>
      rw [h1, h2, add_mul] <;> nlinarith
  have X : (max (-faceX periodic fx x y) 0 + max (faceX periodic fx x (y + 1)) 0) * dt
      ≤ 1 / 2 * B := by
    refine key (at2 fx x ((y - 1) % (n + 2 : ℕ))) (at2 fx x (y % (n + 2 : ℕ)))
      (at2 fx x ((y + 1) % (n + 2 : ℕ))) (hx _ _) (hx _ _) (hx _ _) _ _ ?_ ?_
    · unfold faceX; split_ifs <;> simp
    · unfold faceX; rw [show y + 1 - 1 = y by ring]; split_ifs <;> simp
  have Y : (max (-faceY periodic fy (x + 1) y) 0 + max (faceY periodic fy x y) 0) * dt
      ≤ 1 / 2 * B := by
    refine key (at2 fy (x + 1) y) (at2 fy x y)
      (at2 fy (x - 1) y) (hy _ _) (hy _ _) (hy _ _) _ _ ?_ ?_
    · unfold faceY; rw [show x + 1 - 1 = x by ring]; split_ifs <;> simp [add_comm]
    · unfold faceY; split_ifs <;> simp [add_comm]
  have e : outflow periodic fx fy x y * dt =
      (max (-faceX periodic fx x y) 0 + max (faceX periodic fx x (y + 1)) 0) * dt +
      (max (-faceY periodic fy (x + 1) y) 0 + max (faceY periodic fy x y) 0) * dt := by
    unfold outflow; ring
  rw [e]; linarith

/-- **C10**: after `stabilize_fluxes` the water leaving a cell through its faces in one step never
exceeds the largest `storage * area` on the grid (`B` is any bound for these). -/
theorem C10_outflow_bound (periodic : Bool) (dt B : K) (a : Fin (m + 2) → K)
    (F : Fluxes (m + 2) (n + 2) K) (S : States (m + 2) (n + 2) K)
    (hdt : 0 < dt) (ha : ∀ i, 0 < a i) (hu : ∀ i j, 0 ≤ S.s_upper i j)
    (hl : ∀ i j, 0 ≤ S.s_lower i j)
    (hfu : ∀ i j, F.fx_upper i j ≠ 0 ∨ F.fy_upper i j ≠ 0)
    (hfl : ∀ i j, F.fx_lower i j ≠ 0 ∨ F.fy_lower i j ≠ 0)
    (hBu : ∀ i j, S.s_upper i j * a i ≤ B) (hBl : ∀ i j, S.s_lower i j * a i ≤ B)
    (i : Fin (m + 2)) (j : Fin (n + 2)) :
    let F' := stabilizeFluxes dt a F S
    outflow periodic F'.fx_upper F'.fy_upper i j * dt ≤ B ∧
    outflow periodic F'.fx_lower F'.fy_lower i j * dt ≤ B := by
  have hB : 0 ≤ B := le_trans (mul_nonneg (hu 0 0) (ha 0).le) (hBu 0 0)
  have h := C06_half_cell_bound dt a F S hdt ha hu hl
  constructor
  · exact C10_outflow_bound_layer periodic dt B hdt _ _ hB
      (fun i j => le_trans ((h i j).1 (hfu i j)) (by have := hBu i j; linarith)) _ _
  · exact C10_outflow_bound_layer periodic dt B hdt _ _ hB
      (fun i j => le_trans ((h i j).2 (hfl i j)) (by have := hBl i j; linarith)) _ _

/-- Consequence of **C10** for tracked water: on a grid where all cells hold the same amount of
water, horizontal transport in one step never takes more tracked water out of a cell than it holds. -/
theorem C10_no_overdraft_uniform (periodic : Bool) (dt : K) (a : Fin (m + 2) → K)
    (F : Fluxes (m + 2) (n + 2) K) (S : States (m + 2) (n + 2) K) (W : K) (hW : 0 < W)
    (hdt : 0 < dt) (ha : ∀ i, 0 < a i)
    (hfu : ∀ i j, F.fx_upper i j ≠ 0 ∨ F.fy_upper i j ≠ 0)
    (hfl : ∀ i j, F.fx_lower i j ≠ 0 ∨ F.fy_lower i j ≠ 0)
    (hWu : ∀ i j, S.s_upper i j * a i = W) (hWl : ∀ i j, S.s_lower i j * a i = W)
    (tracked : K) (ht : 0 ≤ tracked) (i : Fin (m + 2)) (j : Fin (n + 2)) :
    let F' := stabilizeFluxes dt a F S
    relStorage tracked (S.s_upper i j) * outflow periodic F'.fx_upper F'.fy_upper i j * dt
      ≤ tracked * a i ∧
    relStorage tracked (S.s_lower i j) * outflow periodic F'.fx_lower F'.fy_lower i j * dt
      ≤ tracked * a i := by
  have pos : ∀ s : K, ∀ i, s * a i = W → 0 < s := fun s i h => by
    have : 0 < s * a i := by rw [h]; exact hW
    exact pos_of_mul_pos_left this (ha i).le
  have hb := C10_outflow_bound periodic dt W a F S hdt ha (fun i j => (pos _ i (hWu i j)).le)
    (fun i j => (pos _ i (hWl i j)).le) hfu hfl (fun i j => (hWu i j).le) (fun i j => (hWl i j).le)
    i j
  have fin : ∀ s out : K, s * a i = W → out * dt ≤ W →
      relStorage tracked s * out * dt ≤ tracked * a i := by
    intro s out hs ho
    have hs0 := pos s i hs
    have h1 : relStorage tracked s ≤ tracked / s := by
      simp only [relStorage, np_min, ofRat_one]; exact min_le_left _ _
    have h0 : 0 ≤ relStorage tracked s := by
      simp only [relStorage, np_min, ofRat_one]; exact le_min (by positivity) zero_le_one
    calc relStorage tracked s * out * dt = relStorage tracked s * (out * dt) := by ring
      _ ≤ relStorage tracked s * W := mul_le_mul_of_nonneg_left ho h0
      _ ≤ tracked / s * W := mul_le_mul_of_nonneg_right h1 hW.le
      _ = tracked * a i := by rw [← hs]; field_simp
  exact ⟨fin _ _ (hWu i j) hb.1, fin _ _ (hWl i j) hb.2⟩

end Wam
