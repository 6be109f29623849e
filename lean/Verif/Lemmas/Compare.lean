import Verif.Spec.Compare
import Verif.Props.Step

/-! # Monotonicity and linearity of the transport of one layer -/
set_option linter.unusedSectionVars false

namespace Wam
open Spec
variable {K : Type*} [Field K] [LinearOrder K] [IsStrictOrderedRing K] {m n : ℕ}

theorem at2_comb (c1 c2 : K) (r r' : Arr m n K) (x y : ℤ) :
    at2 (fun i j => c1 * r i j + c2 * r' i j) x y = c1 * at2 r x y + c2 * at2 r' x y := by
  unfold at2; split_ifs
  · rfl
  · simp

theorem inflow_comb (periodic : Bool) (c1 c2 : K) (r r' fx fy : Arr (m + 2) (n + 2) K) (i j) :
    inflow periodic (fun i j => c1 * r i j + c2 * r' i j) fx fy i j =
      c1 * inflow periodic r fx fy i j + c2 * inflow periodic r' fx fy i j := by
  unfold inflow tendency carried
  simp only [at2_comb]
  ring

theorem inflow_mono (periodic : Bool) (r r' fx fy : Arr (m + 2) (n + 2) K)
    (h : ∀ i j, r i j ≤ r' i j) (i : Fin (m + 2)) (j : Fin (n + 2)) :
    inflow periodic r fx fy i j - (r' i j - r i j) * outflow periodic fx fy i j ≤
      inflow periodic r' fx fy i j := by
  have e := inflow_comb periodic 1 (-1) r' r fx fy i j
  have l := inflow_lower periodic (fun i j => 1 * r' i j + -1 * r i j) fx fy
    (fun i j => by have := h i j; linarith) i j
  rw [e] at l
  linarith

theorem fraction_mono {t t' S : K} (hS : 0 < S) (h : t ≤ t') : fraction t S ≤ fraction t' S :=
  min_le_min_right _ (div_le_div_of_nonneg_right h hS.le)

theorem fraction_lip {t t' S : K} (hS : 0 < S) (h : t ≤ t') :
    S * (fraction t' S - fraction t S) ≤ t' - t := by
  have e : ∀ x, S * fraction x S = min x S := by
    intro x
    unfold fraction
    rw [mul_min_of_nonneg _ _ hS.le, mul_div_cancel₀ _ hS.ne', mul_one]
  rw [mul_sub, e, e]
  rcases le_total t S with h1 | h1
  · rw [min_eq_left h1]; have := min_le_left t' S; linarith
  · rw [min_eq_right h1]; have := min_le_right t' S; linarith

theorem fraction_inside {t S : K} (hS : 0 < S) (h : t ≤ S) : fraction t S = t / S :=
  min_eq_left (by rw [div_le_one hS]; exact h)

/-- transport of one layer: `S` its storages, `S'` those of the other layer, `fz` the flux into it,
`c` the sink per tracked fraction, `src` the source -/
def layer (periodic : Bool) (dt kvf : K) (a : Fin (m + 2) → K) (fx fy fz S S' src c : Arr (m + 2) (n + 2) K)
    (t t' : Arr (m + 2) (n + 2) K) (i : Fin (m + 2)) (j : Fin (n + 2)) : K :=
  t i j + dt * (inflow periodic (fun i j => fraction (t i j) (S i j)) fx fy i j / a i
    + downward (fz i j) kvf (fraction (t' i j) (S' i j)) (fraction (t i j) (S i j)) + src i j
    - c i j * fraction (t i j) (S i j))

theorem downward_swap (fz kvf r r' : K) : downward (-fz) kvf r r' = -downward fz kvf r' r := by
  unfold downward carried
  rw [abs_neg, neg_neg]; ring

section
variable (periodic : Bool) (dt kvf : K) (a : Fin (m + 2) → K) (fx fy fz S S' c : Arr (m + 2) (n + 2) K)

theorem layer_mono (src src' t1 t1' t2 t2' : Arr (m + 2) (n + 2) K) (hS : ∀ i j, 0 < S i j)
    (hS' : ∀ i j, 0 < S' i j) (ha : ∀ i, 0 < a i) (hdt : 0 ≤ dt) (hk : 0 ≤ kvf)
    (hs : ∀ i j, src i j ≤ src' i j) (h : ∀ i j, t1 i j ≤ t2 i j) (h' : ∀ i j, t1' i j ≤ t2' i j)
    (i : Fin (m + 2)) (j : Fin (n + 2))
    (cfl : dt * (outflow periodic fx fy i j / a i + max (-fz i j) 0 + kvf * |fz i j| + c i j)
      ≤ S i j) :
    layer periodic dt kvf a fx fy fz S S' src c t1 t1' i j ≤
      layer periodic dt kvf a fx fy fz S S' src' c t2 t2' i j := by
  unfold layer
  have I := inflow_mono periodic (fun i j => fraction (t1 i j) (S i j))
    (fun i j => fraction (t2 i j) (S i j)) fx fy (fun i j => fraction_mono (hS i j) (h i j)) i j
  have L := fraction_lip (hS i j) (h i j)
  have M := fraction_mono (hS i j) (h i j)
  have M' := fraction_mono (hS' i j) (h' i j)
  have hsrc := hs i j
  set r1 := fraction (t1 i j) (S i j)
  set r2 := fraction (t2 i j) (S i j)
  set r1' := fraction (t1' i j) (S' i j)
  set r2' := fraction (t2' i j) (S' i j)
  set I1 := inflow periodic (fun i j => fraction (t1 i j) (S i j)) fx fy i j
  set I2 := inflow periodic (fun i j => fraction (t2 i j) (S i j)) fx fy i j
  set O := outflow periodic fx fy i j
  have q : I1 / a i - (r2 - r1) * (O / a i) ≤ I2 / a i := by
    have := div_le_div_of_nonneg_right I (ha i).le
    rw [sub_div, mul_div_assoc] at this
    exact this
  have v : downward (fz i j) kvf r1' r1 - (r2 - r1) * (max (-fz i j) 0 + kvf * |fz i j|) ≤
      downward (fz i j) kvf r2' r2 := by
    unfold downward carried
    have := mul_nonneg (le_max_right (fz i j) 0) (sub_nonneg.2 M')
    have := mul_nonneg (mul_nonneg hk (abs_nonneg (fz i j))) (sub_nonneg.2 M')
    nlinarith
  have tot : I1 / a i + downward (fz i j) kvf r1' r1 + src i j - c i j * r1
      - (r2 - r1) * (O / a i + max (-fz i j) 0 + kvf * |fz i j| + c i j) ≤
      I2 / a i + downward (fz i j) kvf r2' r2 + src' i j - c i j * r2 := by
    nlinarith
  have p := mul_le_mul_of_nonneg_left tot hdt
  have q2 := mul_le_mul_of_nonneg_left cfl (sub_nonneg.2 M)
  nlinarith

theorem layer_comb (c1 c2 : K) (src1 src2 t1 t1' t2 t2' : Arr (m + 2) (n + 2) K)
    (hS : ∀ i j, 0 < S i j) (hS' : ∀ i j, 0 < S' i j)
    (h1 : ∀ i j, t1 i j ≤ S i j) (h1' : ∀ i j, t1' i j ≤ S' i j)
    (h2 : ∀ i j, t2 i j ≤ S i j) (h2' : ∀ i j, t2' i j ≤ S' i j)
    (h : ∀ i j, c1 * t1 i j + c2 * t2 i j ≤ S i j)
    (h' : ∀ i j, c1 * t1' i j + c2 * t2' i j ≤ S' i j)
    (i : Fin (m + 2)) (j : Fin (n + 2)) :
    layer periodic dt kvf a fx fy fz S S' (fun i j => c1 * src1 i j + c2 * src2 i j) c
      (fun i j => c1 * t1 i j + c2 * t2 i j) (fun i j => c1 * t1' i j + c2 * t2' i j) i j =
    c1 * layer periodic dt kvf a fx fy fz S S' src1 c t1 t1' i j +
      c2 * layer periodic dt kvf a fx fy fz S S' src2 c t2 t2' i j := by
  have e : ∀ i j, fraction (c1 * t1 i j + c2 * t2 i j) (S i j) =
      c1 * fraction (t1 i j) (S i j) + c2 * fraction (t2 i j) (S i j) := fun i j => by
    rw [fraction_inside (hS i j) (h i j), fraction_inside (hS i j) (h1 i j),
      fraction_inside (hS i j) (h2 i j)]
    ring
  have e' : ∀ i j, fraction (c1 * t1' i j + c2 * t2' i j) (S' i j) =
      c1 * fraction (t1' i j) (S' i j) + c2 * fraction (t2' i j) (S' i j) := fun i j => by
    rw [fraction_inside (hS' i j) (h' i j), fraction_inside (hS' i j) (h1' i j),
      fraction_inside (hS' i j) (h2' i j)]
    ring
  unfold layer
  simp only [e, e', inflow_comb]
  unfold downward carried
  ring

end

theorem fwdTransport_layer (periodic : Bool) (dt kvf : K) (a : Fin (m + 2) → K)
    (F : Fluxes (m + 2) (n + 2) K) (fz : Arr (m + 2) (n + 2) K) (S0 : States (m + 2) (n + 2) K)
    (mask tl tu : Arr (m + 2) (n + 2) K) (hS : Wet S0) (ha : ∀ i, 0 < a i) (i j) :
    (fwdTransport periodic dt kvf a F fz S0 mask tl tu).1 i j =
      layer periodic dt kvf a F.fx_lower F.fy_lower fz S0.s_lower S0.s_upper
        (fun i j => mask i j * F.evap i j)
        (fun i j => share (F.precip i j) (S0.s_lower i j) (S0.s_upper i j)) tl tu i j ∧
    (fwdTransport periodic dt kvf a F fz S0 mask tl tu).2 i j =
      layer periodic dt kvf a F.fx_upper F.fy_upper (fun i j => -fz i j) S0.s_upper S0.s_lower
        (fun _ _ => 0)
        (fun i j => share (F.precip i j) (S0.s_upper i j) (S0.s_lower i j)) tu tl i j := by
  obtain ⟨e1, e2⟩ := C20_forward_transport periodic dt kvf a F fz S0 mask tl tu hS ha i j
  rw [e1, e2]
  unfold layer
  rw [downward_swap]
  exact ⟨rfl, by ring⟩

theorem bwdTransport_layer (periodic : Bool) (dt kvf : K) (a : Fin (m + 2) → K)
    (F : Fluxes (m + 2) (n + 2) K) (fz : Arr (m + 2) (n + 2) K) (S1 : States (m + 2) (n + 2) K)
    (mask tl tu : Arr (m + 2) (n + 2) K) (hS : Wet S1) (ha : ∀ i, 0 < a i) (i j) :
    (bwdTransport periodic dt kvf a F fz S1 mask tl tu).1 i j =
      layer periodic dt kvf a (fun i j => -F.fx_lower i j) (fun i j => -F.fy_lower i j)
        (fun i j => -fz i j) S1.s_lower S1.s_upper
        (fun i j => share (mask i j * F.precip i j) (S1.s_lower i j) (S1.s_upper i j))
        F.evap tl tu i j ∧
    (bwdTransport periodic dt kvf a F fz S1 mask tl tu).2 i j =
      layer periodic dt kvf a (fun i j => -F.fx_upper i j) (fun i j => -F.fy_upper i j)
        fz S1.s_upper S1.s_lower
        (fun i j => share (mask i j * F.precip i j) (S1.s_upper i j) (S1.s_lower i j))
        (fun _ _ => 0) tu tl i j := by
  obtain ⟨e1, e2⟩ := C20_backward_transport periodic dt kvf a F fz S1 mask tl tu hS ha i j
  rw [e1, e2]
  unfold layer
  refine ⟨rfl, ?_⟩
  rw [downward_swap]; ring

/-! ### bookkeeping -/

theorem settle_mono (bnd : Bool) (tl tu tl' tu' Sl Su : K) (hl : 0 ≤ Sl) (hu : 0 ≤ Su)
    (h : tl ≤ tl') (h' : tu ≤ tu') :
    (settle bnd tl tu Sl Su).lower ≤ (settle bnd tl' tu' Sl Su).lower ∧
    (settle bnd tl tu Sl Su).upper ≤ (settle bnd tl' tu' Sl Su).upper ∧
    (settle bnd tl tu Sl Su).losses ≤ (settle bnd tl' tu' Sl Su).losses := by
  cases bnd
  · have ov : ∀ x y S : K, x ≤ y → max 0 (x - S) ≤ max 0 (y - S) := fun x y S hxy =>
      max_le_max_left _ (by linarith)
    have mn : ∀ x y S : K, x ≤ y → x - max 0 (x - S) ≤ y - max 0 (y - S) := by
      intro x y S hxy
      rcases le_total y S with h1 | h1
      · rw [max_eq_left (by linarith), max_eq_left (by linarith)]; linarith
      · rw [max_eq_right (show (0 : K) ≤ y - S by linarith)]
        have := le_max_right 0 (x - S)
        linarith
    have A := add_le_add (mn _ _ Sl h) (ov _ _ Su h')
    have B := add_le_add (mn _ _ Su h') (ov _ _ Sl h)
    unfold settle
    simp only [np_max, np_min, ofRat_zero, Bool.false_eq_true, if_false, zero_add]
    refine ⟨min_le_min_right _ (max_le_max_right _ A), min_le_min_right _ (max_le_max_right _ B),
      add_le_add (ov _ _ _ (max_le_max_right _ A)) (ov _ _ _ (max_le_max_right _ B))⟩
  · rw [settle_boundary _ _ _ _ hl hu, settle_boundary _ _ _ _ hl hu]
    exact ⟨le_rfl, le_rfl, add_le_add h' h⟩

/-- a layer that is not completely filled was not overfull -/
theorem settle_not_full (tl tu Sl Su : K) (hl : 0 ≤ Sl) (hu : 0 ≤ Su)
    (h : (settle false tl tu Sl Su).lower < Sl) (h' : (settle false tl tu Sl Su).upper < Su) :
    tl ≤ Sl ∧ tu ≤ Su := by
  unfold settle at h h'
  simp only [np_max, np_min, ofRat_zero, Bool.false_eq_true, if_false] at h h'
  constructor
  · by_contra hc
    push Not at hc
    have := le_max_left 0 (tu - Su)
    rw [max_eq_right (show (0 : K) ≤ tl - Sl by linarith)] at h
    refine absurd h (not_lt.2 (le_min ?_ le_rfl))
    exact (show Sl ≤ tl - (tl - Sl) + max 0 (tu - Su) by linarith).trans (le_max_left _ _)
  · by_contra hc
    push Not at hc
    have := le_max_left 0 (tl - Sl)
    rw [max_eq_right (show (0 : K) ≤ tu - Su by linarith)] at h'
    refine absurd h' (not_lt.2 (le_min ?_ le_rfl))
    exact (show Su ≤ tu - (tu - Su) + max 0 (tl - Sl) by linarith).trans (le_max_left _ _)

/-- linear combinations pass through the bookkeeping as long as nothing is clipped -/
theorem settle_comb (bnd : Bool) (c1 c2 tl1 tu1 tl2 tu2 Sl Su : K) (hl : 0 ≤ Sl) (hu : 0 ≤ Su)
    (i1 : bnd = false → 0 ≤ tl1 ∧ tl1 ≤ Sl ∧ 0 ≤ tu1 ∧ tu1 ≤ Su)
    (i2 : bnd = false → 0 ≤ tl2 ∧ tl2 ≤ Sl ∧ 0 ≤ tu2 ∧ tu2 ≤ Su)
    (i : bnd = false → 0 ≤ c1 * tl1 + c2 * tl2 ∧ c1 * tl1 + c2 * tl2 ≤ Sl ∧
      0 ≤ c1 * tu1 + c2 * tu2 ∧ c1 * tu1 + c2 * tu2 ≤ Su) :
    let s := settle bnd (c1 * tl1 + c2 * tl2) (c1 * tu1 + c2 * tu2) Sl Su
    let s1 := settle bnd tl1 tu1 Sl Su
    let s2 := settle bnd tl2 tu2 Sl Su
    s.lower = c1 * s1.lower + c2 * s2.lower ∧ s.upper = c1 * s1.upper + c2 * s2.upper ∧
      s.losses = c1 * s1.losses + c2 * s2.losses ∧ s.gains = c1 * s1.gains + c2 * s2.gains := by
  intro s s1 s2
  cases bnd
  · obtain ⟨a1, a2, a3, a4⟩ := i1 rfl
    obtain ⟨b1, b2, b3, b4⟩ := i2 rfl
    obtain ⟨d1, d2, d3, d4⟩ := i rfl
    simp only [s, s1, s2, settle_inside _ _ _ _ a1 a2 a3 a4, settle_inside _ _ _ _ b1 b2 b3 b4,
      settle_inside _ _ _ _ d1 d2 d3 d4]
    refine ⟨trivial, trivial, ?_, ?_⟩ <;> ring
  · simp only [s, s1, s2, settle_boundary _ _ _ _ hl hu]
    refine ⟨?_, ?_, ?_, ?_⟩ <;> ring

end Wam
