import Verif.Lemmas.ApproxParts
import Verif.Lemmas.Run

/-! Rounding errors of the vertical flux, the transport and the bookkeeping. -/

set_option linter.unusedSectionVars false
set_option linter.unusedVariables false

namespace Wam
open Spec

variable {K : Type*} [Field K] [LinearOrder K] [IsStrictOrderedRing K] {R : Rounding K} {u η : K} {m n : ℕ}

/-! ### Vertical flux -/

theorem npGradient_ap (A : Accurate R u η) {W : K} (hW : Fine u η W) (hW2 : Fine u η (W / 2)) (hη : η ≤ u)
    {f : Fin (n + 2) → Fl R} {g : Fin (n + 2) → K} (h : ∀ j, Ap u W 23 (1 / 2) (f j) (g j)) (j) :
    Ap u W 56 1 (npGradient f j) (npGradient g j) := by
  have d : ∀ i j, Ap u W 49 1 (f i - f j) (g i - g j) := fun i j =>
    (Ap.sub A hW (h i) (h j) (by norm_num)).weaken A hW.nonneg (by norm_num) (by norm_num)
  unfold npGradient
  split_ifs
  · exact (d _ _).weaken A hW.nonneg (by norm_num) le_rfl
  · exact (d _ _).weaken A hW.nonneg (by norm_num) le_rfl
  · rw [ofRat_two]
    have := (Ap.div A hW2 (d ⟨j.val + 1, by omega⟩ ⟨j.val - 1, by omega⟩) two_pos (two_ap A hη) (by ring)
      (by norm_num) zero_le_one (by norm_num) (by norm_num) (by norm_num)).weaken A hW2.nonneg (e := 56) (m := 1)
      (by norm_num) le_rfl
    exact this.scale A (by norm_num) zero_le_one (by linarith [hW.nonneg])

theorem divergence_ap (A : Accurate R u η) {W : K} (hW : Fine u η W) (hW2 : Fine u η (W / 2)) (hη : η ≤ u)
    {fx fy : Arr (m + 2) (n + 2) (Fl R)} {gx gy : Arr (m + 2) (n + 2) K}
    (hx : ∀ i j, Ap u W 23 (1 / 2) (fx i j) (gx i j)) (hy : ∀ i j, Ap u W 23 (1 / 2) (fy i j) (gy i j)) (i j) :
    Ap u W 116 2 (divergence fx fy i j) (divergence gx gy i j) :=
  (Ap.sub A hW (npGradient_ap A hW hW2 hη (fun j => hx i j) j) (npGradient_ap A hW hW2 hη (fun i => hy i j) i)
    (by norm_num)).weaken A hW.nonneg (by norm_num) (by norm_num)

/-- sum of two positive floats -/
theorem addPos_ap (A : Accurate R u η) {x y : Fl R} (hx : 0 ≤ x.val) (hy : 0 ≤ y.val)
    (h : Fine u η (x.val + y.val)) : Ap u (x.val + y.val) 3 1 (x + y) (x.val + y.val) := by
  have := Ap.rnd A h (e := 0) (m := 1) (z := x.val + y.val) (y := x.val + y.val) (by norm_num) (by simp)
    (by rw [abs_of_nonneg (add_nonneg hx hy), one_mul])
  exact this.weaken A h.nonneg (by norm_num) le_rfl

/-- mean of two positive floats -/
theorem meanPos_ap (A : Accurate R u η) (hη : η ≤ u) {x y : Fl R} (hx : 0 ≤ x.val) (hy : 0 ≤ y.val)
    (h : Fine u η ((x.val + y.val) / 2)) :
    Ap u ((x.val + y.val) / 2) 9 1 ((x + y) / ofRat 2) ((x.val + y.val) / 2) := by
  have h0 := add_nonneg hx hy
  have h' : Fine u η (x.val + y.val) := h.mono A.u_nonneg (by linarith)
  have := Ap.div A h (addPos_ap A hx hy h') two_pos (two_ap A hη) (by ring) (by norm_num) zero_le_one (by norm_num)
    (by norm_num) (by norm_num)
  exact this.weaken A h.nonneg (by norm_num) le_rfl

/-- a positive part of a positive total -/
theorem ratio_ap (A : Accurate R u η) (hη : η ≤ u) {x t : Fl R} {y T e e' : K} (hy : 0 ≤ y) (hyT : y ≤ T)
    (hT : 0 < T) (hx : Ap u y e 1 x y) (ht : Ap u T e' 1 t T) (he : 0 ≤ e) (he' : 0 ≤ e') (h1 : e ≤ 20)
    (h2 : e' ≤ 20) : Ap u 1 (51 / 50 * (e + e') + 3) 1 (x / t) (y / T) := by
  have := Ap.div (b := 1) A ⟨zero_le_one, by simpa using hη⟩ (hx.scale A he zero_le_one hyT) hT ht (by ring) he
    zero_le_one he' (by linarith) (by linarith)
  exact this.weaken A zero_le_one (by linarith) le_rfl

variable {V W β G : K}

/-- what is needed at one cell: `V` the largest amount of water (kg) in a cell, `β` the same per square
metre of this cell, `W`, `G` the same per second -/
structure CellScale (u η V W β G : K) (dt kvf a : Fl R) : Prop where
  dt_pos : 0 < dt.val
  a_pos : 0 < a.val
  kvf_nonneg : 0 ≤ kvf.val
  η_small : 2 * η ≤ u
  fineV : Fine u η V
  fineW : Fine u η W
  fineW2 : Fine u η (W / 2)
  fineβ : Fine u η β
  fineG : Fine u η G
  eW : V = dt.val * W
  eβ : V = a.val * β
  eG : β = dt.val * G
  fineκ : Fine u η (1 / (1 + kvf.val))
  fineβκ : Fine u η (1 / (1 + kvf.val) * β)

namespace CellScale
variable {dt kvf a : Fl R}

theorem η_le (h : CellScale u η V W β G dt kvf a) (A : Accurate R u η) : η ≤ u := by
  have := h.η_small; have := A.η_nonneg; linarith

theorem eWG (h : CellScale u η V W β G dt kvf a) : W = a.val * G := by
  have h1 := h.dt_pos
  have h2 : dt.val * W = dt.val * (a.val * G) := by
    rw [← h.eW, h.eβ, h.eG]; ring
  exact mul_left_cancel₀ h1.ne' h2

theorem κ_pos (h : CellScale u η V W β G dt kvf a) : 0 < 1 + kvf.val := by have := h.kvf_nonneg; linarith

/-- the scale with dispersion -/
theorem le_κ (h : CellScale u η V W β G dt kvf a) {b : K} (hb : 0 ≤ b) : b ≤ (1 + kvf.val) * b := by
  have := mul_nonneg h.kvf_nonneg hb
  linarith

end CellScale

theorem fzClosure_ap (A : Accurate R u η) {dt kvf a : Fl R} (H : CellScale u η V W β G dt kvf a)
    {s0u s0l s1u s1l du dl p e : Fl R} {yu yl σ : K} (hσ : Fine u η σ) (hσ0 : 0 < σ)
    (h0u : σ ≤ s0u.val) (h0l : σ ≤ s0l.val) (h1u : σ ≤ s1u.val) (h1l : σ ≤ s1l.val)
    (b0u : s0u.val ≤ β) (b0l : s0l.val ≤ β) (b1u : s1u.val ≤ β) (b1l : s1l.val ≤ β)
    (hdu : Ap u W 116 2 du yu) (hdl : Ap u W 116 2 dl yl) (hp : |p.val| ≤ W) (he : |e.val| ≤ W) :
    Ap u β 680 18 (fzClosure dt a s0u s0l s1u s1l du dl p e)
      (fzClosure dt.val a.val s0u.val s0l.val s1u.val s1l.val yu yl p.val e.val) := by
  have hu := A.u_nonneg
  have hη := H.η_le A
  have hW0 := H.fineW.nonneg
  have hV0 := H.fineV.nonneg
  have hβ0 := H.fineβ.nonneg
  have F : ∀ b, σ ≤ b → Fine u η b := fun b h => hσ.mono hu h
  -- means
  have mu := meanPos_ap A hη (x := s1u) (y := s0u) (by linarith) (by linarith) (F _ (by linarith))
  have ml := meanPos_ap A hη (x := s1l) (y := s0l) (by linarith) (by linarith) (F _ (by linarith))
  set Mu := (s1u.val + s0u.val) / 2 with hMu
  set Ml := (s1l.val + s0l.val) / 2 with hMl
  have Mu0 : σ ≤ Mu := by rw [hMu]; linarith
  have Ml0 : σ ≤ Ml := by rw [hMl]; linarith
  have T0 : 0 < Mu + Ml := by linarith
  have tot : Ap u (Mu + Ml) 12 1 ((s1u + s0u) / ofRat 2 + (s1l + s0l) / ofRat 2) (Mu + Ml) := by
    have := Ap.rnd A (F (Mu + Ml) (by linarith)) (e := 9) (m := 1)
      (z := ((s1u + s0u) / ofRat 2).val + ((s1l + s0l) / ofRat 2).val) (y := Mu + Ml) (by norm_num) (by
        rw [show ((s1u + s0u) / ofRat 2).val + ((s1l + s0l) / ofRat 2).val - (Mu + Ml) =
          (((s1u + s0u) / ofRat 2).val - Mu) + (((s1l + s0l) / ofRat 2).val - Ml) by ring]
        refine (abs_add_le _ _).trans ?_
        have h1 := mu.err
        have h2 := ml.err
        linarith) (by rw [abs_of_pos T0, one_mul])
    exact this.weaken A T0.le (by norm_num) le_rfl
  have ru := (ratio_ap A hη (by linarith) (by linarith) T0 mu tot (by norm_num) (by norm_num) (by norm_num)
    (by norm_num)).weaken A zero_le_one (e := 25) (m := 1) (by norm_num) le_rfl
  have rl := (ratio_ap A hη (by linarith) (by linarith) T0 ml tot (by norm_num) (by norm_num) (by norm_num)
    (by norm_num)).weaken A zero_le_one (e := 25) (m := 1) (by norm_num) le_rfl
  have ap : Ap u W 0 1 p p.val := Ap.exact p (by rw [one_mul]; exact hp)
  have ae : Ap u W 0 1 e e.val := Ap.exact e (by rw [one_mul]; exact he)
  have pr : ∀ {r : Fl R} {y : K}, Ap u 1 25 1 r y → Ap u W 28 1 (p * r) (p.val * y) := fun h =>
    (Ap.mul A H.fineW ap h hW0 zero_le_one (by ring) le_rfl (by norm_num) (by norm_num) (by norm_num)).weaken
      A hW0 (by norm_num) (by norm_num)
  have su := (Ap.add A H.fineW hdu (pr ru) (by norm_num)).weaken A hW0 (e := 149) (m := 3) (by norm_num) (by norm_num)
  have sl := (Ap.sub A H.fineW ((Ap.add A H.fineW hdl (pr rl) (by norm_num)).weaken A hW0 (e := 149) (m := 3)
    (by norm_num) (by norm_num)) ae (by norm_num)).weaken A hW0 (e := 155) (m := 4) (by norm_num) (by norm_num)
  have adt : Ap u dt.val 0 1 dt dt.val := Ap.exact dt (by rw [one_mul, abs_of_pos H.dt_pos])
  have tm : ∀ {r : Fl R} {y : K}, Ap u W 155 4 r y → Ap u V 161 4 (dt * r) (dt.val * y) := fun h =>
    (Ap.mul A H.fineV adt h H.dt_pos.le hW0 H.eW.symm le_rfl (by norm_num) (by norm_num)
      (by norm_num)).weaken A hV0 (by norm_num) (by norm_num)
  have dv : ∀ {r : Fl R} {y : K}, Ap u V 161 4 r y → Ap u β 167 4 (r / a) (y / a.val) := fun h =>
    (Ap.divExact A H.fineβ h a H.a_pos H.eβ (by norm_num)).weaken A hβ0 (by norm_num) le_rfl
  have df : ∀ {x y : Fl R}, σ ≤ x.val → σ ≤ y.val → x.val ≤ β → y.val ≤ β →
      Ap u β 4 2 (x - y) (x.val - y.val) := fun {x y} h1 h2 h3 h4 =>
    (Ap.sub A H.fineβ (Ap.exact (m := 1) x (by rw [one_mul, abs_of_pos (by linarith)]; exact h3))
      (Ap.exact (m := 1) y (by rw [one_mul, abs_of_pos (by linarith)]; exact h4)) (by norm_num)).weaken A hβ0
      (by norm_num) (by norm_num)
  have fu := (Ap.add A H.fineβ (df h1u h0u b1u b0u) (dv (tm (su.weaken A hW0 (by norm_num) (by norm_num))))
    (by norm_num)).weaken A hβ0 (e := 180) (m := 6) (by norm_num) (by norm_num)
  have fl := (Ap.add A H.fineβ (df h1l h0l b1l b0l) (dv (tm sl))
    (by norm_num)).weaken A hβ0 (e := 180) (m := 6) (by norm_num) (by norm_num)
  have q := (ratio_ap A hη (x := s1l) (y := s1l.val) (T := s1l.val + s1u.val) (e := 0) (by linarith) (by linarith)
    (by linarith) (Ap.exact s1l (by rw [one_mul, abs_of_pos (by linarith)]))
    (addPos_ap A (x := s1l) (y := s1u) (by linarith) (by linarith) (F _ (by linarith))) le_rfl (by norm_num)
    (by norm_num) (by norm_num)).weaken A zero_le_one (e := 7) (m := 1) (by norm_num) le_rfl
  have s2 := (Ap.add A H.fineβ fu fl (by norm_num)).weaken A hβ0 (e := 374) (m := 12) (by norm_num) (by norm_num)
  have pq := (Ap.mul A H.fineβ q s2 zero_le_one hβ0 (by ring) (by norm_num) (by norm_num) (by norm_num)
    (by norm_num)).weaken A hβ0 (e := 473) (m := 12) (by norm_num) (by norm_num)
  have fin := Ap.sub A H.fineβ fl pq (by norm_num)
  have e2 : fzClosure dt.val a.val s0u.val s0l.val s1u.val s1l.val yu yl p.val e.val =
      s1l.val - s0l.val + dt.val * (yl + p.val * (Ml / (Mu + Ml)) - e.val) / a.val -
      s1l.val / (s1l.val + s1u.val) * (s1u.val - s0u.val + dt.val * (yu + p.val * (Mu / (Mu + Ml))) / a.val +
        (s1l.val - s0l.val + dt.val * (yl + p.val * (Ml / (Mu + Ml)) - e.val) / a.val)) := by
    simp only [fzClosure, ofRat_two, ← hMu, ← hMl]
  rw [e2]
  exact fin.weaken A hβ0 (by norm_num) (by norm_num)

theorem fzLimit_ap (A : Accurate R u η) {dt kvf a : Fl R} (H : CellScale u η V W β G dt kvf a)
    {s0u s0l s1u s1l fz : Fl R} {z σ : K} (hσ : Fine u η σ) (hσ0 : 0 < σ)
    (h0u : σ ≤ s0u.val) (h0l : σ ≤ s0l.val) (h1u : σ ≤ s1u.val) (h1l : σ ≤ s1l.val)
    (b0u : s0u.val ≤ β) (b0l : s0l.val ≤ β) (b1u : s1u.val ≤ β) (b1l : s1l.val ≤ β)
    (h : Ap u β 680 18 fz z) :
    Ap u G 703 1 (fzLimit dt kvf s0u s0l s1u s1l fz)
      (fzLimit dt.val kvf.val s0u.val s0l.val s1u.val s1l.val z) := by
  have hu := A.u_nonneg
  have hη := H.η_le A
  have hβ0 := H.fineβ.nonneg
  have hG0 := H.fineG.nonneg
  have hκ := H.κ_pos
  have F : ∀ b, σ ≤ b → Fine u η b := fun b h => hσ.mono hu h
  have mu := (meanPos_ap A hη (x := s1u) (y := s0u) (by linarith) (by linarith) (F _ (by linarith))).scale A
    (by norm_num) zero_le_one (b := β) (by linarith)
  have ml := (meanPos_ap A hη (x := s1l) (y := s0l) (by linarith) (by linarith) (F _ (by linarith))).scale A
    (by norm_num) zero_le_one (b := β) (by linarith)
  have mm := mu.min ml
  -- stab
  have hk1 : Ap u (1 + kvf.val) 3 1 (kvf + ofRat 1) (1 + kvf.val) := by
    rw [Fl.ofRat_one]
    have hf : Fine u η (1 + kvf.val) := Fine.mono (b := 1) hu ⟨zero_le_one, by simpa using hη⟩
      (by linarith [H.kvf_nonneg])
    have := Ap.rnd A hf (e := 0) (m := 1) (z := kvf.val + (1 : Fl R).val) (y := 1 + kvf.val) (by norm_num) (by
      rw [Fl.val_one, add_comm, sub_self]; simp) (by rw [abs_of_pos hκ, one_mul])
    exact this.weaken A hκ.le (by norm_num) le_rfl
  have one : Ap u 1 0 1 (ofRat 1 : Fl R) 1 := by rw [Fl.ofRat_one]; exact ⟨by simp, by simp⟩
  have st := (Ap.div A H.fineκ one hκ hk1 (by field_simp) le_rfl zero_le_one (by norm_num) (by norm_num)
    (by norm_num)).weaken A H.fineκ.nonneg (e := 7) (m := 1) (by norm_num) le_rfl
  have lm := (Ap.mul A H.fineβκ st mm H.fineκ.nonneg hβ0 rfl (by norm_num) (by norm_num) (by norm_num)
    (by norm_num)).weaken A H.fineβκ.nonneg (e := 20) (m := 1) (by norm_num) (by norm_num)
  have hκ1 : 1 / (1 + kvf.val) ≤ 1 := by
    rw [div_le_one hκ]; linarith [H.kvf_nonneg]
  have lm' := lm.scale A (by norm_num) zero_le_one (b := β) (by
    calc _ ≤ 1 * β := mul_le_mul_of_nonneg_right hκ1 hβ0
      _ = β := one_mul _)
  set L : Fl R := ofRat 1 / (kvf + ofRat 1) * min ((s1u + s0u) / ofRat 2) ((s1l + s0l) / ofRat 2) with hL
  set l : K := 1 / (1 + kvf.val) * min ((s1u.val + s0u.val) / 2) ((s1l.val + s0l.val) / 2) with hl
  have hl0 : 0 ≤ l := by
    rw [hl]
    refine mul_nonneg (by positivity) (le_min ?_ ?_) <;> linarith
  have hL0 : 0 ≤ L := by
    have n2 : (0 : Fl R) ≤ ofRat 2 := Fl.ofRat_nonneg (by norm_num)
    have nn : ∀ z : Fl R, σ ≤ z.val → 0 ≤ z := fun z h => (Fl.le_def _ _).2 (by rw [Fl.val_zero]; linarith)
    have n1 : (0 : Fl R) ≤ ofRat 1 := Fl.ofRat_nonneg (by norm_num)
    refine Fl.mul_nonneg (Fl.div_nonneg n1 (Fl.add_nonneg ((Fl.le_def _ _).2 H.kvf_nonneg) n1))
      (le_min (Fl.div_nonneg (Fl.add_nonneg (nn _ h1u) (nn _ h0u)) n2)
        (Fl.div_nonneg (Fl.add_nonneg (nn _ h1l) (nn _ h0l)) n2))
  have hL0' : 0 ≤ L.val := (Fl.le_def _ _).1 hL0
  have eN : (NpOps.sign fz * minimum (absolute fz) L).val = clamp L.val fz.val := by
    rw [Fl.val_sign_mul, Fl.np_min, Fl.val_min, Fl.val_abs, sign_mul_min _ _ hL0']
  have en : NpOps.sign z * minimum (absolute z) l = clamp l z := by
    rw [np_min, np_abs, sign_mul_min _ _ hl0]
  have key : Ap u β 700 1 (NpOps.sign fz * minimum (absolute fz) L) (NpOps.sign z * minimum (absolute z) l) := by
    rw [en]
    refine ⟨?_, (abs_clamp_le hl0).trans ((le_abs_self _).trans lm'.size)⟩
    rw [eN]
    refine (clamp_sub_le _ _ _ _ hL0' hl0).trans ?_
    have h1 := lm'.err
    have h2 := h.err
    linarith
  have fin := (Ap.divExact A H.fineG key dt H.dt_pos H.eG (by norm_num)).weaken A hG0 (e := 703) (m := 1)
    (by norm_num) le_rfl
  have e1 : fzLimit dt.val kvf.val s0u.val s0l.val s1u.val s1l.val z =
      NpOps.sign z * minimum (absolute z) l / dt.val := by
    simp only [fzLimit, ofRat_two, ofRat_one, np_min, np_abs, hl]
    rw [add_comm kvf.val 1]
  rw [e1]
  exact fin

/-! ### Transport -/

section
variable {dt kvf a : Fl R}

/-- scale of the tendencies -/
theorem CellScale.fineκG (H : CellScale u η V W β G dt kvf a) (A : Accurate R u η) :
    Fine u η ((1 + kvf.val) * G) := H.fineG.mono A.u_nonneg (H.le_κ H.fineG.nonneg)

theorem CellScale.fineκβ (H : CellScale u η V W β G dt kvf a) (A : Accurate R u η) :
    Fine u η ((1 + kvf.val) * β) := H.fineβ.mono A.u_nonneg (H.le_κ H.fineβ.nonneg)

theorem verticalAdvection_ap (A : Accurate R u η) (H : CellScale u η V W β G dt kvf a) {f rl ru : Fl R}
    {f' rl' ru' : K} (hf : Ap u G 703 1 f f') (hl : Ap u 1 2 1 rl rl') (hu : Ap u 1 2 1 ru ru') :
    Ap u G 716 1 (verticalAdvection f rl ru) (verticalAdvection f' rl' ru') := by
  have := ((Ap.donor A H.fineG hf.neg hl hu (by norm_num) (by norm_num) (by norm_num) (by norm_num)
    (by norm_num)).weaken A H.fineG.nonneg (e := 716) (m := 1) (by norm_num) le_rfl).neg
  have e1 : verticalAdvection f rl ru = -(if 0 < -f then -f * rl else -f * ru) := by
    simp only [verticalAdvection, Fl.np_le, Fl.ofRat_zero, decide_eq_true_eq]
    have h1 : (0 ≤ f) ↔ 0 ≤ f.val := Fl.le_def _ _
    have h2 : (0 < -f) ↔ f.val < 0 := by rw [Fl.lt_def]; simp
    have h3 : ∀ r : Fl R, -(-f * r) = f * r := fun r => Fl.ext (by
      rw [Fl.val_neg, Fl.val_mul, Fl.val_mul, Fl.val_neg, neg_mul, R.neg, neg_neg])
    by_cases h : 0 ≤ f.val
    · rw [if_pos (h1.2 h), if_neg (by rw [h2]; exact not_lt.2 h), h3]
    · rw [if_neg (by rw [h1]; exact h), if_pos (h2.2 (not_le.1 h)), h3]
  have e2 : verticalAdvection f' rl' ru' = -(if 0 < -f' then -f' * rl' else -f' * ru') := by
    simp only [verticalAdvection, np_le, ofRat_zero, decide_eq_true_eq]
    by_cases h : 0 ≤ f'
    · rw [if_pos h, if_neg (by simpa using h)]; ring
    · rw [if_neg h, if_pos (by linarith)]; ring
  rw [e1, e2]
  exact this

theorem verticalDispersion_ap (A : Accurate R u η) (H : CellScale u η V W β G dt kvf a) {f rl ru : Fl R}
    {f' rl' ru' : K} (hf : Ap u G 703 1 f f') (hl : Ap u 1 2 1 rl rl') (hu : Ap u 1 2 1 ru ru') :
    Ap u ((1 + kvf.val) * G) 1432 2 (verticalDispersion f rl ru kvf) (verticalDispersion f' rl' ru' kvf.val) := by
  have h1 : Fine u η 1 := ⟨zero_le_one, by simpa using H.η_le A⟩
  have hκ := H.fineκG A
  have ak : Ap u (1 + kvf.val) 0 1 kvf kvf.val := Ap.exact kvf (by
    rw [abs_of_nonneg H.kvf_nonneg]; linarith)
  have a1 := (Ap.mul A hκ ak hf.absolute H.κ_pos.le H.fineG.nonneg rfl le_rfl (by norm_num) (by norm_num)
    (by norm_num)).weaken A hκ.nonneg (e := 706) (m := 1) (by norm_num) (by norm_num)
  have a2 := (Ap.sub A h1 hu hl (by norm_num)).weaken A zero_le_one (e := 8) (m := 2) (by norm_num) (by norm_num)
  exact (Ap.mul A hκ a1 a2 hκ.nonneg zero_le_one (by ring) (by norm_num) (by norm_num) (by norm_num)
    (by norm_num)).weaken A hκ.nonneg (by norm_num) (by norm_num)

/-- share of a layer in precipitation -/
theorem share_ap (A : Accurate R u η) (H : CellScale u η V W β G dt kvf a) {x s s' : Fl R} {y σ : K}
    (hσ : Fine u η σ) (hσ0 : 0 < σ) (hGσ : Fine u η (G * σ)) (hs : σ ≤ s.val) (hs' : σ ≤ s'.val)
    (hx : Ap u G 3 1 x y) (z : Fl R) (hz : z = s ∨ z = s') :
    Ap u G 14 1 (x * z / (s + s')) (y * z.val / (s.val + s'.val)) := by
  have hu := A.u_nonneg
  have T0 : 0 < s.val + s'.val := by linarith
  have hG0 := H.fineG.nonneg
  have hT : Fine u η (s.val + s'.val) := hσ.mono hu (by linarith)
  have hGT : Fine u η (G * (s.val + s'.val)) := hGσ.mono hu (mul_le_mul_of_nonneg_left (by linarith) hG0)
  have az : Ap u (s.val + s'.val) 0 1 z z.val := Ap.exact z (by
    rcases hz with rfl | rfl <;> rw [abs_of_pos (by linarith)] <;> linarith)
  have a1 := (Ap.mul A hGT hx az hG0 T0.le rfl (by norm_num) le_rfl (by norm_num)
    (by norm_num)).weaken A hGT.nonneg (e := 7) (m := 1) (by norm_num) (by norm_num)
  exact (Ap.div A H.fineG a1 T0 (addPos_ap A (x := s) (y := s') (by linarith) (by linarith) hT) (by ring)
    (by norm_num) zero_le_one (by norm_num) (by norm_num) (by norm_num)).weaken A hG0 (by norm_num) le_rfl

/-- tendencies: from the terms to the new storage -/
theorem tendency_ap (A : Accurate R u η) (H : CellScale u η V W β G dt kvf a) {t x : Fl R} {y : K}
    (ht : |t.val| ≤ β) (hx : Ap u ((1 + kvf.val) * G) 2370 7 x y) :
    Ap u ((1 + kvf.val) * β) 2400 8 (t + dt * x) (t.val + dt.val * y) := by
  have hκG := H.fineκG A
  have hκβ := H.fineκβ A
  have adt : Ap u dt.val 0 1 dt dt.val := Ap.exact dt (by rw [one_mul, abs_of_pos H.dt_pos])
  have a1 := (Ap.mul A hκβ adt hx H.dt_pos.le hκG.nonneg (by rw [H.eG]; ring) le_rfl (by norm_num)
    (by norm_num) (by norm_num)).weaken A hκβ.nonneg (e := 2380) (m := 7) (by norm_num) (by norm_num)
  have at' : Ap u ((1 + kvf.val) * β) 0 1 t t.val := Ap.exact t (by
    rw [one_mul]; exact ht.trans (H.le_κ H.fineβ.nonneg))
  exact (Ap.add A hκβ at' a1 (by norm_num)).weaken A hκβ.nonneg (by norm_num) (by norm_num)

/-- the part that is common to both directions and layers -/
theorem common_ap (A : Accurate R u η) (H : CellScale u η V W β G dt kvf a) {adv f rl ru : Fl R}
    {adv' f' rl' ru' : K} (ha : Ap u W 146 2 adv adv') (hf : Ap u G 703 1 f f') (hl : Ap u 1 2 1 rl rl')
    (hu : Ap u 1 2 1 ru ru') :
    Ap u ((1 + kvf.val) * G) 2310 5
      (adv / a + verticalAdvection f rl ru + verticalDispersion f rl ru kvf)
      (adv' / a.val + verticalAdvection f' rl' ru' + verticalDispersion f' rl' ru' kvf.val) ∧
    Ap u ((1 + kvf.val) * G) 2310 5
      (adv / a - verticalAdvection f rl ru - verticalDispersion f rl ru kvf)
      (adv' / a.val - verticalAdvection f' rl' ru' - verticalDispersion f' rl' ru' kvf.val) := by
  have hκG := H.fineκG A
  have up : ∀ {x : Fl R} {y e k : K}, Ap u G e k x y → 0 ≤ e → 0 ≤ k → Ap u ((1 + kvf.val) * G) e k x y :=
    fun h he hk => h.scale A he hk (H.le_κ H.fineG.nonneg)
  have a1 := up ((Ap.divExact A H.fineG ha a H.a_pos H.eWG (by norm_num)).weaken A H.fineG.nonneg (e := 150)
    (m := 2) (by norm_num) le_rfl) (by norm_num) (by norm_num)
  have a2 := up (verticalAdvection_ap A H hf hl hu) (by norm_num) zero_le_one
  have a3 := verticalDispersion_ap A H hf hl hu
  exact ⟨(Ap.add A hκG ((Ap.add A hκG a1 a2 (by norm_num)).weaken A hκG.nonneg (e := 871) (m := 3) (by norm_num)
      (by norm_num)) a3 (by norm_num)).weaken A hκG.nonneg (by norm_num) (by norm_num),
    (Ap.sub A hκG ((Ap.sub A hκG a1 a2 (by norm_num)).weaken A hκG.nonneg (e := 871) (m := 3) (by norm_num)
      (by norm_num)) a3 (by norm_num)).weaken A hκG.nonneg (by norm_num) (by norm_num)⟩

end

/-! ### Bookkeeping -/

theorem gainFl (x : Fl R) : (if NpOps.lt x (ofRat 0) = true then -x else ofRat 0) = max (-x) 0 := by
  simp only [Fl.np_lt, Fl.ofRat_zero, decide_eq_true_eq]
  have h1 : (-x ≤ 0) ↔ 0 ≤ x.val := by rw [Fl.le_def]; simp
  by_cases h : x.val < 0
  · rw [if_pos (show x < 0 from h), max_eq_left]
    rw [Fl.le_def]; simp [h.le]
  · rw [if_neg (show ¬ x < 0 from h), max_eq_right (h1.2 (not_lt.1 h))]

theorem gainK (x : K) : (if NpOps.lt x (ofRat 0) = true then -x else ofRat 0) = max (-x) 0 := by
  simp only [np_lt, ofRat_zero, decide_eq_true_eq]
  split_ifs with h
  · rw [max_eq_left (by linarith)]
  · rw [max_eq_right (by linarith)]

/-- all four results of the bookkeeping -/
theorem settle_ap (A : Accurate R u η) {b : K} (hb : Fine u η b) (bnd : Bool) {tl tu Sl Su : Fl R} {yl yu : K}
    (hl : Ap u b 2400 8 tl yl) (hu : Ap u b 2400 8 tu yu) (hSl : |Sl.val| ≤ b) (hSu : |Su.val| ≤ b) :
    let s := settle bnd tl tu Sl Su
    let t := settle bnd yl yu Sl.val Su.val
    Ap u b 7280 26 s.lower t.lower ∧ Ap u b 7280 26 s.upper t.upper ∧
    Ap u b 19600 70 s.losses t.losses ∧ Ap u b 14700 52 s.gains t.gains := by
  have hb0 := hb.nonneg
  have hu' := A.u_nonneg
  have z : ∀ {e k : K}, 0 ≤ e → 0 ≤ k → Ap u b e k (ofRat 0 : Fl R) (ofRat 0 : K) :=
    fun he hk => zero_ap hu' hb0 he hk
  have sl : Ap u b 0 1 Sl Sl.val := Ap.exact Sl (by rw [one_mul]; exact hSl)
  have su : Ap u b 0 1 Su Su.val := Ap.exact Su (by rw [one_mul]; exact hSu)
  have ite : ∀ {e k : K} {x x' : Fl R} {y y' : K}, Ap u b e k x y → Ap u b e k x' y' →
      Ap u b e k (if bnd = true then x else x') (if bnd = true then y else y') := by
    intro e k x x' y y' h h'
    split_ifs
    exacts [h, h']
  simp only [settle, gainFl, gainK, Fl.np_min, Fl.np_max, np_min, np_max]
  have l0 := ite ((Ap.add A hb hu hl (by norm_num)).weaken A hb0 (e := 4818) (m := 16) (by norm_num) (by norm_num))
    (z (by norm_num) (by norm_num))
  have u1 := ite (z (by norm_num) (by norm_num)) hu
  have l1 := ite (z (by norm_num) (by norm_num)) hl
  set tu1 := (if bnd = true then ofRat 0 else tu) with htu1
  set tl1 := (if bnd = true then ofRat 0 else tl) with htl1
  set yu1 := (if bnd = true then ofRat 0 else yu) with hyu1
  set yl1 := (if bnd = true then ofRat 0 else yl) with hyl1
  have ov : ∀ {t S : Fl R} {y : K}, Ap u b 2400 8 t y → Ap u b 0 1 S S.val →
      Ap u b 2411 9 (max (ofRat 0) (t - S)) (max (ofRat 0) (y - S.val)) := fun h h' =>
    (z (by norm_num) (by norm_num)).max ((Ap.sub A hb h h' (by norm_num)).weaken A hb0 (by norm_num) (by norm_num))
  have ol := ov l1 sl
  have ou := ov u1 su
  set Ol := max (ofRat 0) (tl1 - Sl) with hOl
  set Ou := max (ofRat 0) (tu1 - Su) with hOu
  set ol' := max (ofRat 0) (yl1 - Sl.val) with hol'
  set ou' := max (ofRat 0) (yu1 - Su.val) with hou'
  have mv : ∀ {t o o' : Fl R} {y p p' : K}, Ap u b 2400 8 t y → Ap u b 2411 9 o p → Ap u b 2411 9 o' p' →
      Ap u b 7280 26 (t - o + o') (y - p + p') := fun h h1 h2 =>
    (Ap.add A hb ((Ap.sub A hb h h1 (by norm_num)).weaken A hb0 (e := 4830) (m := 17) (by norm_num) (by norm_num))
      h2 (by norm_num)).weaken A hb0 (by norm_num) (by norm_num)
  have l2 := mv l1 ol ou
  have u2 := mv u1 ou ol
  set tl2 := tl1 - Ol + Ou with htl2
  set tu2 := tu1 - Ou + Ol with htu2
  set yl2 := yl1 - ol' + ou' with hyl2
  set yu2 := yu1 - ou' + ol' with hyu2
  have gn : ∀ {t : Fl R} {y : K}, Ap u b 7280 26 t y → Ap u b 7280 26 (max (-t) 0) (max (-y) 0) := by
    intro t y h
    have z0 := z (e := 7280) (k := 26) (by norm_num) (by norm_num)
    rw [Fl.ofRat_zero, ofRat_zero] at z0
    exact h.neg.max z0
  have gains := (Ap.add A hb (gn l2) (gn u2) (by norm_num)).weaken A hb0 (e := 14700) (m := 52) (by norm_num)
    (by norm_num)
  have z3 := z (e := 7280) (k := 26) (by norm_num) (by norm_num)
  have l3 := l2.max z3
  have u3 := u2.max z3
  set tl3 := max tl2 (ofRat 0) with htl3
  set tu3 := max tu2 (ofRat 0) with htu3
  set yl3 := max yl2 (ofRat 0) with hyl3
  set yu3 := max yu2 (ofRat 0) with hyu3
  have ls : ∀ {t S : Fl R} {y : K}, Ap u b 7280 26 t y → Ap u b 0 1 S S.val →
      Ap u b 7309 27 (max (ofRat 0) (t - S)) (max (ofRat 0) (y - S.val)) := fun h h' =>
    (z (by norm_num) (by norm_num)).max ((Ap.sub A hb h h' (by norm_num)).weaken A hb0 (by norm_num) (by norm_num))
  have lsum := (Ap.add A hb (ls l3 sl) (ls u3 su) (by norm_num)).weaken A hb0 (e := 14700) (m := 54) (by norm_num)
    (by norm_num)
  have losses := (Ap.add A hb l0 lsum (by norm_num)).weaken A hb0 (e := 19600) (m := 70) (by norm_num) (by norm_num)
  exact ⟨l3.min (sl.weaken A hb0 (by norm_num) (by norm_num)), u3.min (su.weaken A hb0 (by norm_num) (by norm_num)),
    losses, gains⟩

/-! ### Accumulated fields -/

/-- adding to an accumulated field -/
theorem accum_ap (A : Accurate R u η) {b e k p : K} (hb : Fine u η b) (he : e ≤ 100000) (hk : e + k + 2 ≤ 100000)
    {o x : Fl R} {y : K} (ho : |o.val| ≤ p) (hx : Ap u b e k x y) :
    |(o + x).val - (o.val + y)| ≤ u * (p + (e + k + 2) * b) ∧
    |(o + x).val| ≤ (1 + u) * p + (k + 1) * b := by
  have hu := A.u_nonneg
  have h1 := A.err (o.val + x.val)
  have h2 := hx.err
  have h3 := hx.size
  have h4 : |o.val + x.val| ≤ p + (k * b + e * (u * b)) := by
    refine (abs_add_le _ _).trans (add_le_add ho ?_)
    have : |x.val| ≤ |y| + |x.val - y| := by
      have := abs_add_le y (x.val - y)
      rwa [add_sub_cancel] at this
    linarith
  have h5 := mul_le_mul_of_nonneg_left h4 hu
  have h6 := A.small he
  have h7 : e * u * b ≤ 1 / 100 * b := mul_le_mul_of_nonneg_right h6 hb.nonneg
  have h8 := mul_le_mul_of_nonneg_left h7 hu
  have h9 := mul_nonneg hu hb.nonneg
  have h10 := hb.le
  rw [Fl.val_add]
  have : |R.rnd (o.val + x.val) - (o.val + y)| ≤ |R.rnd (o.val + x.val) - (o.val + x.val)| + |x.val - y| := by
    have := abs_add_le (R.rnd (o.val + x.val) - (o.val + x.val)) (x.val - y)
    rwa [show R.rnd (o.val + x.val) - (o.val + x.val) + (x.val - y) = R.rnd (o.val + x.val) - (o.val + y) by
      ring] at this
  have key : |R.rnd (o.val + x.val) - (o.val + y)| ≤ u * (p + (e + k + 2) * b) := by linarith
  refine ⟨key, ?_⟩
  have h11 : |R.rnd (o.val + x.val)| ≤ |o.val + y| + |R.rnd (o.val + x.val) - (o.val + y)| := by
    have := abs_add_le (o.val + y) (R.rnd (o.val + x.val) - (o.val + y))
    rwa [add_sub_cancel] at this
  have h12 := abs_add_le o.val y
  have h13 := mul_le_mul_of_nonneg_right (A.small hk) hb.nonneg
  have h14 := hb.nonneg
  linarith

theorem forall_and_cells {p q : Fin (m + 2) → Fin (n + 2) → Prop} (h : ∀ i j, p i j ∧ q i j) :
    (∀ i j, p i j) ∧ ∀ i j, q i j := ⟨fun i j => (h i j).1, fun i j => (h i j).2⟩

/-! ### The whole step -/

section step
variable {σ : K} (periodic : Bool) (dt kvf : Fl R) (g : GridInfo (m + 2) (Fl R))
  (F : Fluxes (m + 2) (n + 2) (Fl R)) (S0 S1 : States (m + 2) (n + 2) (Fl R)) (mask : Arr (m + 2) (n + 2) (Fl R))

theorem Sized.cell (A : Accurate R u η)
    (H : Sized u η V σ dt.val kvf.val (exactG g).a (exactF F) (exactS S0) (exactS S1) (exactA mask)) (i) :
    CellScale u η V (V / dt.val) (V / (g.a i).val) (V / ((g.a i).val * dt.val)) dt kvf (g.a i) ∧
    Fine u η (V / ((g.a i).val * dt.val) * σ) ∧ Fine u η σ ∧ 2 * (dt.val + 1) * η ≤ u * (u * V) := by
  have hu := A.u_nonneg
  have hu' := A.u_small
  have h0 := A.η_nonneg
  have hdt := H.dt_pos
  have hσ := H.σ_pos
  have hσ1 := H.σ_le
  have hk := H.kvf_nonneg
  have ha : 1 ≤ (g.a i).val := H.area i
  have ha0 : 0 < (g.a i).val := by linarith
  have hκ : 0 < 1 + kvf.val := by linarith
  have t1 := H.tiny
  have t2 : 4 * (dt.val + 1) * (1 + kvf.val) * (g.a i).val * η ≤ u * (u * (V * σ)) := H.tiny' i
  have hV : 0 ≤ V := by
    refine le_trans ?_ (H.storage i 0).1
    exact mul_nonneg (hσ.le.trans (H.wet i 0).1) ha0.le
  have uV := mul_nonneg hu hV
  have u1 : u * (V * σ) ≤ u * V := mul_le_mul_of_nonneg_left (by
    calc V * σ ≤ V * 1 := mul_le_mul_of_nonneg_left hσ1 hV
      _ = V := mul_one V) hu
  have u2 : u * (u * (V * σ)) ≤ u * (V * σ) := by
    have : 0 ≤ u * (V * σ) := by positivity
    calc u * (u * (V * σ)) ≤ 1 * (u * (V * σ)) := mul_le_mul_of_nonneg_right (by linarith) this
      _ = _ := one_mul _
  -- products that bound η
  have p1 : 1 ≤ (1 + kvf.val) * (g.a i).val := by nlinarith
  have q1 : (dt.val + 1) * η ≤ (dt.val + 1) * (1 + kvf.val) * (g.a i).val * η := by
    have : 0 ≤ (dt.val + 1) * η := by positivity
    calc (dt.val + 1) * η = 1 * ((dt.val + 1) * η) := (one_mul _).symm
      _ ≤ ((1 + kvf.val) * (g.a i).val) * ((dt.val + 1) * η) := mul_le_mul_of_nonneg_right p1 this
      _ = _ := by ring
  have q2 : (1 + kvf.val) * (g.a i).val * η ≤ (dt.val + 1) * (1 + kvf.val) * (g.a i).val * η := by
    have : 0 ≤ (1 + kvf.val) * (g.a i).val * η := by positivity
    have : 0 ≤ dt.val * ((1 + kvf.val) * (g.a i).val * η) := by positivity
    linarith
  have q3 : (g.a i).val * dt.val * η ≤ (dt.val + 1) * (1 + kvf.val) * (g.a i).val * η := by
    have e1 : 0 ≤ (g.a i).val * η := by positivity
    have e2 : 0 ≤ dt.val * kvf.val * ((g.a i).val * η) := by positivity
    have e3 : 0 ≤ kvf.val * ((g.a i).val * η) := by positivity
    linarith
  have q4 : (g.a i).val * η ≤ (1 + kvf.val) * (g.a i).val * η := by
    have e3 : 0 ≤ kvf.val * ((g.a i).val * η) := by positivity
    linarith
  have q5 : 0 ≤ (g.a i).val * η := by positivity
  have q6 : η ≤ (dt.val + 1) * η := by
    have : 0 ≤ dt.val * η := by positivity
    linarith
  have k1 : η ≤ (1 + kvf.val) * η := by
    have : 0 ≤ kvf.val * η := by positivity
    linarith
  have uσ : u * σ ≤ u := by
    calc u * σ ≤ u * 1 := mul_le_mul_of_nonneg_left hσ1 hu
      _ = u := mul_one u
  have fin : ∀ {b c : K}, 0 < c → c * η ≤ u * b → 0 ≤ b → Fine u η (b / c) := by
    intro b c hc h hb
    refine ⟨by positivity, ?_⟩
    rw [← mul_div_assoc, le_div_iff₀ hc]
    linarith
  refine ⟨⟨hdt, ha0, hk, ?_, ⟨hV, ?_⟩, fin hdt ?_ hV, ?_, fin ha0 ?_ hV, fin (by positivity) ?_ hV, ?_, ?_, ?_, ?_, ?_⟩,
    ?_, ⟨hσ.le, ?_⟩, ?_⟩
  · linarith
  · linarith
  · have : dt.val * η ≤ (dt.val + 1) * η := by linarith
    linarith
  · have := fin (b := V) (c := dt.val * 2) (by positivity) (by
      have : dt.val * η ≤ (dt.val + 1) * η := by linarith
      linarith) hV
    rwa [← div_div] at this
  · linarith
  · linarith
  · field_simp
  · field_simp
  · field_simp
  · exact fin (b := 1) hκ (by linarith) zero_le_one
  · have := fin (b := V) (c := (1 + kvf.val) * (g.a i).val) (by positivity) (by linarith) hV
    have e : 1 / (1 + kvf.val) * (V / (g.a i).val) = V / ((1 + kvf.val) * (g.a i).val) := by field_simp
    rw [e]; exact this
  · have := fin (b := V * σ) (c := (g.a i).val * dt.val) (by positivity) (by linarith) (by positivity)
    have e : V / ((g.a i).val * dt.val) * σ = V * σ / ((g.a i).val * dt.val) := by ring
    rw [e]; exact this
  · linarith
  · have := mul_le_mul_of_nonneg_left u1 hu
    have e : 0 ≤ (dt.val + 1) * η := by positivity
    linarith

/-- bounds as needed at a cell -/
theorem le_div_area {x a V : K} (ha : 0 < a) (h : x * a ≤ V) : x ≤ V / a := by
  rw [le_div_iff₀ ha]; exact h

variable {F S0 S1 mask dt kvf g}

/-- stable fluxes of a step -/
theorem stable_ap (A : Accurate R u η)
    (H : Sized u η V σ dt.val kvf.val (exactG g).a (exactF F) (exactS S0) (exactS S1) (exactA mask))
    {S : States (m + 2) (n + 2) (Fl R)} (hS : S = S0 ∨ S = S1) :
    let X := stabilizeFluxes dt g.a (scaleFluxes g F) S
    let Y := stabilizeFluxes dt.val (exactG g).a (scaleFluxes (exactG g) (exactF F)) (exactS S)
    ∀ i j, Ap u (V / dt.val) 23 (1 / 2) (X.fx_upper i j) (Y.fx_upper i j) ∧
      Ap u (V / dt.val) 23 (1 / 2) (X.fy_upper i j) (Y.fy_upper i j) ∧
      Ap u (V / dt.val) 23 (1 / 2) (X.fx_lower i j) (Y.fx_lower i j) ∧
      Ap u (V / dt.val) 23 (1 / 2) (X.fy_lower i j) (Y.fy_lower i j) := by
  intro X Y i j
  obtain ⟨C, _, _, hτ⟩ := Sized.cell dt kvf g F S0 S1 mask A H i
  have w := H.wet i j
  have st := H.storage i j
  have hσ := H.σ_pos
  have s1 : 0 ≤ (S.s_upper i j).val ∧ 0 ≤ (S.s_lower i j).val := by
    rcases hS with rfl | rfl
    · exact ⟨hσ.le.trans w.1, hσ.le.trans w.2.1⟩
    · exact ⟨hσ.le.trans w.2.2.1, hσ.le.trans w.2.2.2⟩
  have s2 : (S.s_upper i j).val * (g.a i).val ≤ V ∧ (S.s_lower i j).val * (g.a i).val ≤ V := by
    rcases hS with rfl | rfl
    · exact ⟨st.1, st.2.1⟩
    · exact ⟨st.2.2.1, st.2.2.2⟩
  have key : ∀ (s x y f : Fl R) (x' y' f' : K), 0 ≤ s.val → s.val * (g.a i).val ≤ V →
      |x.val - x'| ≤ u * |x'| + η → |y.val - y'| ≤ u * |y'| + η → |f.val - f'| ≤ u * |f'| + η →
      |f'| ≤ |x'| + |y'| →
      Ap u (V / dt.val) 23 (1 / 2) (stabilizeComponent dt (g.a i) s x y f)
        (stabilizeComponent dt.val (g.a i).val s.val x' y' f') := fun s x y f x' y' f' h1 h2 h3 h4 h5 h6 =>
    stabilize_ap A C.dt_pos C.a_pos h1 C.fineV.nonneg h2 C.η_small hτ C.fineW h3 h4 h5 h6
  have l1 : ∀ x y : K, |x| ≤ |x| + |y| := fun x y => le_add_of_nonneg_right (abs_nonneg _)
  have l2 : ∀ x y : K, |y| ≤ |x| + |y| := fun x y => le_add_of_nonneg_left (abs_nonneg _)
  exact ⟨key _ _ _ _ _ _ _ s1.1 s2.1 (A.err _) (A.err _) (A.err _) (l1 _ _),
    key _ _ _ _ _ _ _ s1.1 s2.1 (A.err _) (A.err _) (A.err _) (l2 _ _),
    key _ _ _ _ _ _ _ s1.2 s2.2 (A.err _) (A.err _) (A.err _) (l1 _ _),
    key _ _ _ _ _ _ _ s1.2 s2.2 (A.err _) (A.err _) (A.err _) (l2 _ _)⟩

/-- vertical flux of a step -/
theorem fz_ap (A : Accurate R u η)
    (H : Sized u η V σ dt.val kvf.val (exactG g).a (exactF F) (exactS S0) (exactS S1) (exactA mask))
    {S : States (m + 2) (n + 2) (Fl R)} (hS : S = S0 ∨ S = S1) :
    let X := stabilizeFluxes dt g.a (scaleFluxes g F) S
    let Y := stabilizeFluxes dt.val (exactG g).a (scaleFluxes (exactG g) (exactF F)) (exactS S)
    ∀ i j, Ap u (V / ((g.a i).val * dt.val)) 703 1 (calculateFz g.a X S0 S1 dt kvf i j)
      (calculateFz (exactG g).a Y (exactS S0) (exactS S1) dt.val kvf.val i j) := by
  intro X Y i j
  obtain ⟨C, _, hσ', hτ⟩ := Sized.cell dt kvf g F S0 S1 mask A H i
  have st := stable_ap A H hS
  obtain ⟨w1, w2, w3, w4⟩ := H.wet i j
  obtain ⟨b1, b2, b3, b4⟩ := H.storage i j
  have ha1 : 1 ≤ (g.a i).val := H.area i
  have ha := C.a_pos
  have hdt := C.dt_pos
  have d := fun b (h : b * (g.a i).val ≤ V) => le_div_area ha h
  have hη := C.η_le A
  have rate : ∀ x : K, |x| * ((g.a i).val * dt.val) ≤ V → |x| ≤ V / dt.val := by
    intro x h
    rw [le_div_iff₀ hdt]
    refine le_trans ?_ h
    have : 0 ≤ |x| * dt.val := by positivity
    calc |x| * dt.val = (|x| * dt.val) * 1 := by ring
      _ ≤ (|x| * dt.val) * (g.a i).val := mul_le_mul_of_nonneg_left ha1 this
      _ = _ := by ring
  unfold calculateFz
  exact fzLimit_ap A C hσ' H.σ_pos w1 w2 w3 w4 (d _ b1) (d _ b2) (d _ b3) (d _ b4)
    (fzClosure_ap A C hσ' H.σ_pos w1 w2 w3 w4 (d _ b1) (d _ b2) (d _ b3) (d _ b4)
      (divergence_ap A C.fineW C.fineW2 hη (fun i j => (st i j).1) (fun i j => (st i j).2.1) i j)
      (divergence_ap A C.fineW C.fineW2 hη (fun i j => (st i j).2.2.1) (fun i j => (st i j).2.2.2) i j)
      (rate _ (H.rain i j)) (rate _ (H.evap i j)))

set_option maxHeartbeats 1000000 in
/-- a forward step, rounded and exact -/
theorem fwd_close (A : Accurate R u η)
    (H : Sized u η V σ dt.val kvf.val (exactG g).a (exactF F) (exactS S0) (exactS S1) (exactA mask))
    (out : FwdOutput (m + 2) (n + 2) (Fl R)) {P : K} (hout : BoundedFwd V P (exactG g).a (exactFwd out))
    (hpos : ∀ i j, 0 ≤ (out.s_track_lower i j).val ∧ 0 ≤ (out.s_track_upper i j).val) :
    let X := stabilizeFluxes dt g.a (scaleFluxes g F) S0
    let Y := stabilizeFluxes dt.val (exactG g).a (scaleFluxes (exactG g) (exactF F)) (exactS S0)
    let Z := forwardtrack periodic dt kvf g.a X (calculateFz g.a X S0 S1 dt kvf) S1 S0 mask out
    CloseFwd (7280 * u * (1 + kvf.val) * V) (u * (P + 30 * V)) (u * (P + 19800 * (1 + kvf.val) * V)) (exactG g).a
      (exactFwd Z)
      (forwardtrack periodic dt.val kvf.val (exactG g).a Y
        (calculateFz (exactG g).a Y (exactS S0) (exactS S1) dt.val kvf.val) (exactS S1) (exactS S0)
        (exactA mask) (exactFwd out)) ∧
    BoundedFwd V ((1 + u) * P + 72 * (1 + kvf.val) * V) (exactG g).a (exactFwd Z) := by
  intro X Y Z
  refine forall_and_cells fun i j => ?_
  obtain ⟨C, hGσ, hσ', hτ⟩ := Sized.cell dt kvf g F S0 S1 mask A H i
  have st := stable_ap A H (S := S0) (Or.inl rfl)
  have fz := fz_ap A H (S := S0) (Or.inl rfl) i j
  obtain ⟨w1, w2, w3, w4⟩ := H.wet i j
  obtain ⟨b1, b2, b3, b4⟩ := H.storage i j
  obtain ⟨o1, o2, o3, o4, o5, o6, o7⟩ := hout i j
  have ha := C.a_pos
  have hdt := C.dt_pos
  have hσ := H.σ_pos
  have hη := C.η_le A
  have hu := A.u_nonneg
  have hG := C.fineG
  have hG0 := hG.nonneg
  have hβ := C.fineβ
  have hβ0 := hβ.nonneg
  have hκG := C.fineκG A
  have hκβ := C.fineκβ A
  have hκ := C.κ_pos
  have d := fun b (h : b * (g.a i).val ≤ V) => le_div_area ha h
  have up : ∀ {x : Fl R} {y e k : K}, Ap u (V / ((g.a i).val * dt.val)) e k x y → 0 ≤ e → 0 ≤ k →
      Ap u ((1 + kvf.val) * (V / ((g.a i).val * dt.val))) e k x y :=
    fun h he hk => h.scale A he hk (C.le_κ hG0)
  -- relative storages
  have rl : ∀ i j, Ap u 1 2 1 (relStorage (out.s_track_lower i j) (S0.s_lower i j))
      (relStorage (out.s_track_lower i j).val (S0.s_lower i j).val) := fun i j =>
    relStorage_ap A hη (hpos i j).1 (lt_of_lt_of_le hσ (H.wet i j).2.1)
  have ru : ∀ i j, Ap u 1 2 1 (relStorage (out.s_track_upper i j) (S0.s_upper i j))
      (relStorage (out.s_track_upper i j).val (S0.s_upper i j).val) := fun i j =>
    relStorage_ap A hη (hpos i j).2 (lt_of_lt_of_le hσ (H.wet i j).1)
  -- transport terms
  have cl := (common_ap A C (advect_ap A C.fineW hη periodic false rl (fun i j => (st i j).2.2.1)
    (fun i j => (st i j).2.2.2) i j) fz (rl i j) (ru i j)).1
  have cu := (common_ap A C (advect_ap A C.fineW hη periodic false ru (fun i j => (st i j).1)
    (fun i j => (st i j).2.1) i j) fz (rl i j) (ru i j)).2
  have hp : |(F.precip i j).val| ≤ V / ((g.a i).val * dt.val) := le_div_area (by positivity) (H.rain i j)
  have he : |(F.evap i j).val| ≤ V / ((g.a i).val * dt.val) := le_div_area (by positivity) (H.evap i j)
  have tag : Ap u (V / ((g.a i).val * dt.val)) 3 1 (mask i j * F.evap i j)
      ((mask i j).val * (F.evap i j).val) :=
    (Ap.mulExact (m := 1) A hG (by
      rw [abs_mul, one_mul]
      calc |(mask i j).val| * |(F.evap i j).val| ≤ 1 * |(F.evap i j).val| :=
            mul_le_mul_of_nonneg_right (H.mask i j) (abs_nonneg _)
        _ ≤ _ := by rw [one_mul]; exact he)).weaken A hG0 (by norm_num) le_rfl
  have ap : Ap u (V / ((g.a i).val * dt.val)) 3 1 (F.precip i j) (F.precip i j).val :=
    (Ap.exact (m := 1) (F.precip i j) (by rw [one_mul]; exact hp)).weaken A hG0 (by norm_num) le_rfl
  have shl := share_ap A C hσ' hσ hGσ w1 w2 ap (S0.s_lower i j) (Or.inr rfl)
  have shu := share_ap A C hσ' hσ hGσ w1 w2 ap (S0.s_upper i j) (Or.inl rfl)
  have prl := (Ap.mul A hG shl (rl i j) hG0 zero_le_one (by ring) (by norm_num) (by norm_num) (by norm_num)
    (by norm_num)).weaken A hG0 (e := 20) (m := 1) (by norm_num) (by norm_num)
  have pru := (Ap.mul A hG shu (ru i j) hG0 zero_le_one (by ring) (by norm_num) (by norm_num) (by norm_num)
    (by norm_num)).weaken A hG0 (e := 20) (m := 1) (by norm_num) (by norm_num)
  have xl := (Ap.sub A hκG ((Ap.add A hκG cl (up tag (by norm_num) zero_le_one) (by norm_num)).weaken A
    hκG.nonneg (e := 2321) (m := 6) (by norm_num) (by norm_num)) (up prl (by norm_num) zero_le_one)
    (by norm_num)).weaken A hκG.nonneg (e := 2370) (m := 7) (by norm_num) (by norm_num)
  have xu := (Ap.sub A hκG cu (up pru (by norm_num) zero_le_one)
    (by norm_num)).weaken A hκG.nonneg (e := 2370) (m := 7) (by norm_num) (by norm_num)
  have tl := tendency_ap A C (d _ o1) xl
  have tu := tendency_ap A C (d _ o2) xu
  have b3' : |(S1.s_upper i j).val| ≤ (1 + kvf.val) * (V / (g.a i).val) := by
    rw [abs_of_nonneg (show 0 ≤ (S1.s_upper i j).val from hσ.le.trans w3)]; exact (d _ b3).trans (C.le_κ hβ0)
  have b4' : |(S1.s_lower i j).val| ≤ (1 + kvf.val) * (V / (g.a i).val) := by
    rw [abs_of_nonneg (show 0 ≤ (S1.s_lower i j).val from hσ.le.trans w4)]; exact (d _ b4).trans (C.le_κ hβ0)
  obtain ⟨r1, r2, r3, r4⟩ := settle_ap A hκβ (getBoundary periodic i j) tl tu b4' b3'
  -- accumulated fields
  have adt : Ap u dt.val 0 1 dt dt.val := Ap.exact dt (by rw [one_mul, abs_of_pos hdt])
  have acc : ∀ {o x : Fl R} {y : K}, |o.val| * (g.a i).val ≤ P →
      Ap u (V / ((g.a i).val * dt.val)) 20 1 x y →
      (g.a i).val * |(o + x * dt).val - (o.val + y * dt.val)| ≤ u * (P + 30 * V) ∧
      |(o + x * dt).val| * (g.a i).val ≤ (1 + u) * P + 72 * (1 + kvf.val) * V := by
    intro o x y ho hx
    have a1 := (Ap.mul A hβ hx adt hG0 hdt.le (by field_simp) (by norm_num) le_rfl (by norm_num)
      (by norm_num)).weaken A hβ0 (e := 24) (m := 1) (by norm_num) (by norm_num)
    have hV := C.fineV.nonneg
    have hkV := mul_nonneg C.kvf_nonneg hV
    have := accum_ap A hβ (by norm_num) (by norm_num) (le_div_area ha ho) a1
    refine ⟨?_, ?_⟩
    swap
    · calc _ ≤ ((1 + u) * (P / (g.a i).val) + (1 + 1) * (V / (g.a i).val)) * (g.a i).val :=
            mul_le_mul_of_nonneg_right this.2 ha.le
        _ = (1 + u) * P + 2 * V := by field_simp; ring
        _ ≤ _ := by linarith
    calc _ ≤ (g.a i).val * (u * (P / (g.a i).val + (24 + 1 + 2) * (V / (g.a i).val))) :=
          mul_le_mul_of_nonneg_left this.1 ha.le
      _ = u * (P + 27 * V) := by field_simp; ring
      _ ≤ _ := mul_le_mul_of_nonneg_left (by linarith [C.fineV.nonneg]) hu
  have acc' : ∀ {o x : Fl R} {y e k : K}, |o.val| * (g.a i).val ≤ P → e ≤ 19600 → k ≤ 70 →
      Ap u ((1 + kvf.val) * (V / (g.a i).val)) e k x y →
      (g.a i).val * |(o + x).val - (o.val + y)| ≤ u * (P + 19800 * (1 + kvf.val) * V) ∧
      |(o + x).val| * (g.a i).val ≤ (1 + u) * P + 72 * (1 + kvf.val) * V := by
    intro o x y e k ho he hk hx
    have := accum_ap A hκβ (by norm_num) (by norm_num) (le_div_area ha ho) (hx.weaken A hκβ.nonneg he hk)
    have h0 : 0 ≤ (1 + kvf.val) * V := mul_nonneg hκ.le C.fineV.nonneg
    refine ⟨?_, ?_⟩
    swap
    · calc _ ≤ ((1 + u) * (P / (g.a i).val) + (70 + 1) * ((1 + kvf.val) * (V / (g.a i).val))) * (g.a i).val :=
            mul_le_mul_of_nonneg_right this.2 ha.le
        _ = (1 + u) * P + 71 * ((1 + kvf.val) * V) := by field_simp; ring
        _ ≤ _ := by linarith
    calc _ ≤ (g.a i).val * (u * (P / (g.a i).val + (19600 + 70 + 2) * ((1 + kvf.val) * (V / (g.a i).val)))) :=
          mul_le_mul_of_nonneg_left this.1 ha.le
      _ = u * (P + 19672 * ((1 + kvf.val) * V)) := by field_simp; ring
      _ ≤ _ := mul_le_mul_of_nonneg_left (by linarith) hu
  have done : ∀ {x : Fl R} {y e k : K}, Ap u ((1 + kvf.val) * (V / (g.a i).val)) e k x y →
      (g.a i).val * |x.val - y| ≤ e * u * (1 + kvf.val) * V := by
    intro x y e k h
    calc _ ≤ (g.a i).val * (e * (u * ((1 + kvf.val) * (V / (g.a i).val)))) :=
          mul_le_mul_of_nonneg_left h.err ha.le
      _ = _ := by field_simp
  have bnd : ∀ {x S : Fl R}, 0 ≤ x ∧ x ≤ S → S.val * (g.a i).val ≤ V → |x.val| * (g.a i).val ≤ V := by
    intro x S h hS
    have h1 : 0 ≤ x.val := by simpa using (Fl.le_def _ _).1 h.1
    rw [abs_of_nonneg h1]
    exact (mul_le_mul_of_nonneg_right ((Fl.le_def _ _).1 h.2) ha.le).trans hS
  have nn : ∀ z : Fl R, σ ≤ z.val → 0 ≤ z := fun z h => (Fl.le_def _ _).2 (by rw [Fl.val_zero]; linarith)
  have sb := settleFl_bounds (getBoundary periodic i j)
    ((fwdTransport periodic dt kvf g.a X (calculateFz g.a X S0 S1 dt kvf) S0 mask out.s_track_lower
      out.s_track_upper).1 i j)
    ((fwdTransport periodic dt kvf g.a X (calculateFz g.a X S0 S1 dt kvf) S0 mask out.s_track_lower
      out.s_track_upper).2 i j) (S1.s_lower i j) (S1.s_upper i j) (nn _ w4) (nn _ w3)
  have a3 := acc o3 (tag.weaken A hG0 (by norm_num) le_rfl)
  have a4 := acc o4 prl
  have a5 := acc o5 pru
  have a6 := acc' o6 le_rfl le_rfl r3
  have a7 := acc' o7 (by norm_num) (by norm_num) r4
  exact ⟨⟨⟨done r1, done r2⟩, ⟨a3.1, a4.1, a5.1⟩, ⟨a6.1, a7.1⟩⟩,
    ⟨bnd sb.1 b4, bnd sb.2 b3, a3.2, a4.2, a5.2, a6.2, a7.2⟩⟩

set_option maxHeartbeats 1000000 in
/-- a backward step, rounded and exact -/
theorem bwd_close (A : Accurate R u η)
    (H : Sized u η V σ dt.val kvf.val (exactG g).a (exactF F) (exactS S0) (exactS S1) (exactA mask))
    (out : BwdOutput (m + 2) (n + 2) (Fl R)) {P : K} (hout : BoundedBwd V P (exactG g).a (exactBwd out))
    (hpos : ∀ i j, 0 ≤ (out.s_track_lower i j).val ∧ 0 ≤ (out.s_track_upper i j).val) :
    let X := stabilizeFluxes dt g.a (scaleFluxes g F) S1
    let Y := stabilizeFluxes dt.val (exactG g).a (scaleFluxes (exactG g) (exactF F)) (exactS S1)
    let Z := backtrack periodic dt kvf g.a X (calculateFz g.a X S0 S1 dt kvf) S1 S0 mask out
    CloseBwd (7280 * u * (1 + kvf.val) * V) (u * (P + 30 * V)) (u * (P + 19800 * (1 + kvf.val) * V)) (exactG g).a
      (exactBwd Z)
      (backtrack periodic dt.val kvf.val (exactG g).a Y
        (calculateFz (exactG g).a Y (exactS S0) (exactS S1) dt.val kvf.val) (exactS S1) (exactS S0)
        (exactA mask) (exactBwd out)) ∧
    BoundedBwd V ((1 + u) * P + 72 * (1 + kvf.val) * V) (exactG g).a (exactBwd Z) := by
  intro X Y Z
  refine forall_and_cells fun i j => ?_
  obtain ⟨C, hGσ, hσ', hτ⟩ := Sized.cell dt kvf g F S0 S1 mask A H i
  have st := stable_ap A H (S := S1) (Or.inr rfl)
  have fz := (fz_ap A H (S := S1) (Or.inr rfl) i j).neg
  obtain ⟨w1, w2, w3, w4⟩ := H.wet i j
  obtain ⟨b1, b2, b3, b4⟩ := H.storage i j
  obtain ⟨o1, o2, o3, o4, o6, o7⟩ := hout i j
  have ha := C.a_pos
  have hdt := C.dt_pos
  have hσ := H.σ_pos
  have hη := C.η_le A
  have hu := A.u_nonneg
  have hG := C.fineG
  have hG0 := hG.nonneg
  have hβ := C.fineβ
  have hβ0 := hβ.nonneg
  have hκG := C.fineκG A
  have hκβ := C.fineκβ A
  have hκ := C.κ_pos
  have d := fun b (h : b * (g.a i).val ≤ V) => le_div_area ha h
  have up : ∀ {x : Fl R} {y e k : K}, Ap u (V / ((g.a i).val * dt.val)) e k x y → 0 ≤ e → 0 ≤ k →
      Ap u ((1 + kvf.val) * (V / ((g.a i).val * dt.val))) e k x y :=
    fun h he hk => h.scale A he hk (C.le_κ hG0)
  have rl : ∀ i j, Ap u 1 2 1 (relStorage (out.s_track_lower i j) (S1.s_lower i j))
      (relStorage (out.s_track_lower i j).val (S1.s_lower i j).val) := fun i j =>
    relStorage_ap A hη (hpos i j).1 (lt_of_lt_of_le hσ (H.wet i j).2.2.2)
  have ru : ∀ i j, Ap u 1 2 1 (relStorage (out.s_track_upper i j) (S1.s_upper i j))
      (relStorage (out.s_track_upper i j).val (S1.s_upper i j).val) := fun i j =>
    relStorage_ap A hη (hpos i j).2 (lt_of_lt_of_le hσ (H.wet i j).2.2.1)
  have cl := (common_ap A C (advect_ap A C.fineW hη periodic true rl (fun i j => (st i j).2.2.1)
    (fun i j => (st i j).2.2.2) i j) fz (rl i j) (ru i j)).1
  have cu := (common_ap A C (advect_ap A C.fineW hη periodic true ru (fun i j => (st i j).1)
    (fun i j => (st i j).2.1) i j) fz (rl i j) (ru i j)).2
  have hp : |(F.precip i j).val| ≤ V / ((g.a i).val * dt.val) := le_div_area (by positivity) (H.rain i j)
  have he : |(F.evap i j).val| ≤ V / ((g.a i).val * dt.val) := le_div_area (by positivity) (H.evap i j)
  have tag : Ap u (V / ((g.a i).val * dt.val)) 3 1 (mask i j * F.precip i j)
      ((mask i j).val * (F.precip i j).val) :=
    (Ap.mulExact (m := 1) A hG (by
      rw [abs_mul, one_mul]
      calc |(mask i j).val| * |(F.precip i j).val| ≤ 1 * |(F.precip i j).val| :=
            mul_le_mul_of_nonneg_right (H.mask i j) (abs_nonneg _)
        _ ≤ _ := by rw [one_mul]; exact hp)).weaken A hG0 (by norm_num) le_rfl
  have ae : Ap u (V / ((g.a i).val * dt.val)) 0 1 (F.evap i j) (F.evap i j).val :=
    Ap.exact (m := 1) (F.evap i j) (by rw [one_mul]; exact he)
  have shl := share_ap A C hσ' hσ hGσ w3 w4 tag (S1.s_lower i j) (Or.inr rfl)
  have shu := share_ap A C hσ' hσ hGσ w3 w4 tag (S1.s_upper i j) (Or.inl rfl)
  have erl := (Ap.mul A hG ae (rl i j) hG0 zero_le_one (by ring) (by norm_num) (by norm_num) (by norm_num)
    (by norm_num)).weaken A hG0 (e := 20) (m := 1) (by norm_num) (by norm_num)
  have xl := (Ap.sub A hκG ((Ap.add A hκG cl (up shl (by norm_num) zero_le_one) (by norm_num)).weaken A
    hκG.nonneg (e := 2332) (m := 6) (by norm_num) (by norm_num)) (up erl (by norm_num) zero_le_one)
    (by norm_num)).weaken A hκG.nonneg (e := 2370) (m := 7) (by norm_num) (by norm_num)
  have xu := (Ap.add A hκG cu (up shu (by norm_num) zero_le_one)
    (by norm_num)).weaken A hκG.nonneg (e := 2370) (m := 7) (by norm_num) (by norm_num)
  have tl := tendency_ap A C (d _ o1) xl
  have tu := tendency_ap A C (d _ o2) xu
  have b1' : |(S0.s_upper i j).val| ≤ (1 + kvf.val) * (V / (g.a i).val) := by
    rw [abs_of_nonneg (show 0 ≤ (S0.s_upper i j).val from hσ.le.trans w1)]; exact (d _ b1).trans (C.le_κ hβ0)
  have b2' : |(S0.s_lower i j).val| ≤ (1 + kvf.val) * (V / (g.a i).val) := by
    rw [abs_of_nonneg (show 0 ≤ (S0.s_lower i j).val from hσ.le.trans w2)]; exact (d _ b2).trans (C.le_κ hβ0)
  obtain ⟨r1, r2, r3, r4⟩ := settle_ap A hκβ (getBoundary periodic i j) tl tu b2' b1'
  have adt : Ap u dt.val 0 1 dt dt.val := Ap.exact dt (by rw [one_mul, abs_of_pos hdt])
  have acc : ∀ {o x : Fl R} {y : K}, |o.val| * (g.a i).val ≤ P →
      Ap u (V / ((g.a i).val * dt.val)) 20 1 x y →
      (g.a i).val * |(o + x * dt).val - (o.val + y * dt.val)| ≤ u * (P + 30 * V) ∧
      |(o + x * dt).val| * (g.a i).val ≤ (1 + u) * P + 72 * (1 + kvf.val) * V := by
    intro o x y ho hx
    have a1 := (Ap.mul A hβ hx adt hG0 hdt.le (by field_simp) (by norm_num) le_rfl (by norm_num)
      (by norm_num)).weaken A hβ0 (e := 24) (m := 1) (by norm_num) (by norm_num)
    have hV := C.fineV.nonneg
    have hkV := mul_nonneg C.kvf_nonneg hV
    have := accum_ap A hβ (by norm_num) (by norm_num) (le_div_area ha ho) a1
    refine ⟨?_, ?_⟩
    swap
    · calc _ ≤ ((1 + u) * (P / (g.a i).val) + (1 + 1) * (V / (g.a i).val)) * (g.a i).val :=
            mul_le_mul_of_nonneg_right this.2 ha.le
        _ = (1 + u) * P + 2 * V := by field_simp; ring
        _ ≤ _ := by linarith
    calc _ ≤ (g.a i).val * (u * (P / (g.a i).val + (24 + 1 + 2) * (V / (g.a i).val))) :=
          mul_le_mul_of_nonneg_left this.1 ha.le
      _ = u * (P + 27 * V) := by field_simp; ring
      _ ≤ _ := mul_le_mul_of_nonneg_left (by linarith [C.fineV.nonneg]) hu
  have acc' : ∀ {o x : Fl R} {y e k : K}, |o.val| * (g.a i).val ≤ P → e ≤ 19600 → k ≤ 70 →
      Ap u ((1 + kvf.val) * (V / (g.a i).val)) e k x y →
      (g.a i).val * |(o + x).val - (o.val + y)| ≤ u * (P + 19800 * (1 + kvf.val) * V) ∧
      |(o + x).val| * (g.a i).val ≤ (1 + u) * P + 72 * (1 + kvf.val) * V := by
    intro o x y e k ho he hk hx
    have := accum_ap A hκβ (by norm_num) (by norm_num) (le_div_area ha ho) (hx.weaken A hκβ.nonneg he hk)
    have h0 : 0 ≤ (1 + kvf.val) * V := mul_nonneg hκ.le C.fineV.nonneg
    refine ⟨?_, ?_⟩
    swap
    · calc _ ≤ ((1 + u) * (P / (g.a i).val) + (70 + 1) * ((1 + kvf.val) * (V / (g.a i).val))) * (g.a i).val :=
            mul_le_mul_of_nonneg_right this.2 ha.le
        _ = (1 + u) * P + 71 * ((1 + kvf.val) * V) := by field_simp; ring
        _ ≤ _ := by linarith
    calc _ ≤ (g.a i).val * (u * (P / (g.a i).val + (19600 + 70 + 2) * ((1 + kvf.val) * (V / (g.a i).val)))) :=
          mul_le_mul_of_nonneg_left this.1 ha.le
      _ = u * (P + 19672 * ((1 + kvf.val) * V)) := by field_simp; ring
      _ ≤ _ := mul_le_mul_of_nonneg_left (by linarith) hu
  have done : ∀ {x : Fl R} {y e k : K}, Ap u ((1 + kvf.val) * (V / (g.a i).val)) e k x y →
      (g.a i).val * |x.val - y| ≤ e * u * (1 + kvf.val) * V := by
    intro x y e k h
    calc _ ≤ (g.a i).val * (e * (u * ((1 + kvf.val) * (V / (g.a i).val)))) :=
          mul_le_mul_of_nonneg_left h.err ha.le
      _ = _ := by field_simp
  have bnd : ∀ {x S : Fl R}, 0 ≤ x ∧ x ≤ S → S.val * (g.a i).val ≤ V → |x.val| * (g.a i).val ≤ V := by
    intro x S h hS
    have h1 : 0 ≤ x.val := by simpa using (Fl.le_def _ _).1 h.1
    rw [abs_of_nonneg h1]
    exact (mul_le_mul_of_nonneg_right ((Fl.le_def _ _).1 h.2) ha.le).trans hS
  have nn : ∀ z : Fl R, σ ≤ z.val → 0 ≤ z := fun z h => (Fl.le_def _ _).2 (by rw [Fl.val_zero]; linarith)
  have sb := settleFl_bounds (getBoundary periodic i j)
    ((bwdTransport periodic dt kvf g.a X (calculateFz g.a X S0 S1 dt kvf) S1 mask out.s_track_lower
      out.s_track_upper).1 i j)
    ((bwdTransport periodic dt kvf g.a X (calculateFz g.a X S0 S1 dt kvf) S1 mask out.s_track_lower
      out.s_track_upper).2 i j) (S0.s_lower i j) (S0.s_upper i j) (nn _ w2) (nn _ w1)
  have a3 := acc o3 (tag.weaken A hG0 (by norm_num) le_rfl)
  have a4 := acc o4 erl
  have a6 := acc' o6 le_rfl le_rfl r3
  have a7 := acc' o7 (by norm_num) (by norm_num) r4
  exact ⟨⟨⟨done r1, done r2⟩, ⟨a3.1, a4.1⟩, ⟨a6.1, a7.1⟩⟩,
    ⟨bnd sb.1 b2, bnd sb.2 b1, a3.2, a4.2, a6.2, a7.2⟩⟩

end step

end Wam
