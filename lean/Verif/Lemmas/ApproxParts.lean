import Verif.Lemmas.Approx
import Verif.Lemmas.Stability
import Verif.Lemmas.Step

/-! Rounding errors of the parts of a tracking step: relative storage, stability correction, advection. -/

set_option linter.unusedSectionVars false
set_option linter.unusedVariables false

namespace Wam
open Spec

variable {K : Type*} [Field K] [LinearOrder K] [IsStrictOrderedRing K] {R : Rounding K} {u η : K} {m n : ℕ}

theorem Fl.val_abs (x : Fl R) : (absolute x).val = |x.val| := Fl.val_max x (-x)

theorem Fl.val_sign_mul (x s : Fl R) : (NpOps.sign x * s).val = NpOps.sign x.val * s.val := by
  have e : NpOps.sign x = if 0 < x then (1 : Fl R) else if x < 0 then -1 else 0 := rfl
  rw [e, np_sign]
  have h1 : (0 < x) = (0 < x.val) := rfl
  have h2 : (x < 0) = (x.val < 0) := rfl
  rw [Fl.val_mul]
  by_cases p : 0 < x.val
  · rw [if_pos (show 0 < x from p), if_pos p]
    simp [s.rep]
  · rw [if_neg (show ¬ 0 < x from p), if_neg p]
    by_cases q : x.val < 0
    · rw [if_pos (show x < 0 from q), if_pos q]
      simp [R.neg, s.rep]
    · rw [if_neg (show ¬ x < 0 from q), if_neg q]
      simp [R.zero]

theorem relStorage_ap (A : Accurate R u η) (hη : η ≤ u) {t s : Fl R} (ht : 0 ≤ t.val) (hs : 0 < s.val) :
    Ap u 1 2 1 (relStorage t s) (relStorage t.val s.val) := by
  have e1 : relStorage t.val s.val = min (t.val / s.val) 1 := by simp [relStorage]
  have e2 : (relStorage t s).val = min (R.rnd (t.val / s.val)) 1 := by
    simp only [relStorage, Fl.np_min, Fl.ofRat_one]
    rw [Fl.val_min]; rfl
  have hq : 0 ≤ t.val / s.val := div_nonneg ht hs.le
  refine ⟨?_, ?_⟩
  · rw [e1, e2]
    rcases le_total (t.val / s.val) 1 with h | h
    · have h' : R.rnd (t.val / s.val) ≤ 1 := by have := R.mono h; rwa [R.one] at this
      rw [min_eq_left h, min_eq_left h']
      have := A.err (t.val / s.val)
      rw [abs_of_nonneg hq] at this
      have h3 := mul_le_mul_of_nonneg_left h A.u_nonneg
      linarith
    · have h' : 1 ≤ R.rnd (t.val / s.val) := by have := R.mono h; rwa [R.one] at this
      rw [min_eq_right h, min_eq_right h', sub_self, abs_zero]
      have := A.u_nonneg
      linarith
  · rw [e1, mul_one, abs_of_nonneg (le_min hq zero_le_one)]
    exact min_le_right _ _

/-- the literal 2 -/
theorem two_ap (A : Accurate R u η) (hη : η ≤ u) : Ap u 2 2 1 (ofRat 2 : Fl R) 2 := by
  refine ⟨?_, by simp⟩
  have := A.err 2
  have h := A.u_nonneg
  rw [abs_of_pos (by norm_num : (0 : K) < 2)] at this
  change |R.rnd ((2 : ℚ) : K) - 2| ≤ _
  have e : ((2 : ℚ) : K) = 2 := by norm_num
  rw [e]
  linarith

/-- the literal 0.5 -/
theorem half_ap (A : Accurate R u η) (hη : η ≤ u) :
    Ap u 1 (5 / 2) (1 / 2) (ofRat (1 / 2) : Fl R) (1 / 2) := by
  have h : Fine u η 1 := ⟨zero_le_one, by simpa using hη⟩
  have := Ap.lit (m := 1 / 2) A (1 / 2) h (by push_cast; rw [abs_of_pos] <;> norm_num)
  have e : ((1 / 2 : ℚ) : K) = 1 / 2 := by push_cast; rfl
  rw [e] at this
  exact this.weaken A zero_le_one (by norm_num) le_rfl

/-- `1 / 2` as a quotient of literals -/
theorem half_div_ap (A : Accurate R u η) (hη : 2 * η ≤ u) :
    Ap u (1 / 2) (51 / 10) 1 (ofRat 1 / ofRat 2 : Fl R) (1 / 2) := by
  have hu := A.u_nonneg
  have h0 := A.η_nonneg
  have h1 : Ap u 1 0 1 (ofRat 1 : Fl R) 1 := by
    rw [Fl.ofRat_one]; exact ⟨by simp, by simp⟩
  have := Ap.div (b := 1 / 2) A ⟨by norm_num, by linarith⟩ h1 two_pos (two_ap A (by linarith)) (by norm_num)
    le_rfl zero_le_one (by norm_num) (by norm_num) (by norm_num)
  exact this.weaken A (by norm_num) (by norm_num) le_rfl

/-- the clamp is Lipschitz in the value and in the limit -/
theorem clamp_sub_le (L l x y : K) (hL : 0 ≤ L) (hl : 0 ≤ l) :
    |clamp L x - clamp l y| ≤ |L - l| + |x - y| := by
  unfold clamp
  have h1 := abs_min_sub_min_le_max L x l y
  have h2 := abs_max_sub_max_le_max (-L) (min L x) (-l) (min l y)
  have h3 : |-L - -l| = |L - l| := by rw [show -L - -l = -(L - l) by ring, abs_neg]
  rw [h3] at h2
  have h4 : max |L - l| |x - y| ≤ |L - l| + |x - y| :=
    max_le (le_add_of_nonneg_right (abs_nonneg _)) (le_add_of_nonneg_left (abs_nonneg _))
  exact h2.trans (max_le (le_add_of_nonneg_right (abs_nonneg _)) (h1.trans h4))

theorem clamp_of_ge {L x : K} (hL : 0 ≤ L) (h : L ≤ x) : clamp L x = L := by
  unfold clamp
  rw [min_eq_left h, max_eq_right (by linarith)]

theorem clamp_of_le {L x : K} (hL : 0 ≤ L) (h : x ≤ -L) : clamp L x = -L := by
  unfold clamp
  rw [min_eq_right (by linarith), max_eq_left h]

theorem abs_clamp_le {L x : K} (hL : 0 ≤ L) : |clamp L x| ≤ L := by
  unfold clamp
  exact abs_le.2 ⟨le_max_left _ _, max_le (by linarith) (min_le_left _ _)⟩

theorem abs_clamp_le' {L x : K} (hL : 0 ≤ L) : |clamp L x| ≤ |x| := by
  have := clamp_sub_le L L x 0 hL hL
  have z : clamp L 0 = 0 := by simp [clamp, hL]
  simpa [z] using this

/-- clamping a number with a relative error -/
theorem clamp_close {X x L l V t c : K} (hu : 0 ≤ u) (hu' : u ≤ 1 / 10000000) (hV : 0 ≤ V) (hL : 0 ≤ L)
    (hl : 0 ≤ l) (hx : |X - x| ≤ 3 * u * |x| + t) (ht0 : 0 ≤ t) (ht : t ≤ u * V)
    (hlV : l ≤ V / 2) (hLl : |L - l| ≤ c * (u * V)) (hc : c ≤ 100) :
    |clamp L X - clamp l x| ≤ (c + 4) * (u * V) := by
  have huV := mul_nonneg hu hV
  have huV' := mul_le_mul_of_nonneg_right hu' hV
  rcases le_total |x| V with h | h
  · refine (clamp_sub_le L l X x hL hl).trans ?_
    have h3 : 3 * u * |x| ≤ 3 * u * V := mul_le_mul_of_nonneg_left h (by linarith)
    linarith
  · have hL' : L ≤ V * (3 / 5) := by
      have h1 := le_abs_self (L - l)
      have h2 : c * (u * V) ≤ 100 * (u * V) := mul_le_mul_of_nonneg_right hc huV
      linarith
    have h3 : 3 * u * |x| ≤ 3 / 10000000 * |x| := mul_le_mul_of_nonneg_right (by linarith) (abs_nonneg _)
    have h4 := abs_le.1 hx
    have h5 := le_abs_self (L - l)
    have h6 := neg_abs_le (L - l)
    rcases le_total 0 x with h7 | h7
    · rw [abs_of_nonneg h7] at h h3 h4
      have e1 : L ≤ X := by linarith
      have e2 : l ≤ x := by linarith
      rw [clamp_of_ge hL e1, clamp_of_ge hl e2]
      linarith
    · rw [abs_of_nonpos h7] at h h3 h4
      have e1 : X ≤ -L := by linarith
      have e2 : x ≤ -l := by linarith
      rw [clamp_of_le hL e1, clamp_of_le hl e2, show -L - -l = -(L - l) by ring, abs_neg]
      linarith

/-- `f * dt` for a flux known up to one rounding -/
theorem times_dt (A : Accurate R u η) {dt X : Fl R} {x : K} (hdt : 0 < dt.val)
    (hX : |X.val - x| ≤ u * |x| + η) :
    |(X * dt).val - x * dt.val| ≤ 3 * u * |x * dt.val| + 2 * (dt.val + 1) * η := by
  have hu := A.u_nonneg
  have hu' := A.u_small
  have h0 := A.η_nonneg
  have h1 := A.err (X.val * dt.val)
  have e1 : |x * dt.val| = |x| * dt.val := by rw [abs_mul, abs_of_pos hdt]
  have h2 : |X.val * dt.val - x * dt.val| ≤ (u * |x| + η) * dt.val := by
    rw [← sub_mul, abs_mul, abs_of_pos hdt]
    exact mul_le_mul_of_nonneg_right hX hdt.le
  have h3 : |X.val * dt.val| ≤ |x| * dt.val + (u * |x| + η) * dt.val := by
    rw [← e1]
    calc |X.val * dt.val| = |x * dt.val + (X.val * dt.val - x * dt.val)| := by rw [add_sub_cancel]
      _ ≤ _ := (abs_add_le _ _).trans (by linarith)
  rw [Fl.val_mul, e1]
  have h4 : u * |X.val * dt.val| ≤ u * (|x| * dt.val + (u * |x| + η) * dt.val) :=
    mul_le_mul_of_nonneg_left h3 hu
  have h5 : u * ((u * |x| + η) * dt.val) ≤ 1 * ((u * |x| + η) * dt.val) :=
    mul_le_mul_of_nonneg_right (by linarith) (by positivity)
  have h6 : |R.rnd (X.val * dt.val) - x * dt.val| ≤
      |R.rnd (X.val * dt.val) - X.val * dt.val| + |X.val * dt.val - x * dt.val| := abs_sub_le _ _ _
  have h7 : 0 ≤ η * dt.val := by positivity
  linarith

set_option maxHeartbeats 800000 in
/-- the stability correction -/
theorem stabilize_ap (A : Accurate R u η) {dt a s X Y F : Fl R} {x y f V : K} (hdt : 0 < dt.val)
    (ha : 0 < a.val) (hs : 0 ≤ s.val) (hV : 0 ≤ V) (hsa : s.val * a.val ≤ V) (hη : 2 * η ≤ u)
    (ht : 2 * (dt.val + 1) * η ≤ u * (u * V)) (hW : Fine u η (V / dt.val))
    (hX : |X.val - x| ≤ u * |x| + η) (hY : |Y.val - y| ≤ u * |y| + η)
    (hF : |F.val - f| ≤ u * |f| + η) (hf : |f| ≤ |x| + |y|) :
    Ap u (V / dt.val) 23 (1 / 2) (stabilizeComponent dt a s X Y F)
      (stabilizeComponent dt.val a.val s.val x y f) := by
  have hu := A.u_nonneg
  have hu' := A.u_small
  have h0 := A.η_nonneg
  have huV := mul_nonneg hu hV
  set τ := 2 * (dt.val + 1) * η with hτ
  have hτ0 : 0 ≤ τ := by rw [hτ]; positivity
  have hτ2 : 2 * η ≤ τ := by
    have : 0 ≤ dt.val * η := by positivity
    rw [hτ]; linarith
  have X' := times_dt A hdt hX
  have Y' := times_dt A hdt hY
  have F' := times_dt A hdt hF
  rw [← hτ] at X' Y' F'
  set x' := x * dt.val with hx'
  set y' := y * dt.val with hy'
  set f' := f * dt.val with hf'
  set T := |x'| + |y'| with hT
  have hfT : |f'| ≤ T := by
    rw [hT, hf', hx', hy', abs_mul, abs_mul, abs_mul, ← add_mul]
    exact mul_le_mul_of_nonneg_right hf (abs_nonneg _)
  have hT0 : 0 ≤ T := (abs_nonneg _).trans hfT
  -- the limits
  set l := 1 / 2 * |f'| / T * (s.val * a.val) with hl
  have hsa0 : 0 ≤ s.val * a.val := mul_nonneg hs ha.le
  have hl0 : 0 ≤ l := by rw [hl]; positivity
  have hlV : l ≤ V / 2 := by
    have h1 : 1 / 2 * |f'| / T ≤ 1 / 2 := by
      rw [mul_div_assoc]
      have := div_le_one_of_le₀ hfT hT0
      linarith
    calc l ≤ 1 / 2 * V := mul_le_mul h1 hsa hsa0 (by norm_num)
      _ = _ := by ring
  set L : Fl R := ofRat 1 / ofRat 2 * absolute (F * dt) / (absolute (X * dt) + absolute (Y * dt)) * (s * a)
    with hL
  have hL0 : 0 ≤ L := by
    have nn : ∀ z : Fl R, 0 ≤ absolute z := by
      intro z
      rw [Fl.le_def, Fl.val_abs]; exact abs_nonneg _
    refine Fl.mul_nonneg (Fl.div_nonneg (Fl.mul_nonneg (Fl.div_nonneg (Fl.ofRat_nonneg (by norm_num))
      (Fl.ofRat_nonneg (by norm_num))) (nn _)) (Fl.add_nonneg (nn _) (nn _))) (Fl.mul_nonneg ?_ ?_)
    · rw [Fl.le_def]; exact hs
    · rw [Fl.le_def]; exact ha.le
  have hL0' : 0 ≤ L.val := (Fl.le_def _ _).1 hL0
  have eN : (NpOps.sign (F * dt) * minimum (absolute (F * dt)) L).val = clamp L.val (F * dt).val := by
    rw [Fl.val_sign_mul, Fl.np_min, Fl.val_min, Fl.val_abs, sign_mul_min _ _ hL0']
  have en : NpOps.sign f' * minimum (absolute f') l = clamp l f' := by
    rw [np_min, np_abs, sign_mul_min _ _ hl0]
  have key : Ap u V 20 (1 / 2) (NpOps.sign (F * dt) * minimum (absolute (F * dt)) L)
      (NpOps.sign f' * minimum (absolute f') l) := by
    rw [en]
    refine ⟨?_, (abs_clamp_le hl0).trans (by linarith)⟩
    rw [eN]
    rcases le_total (u * T) τ with h | h
    · -- tiny fluxes
      have h1 : |clamp L.val (F * dt).val| ≤ |f'| + (3 * u * |f'| + τ) := by
        refine (abs_clamp_le' hL0').trans ?_
        calc |(F * dt).val| = |f' + ((F * dt).val - f')| := by rw [add_sub_cancel]
          _ ≤ _ := (abs_add_le _ _).trans (by linarith)
      have h2 := abs_clamp_le' (L := l) (x := f') hl0
      have h3 : u * |f'| ≤ τ := (mul_le_mul_of_nonneg_left hfT hu).trans h
      have h4 := abs_sub (clamp L.val (F * dt).val) (clamp l f')
      refine le_of_mul_le_mul_left ?_ A.u_pos
      have h6 : u * (3 * u * |f'|) ≤ 1 * τ := by
        calc u * (3 * u * |f'|) = (3 * u) * (u * |f'|) := by ring
          _ ≤ 1 * τ := mul_le_mul (by linarith) h3 (by positivity) zero_le_one
      have h7 : u * τ ≤ 1 * τ := mul_le_mul_of_nonneg_right (by linarith) hτ0
      calc u * |clamp L.val (F * dt).val - clamp l f'|
          ≤ u * (|f'| + (3 * u * |f'| + τ) + |f'|) := mul_le_mul_of_nonneg_left (by linarith) hu
        _ ≤ 4 * τ := by linarith
        _ ≤ 4 * (u * (u * V)) := by linarith
        _ ≤ _ := by have : 0 ≤ u * (u * V) := by positivity
                    linarith
    · rcases eq_or_lt_of_le hT0 with hT1 | hT1
      · -- no flux
        have f0 : |f'| = 0 := le_antisymm (by rw [hT1]; exact hfT) (abs_nonneg _)
        have t0 : τ = 0 := by rw [← hT1] at h; simp at h; exact le_antisymm h hτ0
        have F0 : (F * dt).val = 0 := by
          rw [f0, t0] at F'
          rw [abs_eq_zero.1 f0] at F'
          simpa using F'
        rw [F0, abs_eq_zero.1 f0]
        have z : ∀ b : K, 0 ≤ b → clamp b 0 = 0 := fun b hb => by simp [clamp, hb]
        rw [z _ hL0', z _ hl0]
        simpa using (by positivity : 0 ≤ 20 * (u * V))
      have hfine : Fine u η T := ⟨hT0, by linarith⟩
      have hfine2 : Fine u η (T / 2) := ⟨by linarith, by linarith⟩
      have aF : Ap u T 4 1 (absolute (F * dt)) |f'| := by
        refine ⟨?_, by simpa using hfT⟩
        rw [Fl.val_abs]
        refine (abs_abs_sub_abs_le_abs_sub _ _).trans (F'.trans ?_)
        have := mul_le_mul_of_nonneg_left hfT hu
        linarith
      have aT : Ap u T 8 1 (absolute (X * dt) + absolute (Y * dt)) T := by
        have : Ap u T (5 + 1 + 2) 1 (absolute (X * dt) + absolute (Y * dt)) T := by
          refine Ap.rnd A hfine (by norm_num) ?_ (by rw [abs_of_nonneg hT0, one_mul])
          rw [Fl.val_abs, Fl.val_abs]
          have h1 := (abs_abs_sub_abs_le_abs_sub _ _).trans X'
          have h2 := (abs_abs_sub_abs_le_abs_sub _ _).trans Y'
          have h3 : |(X * dt).val| + |(Y * dt).val| - T =
              (|(X * dt).val| - |x'|) + (|(Y * dt).val| - |y'|) := by rw [hT]; ring
          rw [h3]
          refine (abs_add_le _ _).trans ?_
          have : 3 * u * |x'| + 3 * u * |y'| = 3 * (u * T) := by rw [hT]; ring
          linarith
        exact this.weaken A hT0 (by norm_num) le_rfl
      have a1 := (Ap.mul A hfine2 (half_div_ap A hη) aF (by norm_num) hT0 (by ring) (by norm_num) (by norm_num)
        (by norm_num) (by norm_num)).weaken A hfine2.nonneg (e := 13) (m := 1) (by norm_num) (by norm_num)
      have a2 := (Ap.div (b := 1 / 2) A ⟨by norm_num, by linarith⟩ a1 hT1 aT (by ring) (by norm_num) zero_le_one
        (by norm_num) (by norm_num) (by norm_num)).weaken A (by norm_num) (e := 25) (m := 1) (by norm_num) le_rfl
      have hVf : Fine u η V := by
        refine ⟨hV, ?_⟩
        have : u * (u * V) ≤ 1 * (u * V) := mul_le_mul_of_nonneg_right (by linarith) huV
        linarith
      have hVf2 : Fine u η (V / 2) := by
        refine ⟨by linarith, ?_⟩
        have : u * (u * V) ≤ 1 * (u * V) := mul_le_mul_of_nonneg_right (by linarith) huV
        linarith
      have a3 := (Ap.mulExact (x1 := s) (x2 := a) (m := 1) A hVf (by rw [abs_of_nonneg hsa0, one_mul]; exact hsa)).weaken
        A hV (e := 3) (m := 1) (by norm_num) le_rfl
      have a4 := (Ap.mul A hVf2 a2 a3 (by norm_num) hV (by ring) (by norm_num) (by norm_num)
        (by norm_num) (by norm_num)).weaken A hVf2.nonneg (e := 32) (m := 1) (by norm_num) (by norm_num)
      have hLl : |L.val - l| ≤ 16 * (u * V) := by
        have := a4.err
        calc _ ≤ _ := this
          _ = _ := by ring
      have := clamp_close hu hu' hV hL0' hl0 F' hτ0 (by
        have : u * (u * V) ≤ 1 * (u * V) := mul_le_mul_of_nonneg_right (by linarith) huV
        linarith) hlV hLl (by norm_num)
      calc _ ≤ _ := this
        _ = _ := by ring
  have fin := Ap.divExact A hW key dt hdt (by field_simp) (by norm_num)
  have e1 : stabilizeComponent dt.val a.val s.val x y f =
      NpOps.sign f' * minimum (absolute f') l / dt.val := by
    simp only [stabilizeComponent, ofRat_one, ofRat_two, np_abs, ← hx', ← hy', ← hf', ← hT, ← hl]
  rw [e1]
  exact fin.weaken A hW.nonneg (by norm_num) le_rfl

/-! ### Advection -/

theorem mean_ap (A : Accurate R u η) {W : K} (hW : Fine u η W) (hη : η ≤ u) {x x' : Fl R} {y y' : K}
    (h : Ap u W 23 (1 / 2) x y) (h' : Ap u W 23 (1 / 2) x' y') :
    Ap u W 30 (1 / 2) (ofRat (1 / 2) * (x + x')) (ofRat (1 / 2) * (y + y')) := by
  have e : (ofRat (1 / 2) : K) = 1 / 2 := ofRat_half
  rw [e]
  have h1 := (Ap.add A hW h h' (by norm_num)).weaken A hW.nonneg (e := 49) (m := 1) (by norm_num) (by norm_num)
  have := Ap.mul A hW (half_ap A hη) h1 zero_le_one hW.nonneg (by ring) (by norm_num) (by norm_num) (by norm_num)
    (by norm_num)
  exact this.weaken A hW.nonneg (by norm_num) (by norm_num)

theorem padWith_ap {b e k : K} {l r : Fl R} {l' r' : K} {f : Fin n → Fl R} {g : Fin n → K}
    (hl : Ap u b e k l l') (hr : Ap u b e k r r') (h : ∀ i, Ap u b e k (f i) (g i)) (i) :
    Ap u b e k (Arr.padWith l r f i) (Arr.padWith l' r' g i) := by
  rw [Arr.padWith_apply, Arr.padWith_apply]
  split_ifs
  exacts [hl, hr, h _]

theorem zero_ap {b e k : K} (hu : 0 ≤ u) (hb : 0 ≤ b) (he : 0 ≤ e) (hk : 0 ≤ k) :
    Ap u b e k (ofRat 0 : Fl R) (ofRat 0 : K) := by
  rw [Fl.ofRat_zero, ofRat_zero]
  exact ⟨by simpa using by positivity, by simpa using by positivity⟩

theorem padYZero_ap {b e k : K} (hu : 0 ≤ u) (hb : 0 ≤ b) (he : 0 ≤ e) (hk : 0 ≤ k)
    {f : Arr m n (Fl R)} {g : Arr m n K} (h : ∀ i j, Ap u b e k (f i j) (g i j)) (i j) :
    Ap u b e k (Arr.padYZero f i j) (Arr.padYZero g i j) :=
  padWith_ap (zero_ap hu hb he hk) (zero_ap hu hb he hk) (fun i' => h i' j) i

theorem padXYZero_ap {b e k : K} (hu : 0 ≤ u) (hb : 0 ≤ b) (he : 0 ≤ e) (hk : 0 ≤ k)
    {f : Arr m n (Fl R)} {g : Arr m n K} (h : ∀ i j, Ap u b e k (f i j) (g i j)) (i j) :
    Ap u b e k (Arr.padXYZero f i j) (Arr.padXYZero g i j) :=
  padYZero_ap hu hb he hk (fun i j => padWith_ap (zero_ap hu hb he hk) (zero_ap hu hb he hk) (h i) j) i j

theorem padXWrap_ap {b e k : K} {f : Arr m (n + 1) (Fl R)} {g : Arr m (n + 1) K}
    (h : ∀ i j, Ap u b e k (f i j) (g i j)) (i j) :
    Ap u b e k (Arr.padXWrap f i j) (Arr.padXWrap g i j) :=
  padWith_ap (h i _) (h i _) (h i) j

theorem donorCell_ap (A : Accurate R u η) {W : K} (hW : Fine u η W)
    {sp : Arr (m + 2) (n + 2) (Fl R)} {up : Arr m (n + 1) (Fl R)} {vp : Arr (m + 1) n (Fl R)}
    {sp' : Arr (m + 2) (n + 2) K} {up' : Arr m (n + 1) K} {vp' : Arr (m + 1) n K}
    (hs : ∀ i j, Ap u 1 2 1 (sp i j) (sp' i j)) (hu : ∀ i j, Ap u W 30 (1 / 2) (up i j) (up' i j))
    (hv : ∀ i j, Ap u W 30 (1 / 2) (vp i j) (vp' i j)) (i j) :
    Ap u W 146 2 (donorCell sp up vp i j) (donorCell sp' up' vp' i j) := by
  have d : ∀ {x w w' : Fl R} {y v v' : K}, Ap u W 30 (1 / 2) x y → Ap u 1 2 1 w v → Ap u 1 2 1 w' v' →
      Ap u W 34 (1 / 2) (if NpOps.lt (ofRat 0) x then x * w else x * w')
        (if NpOps.lt (ofRat 0) y then y * v else y * v') := by
    intro x w w' y v v' h hw hw'
    have := (Ap.donor A hW h hw hw' (by norm_num) (by norm_num) (by norm_num) (by norm_num)
      (by norm_num)).weaken A hW.nonneg (e := 34) (m := 1 / 2) (by norm_num) le_rfl
    simpa only [Fl.np_lt, Fl.ofRat_zero, np_lt, ofRat_zero, decide_eq_true_eq] using this
  have d1 : ∀ {x x' : Fl R} {y y' : K}, Ap u W 34 (1 / 2) x y → Ap u W 34 (1 / 2) x' y' →
      Ap u W 71 1 (x - x') (y - y') := fun h h' =>
    (Ap.sub A hW h h' (by norm_num)).weaken A hW.nonneg (by norm_num) (by norm_num)
  unfold donorCell
  simp only [Arr.colsButLast, Arr.colsButFirst, Arr.rowsButFirst, Arr.rowsButLast, Arr.rowsInner, Arr.colsInner]
  exact (Ap.add A hW (d1 (d (hu _ _) (hs _ _) (hs _ _)) (d (hu _ _) (hs _ _) (hs _ _)))
    (d1 (d (hv _ _) (hs _ _) (hs _ _)) (d (hv _ _) (hs _ _) (hs _ _))) (by norm_num)).weaken A hW.nonneg
    (by norm_num) (by norm_num)

theorem advect_ap (A : Accurate R u η) {W : K} (hW : Fine u η W) (hη : η ≤ u) (periodic sgn : Bool)
    {s fx fy : Arr (m + 2) (n + 2) (Fl R)} {s' fx' fy' : Arr (m + 2) (n + 2) K}
    (hs : ∀ i j, Ap u 1 2 1 (s i j) (s' i j)) (hx : ∀ i j, Ap u W 23 (1 / 2) (fx i j) (fx' i j))
    (hy : ∀ i j, Ap u W 23 (1 / 2) (fy i j) (fy' i j)) (i j) :
    Ap u W 146 2 (advect periodic sgn s fx fy i j) (advect periodic sgn s' fx' fy' i j) := by
  have hu := A.u_nonneg
  have hW0 := hW.nonneg
  have ng : ∀ {x : Fl R} {y : K}, Ap u W 30 (1 / 2) x y →
      Ap u W 30 (1 / 2) (if sgn = true then -x else x) (if sgn = true then -y else y) := by
    intro x y h
    split_ifs
    exacts [h.neg, h]
  unfold advect
  cases periodic
  · simp only [Bool.false_eq_true, if_false]
    exact donorCell_ap A hW (padXYZero_ap hu zero_le_one (by norm_num) zero_le_one hs)
      (padXYZero_ap hu hW0 (by norm_num) (by norm_num) fun i j => ng (mean_ap A hW hη (hx _ _) (hx _ _)))
      (padXYZero_ap hu hW0 (by norm_num) (by norm_num) fun i j => ng (mean_ap A hW hη (hy _ _) (hy _ _))) i j
  · simp only [if_true]
    exact donorCell_ap A hW (padYZero_ap hu zero_le_one (by norm_num) zero_le_one (padXWrap_ap hs))
      (padYZero_ap hu hW0 (by norm_num) (by norm_num) fun i j => ng (padWith_ap
        (mean_ap A hW hη (hx _ _) (hx _ _)) (mean_ap A hW hη (hx _ _) (hx _ _))
        (fun j => mean_ap A hW hη (hx _ _) (hx _ _)) j))
      (padYZero_ap hu hW0 (by norm_num) (by norm_num) fun i j => ng (mean_ap A hW hη (hy _ _) (hy _ _))) i j

end Wam
