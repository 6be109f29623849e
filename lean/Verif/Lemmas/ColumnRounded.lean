import Verif.Lemmas.Approx
import Verif.Spec.PrepAccuracy
import Mathlib.Data.List.Forall2
import Mathlib.Tactic.FieldSimp

/-! Rounding errors of sums over levels. -/

set_option linter.unusedSectionVars false

namespace Wam
open Spec

variable {K : Type} [Field K] [LinearOrder K] [IsStrictOrderedRing K] {R : Rounding K} {u η : K}

/-- a float near a number: relative error `c`, absolute error `e`; NaN corresponds to NaN -/
def NearFl (c e : K) : Option (Fl R) → Option K → Prop
  | none, none => True
  | some x, some y => |x.val - y| ≤ c * |y| + e
  | _, _ => False

/-- absolute values -/
def absO (l : List (Option K)) : List (Option K) := l.map fun o => o.map fun x => |x|

theorem nanSum_nil_K : nanSum ([] : List (Option K)) = 0 := by simp [nanSum]
theorem nanSum_none_K (l : List (Option K)) : nanSum (none :: l) = nanSum l := rfl
theorem nanSum_some_K (x : K) (l : List (Option K)) : nanSum (some x :: l) = x + nanSum l := rfl
theorem nanSum_nil_Fl : nanSum ([] : List (Option (Fl R))) = 0 := by simp [nanSum]
theorem nanSum_none_Fl (l : List (Option (Fl R))) : nanSum (none :: l) = nanSum l := rfl
theorem nanSum_some_Fl (x : Fl R) (l : List (Option (Fl R))) : nanSum (some x :: l) = x + nanSum l := rfl

theorem absO_nonneg (l : List (Option K)) : 0 ≤ nanSum (absO l) := by
  induction l with
  | nil => rw [absO, List.map_nil, nanSum_nil_K]
  | cons a l ih =>
    cases a with
    | none => exact ih
    | some x => exact add_nonneg (abs_nonneg x) ih

theorem nanSum_abs_le (l : List (Option K)) : |nanSum l| ≤ nanSum (absO l) := by
  induction l with
  | nil => rw [absO, List.map_nil, nanSum_nil_K, abs_zero]
  | cons a l ih =>
    cases a with
    | none => exact ih
    | some x => exact (abs_add_le _ _).trans (add_le_add le_rfl ih)

theorem near_sum (A : Accurate R u η) {c e : K} (hc : 0 ≤ c) (he : 0 ≤ e) {xs : List (Option (Fl R))}
    {ys : List (Option K)} (h : List.Forall₂ (NearFl c e) xs ys) (hN : (xs.length : K) * u ≤ 1 / 100) :
    |(nanSum xs).val - nanSum ys| ≤
      (1 + 2 * xs.length * u) * ((c + xs.length * u) * nanSum (absO ys) + xs.length * (e + η)) := by
  induction h with
  | nil => simp [nanSum_nil_Fl, nanSum_nil_K, absO]
  | @cons a b xs ys hab hl ih =>
    have hu := A.u_nonneg
    have hη := A.η_nonneg
    have hN' : (xs.length : K) * u ≤ 1 / 100 := by
      rw [List.length_cons, Nat.cast_succ] at hN
      nlinarith
    specialize ih hN'
    have hk : (0 : K) ≤ xs.length := Nat.cast_nonneg _
    have hA := absO_nonneg ys
    rw [List.length_cons, Nat.cast_succ]
    set k : K := ((xs.length : ℕ) : K) with hkdef
    have hku : 0 ≤ k * u := mul_nonneg hk hu
    match a, b, hab with
    | none, none, _ =>
      refine ih.trans ?_
      have e1 : nanSum (absO (none :: ys)) = nanSum (absO ys) := rfl
      rw [e1]
      refine mul_le_mul (by nlinarith) ?_ (by positivity) (by nlinarith)
      refine add_le_add (mul_le_mul_of_nonneg_right (by nlinarith) hA) ?_
      nlinarith
    | some x, some y, hab =>
      have hab : |x.val - y| ≤ c * |y| + e := hab
      have e1 : nanSum (absO (some y :: ys)) = |y| + nanSum (absO ys) := rfl
      rw [nanSum_some_Fl, nanSum_some_K, e1, Fl.val_add]
      set S := (nanSum xs).val
      set T := nanSum ys
      set B := nanSum (absO ys)
      have hTB : |T| ≤ B := nanSum_abs_le ys
      have h1 := A.err (x.val + S)
      have hd : |x.val + S - (y + T)| ≤ (c * |y| + e) + (1 + 2 * k * u) * ((c + k * u) * B + k * (e + η)) := by
        calc _ = |(x.val - y) + (S - T)| := by congr 1; ring
          _ ≤ |x.val - y| + |S - T| := abs_add_le _ _
          _ ≤ _ := add_le_add hab ih
      have hs : |x.val + S| ≤ |y| + B + |x.val + S - (y + T)| := by
        calc |x.val + S| = |(y + T) + (x.val + S - (y + T))| := by congr 1; ring
          _ ≤ |y + T| + |x.val + S - (y + T)| := abs_add_le _ _
          _ ≤ _ := by
            have := abs_add_le y T
            linarith
      have ht : |R.rnd (x.val + S) - (y + T)| ≤ (1 + u) * |x.val + S - (y + T)| + u * (|y| + B) + η := by
        calc _ = |(R.rnd (x.val + S) - (x.val + S)) + (x.val + S - (y + T))| := by congr 1; ring
          _ ≤ |R.rnd (x.val + S) - (x.val + S)| + |x.val + S - (y + T)| := abs_add_le _ _
          _ ≤ (u * |x.val + S| + η) + |x.val + S - (y + T)| := by linarith
          _ ≤ (u * (|y| + B + |x.val + S - (y + T)|) + η) + |x.val + S - (y + T)| := by
            have := mul_le_mul_of_nonneg_left hs hu
            linarith
          _ = _ := by ring
      refine ht.trans ?_
      have hy := abs_nonneg y
      -- everything is at most D + (k+1) W times the factor
      set D : K := c * (|y| + B) + (k + 1) * e with hD
      set W : K := u * (|y| + B) + η with hW
      have hD0 : 0 ≤ D := by positivity
      have hW0 : 0 ≤ W := by positivity
      have h2 : (c * |y| + e) + (1 + 2 * k * u) * ((c + k * u) * B + k * (e + η)) ≤
          (1 + 2 * k * u) * (D + k * W) := by
        have : (c * |y| + e) ≤ (1 + 2 * k * u) * (c * |y| + e) := by
          have h0 : 0 ≤ (2 * (k * u)) * (c * |y| + e) := by positivity
          have e3 : (1 + 2 * k * u) * (c * |y| + e) = (c * |y| + e) + (2 * (k * u)) * (c * |y| + e) := by ring
          linarith
        have h3 : (c * |y| + e) + ((c + k * u) * B + k * (e + η)) ≤ D + k * W := by
          have h0 : 0 ≤ k * u * |y| := by positivity
          have e3 : D + k * W = (c * |y| + e) + ((c + k * u) * B + k * (e + η)) + k * u * |y| := by
            rw [hD, hW]; ring
          linarith
        calc _ ≤ (1 + 2 * k * u) * (c * |y| + e) + (1 + 2 * k * u) * ((c + k * u) * B + k * (e + η)) := by linarith
          _ = (1 + 2 * k * u) * ((c * |y| + e) + ((c + k * u) * B + k * (e + η))) := by ring
          _ ≤ _ := mul_le_mul_of_nonneg_left h3 (by nlinarith)
      have h4 : (1 + u) * (1 + 2 * k * u) ≤ 1 + 2 * (k + 1) * u := by
        have : 2 * (k * u) * u ≤ 1 * u := mul_le_mul_of_nonneg_right (by linarith) hu
        nlinarith
      have h5 : 0 ≤ D + k * W := by positivity
      calc (1 + u) * |x.val + S - (y + T)| + u * (|y| + B) + η
          ≤ (1 + u) * ((1 + 2 * k * u) * (D + k * W)) + W := by
            have := mul_le_mul_of_nonneg_left (hd.trans h2) (by linarith : 0 ≤ 1 + u)
            linarith
        _ = ((1 + u) * (1 + 2 * k * u)) * (D + k * W) + W := by ring
        _ ≤ (1 + 2 * (k + 1) * u) * (D + k * W) + (1 + 2 * (k + 1) * u) * W := by
            have h6 : W ≤ (1 + 2 * (k + 1) * u) * W := by
              have : 0 ≤ 2 * (k + 1) * u * W := by positivity
              linarith
            exact add_le_add (mul_le_mul_of_nonneg_right h4 h5) h6
        _ = (1 + 2 * (k + 1) * u) * ((c + (k + 1) * u) * (|y| + B) + (k + 1) * (e + η)) := by
            rw [hD, hW]; ring

theorem near_mask {c e : K} (hc : 0 ≤ c) (m : List Bool) {xs : List (Option (Fl R))} {ys : List (Option K)}
    (h : List.Forall₂ (NearFl c e) xs ys) :
    List.Forall₂ (NearFl c e) (whereMask m xs) (whereMask m ys) := by
  induction h generalizing m with
  | nil => cases m <;> simp [whereMask]
  | @cons a b xs ys hab hl ih =>
    cases m with
    | nil => simp [whereMask]
    | cons b' m =>
      refine List.Forall₂.cons ?_ (ih m)
      cases b'
      · exact trivial
      · exact hab

theorem absO_mask (m : List Bool) (ys : List (Option K)) :
    absO (whereMask m ys) = whereMask m (absO ys) := by
  induction ys generalizing m with
  | nil => cases m <;> simp [whereMask, absO]
  | cons a ys ih =>
    cases m with
    | nil => simp [whereMask, absO]
    | cons b m =>
      have := ih m
      simp only [whereMask, absO, List.zipWith_cons_cons, List.map_cons] at this ⊢
      rw [this]
      cases b <;> rfl

/-- the floats as numbers -/
def exactO (l : List (Option (Fl R))) : List (Option K) := l.map fun o => o.map Fl.val

theorem grav_lit (A : Accurate R u η) (hη : η ≤ u) :
    |(ofRat (980665 / 100000) : Fl R).val - grav| ≤ u * (grav + 1) ∧
      99 / 100 * (grav : K) ≤ (ofRat (980665 / 100000) : Fl R).val ∧ (98 / 10 : K) ≤ grav := by
  have hg : (98 / 10 : K) ≤ grav := by
    unfold grav
    push_cast
    norm_num
  have hg' : (grav : K) ≤ 10 := by
    unfold grav
    push_cast
    norm_num
  have h := A.err (grav : K)
  rw [abs_of_nonneg (by linarith : (0 : K) ≤ grav)] at h
  have e : (ofRat (980665 / 100000) : Fl R).val = R.rnd grav := rfl
  rw [e]
  have h1 : |R.rnd grav - grav| ≤ u * ((grav : K) + 1) := h.trans (by linarith)
  refine ⟨h1, ?_, hg⟩
  have h2 := (abs_le.1 h1).1
  have h3 : u * ((grav : K) + 1) ≤ 1 / 10000000 * (10 + 1) :=
    mul_le_mul A.u_small (by linarith) (by linarith) (by norm_num)
  linarith

/-- water of a level, with an approximate thickness -/
theorem near_term (A : Accurate R u η) (hη : η ≤ u) (q d : Fl R) {d' δ : K} (hd : |d.val - d'| ≤ δ) :
    |(q * d / (ofRat (980665 / 100000) : Fl R)).val - q.val * d' / grav| ≤
      4 * u * |q.val * d' / grav| + (2 * η + 2 * (|q.val| * δ / grav)) := by
  obtain ⟨h1, h2, h3⟩ := grav_lit (R := R) A hη
  set G := (ofRat (980665 / 100000) : Fl R).val
  have hu := A.u_nonneg
  have hu1 := A.u_small
  have hη0 := A.η_nonneg
  have hg : (0 : K) < grav := by linarith
  have hG : 0 < G := by linarith
  have hδ : 0 ≤ δ := (abs_nonneg _).trans hd
  set z := q.val * d'
  set D := |q.val| * δ
  have hD : 0 ≤ D := mul_nonneg (abs_nonneg _) hδ
  have e1 : (q * d / (ofRat (980665 / 100000) : Fl R)).val = R.rnd (R.rnd (q.val * d.val) / G) := rfl
  rw [e1]
  set P := R.rnd (q.val * d.val)
  have hqd : |q.val * d.val - z| ≤ D := by
    rw [← mul_sub, abs_mul]
    exact mul_le_mul_of_nonneg_left hd (abs_nonneg _)
  have hPz : |P - z| ≤ u * |z| + (1 + u) * D + η := by
    have h4 := A.err (q.val * d.val)
    have h5 : |q.val * d.val| ≤ |z| + D := by
      calc _ = |z + (q.val * d.val - z)| := by congr 1; ring
        _ ≤ |z| + |q.val * d.val - z| := abs_add_le _ _
        _ ≤ _ := by linarith
    calc |P - z| = |(P - q.val * d.val) + (q.val * d.val - z)| := by congr 1; ring
      _ ≤ |P - q.val * d.val| + |q.val * d.val - z| := abs_add_le _ _
      _ ≤ (u * |q.val * d.val| + η) + D := add_le_add h4 hqd
      _ ≤ (u * (|z| + D) + η) + D := by
        have := mul_le_mul_of_nonneg_left h5 hu
        linarith
      _ = _ := by ring
  set t := |z| / grav
  have ht : 0 ≤ t := div_nonneg (abs_nonneg _) hg.le
  have hz : |z| = t * grav := by simp only [t]; field_simp
  have hzt : |z / grav| = t := by rw [abs_div, abs_of_pos hg]
  set D' := D / grav
  have hD' : 0 ≤ D' := div_nonneg hD hg.le
  have hDe : D = D' * grav := by simp only [D']; field_simp
  have hq1 : |P / G - z / grav| ≤ 23 / 10 * (u * t) + 102 / 100 * D' + 11 / 100 * η := by
    have e : P / G - z / grav = ((P - z) * grav + z * (grav - G)) / (G * grav) := by field_simp; ring
    rw [e, abs_div, abs_of_pos (mul_pos hG hg), div_le_iff₀ (mul_pos hG hg)]
    calc |(P - z) * grav + z * (grav - G)| ≤ |(P - z) * grav| + |z * (grav - G)| := abs_add_le _ _
      _ = |P - z| * grav + |z| * |G - grav| := by
        rw [abs_mul, abs_mul, abs_of_pos hg, abs_sub_comm grav G]
      _ ≤ (u * |z| + (1 + u) * D + η) * grav + |z| * (u * (grav + 1)) :=
        add_le_add (mul_le_mul_of_nonneg_right hPz hg.le) (mul_le_mul_of_nonneg_left h1 (abs_nonneg _))
      _ = ((u * t) * (2 * grav + 1) + (1 + u) * D' * grav + η) * grav := by rw [hz, hDe]; ring
      _ ≤ ((23 / 10 * (u * t) + 102 / 100 * D' + 11 / 100 * η) * G) * grav := by
        refine mul_le_mul_of_nonneg_right ?_ hg.le
        have hut : 0 ≤ u * t := mul_nonneg hu ht
        have k1 : (u * t) * (2 * grav + 1) ≤ (u * t) * (23 / 10 * G) :=
          mul_le_mul_of_nonneg_left (by linarith) hut
        have k2 : (1 + u) * D' * grav ≤ 102 / 100 * D' * G := by
          have : (1 + u) * grav ≤ 102 / 100 * G := by nlinarith
          calc (1 + u) * D' * grav = D' * ((1 + u) * grav) := by ring
            _ ≤ D' * (102 / 100 * G) := mul_le_mul_of_nonneg_left this hD'
            _ = _ := by ring
        have k3 : η ≤ 11 / 100 * η * G := by
          have : (1 : K) ≤ 11 / 100 * G := by linarith
          nlinarith
        nlinarith
      _ = _ := by ring
  have h6 := A.err (P / G)
  have h7 : |P / G| ≤ t + (23 / 10 * (u * t) + 102 / 100 * D' + 11 / 100 * η) := by
    calc |P / G| = |z / grav + (P / G - z / grav)| := by congr 1; ring
      _ ≤ |z / grav| + |P / G - z / grav| := abs_add_le _ _
      _ ≤ _ := by rw [hzt]; linarith
  have h8 : |R.rnd (P / G) - z / grav| ≤ (u * |P / G| + η) + |P / G - z / grav| := by
    calc _ = |(R.rnd (P / G) - P / G) + (P / G - z / grav)| := by congr 1; ring
      _ ≤ _ := abs_add_le _ _
      _ ≤ _ := by linarith
  refine h8.trans ?_
  rw [hzt]
  have h9 := mul_le_mul_of_nonneg_left h7 hu
  have hut : 0 ≤ u * t := mul_nonneg hu ht
  have e3 : u * (u * t) ≤ 1 / 10000000 * (u * t) := mul_le_mul_of_nonneg_right hu1 hut
  have e4 : u * D' ≤ 1 / 10000000 * D' := mul_le_mul_of_nonneg_right hu1 hD'
  have e5 : u * η ≤ 1 / 10000000 * η := mul_le_mul_of_nonneg_right hu1 hη0
  nlinarith

/-- product of two floats, the second near a number -/
theorem near_mul (A : Accurate R u η) (w x : Fl R) {y c e : K} (hx : |x.val - y| ≤ c * |y| + e) :
    |(w * x).val - w.val * y| ≤ (c + u + u * c) * |w.val * y| + ((1 + u) * (|w.val| * e) + η) := by
  have hu := A.u_nonneg
  rw [Fl.val_mul, abs_mul]
  have h1 := A.err (w.val * x.val)
  have h2 : |w.val * x.val - w.val * y| ≤ |w.val| * (c * |y| + e) := by
    rw [← mul_sub, abs_mul]
    exact mul_le_mul_of_nonneg_left hx (abs_nonneg _)
  have h3 : |w.val * x.val| ≤ |w.val| * |y| + |w.val| * (c * |y| + e) := by
    calc _ = |w.val * y + (w.val * x.val - w.val * y)| := by congr 1; ring
      _ ≤ |w.val * y| + |w.val * x.val - w.val * y| := abs_add_le _ _
      _ ≤ _ := by rw [abs_mul]; linarith
  have h4 := mul_le_mul_of_nonneg_left h3 hu
  calc _ = |(R.rnd (w.val * x.val) - w.val * x.val) + (w.val * x.val - w.val * y)| := by congr 1; ring
    _ ≤ _ := abs_add_le _ _
    _ ≤ (u * |w.val * x.val| + η) + |w.val| * (c * |y| + e) := add_le_add h1 h2
    _ ≤ (u * (|w.val| * |y| + |w.val| * (c * |y| + e)) + η) + |w.val| * (c * |y| + e) := by linarith
    _ = _ := by ring

theorem near_weaken {c c' e e' : K} (hc : c ≤ c') (he : e ≤ e') {a : Option (Fl R)} {b : Option K}
    (h : NearFl c e a b) : NearFl c' e' a b := by
  match a, b, h with
  | none, none, _ => trivial
  | some x, some y, h =>
    have h : |x.val - y| ≤ c * |y| + e := h
    have : c * |y| ≤ c' * |y| := mul_le_mul_of_nonneg_right hc (abs_nonneg _)
    change |x.val - y| ≤ c' * |y| + e'
    linarith

theorem near_length {c e : K} {xs : List (Option (Fl R))} {ys : List (Option K)}
    (h : List.Forall₂ (NearFl c e) xs ys) : xs.length = ys.length := h.length_eq

/-- `near_sum` for at most `n` levels, in one layer -/
theorem near_layer (A : Accurate R u η) {c e : K} (hc : 0 ≤ c) (he : 0 ≤ e) {n : ℕ} (hn : (n : K) * u ≤ 1 / 100)
    (m : List Bool) {xs : List (Option (Fl R))} {ys : List (Option K)} (hl : xs.length ≤ n)
    (h : List.Forall₂ (NearFl c e) xs ys) :
    |(nanSum (whereMask m xs)).val - nanSum (whereMask m ys)| ≤
      51 / 50 * ((c + n * u) * nanSum (whereMask m (absO ys)) + n * (e + η)) := by
  have hu := A.u_nonneg
  have hη := A.η_nonneg
  have hle : (whereMask m xs).length ≤ n := by
    rw [whereMask, List.length_zipWith]; omega
  have hle' : ((whereMask m xs).length : K) ≤ n := by exact_mod_cast hle
  have h0 : (0 : K) ≤ (whereMask m xs).length := Nat.cast_nonneg _
  have hle2 := mul_le_mul_of_nonneg_right hle' hu
  have := near_sum A hc he (near_mask hc m h) (hle2.trans hn)
  rw [absO_mask] at this
  have hB : 0 ≤ nanSum (whereMask m (absO ys)) := by rw [← absO_mask]; exact absO_nonneg _
  refine this.trans (mul_le_mul (by linarith) ?_ ?_ (by norm_num))
  · exact add_le_add (mul_le_mul_of_nonneg_right (by linarith) hB)
      (mul_le_mul_of_nonneg_right hle' (by linarith))
  · have := mul_nonneg h0 hu
    have h3 := mul_nonneg (by linarith : 0 ≤ c + (whereMask m xs).length * u) hB
    have h4 := mul_nonneg h0 (by linarith : 0 ≤ e + η)
    linarith

/-- the same over the whole column -/
theorem near_total (A : Accurate R u η) {c e : K} (hc : 0 ≤ c) (he : 0 ≤ e) {n : ℕ} (hn : (n : K) * u ≤ 1 / 100)
    {xs : List (Option (Fl R))} {ys : List (Option K)} (hl : xs.length ≤ n)
    (h : List.Forall₂ (NearFl c e) xs ys) :
    |(nanSum xs).val - nanSum ys| ≤ 51 / 50 * ((c + n * u) * nanSum (absO ys) + n * (e + η)) := by
  have hu := A.u_nonneg
  have hη := A.η_nonneg
  have hle' : (xs.length : K) ≤ n := by exact_mod_cast hl
  have h0 : (0 : K) ≤ xs.length := Nat.cast_nonneg _
  have hle2 := mul_le_mul_of_nonneg_right hle' hu
  have := near_sum A hc he h (hle2.trans hn)
  have hB : 0 ≤ nanSum (absO ys) := absO_nonneg _
  refine this.trans (mul_le_mul (by linarith) ?_ ?_ (by norm_num))
  · exact add_le_add (mul_le_mul_of_nonneg_right (by linarith) hB)
      (mul_le_mul_of_nonneg_right hle' (by linarith))
  · have := mul_nonneg h0 hu
    have h3 := mul_nonneg (by linarith : 0 ≤ c + xs.length * u) hB
    have h4 := mul_nonneg h0 (by linarith : 0 ≤ e + η)
    linarith

/-- all values that are not NaN are at most `Q` -/
def AtMostO (Q : K) (l : List (Option (Fl R))) : Prop := ∀ x, some x ∈ l → |x.val| ≤ Q

/-- water of the levels, floats -/
def cwvFl (q : List (Option (Fl R))) (d : List (Fl R)) : List (Option (Fl R)) :=
  List.zipWith (fun q d => q.map fun q => q * d / (ofRat (980665 / 100000) : Fl R)) q d
/-- water of the levels, exact -/
def cwvK (q : List (Option K)) (d : List K) : List (Option K) :=
  List.zipWith (fun q d => q.map fun q => q * d / (ofRat (980665 / 100000) : K)) q d

theorem near_cwv (A : Accurate R u η) (hη : η ≤ u) {Q δ : K} {q : List (Option (Fl R))} (hQ : AtMostO Q q)
    {d : List (Fl R)} {d' : List K} (hd : List.Forall₂ (fun x y => |x.val - y| ≤ δ) d d') :
    List.Forall₂ (NearFl (4 * u) (2 * η + 2 * (Q * δ / grav))) (cwvFl q d) (cwvK (exactO q) d') := by
  induction hd generalizing q with
  | nil =>
    cases q <;> simp [cwvFl, cwvK, exactO]
  | @cons x y d d' hxy hl ih =>
    cases q with
    | nil => simp [cwvFl, cwvK, exactO]
    | cons a q =>
      refine List.Forall₂.cons ?_ (ih fun x hx => hQ x (List.mem_cons_of_mem _ hx))
      cases a with
      | none => trivial
      | some a =>
        have hδ : 0 ≤ δ := (abs_nonneg _).trans hxy
        have ha : |a.val| ≤ Q := hQ a List.mem_cons_self
        have h := near_term A hη a x hxy
        have hg : (0 : K) < grav := by
          have := (grav_lit (R := R) A hη).2.2
          linarith
        have h2 : |a.val| * δ / grav ≤ Q * δ / grav :=
          div_le_div_of_nonneg_right (mul_le_mul_of_nonneg_right ha hδ) hg.le
        change |(a * x / (ofRat (980665 / 100000) : Fl R)).val - a.val * y / grav| ≤
          4 * u * |a.val * y / grav| + (2 * η + 2 * (Q * δ / grav))
        linarith

theorem near_mulNan (A : Accurate R u η) {U c e : K} (hc : 0 ≤ c) (he : 0 ≤ e) {w : List (Option (Fl R))}
    (hU : AtMostO U w) {xs : List (Option (Fl R))} {ys : List (Option K)}
    (h : List.Forall₂ (NearFl c e) xs ys) :
    List.Forall₂ (NearFl (c + u + u * c) ((1 + u) * (U * e) + η)) (mulNan w xs) (mulNan (exactO w) ys) := by
  induction h generalizing w with
  | nil => cases w <;> simp [mulNan, exactO]
  | @cons a b xs ys hab hl ih =>
    cases w with
    | nil => simp [mulNan, exactO]
    | cons v w =>
      refine List.Forall₂.cons ?_ (ih fun x hx => hU x (List.mem_cons_of_mem _ hx))
      match v, a, b, hab with
      | none, none, none, _ => trivial
      | none, some _, some _, _ => trivial
      | some _, none, none, _ => trivial
      | some v, some a, some b, hab =>
        have hab : |a.val - b| ≤ c * |b| + e := hab
        have hv : |v.val| ≤ U := hU v List.mem_cons_self
        have h := near_mul A v a hab
        have h2 : (1 + u) * (|v.val| * e) ≤ (1 + u) * (U * e) :=
          mul_le_mul_of_nonneg_left (mul_le_mul_of_nonneg_right hv he) (by linarith [A.u_nonneg])
        change |(v * a).val - v.val * b| ≤ (c + u + u * c) * |v.val * b| + ((1 + u) * (U * e) + η)
        linarith

theorem absO_mulNan (x y : List (Option K)) : absO (mulNan x y) = mulNan (absO x) (absO y) := by
  induction x generalizing y with
  | nil => simp [mulNan, absO]
  | cons a x ih =>
    cases y with
    | nil => simp [mulNan, absO]
    | cons b y =>
      have := ih y
      simp only [mulNan, absO, List.zipWith_cons_cons, List.map_cons] at this ⊢
      rw [this]
      cases a <;> cases b <;> simp [abs_mul]

theorem absO_cwv (q : List (Option K)) (d : List K) :
    absO (cwvK q d) = cwvK (absO q) (d.map (|·|)) := by
  have hg : (0 : K) < (ofRat (980665 / 100000) : K) := by
    rw [ofRat_cast]; push_cast; norm_num
  induction q generalizing d with
  | nil => simp [cwvK, absO]
  | cons a q ih =>
    cases d with
    | nil => simp [cwvK, absO]
    | cons b d =>
      have := ih d
      simp only [cwvK, absO, List.zipWith_cons_cons, List.map_cons] at this ⊢
      rw [this]
      cases a with
      | none => rfl
      | some a => simp [abs_mul, abs_div, abs_of_pos hg]

/-- the sums over the two layers, for given water of the levels -/
def layersOf {α : Type} [Add α] [Sub α] [Mul α] [Div α] [NpOps α] (u v cw : List (Option α)) (upper : List Bool) :
    LayerSums α :=
  let lower := upper.map (!·)
  { s_lower := nanSum (whereMask lower cw), s_upper := nanSum (whereMask upper cw),
    fx_lower := nanSum (whereMask lower (mulNan u cw)), fy_lower := nanSum (whereMask lower (mulNan v cw)),
    fx_upper := nanSum (whereMask upper (mulNan u cw)), fy_upper := nanSum (whereMask upper (mulNan v cw)) }

theorem near_layers (A : Accurate R u η) {c e U : K} (hc : 0 ≤ c) (he : 0 ≤ e) (hU0 : 0 ≤ U) {n : ℕ}
    (hn : (n : K) * u ≤ 1 / 100)
    {x y xs : List (Option (Fl R))} {ys : List (Option K)} (hx : AtMostO U x) (hy : AtMostO U y)
    (hl : xs.length ≤ n) (h : List.Forall₂ (NearFl c e) xs ys) (upper : List Bool) :
    LayersWithin (51 / 50 * (c + n * u)) (51 / 50 * (n * (e + η)))
      (51 / 50 * (c + u + u * c + n * u)) (51 / 50 * (n * ((1 + u) * (U * e) + η + η)))
      (layersOf (absO (exactO x)) (absO (exactO y)) (absO ys) upper)
      (layersOf x y xs upper) (layersOf (exactO x) (exactO y) ys upper) := by
  have hu := A.u_nonneg
  have hη := A.η_nonneg
  have hc' : 0 ≤ c + u + u * c := by positivity
  have he' : 0 ≤ (1 + u) * (U * e) + η := by positivity
  have hl' : ∀ w : List (Option (Fl R)), (mulNan w xs).length ≤ n := by
    intro w
    rw [mulNan, List.length_zipWith]; omega
  have hs := fun m => near_layer A hc he hn m hl h
  have hf := fun m => near_layer A hc' he' hn m (hl' x) (near_mulNan A hc he hx h)
  have hg := fun m => near_layer A hc' he' hn m (hl' y) (near_mulNan A hc he hy h)
  simp only [absO_mulNan] at hf hg
  refine ⟨?_, ?_, ?_, ?_, ?_, ?_⟩
  · exact (hs upper).trans (le_of_eq (by simp only [layersOf]; ring))
  · exact (hs (upper.map (!·))).trans (le_of_eq (by simp only [layersOf]; ring))
  · exact (hf upper).trans (le_of_eq (by simp only [layersOf]; ring))
  · exact (hf (upper.map (!·))).trans (le_of_eq (by simp only [layersOf]; ring))
  · exact (hg upper).trans (le_of_eq (by simp only [layersOf]; ring))
  · exact (hg (upper.map (!·))).trans (le_of_eq (by simp only [layersOf]; ring))

theorem LayersWithin.weaken {ε ε₁ e e₁ ε' ε₁' e' e₁' : K} {S X : LayerSums K} {F : LayerSums (Fl R)}
    (hS : 0 ≤ S.s_upper ∧ 0 ≤ S.s_lower ∧ 0 ≤ S.fx_upper ∧ 0 ≤ S.fx_lower ∧ 0 ≤ S.fy_upper ∧ 0 ≤ S.fy_lower)
    (h : LayersWithin ε e ε' e' S F X) (h1 : ε ≤ ε₁) (h2 : e ≤ e₁) (h3 : ε' ≤ ε₁') (h4 : e' ≤ e₁') :
    LayersWithin ε₁ e₁ ε₁' e₁' S F X := by
  obtain ⟨a, b, c, d, f, g⟩ := hS
  exact ⟨h.s_upper.trans (add_le_add (mul_le_mul_of_nonneg_right h1 a) h2),
    h.s_lower.trans (add_le_add (mul_le_mul_of_nonneg_right h1 b) h2),
    h.fx_upper.trans (add_le_add (mul_le_mul_of_nonneg_right h3 c) h4),
    h.fx_lower.trans (add_le_add (mul_le_mul_of_nonneg_right h3 d) h4),
    h.fy_upper.trans (add_le_add (mul_le_mul_of_nonneg_right h3 f) h4),
    h.fy_lower.trans (add_le_add (mul_le_mul_of_nonneg_right h3 g) h4)⟩

theorem layersOf_abs_nonneg (x y ys : List (Option K)) (upper : List Bool) :
    let S := layersOf (absO x) (absO y) (absO ys) upper
    0 ≤ S.s_upper ∧ 0 ≤ S.s_lower ∧ 0 ≤ S.fx_upper ∧ 0 ≤ S.fx_lower ∧ 0 ≤ S.fy_upper ∧ 0 ≤ S.fy_lower := by
  have k : ∀ m (l : List (Option K)), 0 ≤ nanSum (whereMask m (absO l)) := by
    intro m l
    rw [← absO_mask]
    exact absO_nonneg _
  refine ⟨k _ _, k _ _, ?_, ?_, ?_, ?_⟩ <;> simp only [layersOf, ← absO_mulNan] <;> exact k _ _

theorem integrateLayers_eq {α : Type} [Add α] [Sub α] [Mul α] [Div α] [NpOps α] (c : Column (Option α)) (dp : List α)
    (upper : List Bool) (tcw : Option α) :
    integrateLayers c dp upper tcw = layersOf c.u c.v (columnWater (List.zipWith (fun q d => q.map fun q =>
      q * d / (ofRat (980665 / 100000) : α)) c.q dp) tcw) upper := rfl

/-- water scaled with an approximate factor -/
theorem near_scaled (A : Accurate R u η) (κf x : Fl R) {κ y ρ c e Y : K} (hκ : 0 ≤ κ) (hρ : 0 ≤ ρ) (hc : 0 ≤ c)
    (he : 0 ≤ e) (h1 : |κf.val - κ| ≤ ρ * κ + η) (hx : |x.val - y| ≤ c * |y| + e) (hy : |y| ≤ Y) :
    |(κf * x).val - κ * y| ≤ (c + ρ * (1 + c) + u + u * (c + ρ * (1 + c))) * |κ * y| +
      ((1 + u) * (κ * e * (1 + ρ) + η * ((1 + c) * Y + e)) + η) := by
  have hu := A.u_nonneg
  have hη := A.η_nonneg
  rw [Fl.val_mul, abs_mul κ y, abs_of_nonneg hκ]
  have hx2 : |x.val| ≤ (1 + c) * |y| + e := by
    calc |x.val| = |y + (x.val - y)| := by congr 1; ring
      _ ≤ |y| + |x.val - y| := abs_add_le _ _
      _ ≤ _ := by linarith
  have h2 : |κf.val * x.val - κ * y| ≤ (c + ρ * (1 + c)) * (κ * |y|) +
      (κ * e * (1 + ρ) + η * ((1 + c) * Y + e)) := by
    calc |κf.val * x.val - κ * y| = |κ * (x.val - y) + (κf.val - κ) * x.val| := by congr 1; ring
      _ ≤ |κ * (x.val - y)| + |(κf.val - κ) * x.val| := abs_add_le _ _
      _ = κ * |x.val - y| + |κf.val - κ| * |x.val| := by rw [abs_mul, abs_mul, abs_of_nonneg hκ]
      _ ≤ κ * (c * |y| + e) + (ρ * κ + η) * ((1 + c) * |y| + e) :=
        add_le_add (mul_le_mul_of_nonneg_left hx hκ)
          (mul_le_mul h1 hx2 (abs_nonneg _) (add_nonneg (mul_nonneg hρ hκ) hη))
      _ = (c + ρ * (1 + c)) * (κ * |y|) + (κ * e * (1 + ρ) + η * ((1 + c) * |y| + e)) := by ring
      _ ≤ _ := by
        have : η * ((1 + c) * |y| + e) ≤ η * ((1 + c) * Y + e) :=
          mul_le_mul_of_nonneg_left (by
            have := mul_le_mul_of_nonneg_left hy (by linarith : 0 ≤ 1 + c)
            linarith) hη
        linarith
  have h3 := A.err (κf.val * x.val)
  set c1 := c + ρ * (1 + c)
  set e1 := κ * e * (1 + ρ) + η * ((1 + c) * Y + e)
  have h4 : |κf.val * x.val| ≤ κ * |y| + (c1 * (κ * |y|) + e1) := by
    calc _ = |κ * y + (κf.val * x.val - κ * y)| := by congr 1; ring
      _ ≤ |κ * y| + |κf.val * x.val - κ * y| := abs_add_le _ _
      _ ≤ _ := by rw [abs_mul, abs_of_nonneg hκ]; linarith
  have h5 := mul_le_mul_of_nonneg_left h4 hu
  calc _ = |(R.rnd (κf.val * x.val) - κf.val * x.val) + (κf.val * x.val - κ * y)| := by congr 1; ring
    _ ≤ _ := abs_add_le _ _
    _ ≤ (u * |κf.val * x.val| + η) + (c1 * (κ * |y|) + e1) := add_le_add h3 h2
    _ ≤ (u * (κ * |y| + (c1 * (κ * |y|) + e1)) + η) + (c1 * (κ * |y|) + e1) := by linarith
    _ = _ := by ring

/-- the factor that scales the water to the total column water -/
theorem near_factor (A : Accurate R u η) (t s : Fl R) {S ε : K} (ht : 0 ≤ t.val) (hS : 0 < S) (hε : 0 ≤ ε)
    (hε' : ε ≤ 1 / 50) (hs : |s.val - S| ≤ ε * S) :
    |(t / s).val - t.val / S| ≤ (21 / 20 * ε + u) * (t.val / S) + η := by
  have hu := A.u_nonneg
  have hu1 := A.u_small
  have hs1 := abs_le.1 hs
  have hεS : ε * S ≤ 1 / 50 * S := mul_le_mul_of_nonneg_right hε' hS.le
  have hs0 : 49 / 50 * S ≤ s.val := by linarith
  have hsp : 0 < s.val := lt_of_lt_of_le (by positivity) hs0
  set κ := t.val / S
  have hκ : 0 ≤ κ := div_nonneg ht hS.le
  have htk : t.val = κ * S := by simp only [κ]; field_simp
  have h1 : |t.val / s.val - κ| ≤ (50 / 49 * ε) * κ := by
    have e : t.val / s.val - κ = κ * (S - s.val) / s.val := by
      rw [htk]; field_simp
    rw [e, abs_div, abs_mul, abs_of_nonneg hκ, abs_of_pos hsp, div_le_iff₀ hsp, abs_sub_comm]
    calc κ * |s.val - S| ≤ κ * (ε * S) := mul_le_mul_of_nonneg_left hs hκ
      _ = (50 / 49 * ε * κ) * (49 / 50 * S) := by ring
      _ ≤ (50 / 49 * ε * κ) * s.val := mul_le_mul_of_nonneg_left hs0 (by positivity)
  have h2 := A.err (t.val / s.val)
  have h3 : |t.val / s.val| ≤ κ + (50 / 49 * ε) * κ := by
    calc _ = |κ + (t.val / s.val - κ)| := by congr 1; ring
      _ ≤ |κ| + |t.val / s.val - κ| := abs_add_le _ _
      _ ≤ _ := by rw [abs_of_nonneg hκ]; linarith
  have h4 := mul_le_mul_of_nonneg_left h3 hu
  rw [Fl.val_div]
  have hεκ : 0 ≤ ε * κ := mul_nonneg hε hκ
  have h5 : u * (ε * κ) ≤ 1 / 10000000 * (ε * κ) := mul_le_mul_of_nonneg_right hu1 hεκ
  calc |R.rnd (t.val / s.val) - κ| = |(R.rnd (t.val / s.val) - t.val / s.val) + (t.val / s.val - κ)| := by
        congr 1; ring
    _ ≤ _ := abs_add_le _ _
    _ ≤ (u * |t.val / s.val| + η) + (50 / 49 * ε) * κ := add_le_add h2 h1
    _ ≤ (u * (κ + (50 / 49 * ε) * κ) + η) + (50 / 49 * ε) * κ := by linarith
    _ ≤ _ := by nlinarith

end Wam
