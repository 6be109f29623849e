import Verif.Lemmas.EdgesRounded
import Verif.Props.ModelLevels

/-!
# C122: rounding errors of the vertical integration

`integrateLayers`, `columnWater` and the model-level thicknesses in rounded arithmetic (`Model/Rounded`, every
`+ - * /` and every literal rounded) against the same computation in exact arithmetic.
-/
set_option linter.unusedSectionVars false
set_option linter.unusedVariables false

namespace Wam
open Spec

variable {K : Type} [Field K] [LinearOrder K] [IsStrictOrderedRing K] {R : Rounding K} {u η Q U δ : K}

private theorem small_n (A : Accurate R u η) {n : ℕ} (hn : n ≤ 100000) : (n : K) * u ≤ 1 / 100 := by
  have h : (n : K) ≤ 100000 := by exact_mod_cast hn
  exact A.small h

private theorem cwv_len (q : List (Option (Fl R))) (dp : List (Fl R)) : (cwvFl q dp).length ≤ dp.length := by
  rw [cwvFl, List.length_zipWith]; omega

private theorem grav_pos : (0 : K) < grav := by
  unfold grav
  push_cast
  norm_num

/-- **C122** (no total column water): humidities and winds as given, thicknesses up to `δ`; the water and the
transports in the two layers are those of exact arithmetic up to `1.02 (n + 4) u` (`1.02 (n + 6) u`) times the
integrals of the absolute values, plus the effect of `δ` and of underflow (`η`), for `n` levels. -/
theorem C122_layers (A : Accurate R u η) (hη : η ≤ u) (c : Column (Option (Fl R))) (dp : List (Fl R)) (dp' : List K)
    (hn : dp.length ≤ 100000) (upper : List Bool) (hU : 0 ≤ U) (hQ : 0 ≤ Q) (hδ : 0 ≤ δ)
    (hc : ColumnSized Q U c) (hd : ThicknessWithin δ dp dp') :
    LayersWithin (51 / 50 * ((dp.length + 4) * u)) (51 / 50 * (dp.length * (3 * η + 2 * (Q * δ / grav))))
      (51 / 50 * ((dp.length + 6) * u))
      (51 / 50 * (dp.length * (3 * U * (η + Q * δ / grav) + 2 * η)))
      (integrateLayers (absCol (exactCol c)) (dp'.map (|·|)) upper none)
      (integrateLayers c dp upper none) (integrateLayers (exactCol c) dp' upper none) := by
  have hu := A.u_nonneg
  have hu1 := A.u_small
  have hη0 := A.η_nonneg
  have hg := grav_pos (K := K)
  have hE : 0 ≤ Q * δ / grav := by positivity
  have h1 := near_cwv A hη hc.humidity hd
  have h2 := near_layers A (by positivity : 0 ≤ 4 * u) (by positivity : 0 ≤ 2 * η + 2 * (Q * δ / grav)) hU
    (small_n A hn) hc.eastward hc.northward (cwv_len c.q dp) h1 upper
  rw [absO_cwv] at h2
  have hnn : (0 : K) ≤ dp.length := Nat.cast_nonneg _
  refine LayersWithin.weaken ?_ h2 (le_of_eq (by ring)) (le_of_eq (by ring)) ?_ ?_
  · have hpos := layersOf_abs_nonneg (exactO c.u) (exactO c.v) (cwvK (exactO c.q) dp') upper
    rw [absO_cwv] at hpos
    exact hpos
  · nlinarith
  · have h3 : (1 + u) * (U * (2 * η + 2 * (Q * δ / grav))) ≤ 3 * U * (η + Q * δ / grav) := by
      have : 0 ≤ U * (η + Q * δ / grav) := by positivity
      nlinarith
    have := mul_le_mul_of_nonneg_left (by linarith :
      (1 + u) * (U * (2 * η + 2 * (Q * δ / grav))) + η + η ≤ 3 * U * (η + Q * δ / grav) + 2 * η) hnn
    linarith

/-! ### With total column water -/

theorem waterOf_eq (q : List (Option K)) (dp : List K) : nanSum (cwvK q dp) = waterOf q dp := by
  induction q generalizing dp with
  | nil => simp [cwvK, waterOf, nanSum]
  | cons a q ih =>
    cases dp with
    | nil => simp [cwvK, waterOf, nanSum]
    | cons d dp =>
      have := ih dp
      cases a with
      | none =>
        change nanSum (cwvK q dp) = _
        rw [this]
        simp [waterOf]
      | some x =>
        change x * d / grav + nanSum (cwvK q dp) = _
        rw [this]
        simp [waterOf]

theorem absO_of_nonneg {l : List (Option K)} (h : ∀ x, some x ∈ l → 0 ≤ x) : absO l = l := by
  induction l with
  | nil => rfl
  | cons a l ih =>
    have h1 := ih fun x hx => h x (List.mem_cons_of_mem _ hx)
    unfold absO at h1 ⊢
    rw [List.map_cons, h1]
    cases a with
    | none => rfl
    | some x => simp [abs_of_nonneg (h x List.mem_cons_self)]

theorem cwvK_nonneg {q : List (Option K)} {dp : List K} (hq : ∀ x, some x ∈ q → 0 ≤ x)
    (hd : ∀ x ∈ dp, 0 ≤ x) : ∀ x, some x ∈ cwvK q dp → 0 ≤ x := by
  induction q generalizing dp with
  | nil => intro x hx; simp [cwvK] at hx
  | cons a q ih =>
    cases dp with
    | nil => intro x hx; simp [cwvK] at hx
    | cons d dp =>
      intro x hx
      rcases List.mem_cons.1 hx with h | h
      · cases a with
        | none => cases h
        | some y =>
          have h : x = y * d / grav := Option.some.inj h
          rw [h]
          exact div_nonneg (mul_nonneg (hq y List.mem_cons_self) (hd d List.mem_cons_self)) grav_pos.le
      · exact ih (fun x hx => hq x (List.mem_cons_of_mem _ hx)) (fun x hx => hd x (List.mem_cons_of_mem _ hx)) x h

private theorem le_nanSum {l : List (Option K)} (h : ∀ x, some x ∈ l → 0 ≤ x) : ∀ x, some x ∈ l → x ≤ nanSum l := by
  induction l with
  | nil => intro x hx; simp at hx
  | cons a l ih =>
    have h1 := ih fun x hx => h x (List.mem_cons_of_mem _ hx)
    have h0 : 0 ≤ nanSum l := by
      rw [← absO_of_nonneg fun x hx => h x (List.mem_cons_of_mem _ hx)]
      exact absO_nonneg _
    intro x hx
    rcases List.mem_cons.1 hx with e | e
    · subst e
      rw [nanSum_some_K]
      linarith
    · refine (h1 x e).trans ?_
      cases a with
      | none => exact le_rfl
      | some y =>
        rw [nanSum_some_K]
        have := h y List.mem_cons_self
        linarith

private theorem near_scale_list (A : Accurate R u η) (κf : Fl R) {κ ρ c e Y : K} (hκ : 0 ≤ κ) (hρ : 0 ≤ ρ)
    (hc : 0 ≤ c) (he : 0 ≤ e) (h1 : |κf.val - κ| ≤ ρ * κ + η) {xs : List (Option (Fl R))} {ys : List (Option K)}
    (h : List.Forall₂ (NearFl c e) xs ys) (hY : ∀ y, some y ∈ ys → |y| ≤ Y) :
    List.Forall₂ (NearFl (c + ρ * (1 + c) + u + u * (c + ρ * (1 + c)))
        ((1 + u) * (κ * e * (1 + ρ) + η * ((1 + c) * Y + e)) + η))
      (xs.map fun x => x.map fun x => κf * x) (ys.map fun y => y.map fun y => κ * y) := by
  induction h with
  | nil => exact List.Forall₂.nil
  | @cons a b xs ys hab hl ih =>
    refine List.Forall₂.cons ?_ (ih fun y hy => hY y (List.mem_cons_of_mem _ hy))
    match a, b, hab with
    | none, none, _ => trivial
    | some x, some y, hab => exact near_scaled A κf x hκ hρ hc he h1 hab (hY y List.mem_cons_self)

private theorem absO_scale {κ : K} (hκ : 0 ≤ κ) (l : List (Option K)) :
    absO (l.map fun y => y.map fun y => κ * y) = (absO l).map fun y => y.map fun y => κ * y := by
  unfold absO
  rw [List.map_map, List.map_map]
  refine List.map_congr_left fun a _ => ?_
  cases a <;> simp [abs_mul, abs_of_nonneg hκ]

private theorem const_rel {u ε ρ : K} (hu : 0 ≤ u) (hu1 : u ≤ 1 / 10000000) (hε : 0 ≤ ε) (hρdef : ρ = 21 / 20 * ε + u) :
    4 * u + ρ * (1 + 4 * u) + u + u * (4 * u + ρ * (1 + 4 * u)) ≤ 7 * u + 53 / 50 * ε := by
  have a1 : u * ε ≤ 1 / 10000000 * ε := mul_le_mul_of_nonneg_right hu1 hε
  have a2 : u * u ≤ 1 / 10000000 * u := mul_le_mul_of_nonneg_right hu1 hu
  have a3 : u * u * ε ≤ 1 / 10000000 * ε := by
    have : u * (u * ε) ≤ 1 * (u * ε) := mul_le_mul_of_nonneg_right (by linarith) (by positivity)
    calc u * u * ε = u * (u * ε) := by ring
      _ ≤ _ := by linarith
  have a4 : u * u * u ≤ 1 / 10000000 * u := by
    have : u * (u * u) ≤ 1 * (u * u) := mul_le_mul_of_nonneg_right (by linarith) (by positivity)
    calc u * u * u = u * (u * u) := by ring
      _ ≤ _ := by linarith
  have e1 : 4 * u + ρ * (1 + 4 * u) + u + u * (4 * u + ρ * (1 + 4 * u)) =
      6 * u + 9 * (u * u) + 4 * (u * u * u) + 21 / 20 * ε + 21 / 4 * (u * ε) + 21 / 5 * (u * u * ε) := by
    rw [hρdef]; ring
  rw [e1]
  linarith

private theorem const_abs {u η n κ e ρ W μ t : K} (hu : 0 ≤ u) (hu1 : u ≤ 1 / 10000000) (hη0 : 0 ≤ η) (hnn : 0 ≤ n)
    (hκ : 0 ≤ κ) (he : 0 ≤ e) (hρ : 0 ≤ ρ) (hρ1 : ρ ≤ 22 / 1000) (hW0 : 0 < W) (hμ0 : 0 ≤ μ) (ht : 0 ≤ t)
    (hκW : κ * W = t) (hne : n * e ≤ μ * W) (heW : e ≤ 1 / 60 * W) :
    n * ((1 + u) * (κ * e * (1 + ρ) + η * ((1 + 4 * u) * W + e)) + η) ≤
      103 / 100 * (μ * t) + n * η * (103 / 100 * W + 1) := by
  have b1 : n * (κ * e) ≤ μ * t := by
    calc n * (κ * e) = κ * (n * e) := by ring
      _ ≤ κ * (μ * W) := mul_le_mul_of_nonneg_left hne hκ
      _ = μ * (κ * W) := by ring
      _ = _ := by rw [hκW]
  have b2 : (1 + u) * (1 + ρ) ≤ 103 / 100 := by
    calc (1 + u) * (1 + ρ) ≤ (1 + 1 / 10000000) * (1 + 22 / 1000) :=
          mul_le_mul (by linarith) (by linarith) (by linarith) (by norm_num)
      _ ≤ _ := by norm_num
  have b3 : (1 + u) * ((1 + 4 * u) * W + e) ≤ 103 / 100 * W := by
    have c1 : (1 + 4 * u) * W ≤ (1 + 4 * (1 / 10000000)) * W := mul_le_mul_of_nonneg_right (by linarith) hW0.le
    have b4 : (1 + 4 * u) * W + e ≤ 102 / 100 * W := by linarith
    calc _ ≤ (1 + u) * (102 / 100 * W) := mul_le_mul_of_nonneg_left b4 (by linarith)
      _ ≤ (1 + 1 / 10000000) * (102 / 100 * W) := mul_le_mul_of_nonneg_right (by linarith) (by linarith)
      _ ≤ _ := by linarith
  have b5 : 0 ≤ n * (κ * e) := by positivity
  calc n * ((1 + u) * (κ * e * (1 + ρ) + η * ((1 + 4 * u) * W + e)) + η)
      = ((1 + u) * (1 + ρ)) * (n * (κ * e)) + n * η * ((1 + u) * ((1 + 4 * u) * W + e)) + n * η := by ring
    _ ≤ 103 / 100 * (n * (κ * e)) + n * η * (103 / 100 * W) + n * η :=
      add_le_add (add_le_add (mul_le_mul_of_nonneg_right b2 b5)
        (mul_le_mul_of_nonneg_left b3 (by positivity))) le_rfl
    _ ≤ _ := by linarith

private theorem final_rel {u n μ ε c2 : K} (hu : 0 ≤ u) (hu1 : u ≤ 1 / 10000000) (hnn : 0 ≤ n) (hμ0 : 0 ≤ μ)
    (hε : ε = 51 / 50 * ((n + 4) * u + μ)) (h0 : 0 ≤ c2) (h : c2 ≤ 7 * u + 53 / 50 * ε) :
    51 / 50 * (c2 + n * u) ≤ (11 / 5 * n + 12) * u + 6 / 5 * μ ∧
      51 / 50 * (c2 + u + u * c2 + n * u) ≤ (11 / 5 * n + 14) * u + 6 / 5 * μ := by
  have hnu : 0 ≤ n * u := mul_nonneg hnn hu
  have e1 : 7 * u + 53 / 50 * ε = 7 * u + 53 / 50 * (51 / 50 * (n * u + 4 * u + μ)) := by rw [hε]; ring
  rw [e1] at h
  have h1 : u * c2 ≤ 1 / 10000000 * c2 := mul_le_mul_of_nonneg_right hu1 h0
  constructor
  · have : (11 / 5 * n + 12) * u + 6 / 5 * μ = 11 / 5 * (n * u) + 12 * u + 6 / 5 * μ := by ring
    rw [this]; linarith
  · have : (11 / 5 * n + 14) * u + 6 / 5 * μ = 11 / 5 * (n * u) + 14 * u + 6 / 5 * μ := by ring
    rw [this]; linarith

private theorem final_abs {u η n W μ t U e2 : K} (hu : 0 ≤ u) (hu1 : u ≤ 1 / 10000000) (hη : 0 ≤ η) (hnn : 0 ≤ n)
    (hW : 0 < W) (hμ0 : 0 ≤ μ) (ht : 0 ≤ t) (hU : 0 ≤ U) (he2 : 0 ≤ e2)
    (h : n * e2 ≤ 103 / 100 * (μ * t) + n * η * (103 / 100 * W + 1)) :
    51 / 50 * (n * (e2 + η)) ≤ 6 / 5 * μ * t + 3 * n * η * (W + 1) ∧
      51 / 50 * (n * ((1 + u) * (U * e2) + η + η)) ≤
        U * (6 / 5 * μ * t + 3 * n * η * (W + 1)) + 3 * n * η := by
  have hmut : 0 ≤ μ * t := by positivity
  have hnη : 0 ≤ n * η := by positivity
  have hnηW : 0 ≤ n * η * W := by positivity
  have e0 : 6 / 5 * μ * t + 3 * n * η * (W + 1) = 6 / 5 * (μ * t) + 3 * (n * η * W) + 3 * (n * η) := by ring
  have h' : n * e2 ≤ 103 / 100 * (μ * t) + 103 / 100 * (n * η * W) + n * η := by
    calc _ ≤ _ := h
      _ = _ := by ring
  constructor
  · have : 51 / 50 * (n * (e2 + η)) = 51 / 50 * (n * e2) + 51 / 50 * (n * η) := by ring
    rw [this, e0]
    linarith
  · have e3 : 51 / 50 * (n * ((1 + u) * (U * e2) + η + η)) =
        (51 / 50 * (1 + u)) * (U * (n * e2)) + 51 / 25 * (n * η) := by ring
    rw [e3, e0]
    have f3 : 0 ≤ U * (n * e2) := by positivity
    have f4 : (51 / 50 * (1 + u)) * (U * (n * e2)) ≤ 11 / 10 * (U * (n * e2)) :=
      mul_le_mul_of_nonneg_right (by linarith) f3
    have f6 : U * (11 / 10 * (n * e2)) ≤ U * (6 / 5 * (μ * t) + 3 * (n * η * W) + 3 * (n * η)) :=
      mul_le_mul_of_nonneg_left (by linarith) hU
    linarith

/-- **C122** (with total column water): humidities and thicknesses are not negative and the column holds water
(`W`).  The water of the levels is scaled so that it adds up to the total column water; `μ` is the relative error
that the thicknesses bring in. -/
theorem C122_total_column_water (A : Accurate R u η) (hη : η ≤ u) (c : Column (Option (Fl R))) (dp : List (Fl R))
    (dp' : List K) (hn : dp.length ≤ 100000) (upper : List Bool) (hU : 0 ≤ U) (hQ : 0 ≤ Q) (hδ : 0 ≤ δ)
    (hc : ColumnSized Q U c) (hd : ThicknessWithin δ dp dp') (t : Fl R) (ht : 0 ≤ t.val)
    (hq : ∀ x, some x ∈ c.q → 0 ≤ x.val) (hd0 : ∀ x ∈ dp', 0 ≤ x) (W μ : K)
    (hW : waterOf (exactCol c).q dp' = W) (hW0 : 0 < W)
    (hμ : dp.length * (3 * η + 2 * (Q * δ / grav)) = μ * W) (hsmall : (dp.length + 4) * u + μ ≤ 1 / 60) :
    LayersWithin ((11 / 5 * dp.length + 12) * u + 6 / 5 * μ) (6 / 5 * μ * t.val + 3 * dp.length * η * (W + 1))
      ((11 / 5 * dp.length + 14) * u + 6 / 5 * μ)
      (U * (6 / 5 * μ * t.val + 3 * dp.length * η * (W + 1)) + 3 * dp.length * η)
      (integrateLayers (absCol (exactCol c)) dp' upper (some t.val))
      (integrateLayers c dp upper (some t)) (integrateLayers (exactCol c) dp' upper (some t.val)) := by
  have hu := A.u_nonneg
  have hu1 := A.u_small
  have hη0 := A.η_nonneg
  have hg := grav_pos (K := K)
  have hE : 0 ≤ Q * δ / grav := by positivity
  set n : K := ((dp.length : ℕ) : K) with hndef
  have hnn : (0 : K) ≤ n := Nat.cast_nonneg _
  set e : K := 2 * η + 2 * (Q * δ / grav) with hedef
  have he : 0 ≤ e := by positivity
  have h1 : List.Forall₂ (NearFl (4 * u) e) (cwvFl c.q dp) (cwvK (exactO c.q) dp') := near_cwv A hη hc.humidity hd
  have hq' : ∀ x, some x ∈ exactO c.q → 0 ≤ x := by
    intro x hx
    obtain ⟨a, ha, hax⟩ := List.mem_map.1 hx
    cases a with
    | none => cases hax
    | some a =>
      have hax : a.val = x := Option.some.inj hax
      rw [← hax]
      exact hq a ha
  have hpos := cwvK_nonneg hq' hd0
  have hsum : nanSum (cwvK (exactO c.q) dp') = W := (waterOf_eq _ _).trans hW
  have habs := absO_of_nonneg hpos
  -- the total
  have hμ0 : 0 ≤ μ := by
    have : 0 ≤ μ * W := by rw [← hμ]; positivity
    exact nonneg_of_mul_nonneg_left this hW0
  set ε : K := 51 / 50 * ((n + 4) * u + μ) with hεdef
  have hε : 0 ≤ ε := by positivity
  have hε' : ε ≤ 1 / 50 := by rw [hεdef]; linarith
  have htot : |(nanSum (cwvFl c.q dp)).val - W| ≤ ε * W := by
    have := near_total A (by positivity : 0 ≤ 4 * u) he (small_n A hn) (cwv_len c.q dp) h1
    rw [habs, hsum] at this
    refine this.trans (le_of_eq ?_)
    rw [hεdef]
    have : n * (e + η) = μ * W := by rw [← hμ, hedef]; ring
    rw [this]; ring
  set κ : K := t.val / W with hκdef
  have hκ : 0 ≤ κ := div_nonneg ht hW0.le
  have hκW : κ * W = t.val := by rw [hκdef]; field_simp
  have hfac := near_factor A t (nanSum (cwvFl c.q dp)) ht hW0 hε hε' htot
  set ρ : K := 21 / 20 * ε + u with hρdef
  have hρ : 0 ≤ ρ := by positivity
  have hY : ∀ y, some y ∈ cwvK (exactO c.q) dp' → |y| ≤ W := by
    intro y hy
    rw [abs_of_nonneg (hpos y hy), ← hsum]
    exact le_nanSum hpos y hy
  have h2 := near_scale_list A (t / nanSum (cwvFl c.q dp)) hκ hρ (by positivity : 0 ≤ 4 * u) he hfac h1 hY
  -- sizes of the constants
  have hρ1 : ρ ≤ 22 / 1000 := by rw [hρdef]; linarith
  have hk1 : 0 ≤ 4 * u + ρ * (1 + 4 * u) + u + u * (4 * u + ρ * (1 + 4 * u)) := by positivity
  have hk2 := const_rel hu hu1 hε hρdef
  have hk3 : 0 ≤ (1 + u) * (κ * e * (1 + ρ) + η * ((1 + 4 * u) * W + e)) + η := by positivity
  have hn1 : dp.length ≠ 0 := by
    intro h0
    have hdp : dp = [] := List.eq_nil_of_length_eq_zero h0
    subst hdp
    have hdp' : dp' = [] := by
      have hd' : List.Forall₂ _ _ _ := hd
      cases hd'
      rfl
    rw [hdp'] at hW
    simp [waterOf] at hW
    exact hW0.ne hW
  have hn1' : 1 ≤ n := by
    have : 1 ≤ dp.length := Nat.one_le_iff_ne_zero.2 hn1
    rw [hndef]
    exact_mod_cast this
  have hne : n * e ≤ μ * W := by
    rw [← hμ, hedef]
    exact mul_le_mul_of_nonneg_left (by linarith) hnn
  have heW : e ≤ 1 / 60 * W := by
    have a1 : 1 * e ≤ n * e := mul_le_mul_of_nonneg_right hn1' he
    have a2 : 0 ≤ (n + 4) * u := by positivity
    have a3 : μ * W ≤ 1 / 60 * W := mul_le_mul_of_nonneg_right (by linarith) hW0.le
    linarith
  have hk4 := const_abs hu hu1 hη0 hnn hκ he hρ hρ1 hW0 hμ0 ht hκW hne heW
  have hmain := near_layers A hk1 hk3 hU (small_n A hn) hc.eastward hc.northward
    (by rw [List.length_map]; exact cwv_len c.q dp) h2 upper
  set c2 : K := 4 * u + ρ * (1 + 4 * u) + u + u * (4 * u + ρ * (1 + 4 * u)) with hc2
  set e2 : K := (1 + u) * (κ * e * (1 + ρ) + η * ((1 + 4 * u) * W + e)) + η with he2
  have hX : integrateLayers (exactCol c) dp' upper (some t.val) =
      layersOf (exactO c.u) (exactO c.v) ((cwvK (exactO c.q) dp').map fun y => y.map fun y => κ * y) upper := by
    rw [integrateLayers_eq]
    change layersOf _ _ ((cwvK (exactO c.q) dp').map fun y => y.map fun y =>
      (t.val / nanSum (cwvK (exactO c.q) dp')) * y) upper = _
    rw [hsum]
    rfl
  have hS : integrateLayers (absCol (exactCol c)) dp' upper (some t.val) =
      layersOf (absO (exactO c.u)) (absO (exactO c.v))
        (absO ((cwvK (exactO c.q) dp').map fun y => y.map fun y => κ * y)) upper := by
    rw [integrateLayers_eq, absO_scale hκ, habs]
    have hq2 : (absCol (exactCol c)).q = exactO c.q := absO_of_nonneg hq'
    rw [hq2]
    change layersOf _ _ ((cwvK (exactO c.q) dp').map fun y => y.map fun y =>
      (t.val / nanSum (cwvK (exactO c.q) dp')) * y) upper = _
    rw [hsum]
    rfl
  rw [hX, hS]
  exact LayersWithin.weaken (layersOf_abs_nonneg _ _ _ _) hmain (final_rel hu hu1 hnn hμ0 hεdef hk1 hk2).1
    (final_abs hu hu1 hη0 hnn hW0 hμ0 ht hU hk3 hk4).1 (final_rel hu hu1 hnn hμ0 hεdef hk1 hk2).2
    (final_abs hu hu1 hη0 hnn hW0 hμ0 ht hU hk3 hk4).2

/-! ### Layers and column -/

theorem split_layers (m : List Bool) (l : List (Option K)) (h : l.length ≤ m.length) :
    nanSum (whereMask m l) + nanSum (whereMask (m.map (!·)) l) = nanSum l := by
  induction l generalizing m with
  | nil => cases m <;> simp [whereMask, nanSum]
  | cons a l ih =>
    cases m with
    | nil => simp at h
    | cons b m =>
      have := ih m (by simpa using h)
      cases a with
      | none => cases b <;> exact this
      | some x =>
        cases b
        · change nanSum (whereMask m l) + (x + nanSum (whereMask (m.map (!·)) l)) = x + nanSum l
          rw [← this]; ring
        · change (x + nanSum (whereMask m l)) + nanSum (whereMask (m.map (!·)) l) = x + nanSum l
          rw [← this]; ring

theorem nanSum_scale (κ : K) (l : List (Option K)) :
    nanSum (l.map fun y => y.map fun y => κ * y) = κ * nanSum l := by
  induction l with
  | nil => simp [nanSum]
  | cons a l ih =>
    cases a with
    | none => exact ih
    | some x =>
      change κ * x + nanSum (l.map fun y => y.map fun y => κ * y) = κ * (x + nanSum l)
      rw [ih]; ring

/-- **C122**: with total column water, the two layers add up to it, up to rounding. -/
theorem C122_layers_add_up (A : Accurate R u η) (hη : η ≤ u) (c : Column (Option (Fl R))) (dp : List (Fl R))
    (dp' : List K) (hn : dp.length ≤ 100000) (upper : List Bool) (hup : dp.length ≤ upper.length) (hQ : 0 ≤ Q)
    (hU : 0 ≤ U) (hδ : 0 ≤ δ) (hc : ColumnSized Q U c) (hd : ThicknessWithin δ dp dp') (t : Fl R) (ht : 0 ≤ t.val)
    (hq : ∀ x, some x ∈ c.q → 0 ≤ x.val) (hd0 : ∀ x ∈ dp', 0 ≤ x) (W μ : K)
    (hW : waterOf (exactCol c).q dp' = W) (hW0 : 0 < W)
    (hμ : dp.length * (3 * η + 2 * (Q * δ / grav)) = μ * W) (hsmall : (dp.length + 4) * u + μ ≤ 1 / 60) :
    |(integrateLayers c dp upper (some t)).s_upper.val + (integrateLayers c dp upper (some t)).s_lower.val - t.val| ≤
      ((11 / 5 * dp.length + 12) * u + 18 / 5 * μ) * t.val + 6 * dp.length * η * (W + 1) := by
  have h := C122_total_column_water A hη c dp dp' hn upper hU hQ hδ hc hd t ht hq hd0 W μ hW hW0 hμ hsmall
  have hsum : nanSum (cwvK (exactCol c).q dp') = W := (waterOf_eq _ _).trans hW
  have hl : (cwvK (exactCol c).q dp').length ≤ upper.length := by
    have := hd.length_eq
    rw [cwvK, List.length_zipWith]; omega
  have hX : (integrateLayers (exactCol c) dp' upper (some t.val)).s_upper +
      (integrateLayers (exactCol c) dp' upper (some t.val)).s_lower = t.val := by
    have e := split_layers upper ((cwvK (exactCol c).q dp').map fun y => y.map fun y =>
      (t.val / nanSum (cwvK (exactCol c).q dp')) * y) (by rw [List.length_map]; exact hl)
    refine Eq.trans e ?_
    rw [nanSum_scale, hsum]
    field_simp
  have hq2 : (absCol (exactCol c)).q = (exactCol c).q := by
    refine absO_of_nonneg fun x hx => ?_
    obtain ⟨a, ha, hax⟩ := List.mem_map.1 hx
    cases a with
    | none => cases hax
    | some a =>
      have hax : a.val = x := Option.some.inj hax
      rw [← hax]
      exact hq a ha
  have e1 : (integrateLayers (absCol (exactCol c)) dp' upper (some t.val)).s_upper =
      (integrateLayers (exactCol c) dp' upper (some t.val)).s_upper := by
    simp only [integrateLayers, hq2]
  have e2 : (integrateLayers (absCol (exactCol c)) dp' upper (some t.val)).s_lower =
      (integrateLayers (exactCol c) dp' upper (some t.val)).s_lower := by
    simp only [integrateLayers, hq2]
  have h1 := h.s_upper
  have h2 := h.s_lower
  rw [e1] at h1
  rw [e2] at h2
  set X := integrateLayers (exactCol c) dp' upper (some t.val)
  set F := integrateLayers c dp upper (some t)
  calc |F.s_upper.val + F.s_lower.val - t.val| = |(F.s_upper.val - X.s_upper) + (F.s_lower.val - X.s_lower)| := by
        rw [← hX]; congr 1; ring
    _ ≤ _ := abs_add_le _ _
    _ ≤ _ := add_le_add h1 h2
    _ = ((11 / 5 * dp.length + 12) * u + 6 / 5 * μ) * (X.s_upper + X.s_lower) + 12 / 5 * μ * t.val +
        6 * dp.length * η * (W + 1) := by ring
    _ = _ := by rw [hX]; ring

private theorem nanSum_nonneg_Fl {l : List (Option (Fl R))} (h : ∀ x, some x ∈ l → 0 ≤ x) : 0 ≤ nanSum l := by
  induction l with
  | nil => rw [nanSum_nil_Fl]
  | cons a l ih =>
    have := ih fun x hx => h x (List.mem_cons_of_mem _ hx)
    cases a with
    | none => exact this
    | some x => exact Fl.add_nonneg (h x List.mem_cons_self) this

private theorem mem_mask {α : Type} {m : List Bool} {l : List (Option α)} {x : α} (h : some x ∈ whereMask m l) :
    some x ∈ l := by
  induction l generalizing m with
  | nil => cases m <;> simp [whereMask] at h
  | cons a l ih =>
    cases m with
    | nil => simp [whereMask] at h
    | cons b m =>
      rcases List.mem_cons.1 h with h | h
      · cases b
        · cases h
        · exact List.mem_cons.2 (Or.inl h)
      · exact List.mem_cons_of_mem _ (ih h)

/-- **C122**: no rounding makes a storage negative (any monotone rounding, any summation error): non-negative
humidities and thicknesses give non-negative storages. -/
theorem C122_storages_nonneg (c : Column (Option (Fl R))) (dp : List (Fl R)) (upper : List Bool) (tcw : Option (Fl R))
    (hq : ∀ x, some x ∈ c.q → 0 ≤ x.val) (hd : ∀ x ∈ dp, 0 ≤ x.val) (ht : ∀ t, tcw = some t → 0 ≤ t.val) :
    0 ≤ (integrateLayers c dp upper tcw).s_upper.val ∧ 0 ≤ (integrateLayers c dp upper tcw).s_lower.val := by
  have h1 : ∀ x, some x ∈ cwvFl c.q dp → (0 : Fl R) ≤ x := by
    intro x hx
    rw [cwvFl, ← List.map_uncurry_zip_eq_zipWith] at hx
    obtain ⟨⟨a, d⟩, had, e⟩ := List.mem_map.1 hx
    cases a with
    | none => cases e
    | some a =>
      have e : a * d / ofRat (980665 / 100000) = x := Option.some.inj e
      rw [← e]
      exact Fl.div_nonneg (Fl.mul_nonneg ((Fl.le_def _ _).2 (hq a (List.of_mem_zip had).1))
        ((Fl.le_def _ _).2 (hd d (List.of_mem_zip had).2))) (Fl.ofRat_nonneg (by norm_num))
  have h2 : ∀ x, some x ∈ columnWater (cwvFl c.q dp) tcw → (0 : Fl R) ≤ x := by
    cases tcw with
    | none => exact h1
    | some t =>
      intro x hx
      obtain ⟨a, ha, e⟩ := List.mem_map.1 hx
      cases a with
      | none => cases e
      | some a =>
        have e : t / nanSum (cwvFl c.q dp) * a = x := Option.some.inj e
        rw [← e]
        exact Fl.mul_nonneg (Fl.div_nonneg ((Fl.le_def _ _).2 (ht t rfl)) (nanSum_nonneg_Fl h1)) (h1 a ha)
  exact ⟨nanSum_nonneg_Fl fun x hx => h2 x (mem_mask hx), nanSum_nonneg_Fl fun x hx => h2 x (mem_mask hx)⟩

/-! ### Model levels -/

private theorem dp_within {P : K} {x : List (Fl R)} {y : List K} (h : List.Forall₂ (Ap u P 106 4) x y) :
    ThicknessWithin (106 * (u * P)) x y := h.imp fun _ _ h => h.err

/-- **C122** (thicknesses): the thickness of the model levels from the coefficients `a`, `b` in floats (each within
`3 u` of its exact value `a'`, `b'`) differs from the exact thickness by at most `106 u P`, where `P` bounds the
surface pressure and the coefficients `a`; the two computations end alike. -/
theorem C122_thickness (A : Accurate R u η) (hη : η ≤ u) (P : K) (hP : η ≤ u * P) (sp : Fl R) (hsp : |sp.val| ≤ P)
    (a b : List (Fl R)) (a' b' : List K) (levels : List ℤ)
    (ha : List.Forall₂ (fun x y => |x.val - y| ≤ 3 * (u * P) ∧ |y| ≤ P) a a')
    (hb : List.Forall₂ (fun x y => |x.val - y| ≤ 3 * u ∧ |y| ≤ 1) b b') :
    (∃ dp dp', getDpModellevels a b sp levels = .ok dp ∧ getDpModellevels a' b' sp.val levels = .ok dp' ∧
      ThicknessWithin (106 * (u * P)) dp dp') ∨
    ∃ e, getDpModellevels a b sp levels = .error e ∧ getDpModellevels a' b' sp.val levels = .error e := by
  have hP0 : 0 ≤ P := (abs_nonneg _).trans hsp
  have h := sameEnd_dp (b := P) A hη ⟨hP0, hP⟩ sp hsp
    (ha.imp fun _ _ h => ⟨h.1, by rw [one_mul]; exact h.2⟩)
    (hb.imp fun _ _ h => ⟨by rw [mul_one]; exact h.1, by rw [one_mul]; exact h.2⟩) levels
  cases h1 : getDpModellevels a b sp levels with
  | error e =>
    cases h2 : getDpModellevels a' b' sp.val levels with
    | error e' =>
      rw [h1, h2] at h
      have h : e = e' := h
      exact Or.inr ⟨e, rfl, by rw [h]⟩
    | ok y => rw [h1, h2] at h; exact h.elim
  | ok x =>
    cases h2 : getDpModellevels a' b' sp.val levels with
    | error e' => rw [h1, h2] at h; exact h.elim
    | ok y =>
      rw [h1, h2] at h
      exact Or.inl ⟨x, y, rfl, rfl, dp_within h⟩

private theorem table_near (A : Accurate R u η) {P : K} (hP : η ≤ u * P) (hP0 : 0 ≤ P) (q : ℚ)
    (h : |(q : K)| ≤ P) : |(ofRat q : Fl R).val - (ofRat q : K)| ≤ 3 * (u * P) ∧ |(ofRat q : K)| ≤ P := by
  refine ⟨?_, h⟩
  have h1 := A.err (q : K)
  have h2 := mul_le_mul_of_nonneg_left h A.u_nonneg
  change |R.rnd (q : K) - (q : K)| ≤ _
  linarith [mul_nonneg A.u_nonneg hP0]

private theorem table_bounds : (∀ n ∈ era5AInt, 0 ≤ n ∧ n ≤ 30331 * 1000000) ∧ (∀ n ∈ era5BInt, 0 ≤ n ∧ n ≤ 1000000) := by
  constructor <;> decide +kernel

private theorem mkRat_bound {n : ℤ} {B : ℤ} (h : 0 ≤ n ∧ n ≤ B * 1000000) : |((mkRat n 1000000 : ℚ) : K)| ≤ B := by
  have e : (mkRat n 1000000 : ℚ) = (n : ℚ) / 1000000 := by
    rw [Rat.mkRat_eq_div]; norm_num
  rw [e]
  push_cast
  have h0 : (0 : K) ≤ n := by exact_mod_cast h.1
  have h1 : (n : K) ≤ B * 1000000 := by exact_mod_cast h.2
  rw [abs_of_nonneg (by positivity), div_le_iff₀ (by norm_num)]
  exact h1

private theorem era5_near (A : Accurate R u η) (hη : η ≤ u) {P : K} (hP : 30331 ≤ P) :
    List.Forall₂ (fun x y => |x.val - y| ≤ 3 * (u * P) ∧ |y| ≤ P) (era5A (Fl R)) (era5A K) ∧
    List.Forall₂ (fun x y => |x.val - y| ≤ 3 * u ∧ |y| ≤ 1) (era5B (Fl R)) (era5B K) := by
  have hu := A.u_nonneg
  have hP' : η ≤ u * P := by nlinarith
  constructor
  · unfold era5A
    rw [List.forall₂_map_left_iff, List.forall₂_map_right_iff, List.forall₂_same]
    intro n hn
    refine table_near A hP' (by linarith) _ ((mkRat_bound (B := 30331) (table_bounds.1 n hn)).trans ?_)
    push_cast
    exact hP
  · unfold era5B
    rw [List.forall₂_map_left_iff, List.forall₂_map_right_iff, List.forall₂_same]
    intro n hn
    have := table_near (R := R) (P := 1) A (by linarith) zero_le_one (mkRat n 1000000)
      ((mkRat_bound (B := 1) (by simpa using table_bounds.2 n hn)).trans (by push_cast; exact le_rfl))
    rw [mul_one] at this
    exact this

private theorem model_as_layers {α : Type} [Add α] [Sub α] [Mul α] [Div α] [NpOps α] (a b : List α) (levels : List ℤ)
    (boundary : ℤ) (c : Column α) (sp : α) (tcw : Option α) (dp : List α)
    (h : getDpModellevels a b sp levels = .ok dp) :
    preprocessModel a b levels boundary c sp tcw =
      .ok (integrateLayers ⟨c.p.map some, c.q.map some, c.u.map some, c.v.map some⟩ dp
        (levels.map fun l => !decide (boundary < l)) tcw) := by
  unfold preprocessModel
  rw [h]
  rfl

private theorem lift_exact (l : List (Fl R)) : (l.map some).map (·.map Fl.val) = (l.map Fl.val).map some := by
  rw [List.map_map, List.map_map]
  rfl

private theorem lift_abs (l : List K) : (l.map some).map (·.map (|·|)) = (l.map (|·|)).map some := by
  rw [List.map_map, List.map_map]
  rfl

private theorem lift_some {l : List (Fl R)} {p : Fl R → Prop} (h : ∀ x ∈ l, p x) : ∀ x, some x ∈ l.map some → p x := by
  intro x hx
  obtain ⟨a, ha, e⟩ := List.mem_map.1 hx
  rw [← Option.some.inj e]
  exact h a ha

private theorem Forall₂_length {δ : K} {x : List (Fl R)} {y : List K} (h : ThicknessWithin δ x y) :
    x.length = y.length := List.Forall₂.length_eq h

/-- **C122** (ERA5 model levels): for every choice of model levels and every surface pressure from 303.31 hPa on,
preprocessing in floats ends like preprocessing in exact arithmetic, and storages and fluxes differ by no more than
`1.02 ((n + 4) u S + n (3 η + 212 u Q sp / g))` (fluxes similarly), where `n` is the number of levels, `S` the
integral in question (of absolute values), `Q` the largest humidity and `U` the largest wind. -/
theorem C122_era5 (A : Accurate R u η) (hη : η ≤ u) (sp : Fl R) (hsp : 30331 ≤ sp.val) (boundary : ℤ) (levels : List ℤ)
    (hne : levels ≠ []) (hlen : levels.length ≤ 100000) (hsort : levels.Pairwise (· ≤ ·))
    (h : ∀ l ∈ levels, 1 ≤ l ∧ l ≤ 137) (c : Column (Fl R)) (hQ : 0 ≤ Q) (hU : 0 ≤ U)
    (hq : ∀ x ∈ c.q, |x.val| ≤ Q) (hu : ∀ x ∈ c.u, |x.val| ≤ U) (hv : ∀ x ∈ c.v, |x.val| ≤ U) :
    ∃ F X S,
      preprocessModel (era5A (Fl R)) (era5B (Fl R)) levels boundary c sp none = .ok F ∧
      preprocessModel (era5A K) (era5B K) levels boundary (exactLevels c) sp.val none = .ok X ∧
      preprocessModel (era5A K) (era5B K) levels boundary (absLevels (exactLevels c)) sp.val none = .ok S ∧
      LayersWithin (51 / 50 * ((levels.length + 4) * u))
        (51 / 50 * (levels.length * (3 * η + 212 * u * (Q * sp.val / grav))))
        (51 / 50 * ((levels.length + 6) * u))
        (51 / 50 * (levels.length * (3 * U * (η + 106 * u * (Q * sp.val / grav)) + 2 * η))) S F X := by
  have hP0 : 0 ≤ sp.val := by linarith
  have hηP : η ≤ u * sp.val := by nlinarith [A.u_nonneg]
  obtain ⟨na, nb⟩ := era5_near A hη hsp
  obtain ⟨dp', hdp', hdlen, -⟩ := C54_era5_surface_pressure sp.val levels hne h
  obtain ⟨dp'', hdp'', hpos⟩ := C54_era5_nonneg sp.val hsp levels hne hsort h
  rw [hdp'] at hdp''
  injection hdp'' with e
  subst e
  rcases C122_thickness A hη sp.val hηP sp (le_of_eq (abs_of_nonneg hP0)) _ _ _ _ levels na nb with
    ⟨dp, dp2, h1, h2, h3⟩ | ⟨e, -, h2⟩
  swap
  · rw [hdp'] at h2; cases h2
  rw [hdp'] at h2
  injection h2 with e
  subst e
  have hn : dp.length = levels.length := (Forall₂_length h3).trans hdlen
  have key := C122_layers (Q := Q) (U := U) A hη ⟨c.p.map some, c.q.map some, c.u.map some, c.v.map some⟩ dp dp'
    (by rw [hn]; exact hlen)
    (levels.map fun l => !decide (boundary < l)) hU hQ (mul_nonneg (by norm_num) (mul_nonneg A.u_nonneg hP0))
    ⟨lift_some hq, lift_some hu, lift_some hv⟩ h3
  refine ⟨_, _, _, model_as_layers _ _ _ _ _ _ _ _ h1, model_as_layers _ _ _ _ _ _ _ _ hdp',
    model_as_layers _ _ _ _ _ _ _ _ hdp', ?_⟩
  have e1 : exactCol ⟨c.p.map some, c.q.map some, c.u.map some, c.v.map some⟩ =
      ⟨(exactLevels c).p.map some, (exactLevels c).q.map some, (exactLevels c).u.map some,
        (exactLevels c).v.map some⟩ := by
    simp only [exactCol, lift_exact, exactLevels]
  have e2 : absCol (exactCol ⟨c.p.map some, c.q.map some, c.u.map some, c.v.map some⟩) =
      ⟨(absLevels (exactLevels c)).p.map some, (absLevels (exactLevels c)).q.map some,
        (absLevels (exactLevels c)).u.map some, (absLevels (exactLevels c)).v.map some⟩ := by
    rw [e1]
    simp only [absCol, lift_abs, absLevels]
  have e3 : dp'.map (|·|) = dp' := by
    conv_rhs => rw [← List.map_id dp']
    exact List.map_congr_left fun x hx => abs_of_nonneg (hpos x hx)
  rw [e2, e1, e3, hn] at key
  have e4 : 2 * (Q * (106 * (u * sp.val)) / grav) = 212 * u * (Q * sp.val / grav) := by ring
  have e5 : Q * (106 * (u * sp.val)) / grav = 106 * u * (Q * sp.val / grav) := by ring
  rw [e4, e5] at key
  exact key

/-- **C122** (ERA5 model levels with total column water): the two layers add up to the total column water `t`, up to
rounding.  `W` is the water vapour of the column in exact arithmetic, `μ` the relative error of the thicknesses. -/
theorem C122_era5_total (A : Accurate R u η) (hη : η ≤ u) (sp : Fl R) (hsp : 30331 ≤ sp.val) (boundary : ℤ)
    (levels : List ℤ) (hne : levels ≠ []) (hlen : levels.length ≤ 100000) (hsort : levels.Pairwise (· ≤ ·))
    (h : ∀ l ∈ levels, 1 ≤ l ∧ l ≤ 137) (c : Column (Fl R)) (hQ : 0 ≤ Q) (hU : 0 ≤ U)
    (hq0 : ∀ x ∈ c.q, 0 ≤ x.val) (hq : ∀ x ∈ c.q, x.val ≤ Q) (hu : ∀ x ∈ c.u, |x.val| ≤ U) (hv : ∀ x ∈ c.v, |x.val| ≤ U)
    (t : Fl R) (ht : 0 ≤ t.val) (dp' : List K)
    (hdp' : getDpModellevels (era5A K) (era5B K) sp.val levels = .ok dp') (W μ : K)
    (hW : waterOf (c.q.map fun x => some x.val) dp' = W) (hW0 : 0 < W)
    (hμ : levels.length * (3 * η + 212 * u * (Q * sp.val / grav)) = μ * W)
    (hsmall : (levels.length + 4) * u + μ ≤ 1 / 60) :
    ∃ F, preprocessModel (era5A (Fl R)) (era5B (Fl R)) levels boundary c sp (some t) = .ok F ∧
      |F.s_upper.val + F.s_lower.val - t.val| ≤
        ((11 / 5 * levels.length + 12) * u + 18 / 5 * μ) * t.val + 6 * levels.length * η * (W + 1) := by
  have hP0 : 0 ≤ sp.val := by linarith
  have hηP : η ≤ u * sp.val := by nlinarith [A.u_nonneg]
  obtain ⟨na, nb⟩ := era5_near A hη hsp
  obtain ⟨dp'', hdp'', hpos⟩ := C54_era5_nonneg sp.val hsp levels hne hsort h
  rw [hdp'] at hdp''
  injection hdp'' with e
  subst e
  obtain ⟨dp'', hdp'', hdlen, -⟩ := C54_era5_surface_pressure sp.val levels hne h
  rw [hdp'] at hdp''
  injection hdp'' with e
  subst e
  rcases C122_thickness A hη sp.val hηP sp (le_of_eq (abs_of_nonneg hP0)) _ _ _ _ levels na nb with
    ⟨dp, dp2, h1, h2, h3⟩ | ⟨e, -, h2⟩
  swap
  · rw [hdp'] at h2; cases h2
  rw [hdp'] at h2
  injection h2 with e
  subst e
  have hn : dp.length = levels.length := (Forall₂_length h3).trans hdlen
  refine ⟨_, model_as_layers _ _ _ _ _ _ _ _ h1, ?_⟩
  have e4 : 2 * (Q * (106 * (u * sp.val)) / grav) = 212 * u * (Q * sp.val / grav) := by ring
  have key := C122_layers_add_up (Q := Q) (U := U) A hη ⟨c.p.map some, c.q.map some, c.u.map some, c.v.map some⟩ dp dp'
    (by rw [hn]; exact hlen)
    (levels.map fun l => !decide (boundary < l)) (by rw [List.length_map, hn]) hQ hU
    (mul_nonneg (by norm_num) (mul_nonneg A.u_nonneg hP0))
    ⟨lift_some fun x hx => by rw [abs_of_nonneg (hq0 x hx)]; exact hq x hx, lift_some hu, lift_some hv⟩ h3 t ht
    (lift_some hq0) hpos W μ
    (by
      rw [← hW]
      congr 1
      change (c.q.map some).map (·.map Fl.val) = _
      rw [List.map_map]
      rfl) hW0 (by rw [e4, hn]; exact hμ) (by rw [hn]; exact hsmall)
  rw [hn] at key
  exact key

end Wam
