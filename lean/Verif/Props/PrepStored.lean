import Verif.Model.Store
import Verif.Spec.PrepStored
import Verif.Props.PrepAccuracy
import Verif.Lemmas.Ieee

/-!
# C126: accuracy of what preprocessing stores

The results of C122 converted to a second format (`astype("float32")`).
-/
set_option linter.unusedSectionVars false
set_option linter.unusedVariables false

namespace Wam
open Spec

variable {K : Type} [Field K] [LinearOrder K] [IsStrictOrderedRing K] {R R' : Rounding K} {u η v ζ Q U δ : K}

/-- the size of a layer's integrals -/
private structure Sized (S X : LayerSums K) : Prop where
  s_upper : |X.s_upper| ≤ S.s_upper
  s_lower : |X.s_lower| ≤ S.s_lower
  fx_upper : |X.fx_upper| ≤ S.fx_upper
  fx_lower : |X.fx_lower| ≤ S.fx_lower
  fy_upper : |X.fy_upper| ≤ S.fy_upper
  fy_lower : |X.fy_lower| ≤ S.fy_lower

private theorem sized_layersOf (x y w : List (Option K)) (upper : List Bool) :
    Sized (layersOf (absO x) (absO y) (absO w) upper) (layersOf x y w upper) := by
  have k : ∀ (m : List Bool) (l : List (Option K)), |nanSum (whereMask m l)| ≤ nanSum (whereMask m (absO l)) := by
    intro m l
    rw [← absO_mask]
    exact nanSum_abs_le _
  refine ⟨k _ _, k _ _, ?_, ?_, ?_, ?_⟩ <;> simp only [layersOf, ← absO_mulNan] <;> exact k _ _

private theorem sized_none (c : Column (Option K)) (dp : List K) (upper : List Bool) :
    Sized (integrateLayers (absCol c) (dp.map (|·|)) upper none) (integrateLayers c dp upper none) := by
  have h := sized_layersOf c.u c.v (cwvK c.q dp) upper
  rw [absO_cwv] at h
  exact h

private theorem one_stored (A' : Accurate R' v ζ) {ε e S x : K} {f : Fl R} (hx : |x| ≤ S) (h : |f.val - x| ≤ ε * S + e) :
    |(f.convert R').val - x| ≤ (ε + v * (1 + ε)) * S + ((1 + v) * e + ζ) := by
  have h1 := A'.err f.val
  have hv := A'.u_nonneg
  have h2 : |f.val| ≤ (1 + ε) * S + e := by
    calc |f.val| = |x + (f.val - x)| := by congr 1; ring
      _ ≤ |x| + |f.val - x| := abs_add_le _ _
      _ ≤ _ := by linarith
  have h3 := mul_le_mul_of_nonneg_left h2 hv
  change |R'.rnd f.val - x| ≤ _
  calc |R'.rnd f.val - x| = |(R'.rnd f.val - f.val) + (f.val - x)| := by congr 1; ring
    _ ≤ |R'.rnd f.val - f.val| + |f.val - x| := abs_add_le _ _
    _ ≤ (v * |f.val| + ζ) + (ε * S + e) := add_le_add h1 h
    _ ≤ _ := by linarith

private theorem all_stored (A' : Accurate R' v ζ) {ε e ε' e' : K} {S X : LayerSums K} {F : LayerSums (Fl R)}
    (hs : Sized S X) (h : LayersWithin ε e ε' e' S F X) :
    LayersWithin (ε + v * (1 + ε)) ((1 + v) * e + ζ) (ε' + v * (1 + ε')) ((1 + v) * e' + ζ) S
      (storedLayers R' F) X :=
  ⟨one_stored A' hs.s_upper h.s_upper, one_stored A' hs.s_lower h.s_lower, one_stored A' hs.fx_upper h.fx_upper,
    one_stored A' hs.fx_lower h.fx_lower, one_stored A' hs.fy_upper h.fy_upper, one_stored A' hs.fy_lower h.fy_lower⟩

/-- **C126** (no total column water): computed with roundoff `u` and stored with roundoff `v`, the water and the
transports of the two layers are those of exact arithmetic up to the error of the computation (C122) plus about `v`
times the integrals of the absolute values. -/
theorem C126_layers (A : Accurate R u η) (A' : Accurate R' v ζ) (hη : η ≤ u) (c : Column (Option (Fl R)))
    (dp : List (Fl R)) (dp' : List K) (hn : dp.length ≤ 100000) (upper : List Bool) (hU : 0 ≤ U) (hQ : 0 ≤ Q)
    (hδ : 0 ≤ δ) (hc : ColumnSized Q U c) (hd : ThicknessWithin δ dp dp') :
    LayersWithin (51 / 50 * ((dp.length + 4) * u) + v * (1 + 51 / 50 * ((dp.length + 4) * u)))
      ((1 + v) * (51 / 50 * (dp.length * (3 * η + 2 * (Q * δ / grav)))) + ζ)
      (51 / 50 * ((dp.length + 6) * u) + v * (1 + 51 / 50 * ((dp.length + 6) * u)))
      ((1 + v) * (51 / 50 * (dp.length * (3 * U * (η + Q * δ / grav) + 2 * η))) + ζ)
      (integrateLayers (absCol (exactCol c)) (dp'.map (|·|)) upper none)
      (storedLayers R' (integrateLayers c dp upper none)) (integrateLayers (exactCol c) dp' upper none) :=
  all_stored A' (sized_none _ _ _) (C122_layers A hη c dp dp' hn upper hU hQ hδ hc hd)

private theorem sized_model (a b : List K) (levels : List ℤ) (boundary : ℤ) (c : Column K) (sp : K) {dp : List K}
    (h : getDpModellevels a b sp levels = .ok dp) (hd : ∀ d ∈ dp, 0 ≤ d) {X S : LayerSums K}
    (hX : preprocessModel a b levels boundary c sp none = .ok X)
    (hS : preprocessModel a b levels boundary (absLevels c) sp none = .ok S) : Sized S X := by
  have e3 : dp.map (|·|) = dp := by
    conv_rhs => rw [← List.map_id dp]
    exact List.map_congr_left fun x hx => abs_of_nonneg (hd x hx)
  unfold preprocessModel at hX hS
  rw [h] at hX hS
  injection hX with hX
  injection hS with hS
  subst hX hS
  have k := sized_none ⟨c.p.map some, c.q.map some, c.u.map some, c.v.map some⟩ dp
    (levels.map fun l => !decide (boundary < l))
  rw [e3] at k
  have e : absCol ⟨c.p.map some, c.q.map some, c.u.map some, c.v.map some⟩ =
      (⟨(absLevels c).p.map some, (absLevels c).q.map some, (absLevels c).u.map some,
        (absLevels c).v.map some⟩ : Column (Option K)) := by
    simp [absCol, absLevels, List.map_map, Function.comp_def]
  rw [e] at k
  exact k

private theorem rel_small {n k : K} (hn : n ≤ 137) (hk : k ≤ 6) :
    51 / 50 * ((n + k) * (1 / 2 ^ 53)) + 1 / 2 ^ 24 * (1 + 51 / 50 * ((n + k) * (1 / 2 ^ 53))) ≤ 6 / 10 ^ 8 := by
  have h : (n + k) * (1 / 2 ^ 53) ≤ 143 * (1 / 2 ^ 53) := mul_le_mul_of_nonneg_right (by linarith) (by positivity)
  have : (143 : K) * (1 / 2 ^ 53) ≤ 16 / 10 ^ 15 := by norm_num
  have h2 : (1 / 2 ^ 24 : K) ≤ 597 / 10 ^ 10 := by norm_num
  set z := (n + k) * (1 / 2 ^ 53 : K) with hz
  have hz' : z ≤ 16 / 10 ^ 15 := h.trans this
  have h3 : (1 / 2 ^ 24 : K) * (1 + 51 / 50 * z) ≤ 1 / 2 ^ 24 * (1 + 51 / 50 * (16 / 10 ^ 15)) :=
    mul_le_mul_of_nonneg_left (by linarith) (by positivity)
  have h4 : (1 / 2 ^ 24 : K) * (1 + 51 / 50 * (16 / 10 ^ 15)) ≤ 5999 / 10 ^ 11 := by norm_num
  have h5 : (51 / 50 : K) * (16 / 10 ^ 15) + 5999 / 10 ^ 11 ≤ 6 / 10 ^ 8 := by norm_num
  linarith

private theorem abs_small {n Y : K} (hn : n ≤ 137) (hY : 0 ≤ Y) (h0 : 0 ≤ η) (hη : η ≤ 1 / 2 ^ 160) :
    (1 + 1 / 2 ^ 24) * (51 / 50 * (n * (3 * η + 212 * (1 / 2 ^ 53) * Y))) + 1 / 2 ^ 150 ≤
      4 / 10 ^ 12 * Y + 1 / 10 ^ 45 := by
  have h : n * (3 * η + 212 * (1 / 2 ^ 53) * Y) ≤ 137 * (3 * η + 212 * (1 / 2 ^ 53) * Y) :=
    mul_le_mul_of_nonneg_right hn (by positivity)
  have h2 := mul_le_mul_of_nonneg_left (mul_le_mul_of_nonneg_left h (by norm_num : (0 : K) ≤ 51 / 50))
    (by positivity : (0 : K) ≤ 1 + 1 / 2 ^ 24)
  have h3 : (1 + 1 / 2 ^ 24 : K) * (51 / 50 * (137 * (212 * (1 / 2 ^ 53)))) ≤ 4 / 10 ^ 12 := by norm_num
  have h4 : (1 + 1 / 2 ^ 24 : K) * (51 / 50 * (137 * (3 * η))) + 1 / 2 ^ 150 ≤ 1 / 10 ^ 45 := by
    norm_num at hη ⊢; linarith
  have h5 := mul_le_mul_of_nonneg_right h3 hY
  refine le_trans (add_le_add_left h2 _) ?_
  refine le_trans (le_of_eq ?_) (add_le_add h5 h4)
  ring

private theorem flux_small {n U Y : K} (hn : n ≤ 137) (hU : 0 ≤ U) (hY : 0 ≤ Y) (h0 : 0 ≤ η) (hη : η ≤ 1 / 2 ^ 160) :
    (1 + 1 / 2 ^ 24) * (51 / 50 * (n * (3 * U * (η + 106 * (1 / 2 ^ 53) * Y) + 2 * η))) +
      1 / 2 ^ 150 ≤ 5 / 10 ^ 12 * (U * Y) + (U + 1) / 10 ^ 45 := by
  have h : n * (3 * U * (η + 106 * (1 / 2 ^ 53) * Y) + 2 * η) ≤
      137 * (3 * U * (η + 106 * (1 / 2 ^ 53) * Y) + 2 * η) :=
    mul_le_mul_of_nonneg_right hn (by positivity)
  have h2 := mul_le_mul_of_nonneg_left (mul_le_mul_of_nonneg_left h (by norm_num : (0 : K) ≤ 51 / 50))
    (by positivity : (0 : K) ≤ 1 + 1 / 2 ^ 24)
  have h3 : (1 + 1 / 2 ^ 24 : K) * (51 / 50 * (137 * (3 * (106 * (1 / 2 ^ 53))))) ≤ 5 / 10 ^ 12 := by norm_num
  have h4 : (1 + 1 / 2 ^ 24 : K) * (51 / 50 * (137 * (2 * η))) + 1 / 2 ^ 150 ≤ 1 / 10 ^ 45 := by
    norm_num at hη ⊢; linarith
  have h6 : (1 + 1 / 2 ^ 24 : K) * (51 / 50 * (137 * (3 * η))) ≤ 1 / 10 ^ 45 := by
    norm_num at hη ⊢; linarith
  have h5 := mul_le_mul_of_nonneg_right h3 (mul_nonneg hU hY)
  have h7 := mul_le_mul_of_nonneg_right h6 hU
  refine le_trans (add_le_add_left h2 _) ?_
  refine le_trans (le_of_eq ?_) (le_trans (add_le_add h5 (add_le_add h7 h4)) (le_of_eq ?_))
  · ring
  · ring

/-- **C126** (ERA5 model levels, computed in float64 and stored as float32): for every choice of model levels and every
surface pressure from 303.31 hPa on, each storage and each flux in the file is that of exact arithmetic up to `6e-8`
times the integral of the absolute values (float32 has `2⁻²⁴ ≈ 5.96e-8`) plus `4e-12` (`5e-12`) times the water of an
air column with the largest humidity `Q` (times the largest wind `U`). -/
theorem C126_era5 [FloorRing K] (sp : Fl (binary64 : Rounding K)) (hsp : 30331 ≤ sp.val) (boundary : ℤ) (levels : List ℤ)
    (hne : levels ≠ []) (hlen : levels.length ≤ 137) (hsort : levels.Pairwise (· ≤ ·))
    (h : ∀ l ∈ levels, 1 ≤ l ∧ l ≤ 137) (c : Column (Fl binary64)) (hQ : 0 ≤ Q) (hU : 0 ≤ U)
    (hq : ∀ x ∈ c.q, |x.val| ≤ Q) (hu : ∀ x ∈ c.u, |x.val| ≤ U) (hv : ∀ x ∈ c.v, |x.val| ≤ U) :
    ∃ F X S,
      preprocessModel (era5A (Fl binary64)) (era5B (Fl binary64)) levels boundary c sp none = .ok F ∧
      preprocessModel (era5A K) (era5B K) levels boundary (exactLevels c) sp.val none = .ok X ∧
      preprocessModel (era5A K) (era5B K) levels boundary (absLevels (exactLevels c)) sp.val none = .ok S ∧
      StoredWithin (6 / 10 ^ 8) (4 / 10 ^ 12 * (Q * sp.val / grav) + 1 / 10 ^ 45)
        (5 / 10 ^ 12 * (U * (Q * sp.val / grav)) + (U + 1) / 10 ^ 45) S (storedLayers binary32 F) X := by
  have A := accurate64 (K := K)
  have A' := accurate32 (K := K)
  have hη0 : (0 : K) ≤ 1 / 2 ^ 1075 := A.η_nonneg
  have hη1 : (1 / 2 ^ 1075 : K) ≤ 1 / 2 ^ 160 :=
    one_div_le_one_div_of_le (by positivity) (pow_le_pow_right₀ (by norm_num) (by norm_num))
  obtain ⟨F, X, S, hF, hX, hS, hw⟩ := C122_era5 A
    (one_div_le_one_div_of_le (by positivity) (pow_le_pow_right₀ (by norm_num) (by norm_num))) sp hsp boundary levels
    hne (by omega) hsort h c hQ hU hq hu hv
  obtain ⟨dp, hdp, hpos⟩ := C54_era5_nonneg sp.val hsp levels hne hsort h
  have hsz := sized_model _ _ _ _ _ _ hdp hpos hX hS
  have hlen' : (levels.length : K) ≤ 137 := by exact_mod_cast hlen
  have hg : (0 : K) < grav := by unfold grav; push_cast; norm_num
  have hP : (0 : K) ≤ sp.val := by linarith
  have hY : 0 ≤ Q * sp.val / grav := by positivity
  refine ⟨F, X, S, hF, hX, hS, LayersWithin.weaken ?_ (all_stored A' hsz hw) ?_ ?_ ?_ ?_⟩
  · exact ⟨(abs_nonneg _).trans hsz.s_upper, (abs_nonneg _).trans hsz.s_lower, (abs_nonneg _).trans hsz.fx_upper,
      (abs_nonneg _).trans hsz.fx_lower, (abs_nonneg _).trans hsz.fy_upper, (abs_nonneg _).trans hsz.fy_lower⟩
  · exact rel_small hlen' (by norm_num)
  · exact abs_small hlen' hY hη0 hη1
  · exact rel_small hlen' (by norm_num)
  · exact flux_small hlen' hU hY hη0 hη1

private theorem hum_nonneg {c : Column (Option (Fl R))} (hq : ∀ x, some x ∈ c.q → 0 ≤ x.val) :
    ∀ x, some x ∈ (exactCol c).q → 0 ≤ x := by
  intro x hx
  obtain ⟨a, ha, hax⟩ := List.mem_map.1 hx
  cases a with
  | none => cases hax
  | some a =>
    have hax : a.val = x := Option.some.inj hax
    rw [← hax]
    exact hq a ha

private theorem sized_total (c : Column (Option K)) (dp : List K) (upper : List Bool) (hq : ∀ x, some x ∈ c.q → 0 ≤ x)
    (hd : ∀ x ∈ dp, 0 ≤ x) {t W : K} (ht : 0 ≤ t) (hW : waterOf c.q dp = W) (hW0 : 0 < W) :
    Sized (integrateLayers (absCol c) dp upper (some t)) (integrateLayers c dp upper (some t)) := by
  have e1 : (absCol c).q = c.q := absO_of_nonneg hq
  have hp : ∀ x, some x ∈ columnWater (cwvK c.q dp) (some t) → 0 ≤ x := by
    intro x hx
    obtain ⟨a, ha, hax⟩ := List.mem_map.1 hx
    cases a with
    | none => cases hax
    | some a =>
      have hax : t / nanSum (cwvK c.q dp) * a = x := Option.some.inj hax
      rw [← hax, (waterOf_eq _ _).trans hW]
      exact mul_nonneg (div_nonneg ht hW0.le) (cwvK_nonneg hq hd a ha)
  have h := sized_layersOf c.u c.v (columnWater (cwvK c.q dp) (some t)) upper
  rw [absO_of_nonneg hp] at h
  rw [integrateLayers_eq (absCol c), e1]
  exact h

/-- **C126** (total column water in the input): the same for the scaled water. -/
theorem C126_total_column_water (A : Accurate R u η) (A' : Accurate R' v ζ) (hη : η ≤ u) (c : Column (Option (Fl R)))
    (dp : List (Fl R)) (dp' : List K) (hn : dp.length ≤ 100000) (upper : List Bool) (hU : 0 ≤ U) (hQ : 0 ≤ Q)
    (hδ : 0 ≤ δ) (hc : ColumnSized Q U c) (hd : ThicknessWithin δ dp dp') (t : Fl R) (ht : 0 ≤ t.val)
    (hq : ∀ x, some x ∈ c.q → 0 ≤ x.val) (hd0 : ∀ x ∈ dp', 0 ≤ x) (W μ : K)
    (hW : waterOf (exactCol c).q dp' = W) (hW0 : 0 < W)
    (hμ : dp.length * (3 * η + 2 * (Q * δ / grav)) = μ * W) (hsmall : (dp.length + 4) * u + μ ≤ 1 / 60) :
    LayersWithin ((11 / 5 * dp.length + 12) * u + 6 / 5 * μ + v * (1 + ((11 / 5 * dp.length + 12) * u + 6 / 5 * μ)))
      ((1 + v) * (6 / 5 * μ * t.val + 3 * dp.length * η * (W + 1)) + ζ)
      ((11 / 5 * dp.length + 14) * u + 6 / 5 * μ + v * (1 + ((11 / 5 * dp.length + 14) * u + 6 / 5 * μ)))
      ((1 + v) * (U * (6 / 5 * μ * t.val + 3 * dp.length * η * (W + 1)) + 3 * dp.length * η) + ζ)
      (integrateLayers (absCol (exactCol c)) dp' upper (some t.val))
      (storedLayers R' (integrateLayers c dp upper (some t))) (integrateLayers (exactCol c) dp' upper (some t.val)) :=
  all_stored A' (sized_total _ _ _ (hum_nonneg hq) hd0 ht hW hW0)
    (C122_total_column_water A hη c dp dp' hn upper hU hQ hδ hc hd t ht hq hd0 W μ hW hW0 hμ hsmall)

private theorem sum_within {ε e ε' e' t : K} (c : Column (Option K)) (dp : List K) (upper : List Bool)
    (hl : dp.length ≤ upper.length) (hq : ∀ x, some x ∈ c.q → 0 ≤ x) {W : K} (hW : waterOf c.q dp = W) (hW0 : 0 < W)
    {F : LayerSums (Fl R)}
    (h : LayersWithin ε e ε' e' (integrateLayers (absCol c) dp upper (some t)) F
      (integrateLayers c dp upper (some t))) :
    |F.s_upper.val + F.s_lower.val - t| ≤ ε * t + 2 * e := by
  have hsum : nanSum (cwvK c.q dp) = W := (waterOf_eq _ _).trans hW
  have hX : (integrateLayers c dp upper (some t)).s_upper + (integrateLayers c dp upper (some t)).s_lower = t := by
    have e := split_layers upper ((cwvK c.q dp).map fun y => y.map fun y => (t / nanSum (cwvK c.q dp)) * y)
      (by rw [List.length_map, cwvK, List.length_zipWith]; omega)
    refine Eq.trans e ?_
    rw [nanSum_scale, hsum]
    field_simp
  have hq2 : (absCol c).q = c.q := absO_of_nonneg hq
  have e1 : (integrateLayers (absCol c) dp upper (some t)).s_upper = (integrateLayers c dp upper (some t)).s_upper := by
    simp only [integrateLayers, hq2]
  have e2 : (integrateLayers (absCol c) dp upper (some t)).s_lower = (integrateLayers c dp upper (some t)).s_lower := by
    simp only [integrateLayers, hq2]
  have h1 := h.s_upper
  have h2 := h.s_lower
  rw [e1] at h1
  rw [e2] at h2
  set X := integrateLayers c dp upper (some t)
  calc |F.s_upper.val + F.s_lower.val - t| = |(F.s_upper.val - X.s_upper) + (F.s_lower.val - X.s_lower)| := by
        rw [← hX]; congr 1; ring
    _ ≤ _ := abs_add_le _ _
    _ ≤ _ := add_le_add h1 h2
    _ = ε * (X.s_upper + X.s_lower) + 2 * e := by ring
    _ = _ := by rw [hX]

/-- **C126**: with total column water `t`, the two storages in the file add up to it, up to the rounding of the
computation and of the conversion. -/
theorem C126_layers_add_up (A : Accurate R u η) (A' : Accurate R' v ζ) (hη : η ≤ u) (c : Column (Option (Fl R)))
    (dp : List (Fl R)) (dp' : List K) (hn : dp.length ≤ 100000) (upper : List Bool) (hup : dp.length ≤ upper.length)
    (hU : 0 ≤ U) (hQ : 0 ≤ Q) (hδ : 0 ≤ δ) (hc : ColumnSized Q U c) (hd : ThicknessWithin δ dp dp') (t : Fl R)
    (ht : 0 ≤ t.val) (hq : ∀ x, some x ∈ c.q → 0 ≤ x.val) (hd0 : ∀ x ∈ dp', 0 ≤ x) (W μ : K)
    (hW : waterOf (exactCol c).q dp' = W) (hW0 : 0 < W)
    (hμ : dp.length * (3 * η + 2 * (Q * δ / grav)) = μ * W) (hsmall : (dp.length + 4) * u + μ ≤ 1 / 60) :
    let F := storedLayers R' (integrateLayers c dp upper (some t))
    |F.s_upper.val + F.s_lower.val - t.val| ≤
      ((11 / 5 * dp.length + 12) * u + 6 / 5 * μ + v * (1 + ((11 / 5 * dp.length + 12) * u + 6 / 5 * μ))) * t.val +
        2 * ((1 + v) * (6 / 5 * μ * t.val + 3 * dp.length * η * (W + 1)) + ζ) :=
  sum_within (exactCol c) dp' upper (by rw [← hd.length_eq]; exact hup) (hum_nonneg hq) hW hW0
    (C126_total_column_water A A' hη c dp dp' hn upper hU hQ hδ hc hd t ht hq hd0 W μ hW hW0 hμ hsmall)

/-- **C126**: no storage in a file is negative, whatever the two roundings (humidities and thicknesses are not). -/
theorem C126_storages_nonneg (c : Column (Option (Fl R))) (dp : List (Fl R)) (upper : List Bool) (tcw : Option (Fl R))
    (hq : ∀ x, some x ∈ c.q → 0 ≤ x.val) (hd : ∀ x ∈ dp, 0 ≤ x.val) (ht : ∀ t, tcw = some t → 0 ≤ t.val) :
    let F := storedLayers R' (integrateLayers c dp upper tcw)
    0 ≤ F.s_upper.val ∧ 0 ≤ F.s_lower.val := by
  obtain ⟨h1, h2⟩ := C122_storages_nonneg c dp upper tcw hq hd ht
  have k : ∀ x : K, 0 ≤ x → 0 ≤ R'.rnd x := fun x hx => by rw [← R'.zero]; exact R'.mono hx
  exact ⟨k _ h1, k _ h2⟩

/-- **C126**: the computation in single precision throughout loses nothing more when it is stored: converting to the
same format changes nothing. -/
theorem C126_same_precision (F : LayerSums (Fl R)) : storedLayers R F = F := by
  have k : ∀ x : Fl R, x.convert R = x := fun x => Fl.ext x.rep
  simp only [storedLayers, k]

end Wam
