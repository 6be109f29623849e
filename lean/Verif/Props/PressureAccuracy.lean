import Verif.Lemmas.PressureLayers
import Verif.Spec.PressureAccuracy
import Verif.Props.PrepStored

/-!
# C127: rounding errors of preprocessing on pressure levels

`preprocessPressure` (extension of the levels, midpoints, mask below the surface, integration over two layers) in
rounded arithmetic against the same computation in exact arithmetic.
-/
set_option linter.unusedSectionVars false
set_option linter.unusedVariables false

namespace Wam
open Spec

variable {K : Type} [Field K] [LinearOrder K] [IsStrictOrderedRing K] {R R' : Rounding K} {u η v ζ P Q U g : K}

private theorem Spec.LayersNear.weaken {e e' f f' : K} {F : LayerSums (Fl R)} {X : LayerSums K}
    (h : LayersNear e e' F X) (h1 : e ≤ f) (h2 : e' ≤ f') : LayersNear f f' F X :=
  ⟨h.s_upper.trans h1, h.s_lower.trans h1, h.fx_upper.trans h2, h.fx_lower.trans h2, h.fy_upper.trans h2,
    h.fy_lower.trans h2⟩

/-- the last step: sums over levels, from midpoints that are near each other -/
private theorem layers_near (A : Accurate R u η) (hη : η ≤ u) (hQ : 0 ≤ Q) (hU : 0 ≤ U) (hP : 0 ≤ P)
    (hn1 : η ≤ u * (Q * P / grav)) (hn2 : η ≤ u * (U * (Q * P / grav)))
    {q w z : List (Fl R)} {q' w' z' : List K} (hq : List.Forall₂ (NearB (42 * (u * Q)) Q) q q')
    (hw : List.Forall₂ (NearB (42 * (u * U)) U) w w') (hz : List.Forall₂ (NearB (42 * (u * U)) U) z z')
    (m : List Bool) (p : List (Option (Fl R))) (p' : List (Option K)) (upper : List Bool)
    (dp : List (Fl R)) (dp' : List K) (hd : ThicknessWithin (2 * (u * P)) dp dp') (hd0 : ∀ d ∈ dp', 0 ≤ d)
    (hdP : dp'.sum ≤ P) (hn : dp.length ≤ 100000) :
    LayersNear ((9 * dp.length + 50) * (u * (Q * P / grav))) ((13 * dp.length + 100) * (u * (U * (Q * P / grav))))
      (integrateLayers ⟨p, whereMask m (q.map some), whereMask m (w.map some), whereMask m (z.map some)⟩ dp upper none)
      (integrateLayers ⟨p', whereMask m (q'.map some), whereMask m (w'.map some), whereMask m (z'.map some)⟩ dp'
        upper none) := by
  have hu := A.u_nonneg
  have hu1 := A.u_small
  have hη0 := A.η_nonneg
  have hg : (0 : K) < grav := by unfold grav; push_cast; norm_num
  have huQ : u * Q ≤ 1 / 10000000 * Q := mul_le_mul_of_nonneg_right hu1 hQ
  have huU : u * U ≤ 1 / 10000000 * U := mul_le_mul_of_nonneg_right hu1 hU
  have huQ0 : 0 ≤ u * Q := by positivity
  have huU0 : 0 ≤ u * U := by positivity
  set Q1 : K := 1001 / 1000 * Q with hQ1
  set U1 : K := 1001 / 1000 * U with hU1
  have nq := mask_near (B' := Q1) (by linarith) hq m
  have nw := mask_near (B' := U1) (by linarith) hw m
  have nz := mask_near (B' := U1) (by linarith) hz m
  set cF : Column (Option (Fl R)) := ⟨p, whereMask m (q.map some), whereMask m (w.map some), whereMask m (z.map some)⟩
    with hcF
  have size : ∀ {B : K} {l : List (Option (Fl R))}, (∀ x, some x ∈ exactO l → |x| ≤ B) → ∀ x, some x ∈ l → |x.val| ≤ B := by
    intro B l h x hx
    exact h x.val (List.mem_map.2 ⟨some x, hx, rfl⟩)
  have key := C122_layers (Q := Q1) (U := U1) A hη cF dp dp' hn upper (by positivity) (by positivity) (by positivity)
    ⟨size (optNear_size nq), size (optNear_size nw), size (optNear_size nz)⟩ hd
  have habs : dp'.map (|·|) = dp' := by
    conv_rhs => rw [← List.map_id dp']
    exact List.map_congr_left fun x hx => abs_of_nonneg (hd0 x hx)
  rw [habs] at key
  have hs0 := List.sum_nonneg hd0
  -- sizes
  have absb : ∀ {B : K} {l : List (Option K)}, (∀ x, some x ∈ l → |x| ≤ B) → ∀ x, some x ∈ absO l → |x| ≤ B := by
    intro B l h x hx
    obtain ⟨a, ha, e⟩ := List.mem_map.1 hx
    cases a with
    | none => cases e
    | some a =>
      have e : |a| = x := Option.some.inj e
      rw [← e, abs_abs]; exact h a ha
  set M : K := Q * P / grav with hM
  have hM0 : 0 ≤ M := by positivity
  have hUM : 0 ≤ U * M := by positivity
  have sz : ∀ t, nanSum (whereMask t (cwvK (absO (exactO cF.q)) dp')) ≤ 1001 / 1000 * M := by
    intro t
    refine (water_size (by positivity) t (absb (optNear_size nq)) dp' hd0).trans ?_
    rw [hM, mul_div_assoc', hQ1]
    refine div_le_div_of_nonneg_right ?_ hg.le
    have := mul_le_mul_of_nonneg_left hdP (by positivity : 0 ≤ 1001 / 1000 * Q)
    linarith
  have fz : ∀ t (y : List (Option K)), (∀ x, some x ∈ y → |x| ≤ U1) →
      nanSum (whereMask t (mulNan (absO y) (cwvK (absO (exactO cF.q)) dp'))) ≤ 101 / 100 * (U * M) := by
    intro t y hy
    refine (flux_size (by positivity) (by positivity) t (absb (optNear_size nq)) (absb hy) dp' hd0).trans ?_
    rw [hM, ← mul_div_assoc U, mul_div_assoc', hQ1, hU1]
    refine div_le_div_of_nonneg_right ?_ hg.le
    have h1 := mul_le_mul_of_nonneg_left hdP (by positivity : 0 ≤ 1001 / 1000 * U * (1001 / 1000 * Q))
    have h2 : 0 ≤ U * (Q * P) := by positivity
    linarith
  -- exact differences
  have ds : ∀ t, |nanSum (whereMask t (cwvK (exactO cF.q) dp')) - nanSum (whereMask t (cwvK (whereMask m (q'.map some)) dp'))| ≤
      42 * (u * M) := by
    intro t
    refine (water_near (by positivity) t nq dp' hd0).trans ?_
    have e : 42 * (u * M) = 42 * (u * Q) * P / grav := by rw [hM]; ring
    rw [e]
    exact div_le_div_of_nonneg_right (mul_le_mul_of_nonneg_left hdP (by positivity)) hg.le
  have df : ∀ t (y y' : List (Option K)), List.Forall₂ (OptNear (42 * (u * U)) U U1) y y' →
      |nanSum (whereMask t (mulNan y (cwvK (exactO cF.q) dp'))) -
        nanSum (whereMask t (mulNan y' (cwvK (whereMask m (q'.map some)) dp')))| ≤ 85 * (u * (U * M)) := by
    intro t y y' hy
    refine (flux_near (by positivity) (by positivity) hQ (by positivity) t nq hy dp' hd0).trans ?_
    have e : 85 * (u * (U * M)) = 85 * (u * (U * Q)) * P / grav := by rw [hM]; ring
    rw [e]
    refine div_le_div_of_nonneg_right ?_ hg.le
    have h1 : 0 ≤ u * (U * Q) := by positivity
    have h2 : U1 * (42 * (u * Q)) + 42 * (u * U) * Q ≤ 85 * (u * (U * Q)) := by
      rw [hU1]; nlinarith
    exact mul_le_mul h2 hdP hs0 (by positivity)
  -- constants
  set n : K := (dp.length : K) with hnn
  have hn0 : 0 ≤ n := Nat.cast_nonneg _
  have huM : 0 ≤ u * M := by positivity
  have huUM : 0 ≤ u * (U * M) := by positivity
  have eδ : Q1 * (2 * (u * P)) / grav = 2002 / 1000 * (u * M) := by rw [hM, hQ1]; ring
  have hηM : η ≤ u * M := hn1
  have hηUM : η ≤ u * (U * M) := hn2
  have ε1 : 51 / 50 * ((n + 4) * u) * (1001 / 1000 * M) + 51 / 50 * (n * (3 * η + 2 * (Q1 * (2 * (u * P)) / grav))) +
      42 * (u * M) ≤ (9 * n + 50) * (u * M) := by
    rw [eδ]
    have h1 : n * (3 * η + 2 * (2002 / 1000 * (u * M))) ≤ n * (3 * (u * M) + 2 * (2002 / 1000 * (u * M))) :=
      mul_le_mul_of_nonneg_left (by linarith) hn0
    have h2 : 0 ≤ n * (u * M) := by positivity
    nlinarith
  have ε2 : 51 / 50 * ((n + 6) * u) * (101 / 100 * (U * M)) +
      51 / 50 * (n * (3 * U1 * (η + Q1 * (2 * (u * P)) / grav) + 2 * η)) + 85 * (u * (U * M)) ≤
        (13 * n + 100) * (u * (U * M)) := by
    rw [eδ, hU1]
    have h0 : 3 * (1001 / 1000 * U) * (η + 2002 / 1000 * (u * M)) ≤ 3 * (1001 / 1000 * U) * (u * M + 2002 / 1000 * (u * M)) :=
      mul_le_mul_of_nonneg_left (by linarith) (by positivity)
    have h1 : n * (3 * (1001 / 1000 * U) * (η + 2002 / 1000 * (u * M)) + 2 * η) ≤
        n * (3 * (1001 / 1000 * U) * (u * M + 2002 / 1000 * (u * M)) + 2 * (u * (U * M))) :=
      mul_le_mul_of_nonneg_left (by linarith) hn0
    have h2 : 0 ≤ n * (u * (U * M)) := by positivity
    nlinarith
  have comb : ∀ {f x1 x2 ε S s e d b : K}, |f - x1| ≤ ε * S + e → S ≤ s → 0 ≤ ε → |x1 - x2| ≤ d → ε * s + e + d ≤ b →
      |f - x2| ≤ b := by
    intro f x1 x2 ε S s e d b h1 h2 h3 h4 h5
    have h6 := mul_le_mul_of_nonneg_left h2 h3
    calc |f - x2| = |(f - x1) + (x1 - x2)| := by congr 1; ring
      _ ≤ _ := abs_add_le _ _
      _ ≤ _ := by linarith
  have p1 : 0 ≤ 51 / 50 * ((n + 4) * u) := by positivity
  have p2 : 0 ≤ 51 / 50 * ((n + 6) * u) := by positivity
  exact ⟨comb key.s_upper (sz _) p1 (ds _) ε1, comb key.s_lower (sz _) p1 (ds _) ε1,
    comb key.fx_upper (fz _ _ (optNear_size nw)) p2 (df _ _ _ nw) ε2,
    comb key.fx_lower (fz _ _ (optNear_size nw)) p2 (df _ _ _ nw) ε2,
    comb key.fy_upper (fz _ _ (optNear_size nz)) p2 (df _ _ _ nz) ε2,
    comb key.fy_lower (fz _ _ (optNear_size nz)) p2 (df _ _ _ nz) ε2⟩

/-- **C127** (pressure levels): preprocessing in floats ends like preprocessing in exact arithmetic with the same layer
boundary, and storages (fluxes) differ by at most `9 (N + 8) u` (`13 (N + 10) u`) times the water of an air column with
the largest humidity (times the largest wind), for `N` pressure levels.  The levels, the surface, the boundary and the
top must be apart: two different pressures differ by at least `8 u P`. -/
theorem C127_layers (A : Accurate R u η) {argF : List (Fl R) → List ℕ} {argK : List K → List ℕ}
    (ha : SortsAlike argF argK) (hs : IsArgsort argK) (factor offset : Fl R) (c : Column (Fl R)) (s : Surface (Fl R))
    (hQ : 0 ≤ Q) (hU : 0 ≤ U) (hg : 0 < g) (hg8 : 8 * (u * P) ≤ g) (hc : GivenColumn P Q U c s)
    (hN : c.p.length ≤ 90000) (hb : 0 < (factor * s.ps + offset).val) (hbP : (factor * s.ps + offset).val ≤ P)
    (hsp : SpacedBy g ((factor * s.ps + offset).val :: s.ps.val :: 0 :: c.p.map Fl.val))
    (hη : Negligible u η [1, g, Q, U, Q * g, U * g, Q * P / grav, U * (Q * P / grav)]) :
    (∃ F X, preprocessPressure argF factor offset c s none = .ok F ∧
      preprocessPressure argK 0 (factor * s.ps + offset).val (exactLevels c) (exactSurface s) none = .ok X ∧
      LayersNear (9 * (c.p.length + 8) * u * (Q * P / grav)) (13 * (c.p.length + 10) * u * (U * (Q * P / grav))) F X) ∨
    ∃ e, preprocessPressure argF factor offset c s none = .error e ∧
      preprocessPressure argK 0 (factor * s.ps + offset).val (exactLevels c) (exactSurface s) none = .error e := by
  have hu := A.u_nonneg
  have hη1 : η ≤ u := by simpa using hη 1 (by simp)
  have hηg := hη g (by simp)
  have hηQ := hη Q (by simp)
  have hηU := hη U (by simp)
  have hηQg := hη (Q * g) (by simp)
  have hηUg := hη (U * g) (by simp)
  have hηM := hη (Q * P / grav) (by simp)
  have hηUM := hη (U * (Q * P / grav)) (by simp)
  set pb := factor * s.ps + offset with hpb
  have hsp' : SpacedL g (pb :: s.ps :: 0 :: c.p) := by
    intro x hx y hy h
    exact hsp _ (by simpa using List.mem_map_of_mem (f := Fl.val) hx) _ (by simpa using List.mem_map_of_mem (f := Fl.val) hy) h
  have hP0 : 0 ≤ P := hb.le.trans hbP
  have hwind := hc.wind
  have hext := extend_close A ha hs factor offset c s hQ hU hg hsp' hc.humidities hc.eastward hc.northward hc.humidity
    (fun x hx => hwind x (List.mem_append_left _ hx)) (fun x hx => hwind x (List.mem_append_right _ hx)) hb
    hηg hηQ hηQg hηU hηUg
  unfold preprocessPressure exactSurface
  rcases hext with ⟨⟨cF, pF⟩, ⟨cK, pK⟩, e1, e2, hpF, hpK, hn, hm⟩ | ⟨e, e1, e2⟩
  swap
  · right; exact ⟨e, by rw [e1]; rfl, by rw [e2]; rfl⟩
  rw [e1, e2]
  simp only at hpF hpK hn hm
  subst hpF hpK
  left
  have hrange : ∀ x ∈ cF.p, 0 ≤ x.val ∧ x.val ≤ P := by
    intro x hx
    have := hm x hx
    simp only [List.mem_cons] at this
    rcases this with rfl | rfl | rfl | h
    · exact ⟨hb.le, hbP⟩
    · exact hc.pressure _ (by simp)
    · exact ⟨le_rfl, hP0⟩
    · exact hc.pressure _ (List.mem_cons_of_mem _ h)
  have hdpF : ((npDiff cF.p).all fun d => NpOps.le (ofRat 0) d) = true := npDiff_all_Fl _ hn.sorted
  have hdpK : ((npDiff cK.p).all fun d => NpOps.le (ofRat 0) d) = true := by
    rw [hn.p]; exact (npDiff_all_iff _).2 hn.sorted
  have m1 := mid_mask A hη1 hg8 hηg s.ps hn.sorted hn.spaced (fun x hx => (hrange x hx).1) (fun x hx => (hrange x hx).2)
    (Or.inl hn.surface)
  have m2 := mid_mask A hη1 hg8 hηg pb hn.sorted hn.spaced (fun x hx => (hrange x hx).1) (fun x hx => (hrange x hx).2)
    (Or.inl hn.boundary)
  have hd := dp_within A hP0 hg.le hηg hn.sorted hn.spaced (fun x hx => (hrange x hx).1) (fun x hx => (hrange x hx).2)
  have hlen : (npDiff cF.p).length = c.p.length + 2 := by rw [npDiff_length, hn.length]; rfl
  have hsum : (∀ d ∈ npDiff (cF.p.map Fl.val), 0 ≤ d) ∧ (npDiff (cF.p.map Fl.val)).sum ≤ P := by
    have hs1 := hn.sorted
    have hr : ∀ x ∈ cF.p.map Fl.val, 0 ≤ x ∧ x ≤ P := by
      intro x hx
      obtain ⟨y, hy, rfl⟩ := List.mem_map.1 hx
      exact hrange y hy
    generalize cF.p.map Fl.val = l at hs1 hr
    cases l with
    | nil => exact ⟨by simp [npDiff], by simpa [npDiff] using hP0⟩
    | cons a l =>
      have h := dp_sum a P hs1 fun x hx => (hr x hx).2
      exact ⟨h.1, h.2.trans (by linarith [(hr a (by simp)).1])⟩
  have key := layers_near A hη1 hQ hU hP0 hηM hηUM (mid_near A hQ hη1 hηQ hn.q) (mid_near A hU hη1 hηU hn.u)
    (mid_near A hU hη1 hηU hn.v) ((interpMid cF.p).map fun p => NpOps.lt p s.ps)
    (whereMask ((interpMid cF.p).map fun p => NpOps.lt p s.ps) ((interpMid cF.p).map some))
    (whereMask ((interpMid cF.p).map fun p => NpOps.lt p s.ps) ((interpMid cK.p).map some))
    ((whereMask ((interpMid cF.p).map fun p => NpOps.lt p s.ps) ((interpMid cF.p).map some)).map fun p => ltNan p pb)
    (npDiff cF.p) (npDiff (cF.p.map Fl.val)) hd hsum.1 hsum.2 (by rw [hlen]; omega)
  have b1 : (interpMid cK.p).map (fun p => NpOps.lt p s.ps.val) = (interpMid cF.p).map fun p => NpOps.lt p s.ps := by
    rw [hn.p]; exact m1
  have b2 : (interpMid cK.p).map (fun p => NpOps.lt p pb.val) = (interpMid cF.p).map fun p => NpOps.lt p pb := by
    rw [hn.p]; exact m2
  have e3 : ((9 : K) * ((npDiff cF.p).length : K) + 50) * (u * (Q * P / grav)) ≤
      9 * (c.p.length + 8) * u * (Q * P / grav) := by
    rw [hlen]; push_cast
    have : 0 ≤ u * (Q * P / grav) := A.η_nonneg.trans hηM
    nlinarith
  have e4 : ((13 : K) * ((npDiff cF.p).length : K) + 100) * (u * (U * (Q * P / grav))) ≤
      13 * (c.p.length + 10) * u * (U * (Q * P / grav)) := by
    rw [hlen]; push_cast
    have : 0 ≤ u * (U * (Q * P / grav)) := A.η_nonneg.trans hηUM
    nlinarith
  refine ⟨_, _, ?_, ?_, key.weaken e3 e4⟩
  · simp only [bind, Except.bind, interpDpMidpoints, hdpF, Bool.not_true, Bool.false_eq_true, if_false, pure,
      Except.pure, maskBelowSurface]
    rfl
  · simp only [bind, Except.bind, interpDpMidpoints, hdpK, Bool.not_true, Bool.false_eq_true, if_false, pure,
      Except.pure, maskBelowSurface]
    rw [b1]
    have e5 : (whereMask ((interpMid cF.p).map fun p => NpOps.lt p s.ps) ((interpMid cK.p).map some)).map
        (fun p => ltNan p pb.val) =
        (whereMask ((interpMid cF.p).map fun p => NpOps.lt p s.ps) ((interpMid cF.p).map some)).map
        fun p => ltNan p pb := by
      rw [upper_mask, upper_mask, b2]
    rw [e5, hn.p]

/-- **C127** (double precision): columns with pressures up to 1200 hPa, humidities up to 1 and winds up to 200 m/s,
whose pressures are at least `10⁻⁹` Pa apart: storages in kg/m² and fluxes in kg/m/s. -/
theorem C127_binary64 [FloorRing K] {argF : List (Fl (binary64 : Rounding K)) → List ℕ} {argK : List K → List ℕ}
    (ha : SortsAlike argF argK) (hs : IsArgsort argK) (factor offset : Fl (binary64 : Rounding K))
    (c : Column (Fl (binary64 : Rounding K))) (s : Surface (Fl (binary64 : Rounding K)))
    (hc : GivenColumn 120000 1 200 c s) (hN : c.p.length ≤ 90000) (hb : 0 < (factor * s.ps + offset).val)
    (hbP : (factor * s.ps + offset).val ≤ 120000)
    (hsp : SpacedBy (1 / 10 ^ 9) ((factor * s.ps + offset).val :: s.ps.val :: 0 :: c.p.map Fl.val)) :
    (∃ F X, preprocessPressure argF factor offset c s none = .ok F ∧
      preprocessPressure argK 0 (factor * s.ps + offset).val (exactLevels c) (exactSurface s) none = .ok X ∧
      LayersNear (2 / 10 ^ 11 * ((c.p.length : K) + 8)) (4 / 10 ^ 9 * ((c.p.length : K) + 10)) F X) ∨
    ∃ e, preprocessPressure argF factor offset c s none = .error e ∧
      preprocessPressure argK 0 (factor * s.ps + offset).val (exactLevels c) (exactSurface s) none = .error e := by
  have ht : (1 / 2 ^ 1075 : K) ≤ 1 / 2 ^ 160 :=
    one_div_le_one_div_of_le (by positivity) (pow_le_pow_right₀ (by norm_num) (by norm_num))
  rcases C127_layers (K := K) (g := 1 / 10 ^ 9) accurate64 ha hs factor offset c s (by norm_num) (by norm_num)
    (by norm_num) (by norm_num) hc hN hb hbP hsp (by
      intro x hx
      refine ht.trans ?_
      simp only [List.mem_cons, List.not_mem_nil, or_false] at hx
      rcases hx with rfl | rfl | rfl | rfl | rfl | rfl | rfl | rfl <;> (try unfold grav) <;> norm_num) with
    ⟨F, X, h1, h2, h3⟩ | h
  · refine Or.inl ⟨F, X, h1, h2, h3.weaken ?_ ?_⟩
    · have : (0 : K) ≤ c.p.length := Nat.cast_nonneg _
      unfold grav; push_cast
      norm_num
      nlinarith
    · have : (0 : K) ≤ c.p.length := Nat.cast_nonneg _
      unfold grav; push_cast
      norm_num
      nlinarith
  · exact Or.inr h

/-- **C127**: the layer boundary itself is rounded by at most two operations. -/
theorem C127_boundary (A : Accurate R u η) (factor offset ps : Fl R) :
    |(factor * ps + offset).val - (factor.val * ps.val + offset.val)| ≤
      3 * u * (|factor.val * ps.val| + |offset.val|) + 3 * η := by
  have hu := A.u_nonneg
  have hu1 := A.u_small
  have hη := A.η_nonneg
  rw [Fl.val_add, Fl.val_mul]
  set x := factor.val * ps.val
  set y := offset.val
  have h1 := A.err x
  have h2 : |R.rnd x| ≤ |x| + (u * |x| + η) := by
    calc |R.rnd x| = |x + (R.rnd x - x)| := by congr 1; ring
      _ ≤ _ := abs_add_le _ _
      _ ≤ _ := by linarith
  have h3 : |R.rnd x + y - (x + y)| ≤ u * |x| + η := by rw [add_sub_add_right_eq_sub]; exact h1
  have h4 := rnd_close A h3 ((abs_add_le _ _).trans (add_le_add h2 le_rfl : _ ≤ |x| + (u * |x| + η) + |y|))
  have hx := abs_nonneg x
  have hy := abs_nonneg y
  have h5 : u * (u * |x|) ≤ 1 * (u * |x|) := mul_le_mul_of_nonneg_right (by linarith) (by positivity)
  have h6 : u * η ≤ 1 * η := mul_le_mul_of_nonneg_right (by linarith) hη
  have h7 : 0 ≤ u * |y| := by positivity
  nlinarith

/-- **C127** (what is stored): the conversion to the file's format adds one rounding. -/
theorem C127_stored (A' : Accurate R' v ζ) {e e' : K} {F : LayerSums (Fl R)} {X : LayerSums K}
    (h : LayersNear e e' F X) :
    let S := storedLayers R' F
    (|S.s_upper.val - X.s_upper| ≤ v * |X.s_upper| + ((1 + v) * e + ζ)) ∧
    (|S.s_lower.val - X.s_lower| ≤ v * |X.s_lower| + ((1 + v) * e + ζ)) ∧
    (|S.fx_upper.val - X.fx_upper| ≤ v * |X.fx_upper| + ((1 + v) * e' + ζ)) ∧
    (|S.fx_lower.val - X.fx_lower| ≤ v * |X.fx_lower| + ((1 + v) * e' + ζ)) ∧
    (|S.fy_upper.val - X.fy_upper| ≤ v * |X.fy_upper| + ((1 + v) * e' + ζ)) ∧
    (|S.fy_lower.val - X.fy_lower| ≤ v * |X.fy_lower| + ((1 + v) * e' + ζ)) := by
  have k : ∀ {f : Fl R} {x e : K}, |f.val - x| ≤ e → |(f.convert R').val - x| ≤ v * |x| + ((1 + v) * e + ζ) := by
    intro f x e h
    have h2 : |f.val| ≤ |x| + e := by
      calc |f.val| = |x + (f.val - x)| := by congr 1; ring
        _ ≤ _ := abs_add_le _ _
        _ ≤ _ := by linarith
    have h3 := rnd_close A' h h2
    change |R'.rnd f.val - x| ≤ _
    linarith
  exact ⟨k h.s_upper, k h.s_lower, k h.fx_upper, k h.fx_lower, k h.fy_upper, k h.fy_lower⟩

end Wam
