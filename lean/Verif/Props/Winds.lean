import Verif.Props.Pipeline
import Verif.Props.ModelLayers
import Verif.Props.Stability
import Verif.Spec.Winds

/-!
# C114: water moves with the winds of the data, and which time steps need no correction
-/

set_option linter.unusedSectionVars false
set_option linter.unusedVariables false

namespace Wam
open Spec

section
variable {K : Type} [Field K] [LinearOrder K] [IsStrictOrderedRing K]

private theorem pairSum_le {f h : Level K → Level K → K} {E : List (Level K)} (hs : E.Pairwise (fun a b => a.p ≤ b.p))
    (hf : ∀ a ∈ E, ∀ b ∈ E, a.p ≤ b.p → f a b ≤ h a b) : pairSum f E ≤ pairSum h E := by
  induction E with
  | nil => simp [pairSum]
  | cons a E ih =>
    cases E with
    | nil => simp [pairSum]
    | cons b E =>
      have hs' := List.pairwise_cons.1 hs
      rw [pairSum, pairSum]
      exact add_le_add (hf a (by simp) b (by simp) (hs'.1 b (by simp)))
        (ih hs'.2 fun x hx y hy => hf x (List.mem_cons_of_mem _ hx) y (List.mem_cons_of_mem _ hy))

private theorem pairSum_mul (c : K) (f : Level K → Level K → K) (E : List (Level K)) :
    pairSum (fun a b => c * f a b) E = c * pairSum f E := by
  induction E with
  | nil => simp [pairSum]
  | cons a E ih =>
    cases E with
    | nil => simp [pairSum]
    | cons b E => rw [pairSum, pairSum, ih]; ring

/-- a linear interpolation is between its end points -/
private theorem line_mem {x0 y0 x1 y1 x lo hi : K} (h0 : x0 < x) (h1 : x ≤ x1) (hy0 : lo ≤ y0 ∧ y0 ≤ hi)
    (hy1 : lo ≤ y1 ∧ y1 ≤ hi) : lo ≤ line x0 y0 x1 y1 x ∧ line x0 y0 x1 y1 x ≤ hi := by
  have hd : 0 < x1 - x0 := by linarith
  have e : line x0 y0 x1 y1 x = (y0 * (x1 - x) + y1 * (x - x0)) / (x1 - x0) := by
    unfold line
    field_simp
    ring
  rw [e, le_div_iff₀ hd, div_le_iff₀ hd]
  constructor <;> nlinarith

/-- in the extended column there are only winds of the range -/
private theorem extended_winds {levels : List (Level K)} {sfc : Level K} {pb : K} {E : List (Level K)}
    (hE : IsExtended levels sfc pb E) {w : WindRange K} (hw : ∀ l ∈ sfc :: levels, w.Holds l.u l.v)
    (hq : ∀ l ∈ sfc :: levels, 0 ≤ l.q) : ∀ e ∈ E, w.Holds e.u e.v ∧ 0 ≤ e.q := by
  obtain ⟨hs, top, htop, bdy, hmin, hb, hi, hperm⟩ := hE
  have hS : ∀ l ∈ sfc :: (⟨0, 0, top.u, top.v⟩ : Level K) :: levels, w.Holds l.u l.v ∧ 0 ≤ l.q := by
    intro l hl
    simp only [List.mem_cons] at hl
    rcases hl with rfl | rfl | h
    · exact ⟨hw _ (by simp), hq _ (by simp)⟩
    · exact ⟨hw top (by simp [htop]), le_rfl⟩
    · exact ⟨hw _ (by simp [h]), hq _ (by simp [h])⟩
  intro e he
  have := hperm.mem_iff.1 he
  rw [List.mem_cons] at this
  rcases this with rfl | h
  · refine ⟨?_, interpolated_nonneg _ _ hi fun l hl => (hS l hl).2⟩
    rcases hi with ⟨l, hl, rfl⟩ | ⟨l, hl, h, hh, h1, h2, -, -, h4, h5⟩
    · exact (hS _ hl).1
    · rw [h4, h5]
      exact ⟨line_mem h1 h2 (hS l hl).1.1 (hS h hh).1.1, line_mem h1 h2 (hS l hl).1.2 (hS h hh).1.2⟩
  · exact hS e h

private theorem between_carried {w : WindRange K} {E : List (Level K)} (hs : E.Pairwise (fun a b => a.p ≤ b.p))
    (hE : ∀ e ∈ E, w.Holds e.u e.v ∧ 0 ≤ e.q) (lo hi : K) :
    w.Carries (pairSum water (between lo hi E)) (pairSum transportX (between lo hi E)) (pairSum transportY (between lo hi E)) ∧
      0 ≤ pairSum water (between lo hi E) := by
  have hs' : (between lo hi E).Pairwise (fun a b => a.p ≤ b.p) := hs.filter _
  have hm : ∀ a ∈ between lo hi E, a ∈ E := fun a ha => (List.mem_filter.1 ha).1
  have hwn : ∀ a ∈ between lo hi E, ∀ b ∈ between lo hi E, a.p ≤ b.p → 0 ≤ water a b := by
    intro a ha b hb hab
    have h1 := (hE a (hm a ha)).2
    have h2 := (hE b (hm b hb)).2
    have := sub_nonneg.2 hab
    have := grav_pos (K := K)
    unfold water
    positivity
  refine ⟨⟨⟨?_, ?_⟩, ⟨?_, ?_⟩⟩, pairSum_nonneg _ _ hs' hwn⟩
  all_goals
    rw [← pairSum_mul]
    refine pairSum_le hs' fun a ha b hb hab => ?_
    obtain ⟨⟨⟨a1, a2⟩, a3, a4⟩, -⟩ := hE a (hm a ha)
    obtain ⟨⟨⟨b1, b2⟩, b3, b4⟩, -⟩ := hE b (hm b hb)
    have := hwn a ha b hb hab
    first | unfold transportX | unfold transportY
    refine mul_le_mul_of_nonneg_right ?_ this
    linarith

theorem carries_scale {w : WindRange K} {c x fx fy : K} (hc : 0 ≤ c) (h : w.Carries x fx fy) :
    w.Carries (c * x) (c * fx) (c * fy) := by
  obtain ⟨⟨h1, h2⟩, h3, h4⟩ := h
  refine ⟨⟨?_, ?_⟩, ?_, ?_⟩
  · calc w.west * (c * x) = c * (w.west * x) := by ring
      _ ≤ _ := mul_le_mul_of_nonneg_left h1 hc
  · calc c * fx ≤ c * (w.east * x) := mul_le_mul_of_nonneg_left h2 hc
      _ = _ := by ring
  · calc w.south * (c * x) = c * (w.south * x) := by ring
      _ ≤ _ := mul_le_mul_of_nonneg_left h3 hc
  · calc c * fy ≤ c * (w.north * x) := mul_le_mul_of_nonneg_left h4 hc
      _ = _ := by ring

private theorem integrals_carried {levels : List (Level K)} {sfc : Level K} {pb : K} {E : List (Level K)}
    (hE : IsExtended levels sfc pb E) {w : WindRange K} (hw : ∀ l ∈ sfc :: levels, w.Holds l.u l.v)
    (hq : ∀ l ∈ sfc :: levels, 0 ≤ l.q) :
    w.CarriesBoth (layerIntegrals sfc.p pb E) ∧
      ∀ t, 0 ≤ t → w.CarriesBoth (scale (t / pairSum water (between 0 sfc.p E)) (layerIntegrals sfc.p pb E)) := by
  have h := between_carried hE.1 (extended_winds hE hw hq)
  refine ⟨⟨(h 0 pb).1, (h pb sfc.p).1⟩, fun t ht => ?_⟩
  have hc : 0 ≤ t / pairSum water (between 0 sfc.p E) := div_nonneg ht (h 0 sfc.p).2
  exact ⟨carries_scale hc (h 0 pb).1, carries_scale hc (h pb sfc.p).1⟩

/-- The fluxes of each layer carry its water with a wind in the range of the winds of the column (on the levels and at the surface), also when
they are scaled to total column water.  Pressure levels. -/
theorem C114_pressure_levels (argsort : List K → List ℕ) (ha : IsArgsort argsort)
    (factor offset : K) (levels : List (Level K)) (hne : levels ≠ []) (h0 : ∀ l ∈ levels, 0 ≤ l.p)
    (sfc : Level K) (hps : 0 < sfc.p) (hlo : 0 ≤ factor * sfc.p + offset)
    (hhi : factor * sfc.p + offset ≤ sfc.p) (hq : ∀ l ∈ sfc :: levels, 0 ≤ l.q)
    (w : WindRange K) (hw : ∀ l ∈ sfc :: levels, w.Holds l.u l.v)
    (tcw : Option K) (htcw : ∀ t, tcw = some t → 0 ≤ t) :
    ∃ r, preprocessPressure argsort factor offset (column levels) (surface sfc) tcw = .ok r ∧ w.CarriesBoth r := by
  obtain ⟨E, hE, hr, ht⟩ := C52_layer_integrals argsort ha factor offset levels hne h0 sfc hps hlo hhi
  have key := integrals_carried hE hw hq
  cases tcw with
  | none => exact ⟨_, hr, key.1⟩
  | some t => exact ⟨_, ht t, key.2 t (htcw t rfl)⟩

private theorem sum_le_sum {f h : ModelLevel K → K} {ls : List (ModelLevel K)} (H : ∀ l ∈ ls, f l ≤ h l) :
    (ls.map f).sum ≤ (ls.map h).sum := by
  induction ls with
  | nil => exact le_rfl
  | cons a ls ih =>
    rw [List.map_cons, List.map_cons, List.sum_cons, List.sum_cons]
    exact add_le_add (H a (by simp)) (ih fun l hl => H l (by simp [hl]))

private theorem sum_mul_left (c : K) (f : ModelLevel K → K) (ls : List (ModelLevel K)) :
    (ls.map fun l => c * f l).sum = c * (ls.map f).sum := by
  induction ls with
  | nil => simp
  | cons a ls ih => rw [List.map_cons, List.map_cons, List.sum_cons, List.sum_cons, ih]; ring

private theorem model_carried {w : WindRange K} {ls : List (ModelLevel K)}
    (h : ∀ l ∈ ls, 0 ≤ l.water ∧ w.Holds l.u l.v) :
    w.Carries (ls.map ModelLevel.water).sum (ls.map fun l => l.u * l.water).sum (ls.map fun l => l.v * l.water).sum := by
  refine ⟨⟨?_, ?_⟩, ?_, ?_⟩
  all_goals
    rw [← sum_mul_left]
    refine sum_le_sum fun l hl => ?_
    obtain ⟨h1, ⟨h2, h3⟩, h4, h5⟩ := h l hl
    refine mul_le_mul_of_nonneg_right ?_ h1
    assumption

/-- The same on model levels, for increasing level numbers of the ERA5 table and every surface pressure of at least 303.31 hPa. -/
theorem C114_model_levels (sp : K) (hsp : 30331 ≤ sp) (boundary : ℤ) (levels : List ℤ) (hne : levels ≠ [])
    (hsort : levels.Pairwise (· ≤ ·)) (h : ∀ l ∈ levels, 1 ≤ l ∧ l ≤ 137) (p q u v : List K)
    (hq : q.length = levels.length) (hu : u.length = levels.length) (hv : v.length = levels.length)
    (hpos : ∀ x ∈ q, 0 ≤ x) (w : WindRange K) (hwu : ∀ x ∈ u, w.west ≤ x ∧ x ≤ w.east)
    (hwv : ∀ x ∈ v, w.south ≤ x ∧ x ≤ w.north) (tcw : Option K) (htcw : ∀ t, tcw = some t → 0 ≤ t) :
    ∃ r, preprocessModel (era5A K) (era5B K) levels boundary ⟨p, q, u, v⟩ sp tcw = .ok r ∧ w.CarriesBoth r := by
  obtain ⟨dp, hdp, hlen, -⟩ := C54_era5_surface_pressure sp levels hne h
  obtain ⟨dp', hdp', hdpos⟩ := C54_era5_nonneg sp hsp levels hne hsort h
  rw [hdp] at hdp'
  injection hdp' with e
  subst e
  obtain ⟨ls, h1, h2, h3, h4, h5⟩ : ∃ ls : List (ModelLevel K), ls.map ModelLevel.number = levels ∧
      ls.map ModelLevel.dp = dp ∧ ls.map ModelLevel.q = q ∧ ls.map ModelLevel.u = u ∧ ls.map ModelLevel.v = v := by
    clear hdp hdpos hpos hsort h hne hwu hwv
    induction levels generalizing dp q u v with
    | nil =>
      obtain rfl := List.length_eq_zero_iff.1 hlen
      obtain rfl := List.length_eq_zero_iff.1 hq
      obtain rfl := List.length_eq_zero_iff.1 hu
      obtain rfl := List.length_eq_zero_iff.1 hv
      exact ⟨[], rfl, rfl, rfl, rfl, rfl⟩
    | cons l levels ih =>
      obtain ⟨d, dp, rfl⟩ := List.exists_cons_of_length_eq_add_one hlen
      obtain ⟨x, q, rfl⟩ := List.exists_cons_of_length_eq_add_one hq
      obtain ⟨y, u, rfl⟩ := List.exists_cons_of_length_eq_add_one hu
      obtain ⟨z, v, rfl⟩ := List.exists_cons_of_length_eq_add_one hv
      obtain ⟨ls, g1, g2, g3, g4, g5⟩ := ih q u v (by simpa using hq) (by simpa using hu) (by simpa using hv) dp (by simpa using hlen)
      exact ⟨⟨l, d, x, y, z⟩ :: ls, by simp [g1], by simp [g2], by simp [g3], by simp [g4], by simp [g5]⟩
  have hw : ∀ l ∈ ls, 0 ≤ l.water ∧ w.Holds l.u l.v := by
    intro l hl
    have a1 : 0 ≤ l.q := hpos _ (h3 ▸ List.mem_map_of_mem hl)
    have a2 : 0 ≤ l.dp := hdpos _ (h2 ▸ List.mem_map_of_mem hl)
    have a3 : (0 : K) < grav := grav_pos
    refine ⟨?_, hwu _ (h4 ▸ List.mem_map_of_mem hl), hwv _ (h5 ▸ List.mem_map_of_mem hl)⟩
    unfold ModelLevel.water
    positivity
  have hboth : w.CarriesBoth (modelIntegrals boundary ls) :=
    ⟨model_carried fun l hl => hw l (List.mem_of_mem_filter hl), model_carried fun l hl => hw l (List.mem_of_mem_filter hl)⟩
  have hsum : 0 ≤ (ls.map ModelLevel.water).sum := by
    apply List.sum_nonneg
    intro x hx
    obtain ⟨l, hl, rfl⟩ := List.mem_map.1 hx
    exact (hw l hl).1
  have key := C54_layer_integrals (era5A K) (era5B K) boundary ls p sp (by rw [h1, h2]; exact hdp)
  rw [h1, h3, h4, h5] at key
  cases tcw with
  | none => exact ⟨_, key.1, hboth⟩
  | some t =>
    have hc : 0 ≤ t / (ls.map ModelLevel.water).sum := div_nonneg (htcw t rfl) hsum
    exact ⟨_, key.2 t, carries_scale hc hboth.1, carries_scale hc hboth.2⟩

private theorem layersFrom_carried {P : String → Option ℚ → K → K → K → Prop} {ls : List ℚ} {lay : LayerConfig K} {lat lon : K}
    {hasTcw : Bool} {r : LayerSums K} (h : LayersFrom P ls lay lat lon hasTcw r) {w : WindRange K}
    (hq : ∀ l ∈ ls, ∀ x, P "q" (some l) lat lon x → 0 ≤ x) (hqs : ∀ x, P "qs" none lat lon x → 0 ≤ x)
    (hu : ∀ l ∈ ls, ∀ x, P "u" (some l) lat lon x → w.west ≤ x ∧ x ≤ w.east)
    (hv : ∀ l ∈ ls, ∀ x, P "v" (some l) lat lon x → w.south ≤ x ∧ x ≤ w.north)
    (hus : ∀ x, P "us" none lat lon x → w.west ≤ x ∧ x ≤ w.east) (hvs : ∀ x, P "vs" none lat lon x → w.south ≤ x ∧ x ≤ w.north)
    (htcw : hasTcw = true → ∀ x, P "tcw" none lat lon x → 0 ≤ x) : w.CarriesBoth r := by
  obtain ⟨levels, S, E, hl, hS, hE, hno, ht⟩ := h
  have hlev : ∀ L ∈ levels, 0 ≤ L.q ∧ w.Holds L.u L.v := by
    have : ∀ (ls : List ℚ) (levels : List (Level K)), List.Forall₂ (LevelFrom P lat lon) ls levels →
        (∀ l ∈ ls, ∀ x, P "q" (some l) lat lon x → 0 ≤ x) →
        (∀ l ∈ ls, ∀ x, P "u" (some l) lat lon x → w.west ≤ x ∧ x ≤ w.east) →
        (∀ l ∈ ls, ∀ x, P "v" (some l) lat lon x → w.south ≤ x ∧ x ≤ w.north) → ∀ L ∈ levels, 0 ≤ L.q ∧ w.Holds L.u L.v := by
      intro ls levels hf hq hu hv
      induction hf with
      | nil => intro L hL; cases hL
      | cons h1 _ ih =>
        intro L hL
        rcases List.mem_cons.mp hL with rfl | hL
        · exact ⟨hq _ List.mem_cons_self _ h1.q, hu _ List.mem_cons_self _ h1.u, hv _ List.mem_cons_self _ h1.v⟩
        · exact ih (fun l hl => hq l (List.mem_cons_of_mem _ hl)) (fun l hl => hu l (List.mem_cons_of_mem _ hl))
            (fun l hl => hv l (List.mem_cons_of_mem _ hl)) L hL
    exact this ls levels hl hq hu hv
  have key := integrals_carried hE (w := w)
    (fun l hl => by
      rcases List.mem_cons.1 hl with rfl | hl
      · exact ⟨hus _ hS.u, hvs _ hS.v⟩
      · exact (hlev l hl).2)
    (fun l hl => by
      rcases List.mem_cons.1 hl with rfl | hl
      · exact hqs _ hS.q
      · exact (hlev l hl).1)
  cases hasTcw with
  | false => rw [hno rfl]; exact key.1
  | true =>
    obtain ⟨x, hx, rfl⟩ := ht rfl
    exact key.2 x (htcw rfl x hx)

/-- Between two input times the water moves with winds of the same range. -/
theorem C114_between_input_times {m n : ℕ} {compute : ℤ → Except Err (Dataset K K)} {freq A B : ℤ} {dom : Option (BoundingBox K)}
    {lat lon : List K} {inp : Input m n K} (h : InputFrom compute freq A B dom lat lon inp) (hf : 0 < freq) (hA : freq ∣ A)
    (hB : freq ∣ B) {w : WindRange K}
    (hw : ∀ t, A ≤ t → t ≤ B → freq ∣ t → ∀ ds, compute t = .ok ds →
      ∀ i < ds.latitude.length, ∀ j < ds.longitude.length, w.CarriesIn ds i j)
    (t : ℤ) (h0 : A ≤ t) (h1 : t ≤ B) (i : Fin (m + 2)) (j : Fin (n + 2)) :
    w.CarriesAt (inp.states t) (inp.fluxes t) i j := by
  have key : ∀ t, A ≤ t → t ≤ B → freq ∣ t → w.CarriesAt (inp.states t) (inp.fluxes t) i j := by
    intro t h0 h1 hd
    obtain ⟨ds, e, hds⟩ := h.at_input_times t h0 h1 hd
    obtain ⟨i₀, j₀, ⟨⟨y, y1, -⟩, ⟨x, x1, -⟩, -⟩, hc⟩ := hds i j
    have := hw t h0 h1 hd ds e i₀ (List.getElem?_eq_some_iff.1 y1).1 j₀ (List.getElem?_eq_some_iff.1 x1).1
    unfold WindRange.CarriesAt
    rw [hc.s_upper, hc.s_lower, hc.fx_upper, hc.fx_lower, hc.fy_upper, hc.fy_lower]
    exact this
  have sub : ∀ {x y : ℤ → K} (a b : K), LinearBetween freq A B x → LinearBetween freq A B y →
      LinearBetween freq A B fun t => a * x t + b * y t := by
    intro x y a b hx hy s t g1 g2 g3 g4 g5
    have e1 := hx s t g1 g2 g3 g4 g5
    have e2 := hy s t g1 g2 g3 g4 g5
    simp only
    linear_combination a * e1 + b * e2
  have main : ∀ {x y : ℤ → K}, LinearBetween freq A B x → LinearBetween freq A B y → ∀ lo hi : K,
      (∀ t, A ≤ t → t ≤ B → freq ∣ t → lo * x t ≤ y t ∧ y t ≤ hi * x t) → lo * x t ≤ y t ∧ y t ≤ hi * x t := by
    intro x y hx hy lo hi H
    have a1 := linear_nonneg (sub (-lo) 1 hx hy) hf hA hB (fun t g0 g1 g2 => by have := (H t g0 g1 g2).1; linarith) t h0 h1
    have a2 := linear_nonneg (sub hi (-1) hx hy) hf hA hB (fun t g0 g1 g2 => by have := (H t g0 g1 g2).2; linarith) t h0 h1
    constructor <;> linarith
  refine ⟨⟨?_, ?_⟩, ?_, ?_⟩
  · exact main (h.s_upper i j) (h.fx_upper i j) _ _ fun t g0 g1 g2 => (key t g0 g1 g2).1.1
  · exact main (h.s_upper i j) (h.fy_upper i j) _ _ fun t g0 g1 g2 => (key t g0 g1 g2).1.2
  · exact main (h.s_lower i j) (h.fx_lower i j) _ _ fun t g0 g1 g2 => (key t g0 g1 g2).2.1
  · exact main (h.s_lower i j) (h.fy_lower i j) _ _ fun t g0 g1 g2 => (key t g0 g1 g2).2.2

private theorem within_half {dt a dx dy c U V s0 s fx fy : K} (hdt : 0 < dt) (hdx : 0 ≤ dx) (hdy : 0 ≤ dy) (hs0 : 0 ≤ s0)
    (hs : s ≤ c * s0) (hU : 0 ≤ U) (hV : 0 ≤ V) (hrule : c * (U * dy + V * dx) * dt ≤ 1 / 2 * a)
    (hw : WindRange.Carries ⟨-U, U, -V, V⟩ s fx fy) : halfCell dt a s0 (fx * dy) (fy * dx) := by
  obtain ⟨⟨h1, h2⟩, h3, h4⟩ := hw
  simp only at h1 h2 h3 h4
  have ex : |fx| ≤ U * s := abs_le.2 ⟨by linarith, h2⟩
  have ey : |fy| ≤ V * s := abs_le.2 ⟨by linarith, h4⟩
  unfold halfCell
  rw [abs_mul, abs_mul, abs_of_nonneg hdy, abs_of_nonneg hdx]
  have b1 : |fx| * dy ≤ U * (c * s0) * dy := mul_le_mul_of_nonneg_right (ex.trans (mul_le_mul_of_nonneg_left hs hU)) hdy
  have b2 : |fy| * dx ≤ V * (c * s0) * dx := mul_le_mul_of_nonneg_right (ey.trans (mul_le_mul_of_nonneg_left hs hV)) hdx
  calc (|fx| * dy + |fy| * dx) * dt ≤ (U * (c * s0) * dy + V * (c * s0) * dx) * dt :=
        mul_le_mul_of_nonneg_right (add_le_add b1 b2) hdt.le
    _ = s0 * (c * (U * dy + V * dx) * dt) := by ring
    _ ≤ s0 * (1 / 2 * a) := mul_le_mul_of_nonneg_left hrule hs0
    _ = _ := by ring

private theorem gentle_one {dt a s fx fy fx' fy' : K} (h : GentleCorrection dt a s fx fy fx' fy') (hh : halfCell dt a s fx fy) :
    fx' = fx ∧ fy' = fy := by
  obtain ⟨θ, -, -, e1, e2, e3, -⟩ := h
  have := e3.2 hh
  subst this
  rw [e1, e2, one_mul, one_mul]
  exact ⟨rfl, rfl⟩

/-- Which time steps need no correction: winds of at most `U` eastward or westward and `V` northward or southward, and at most `c` times
the water of the beginning of the step halfway. If such a wind would move, in a time step, `c` times less than half of the area of
each cell over its northern and its eastern side, then no flux is corrected. -/
theorem C114_no_correction {m n : ℕ} (dt : K) (hdt : 0 < dt) (grid : GridInfo m K) (ha : ∀ i, 0 < grid.a i) (hdx : ∀ i, 0 ≤ grid.dx i)
    (hdy : 0 ≤ grid.dy) (S Sh : States m n K) (Fh : Fluxes m n K) (U V c : K) (hU : 0 ≤ U) (hV : 0 ≤ V)
    (h0 : ∀ i j, 0 ≤ S.s_upper i j ∧ 0 ≤ S.s_lower i j)
    (hc : ∀ i j, Sh.s_upper i j ≤ c * S.s_upper i j ∧ Sh.s_lower i j ≤ c * S.s_lower i j)
    (hw : ∀ i j, WindRange.CarriesAt ⟨-U, U, -V, V⟩ Sh Fh i j)
    (hrule : ∀ i, c * (U * grid.dy + V * grid.dx i) * dt ≤ 1 / 2 * grid.a i) :
    let F := scaleFluxes grid Fh
    let F' := stabilizeFluxes dt grid.a F S
    ∀ i j, (Fh.fx_upper i j * grid.dy ≠ 0 ∨ Fh.fy_upper i j * grid.dx i ≠ 0 →
        F'.fx_upper i j = Fh.fx_upper i j * grid.dy ∧ F'.fy_upper i j = Fh.fy_upper i j * grid.dx i) ∧
      (Fh.fx_lower i j * grid.dy ≠ 0 ∨ Fh.fy_lower i j * grid.dx i ≠ 0 →
        F'.fx_lower i j = Fh.fx_lower i j * grid.dy ∧ F'.fy_lower i j = Fh.fy_lower i j * grid.dx i) := by
  intro F F' i j
  have key := C07_gentle_correction dt grid.a F S hdt ha (fun i j => (h0 i j).1) (fun i j => (h0 i j).2)
  refine ⟨fun h => gentle_one (key.1 i j h) ?_, fun h => gentle_one (key.2.1 i j h) ?_⟩
  · exact within_half hdt (hdx i) hdy (h0 i j).1 (hc i j).1 hU hV (hrule i) (hw i j).1
  · exact within_half hdt (hdx i) hdy (h0 i j).2 (hc i j).2 hU hV (hrule i) (hw i j).2

end

/-- From the files: after preprocessing ERA5 on pressure levels, in every cell the fluxes of both layers carry its water with a wind in
the range of the winds in the files. -/
theorem C114_era5 {cfg : InputConfig} {disk : List Char → Except Err (RawFile ℝ ℝ)} {t : ℤ}
    (hlt : cfg.levelType = .pressure_levels) {levels : List ℤ}
    (hL : cfg.levels = .list levels) (hne : levels ≠ []) (hpos : ∀ l ∈ levels, 0 < l) {g : List ℝ × List ℝ}
    (h : Era5Complete cfg disk t levels g) {argsort : List ℝ → List ℕ} (ha : IsArgsort argsort) {lay : LayerConfig ℝ}
    (hp : PhysicalEra5 cfg disk t lay levels g)
    (htcw : ∀ lat ∈ g.1, ∀ lon ∈ g.2, ∀ x, OnDisk cfg disk "tcw" t none lat lon x → 0 ≤ x)
    {w : WindRange ℝ} (hw : Era5Winds w cfg disk t levels g) :
    ∃ ds, prepEra5 argsort lay cfg disk t = .ok ds ∧
      ∀ i < ds.latitude.length, ∀ j < ds.longitude.length, w.CarriesIn ds i j := by
  obtain ⟨ds, hasTcw, h1, h2, g1, g2, g3, order, g4, g5⟩ :=
    C83_era5_pressure_levels hlt hL hne (fun l hl => (hpos l hl).le) h ha hp.ps
  refine ⟨ds, h1, fun i hi j hj => ?_⟩
  rw [g1] at hi
  have hjo : j < order.length := by
    rw [g4.length_eq, List.length_range, ← g2]; exact hj
  obtain ⟨x, lon, a1, a2, a3, r, p, e, ⟨hr, -, -⟩, a5⟩ :=
    g5 i _ j _ (List.getElem?_eq_getElem hi) (List.getElem?_eq_getElem hjo)
  have hlat := List.getElem_mem (l := g.1) hi
  have hlon := List.mem_of_getElem? a2
  have hundred : ∀ m : ℤ, (m : ℚ) * 100 / 100 = m := fun m => mul_div_cancel_right₀ _ (by norm_num)
  have key : w.CarriesBoth r := by
    refine layersFrom_carried hr ?_ ?_ ?_ ?_ ?_ ?_ ?_
    · intro l hl x hx
      obtain ⟨m, hm, rfl⟩ := List.mem_map.1 hl
      have hx' : OnDisk cfg disk "q" t (some ((m : ℚ) * 100 / 100)) _ lon x := hx
      rw [hundred] at hx'
      exact (hp.q _ hlat lon hlon m hm x hx').le
    · rintro x ⟨T, p, hT, hp', rfl⟩
      exact ((C73_between_zero_and_one T p).2 (hp.dewpoint _ hlat lon hlon T p hT hp')).1.le
    · intro l hl x hx
      obtain ⟨m, hm, rfl⟩ := List.mem_map.1 hl
      have hx' : OnDisk cfg disk "u" t (some ((m : ℚ) * 100 / 100)) _ lon x := hx
      rw [hundred] at hx'
      exact hw.u _ hlat lon hlon m hm x hx'
    · intro l hl x hx
      obtain ⟨m, hm, rfl⟩ := List.mem_map.1 hl
      have hx' : OnDisk cfg disk "v" t (some ((m : ℚ) * 100 / 100)) _ lon x := hx
      rw [hundred] at hx'
      exact hw.v _ hlat lon hlon m hm x hx'
    · exact fun x hx => hw.u10 _ hlat lon hlon x hx
    · exact fun x hx => hw.v10 _ hlat lon hlon x hx
    · exact fun _ x hx => htcw _ hlat lon hlon x hx
  unfold WindRange.CarriesIn
  rw [a5.s_upper, a5.s_lower, a5.fx_upper, a5.fx_lower, a5.fy_upper, a5.fy_lower]
  exact key

end Wam
