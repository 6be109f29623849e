import Verif.Lemmas.Column

/-!
# Interpolation and vertical integration: C49, C51, C52, C53
-/

set_option linter.unusedSectionVars false
set_option linter.unusedVariables false

namespace Wam
open Spec

section
variable {K : Type} [Field K] [LinearOrder K] [IsStrictOrderedRing K]

/-! ## C49: interpolation -/

/-- On a monotonically increasing axis with at least two different values the result at `x` is
the sample at the start of the axis if `x` is the start, and otherwise the straight line between the two
samples around `x`. -/
theorem C49_piecewise_linear (x : K) (xp fp : List K) (hlen : fp.length = xp.length)
    (hs : xp.Pairwise (· ≤ ·)) (h2 : 2 ≤ xp.length) (hspan : xp[0] < xp[xp.length - 1]) :
    (x = xp[0] → interpolate x xp fp false = .ok fp[0]) ∧
    (∀ (i : ℕ) (hi : i + 1 < xp.length), xp[i] < x → x ≤ xp[i + 1] →
      interpolate x xp fp false = .ok (line xp[i] fp[i] xp[i + 1] fp[i + 1] x)) ∧
    (xp[0] < x → x ≤ xp[xp.length - 1] →
      ∃ (i : ℕ) (hi : i + 1 < xp.length), xp[i] < x ∧ x ≤ xp[i + 1]) := by
  refine ⟨?_, ?_, ?_⟩
  · intro hx
    rcases interpolate_ok x xp fp hlen hs h2 hx.ge (hx ▸ hspan.le) with ⟨-, -, h⟩ | ⟨i, hi, -, h, -, -⟩
    · rw [h, hx]
      congr 1
      unfold line
      have : xp[0] - xp[xp.length - 1] ≠ 0 := by intro h; linarith
      field_simp
      ring
    · have : xp[0] ≤ xp[i] := by
        rcases Nat.eq_zero_or_pos i with rfl | hp
        · exact le_rfl
        · exact List.pairwise_iff_getElem.1 hs 0 i (by omega) (by omega) hp
      exact absurd (this.trans_lt h) (by rw [hx]; exact lt_irrefl _)
  · intro i hi h1 h3
    have hlo : xp[0] ≤ x := by
      refine le_trans ?_ h1.le
      rcases Nat.eq_zero_or_pos i with rfl | hp
      · exact le_rfl
      · exact List.pairwise_iff_getElem.1 hs 0 i (by omega) (by omega) hp
    have hhi : x ≤ xp[xp.length - 1] := by
      refine h3.trans ?_
      rcases Nat.lt_or_ge (i + 1) (xp.length - 1) with h | h
      · exact List.pairwise_iff_getElem.1 hs _ _ (by omega) (by omega) h
      · have : i + 1 = xp.length - 1 := by omega
        simp [this]
    have hk1 := (countP_lt_iff xp hs x i (by omega)).1 h1
    have hk2 := (not_congr (countP_lt_iff xp hs x (i + 1) hi)).1 (not_lt.2 h3)
    rcases interpolate_ok x xp fp hlen hs h2 hlo hhi with ⟨hk, -, -⟩ | ⟨j, hj, hk, -, -, h⟩
    · omega
    · have : i = j := by omega
      subst this
      exact h
  · intro h1 h3
    rcases interpolate_ok x xp fp hlen hs h2 h1.le h3 with ⟨-, h, -⟩ | ⟨j, hj, -, h4, h5, -⟩
    · exact absurd h h1.ne'
    · exact ⟨j, hj, h4, h5⟩

/-- The call fails exactly if there are fewer than two samples, the axis decreases somewhere or `x`
is outside the axis. -/
theorem C49_errors (x : K) (xp fp : List K) (hlen : fp.length = xp.length) :
    (∃ y, interpolate x xp fp false = .ok y) ↔
      ∃ h : 2 ≤ xp.length, xp.Pairwise (· ≤ ·) ∧ xp[0] ≤ x ∧ x ≤ xp[xp.length - 1] := by
  constructor
  · rintro ⟨y, hy⟩
    obtain ⟨e1, e2, e3⟩ := interpolate_error x xp fp
    have h2 : 2 ≤ xp.length := by
      by_contra h
      rw [e1 (by omega)] at hy; cases hy
    refine ⟨h2, ?_⟩
    have hs : xp.Pairwise (· ≤ ·) := by
      by_contra h
      rw [e2 h2 h] at hy; cases hy
    refine ⟨hs, ?_⟩
    by_contra h
    rw [e3 h2 hs (by
      by_contra hc
      push Not at hc
      exact h ⟨hc.1, hc.2⟩)] at hy
    cases hy
  · rintro ⟨h2, hs, hlo, hhi⟩
    rcases interpolate_ok x xp fp hlen hs h2 hlo hhi with ⟨-, -, h⟩ | ⟨i, hi, -, -, -, h⟩
    · exact ⟨_, h⟩
    · exact ⟨_, h⟩

/-- Exact at the samples of a strictly increasing axis. -/
theorem C49_exact_at_samples (xp fp : List K) (hlen : fp.length = xp.length)
    (hs : xp.Pairwise (· < ·)) (h2 : 2 ≤ xp.length) (i : ℕ) (hi : i < xp.length) :
    interpolate xp[i] xp fp false = .ok (fp[i]'(by omega)) := by
  have hs' : xp.Pairwise (· ≤ ·) := hs.imp le_of_lt
  have hspan : xp[0] < xp[xp.length - 1] := List.pairwise_iff_getElem.1 hs _ _ _ _ (by omega)
  obtain ⟨hA, hB, -⟩ := C49_piecewise_linear xp[i] xp fp hlen hs' h2 hspan
  cases i with
  | zero => exact hA rfl
  | succ i =>
    have hlt : xp[i] < xp[i + 1] := List.pairwise_iff_getElem.1 hs _ _ _ _ (by omega)
    rw [hB i hi hlt le_rfl]
    congr 1
    unfold line
    have : xp[i + 1] - xp[i] ≠ 0 := by intro h; linarith
    field_simp
    ring

/-- The result lies between the two samples around `x`. -/
theorem C49_between_neighbours (x y : K) (xp fp : List K) (hlen : fp.length = xp.length)
    (hs : xp.Pairwise (· ≤ ·)) (h2 : 2 ≤ xp.length) (hspan : xp[0] < xp[xp.length - 1])
    (i : ℕ) (hi : i + 1 < xp.length) (h1 : xp[i] < x) (h3 : x ≤ xp[i + 1])
    (hy : interpolate x xp fp false = .ok y) :
    min fp[i] fp[i + 1] ≤ y ∧ y ≤ max fp[i] fp[i + 1] := by
  rw [(C49_piecewise_linear x xp fp hlen hs h2 hspan).2.1 i hi h1 h3] at hy
  injection hy with hy
  subst hy
  unfold line
  have hd : 0 < xp[i + 1] - xp[i] := by linarith
  set w := (x - xp[i]) / (xp[i + 1] - xp[i]) with hw
  have hw0 : 0 ≤ w := div_nonneg (by linarith) hd.le
  have hw1 : w ≤ 1 := by rw [hw, div_le_one hd]; linarith
  have e : fp[i] + (fp[i + 1] - fp[i]) * (x - xp[i]) / (xp[i + 1] - xp[i]) =
      (1 - w) * fp[i] + w * fp[i + 1] := by rw [hw]; ring
  rw [e]
  constructor
  · have a1 := mul_le_mul_of_nonneg_left (min_le_left fp[i] fp[i + 1]) (sub_nonneg.2 hw1)
    have a2 := mul_le_mul_of_nonneg_left (min_le_right fp[i] fp[i + 1]) hw0
    nlinarith
  · have a1 := mul_le_mul_of_nonneg_left (le_max_left fp[i] fp[i + 1]) (sub_nonneg.2 hw1)
    have a2 := mul_le_mul_of_nonneg_left (le_max_right fp[i] fp[i + 1]) hw0
    nlinarith

/-- Data that depend linearly on the coordinate are reproduced. -/
theorem C49_linear_data (x c d : K) (xp : List K) (hs : xp.Pairwise (· ≤ ·)) (h2 : 2 ≤ xp.length)
    (hspan : xp[0] < xp[xp.length - 1]) (hlo : xp[0] ≤ x) (hhi : x ≤ xp[xp.length - 1]) :
    interpolate x xp (xp.map fun y => c * y + d) false = .ok (c * x + d) := by
  obtain ⟨hA, hB, hC⟩ := C49_piecewise_linear x xp (xp.map fun y => c * y + d) (by simp) hs h2 hspan
  rcases eq_or_lt_of_le hlo with h | h
  · rw [hA h.symm]; simp [h]
  · obtain ⟨i, hi, h4, h5⟩ := hC h hhi
    rw [hB i hi h4 h5]
    congr 1
    simp only [List.getElem_map, line]
    have : xp[i + 1] - xp[i] ≠ 0 := by intro h; linarith
    field_simp
    ring

/-- `descending=True` on a decreasing axis gives what the default gives on the reversed data. -/
theorem C49_descending (x : K) (xp fp : List K) :
    interpolate x xp.reverse fp.reverse true = interpolate x xp fp false := by
  rw [interpolate_descending, List.reverse_reverse, List.reverse_reverse]

example : interpolate (5 / 2 : ℚ) [0, 1, 3, 3, 7] [10, 0, 8, 9, 1] false = .ok 6 ∧
    interpolate (0 : ℚ) [0, 1, 3, 3, 7] [10, 0, 8, 9, 1] false = .ok 10 ∧
    interpolate (7 : ℚ) [7, 3, 1, 0] [1, 8, 0, 10] true = .ok 1 ∧
    interpolate (8 : ℚ) [0, 1] [0, 1] false = .error .valueError ∧
    interpolate (1 : ℚ) [0, 2, 1] [0, 1, 5] false = .error (.other "AssertionError") := by
  decide +kernel

/-! ## A concrete sorting order and column (non-vacuity) -/

/-- a stable argsort -/
def demoArgsort (l : List K) : List ℕ :=
  (List.range l.length).insertionSort fun i j => l.getD i 0 ≤ l.getD j 0

theorem demoArgsort_isArgsort : IsArgsort (demoArgsort (K := K)) := by
  intro l
  refine ⟨List.perm_insertionSort _ _, ?_⟩
  rw [List.pairwise_map]
  haveI : Std.Total (fun i j : ℕ => l.getD i 0 ≤ l.getD j 0) :=
    ⟨fun a b => le_total (l.getD a 0) (l.getD b 0)⟩
  haveI : IsTrans ℕ (fun i j : ℕ => l.getD i 0 ≤ l.getD j 0) :=
    ⟨fun a b c h1 h2 => le_trans h1 h2⟩
  exact List.pairwise_insertionSort _ _

/-- a column with four levels (the last one is below the ground), in arbitrary order -/
def demoLevels : List (Level ℚ) :=
  [⟨50000, 2/1000, 10, 1⟩, ⟨20000, 1/1000, 20, 2⟩, ⟨85000, 8/1000, 5, 0⟩, ⟨101000, 9/1000, 1, 0⟩]

/-- its surface -/
def demoSurface : Level ℚ := ⟨100000, 10/1000, 3, -1⟩

end

/-! ## C52: the extended column -/

section
variable {K : Type} [Field K] [LinearOrder K] [IsStrictOrderedRing K]

theorem extended_facts {levels : List (Level K)} {sfc : Level K} {pb : K} {E : List (Level K)}
    (h0 : ∀ l ∈ levels, 0 ≤ l.p) (hps : 0 ≤ sfc.p) (hpb : 0 ≤ pb) (hE : IsExtended levels sfc pb E) :
    (∀ l ∈ E, 0 ≤ l.p) ∧ (∃ e ∈ E, e.p = pb) ∧ (∃ e ∈ E, e.p = sfc.p) ∧ (∃ e ∈ E, e.p = 0) := by
  obtain ⟨hs, top, htop, bdy, hmin, hb, hi, hperm⟩ := hE
  refine ⟨?_, ⟨bdy, hperm.mem_iff.2 (by simp), hb⟩, ⟨sfc, hperm.mem_iff.2 (by simp), rfl⟩,
    ⟨⟨0, 0, top.u, top.v⟩, hperm.mem_iff.2 (by simp), rfl⟩⟩
  intro l hl
  have := hperm.mem_iff.1 hl
  simp only [List.mem_cons] at this
  rcases this with rfl | rfl | rfl | h
  · exact hb ▸ hpb
  · exact hps
  · exact le_rfl
  · exact h0 l h

/-- For levels at non-negative pressures and a boundary pressure between zero and the surface
pressure, the preprocessed storages and fluxes are the integrals over the two layers of the extended column
`E`, scaled to the total column water if that is given. -/
theorem C52_layer_integrals (argsort : List K → List ℕ) (ha : IsArgsort argsort)
    (factor offset : K) (levels : List (Level K)) (hne : levels ≠ []) (h0 : ∀ l ∈ levels, 0 ≤ l.p)
    (sfc : Level K) (hps : 0 < sfc.p) (hlo : 0 ≤ factor * sfc.p + offset)
    (hhi : factor * sfc.p + offset ≤ sfc.p) :
    ∃ E, IsExtended levels sfc (factor * sfc.p + offset) E ∧
      preprocessPressure argsort factor offset (column levels) (surface sfc) none =
        .ok (layerIntegrals sfc.p (factor * sfc.p + offset) E) ∧
      ∀ tcw, preprocessPressure argsort factor offset (column levels) (surface sfc) (some tcw) =
        .ok (scale (tcw / pairSum water (between 0 sfc.p E))
          (layerIntegrals sfc.p (factor * sfc.p + offset) E)) := by
  obtain ⟨E, hE, hx⟩ := extend_ok argsort ha factor offset levels hne sfc hps hlo hhi
  obtain ⟨f0, fb, fs, ft⟩ := extended_facts h0 hps.le hlo hE
  refine ⟨E, hE, ?_, ?_⟩
  · rw [preprocessPressure_eq argsort factor offset levels E sfc none _ hhi hx hE.1 f0 fb fs]
    simp [tcwFactor, scale]
  · intro tcw
    rw [preprocessPressure_eq argsort factor offset levels E sfc (some tcw) _ hhi hx hE.1 f0 fb fs]
    rfl

theorem pairSum_thickness (l : List (Level K)) (lo hi : K)
    (hs : l.Pairwise (fun a b => a.p ≤ b.p)) (hlo : ∃ e ∈ l, e.p = lo) (hhi : ∃ e ∈ l, e.p = hi)
    (hb : ∀ e ∈ l, lo ≤ e.p ∧ e.p ≤ hi) : pairSum thickness l = hi - lo := by
  have key : ∀ (l : List (Level K)) (a : Level K), (a :: l).Pairwise (fun a b => a.p ≤ b.p) →
      (∃ e ∈ a :: l, e.p = hi) → (∀ e ∈ a :: l, e.p ≤ hi) → pairSum thickness (a :: l) = hi - a.p := by
    intro l
    induction l with
    | nil =>
      intro a _ h _
      obtain ⟨e, he, rfl⟩ := h
      simp only [List.mem_singleton] at he
      subst he
      simp [pairSum]
    | cons b l ih =>
      intro a hs h hle
      have hs' := List.pairwise_cons.1 hs
      have hb : ∃ e ∈ b :: l, e.p = hi := by
        obtain ⟨e, he, rfl⟩ := h
        rcases List.mem_cons.1 he with rfl | he
        · refine ⟨b, by simp, le_antisymm (hle b (by simp)) (hs'.1 b (by simp))⟩
        · exact ⟨e, he, rfl⟩
      rw [pairSum, ih b hs'.2 hb (fun e he => hle e (List.mem_cons_of_mem _ he)), thickness]
      ring
  cases l with
  | nil => simp at hlo
  | cons a l =>
    rw [key l a hs hhi fun e he => (hb e he).2]
    congr 1
    obtain ⟨e, he, rfl⟩ := hlo
    refine le_antisymm ?_ (hb a (by simp)).1
    rcases List.mem_cons.1 he with rfl | he
    · exact le_rfl
    · exact (List.pairwise_cons.1 hs).1 e he

theorem pairSum_thickness_between (E : List (Level K)) (lo hi : K) (hlh : lo ≤ hi)
    (hs : E.Pairwise (fun a b => a.p ≤ b.p)) (hlo : ∃ e ∈ E, e.p = lo) (hhi : ∃ e ∈ E, e.p = hi) :
    pairSum thickness (between lo hi E) = hi - lo := by
  apply pairSum_thickness
  · exact hs.filter _
  · obtain ⟨e, he, rfl⟩ := hlo
    exact ⟨e, List.mem_filter.2 ⟨he, by simpa using hlh⟩, rfl⟩
  · obtain ⟨e, he, rfl⟩ := hhi
    exact ⟨e, List.mem_filter.2 ⟨he, by simpa using hlh⟩, rfl⟩
  · intro e he
    simpa using (List.mem_filter.1 he).2

/-- In the extended column the pressures increase from zero, every layer has non-negative
thickness, and the two layers are exactly `pb` and `ps - pb` thick. -/
theorem C52_thickness (levels : List (Level K)) (h0 : ∀ l ∈ levels, 0 ≤ l.p)
    (sfc : Level K) (hps : 0 < sfc.p) (pb : K) (hlo : 0 ≤ pb) (hhi : pb ≤ sfc.p)
    (E : List (Level K)) (hE : IsExtended levels sfc pb E) :
    (E.head?.map Level.p = some 0) ∧
    (∀ ab ∈ E.zip E.tail, 0 ≤ thickness ab.1 ab.2) ∧
    pairSum thickness (between 0 pb E) = pb ∧
    pairSum thickness (between pb sfc.p E) = sfc.p - pb := by
  obtain ⟨f0, fb, fs, ft⟩ := extended_facts h0 hps.le hlo hE
  refine ⟨?_, ?_, ?_, ?_⟩
  · obtain ⟨e, he, hp⟩ := ft
    have hs := hE.1
    cases E with
    | nil => simp at he
    | cons a E =>
      simp only [List.head?_cons, Option.map_some, Option.some.injEq]
      refine le_antisymm ?_ (f0 a (by simp))
      rcases List.mem_cons.1 he with rfl | he
      · exact hp.le
      · exact hp ▸ (List.pairwise_cons.1 hs).1 e he
  · have hs := hE.1
    clear * - hs
    induction E with
    | nil => simp
    | cons a E ih =>
      cases E with
      | nil => simp
      | cons b E =>
        rw [List.pairwise_cons] at hs
        intro ab hab
        rcases List.mem_cons.1 hab with rfl | hab
        · exact sub_nonneg.2 (hs.1 b (by simp))
        · exact ih hs.2 ab hab
  · rw [pairSum_thickness_between E 0 pb hlo hE.1 ft fb, sub_zero]
  · exact pairSum_thickness_between E pb sfc.p hhi hE.1 fb fs

/-- Humidity that grows linearly with pressure is integrated exactly, whatever the levels are:
the upper layer holds `c·pb²/2g`, the lower layer `c·(ps²-pb²)/2g`. -/
theorem C52_linear_humidity_exact (argsort : List K → List ℕ) (ha : IsArgsort argsort)
    (factor offset : K) (levels : List (Level K)) (hne : levels ≠ []) (h0 : ∀ l ∈ levels, 0 ≤ l.p)
    (sfc : Level K) (hps : 0 < sfc.p) (hlo : 0 ≤ factor * sfc.p + offset)
    (hhi : factor * sfc.p + offset ≤ sfc.p) (c : K) (hq : ∀ l ∈ sfc :: levels, l.q = c * l.p) :
    ∃ r, preprocessPressure argsort factor offset (column levels) (surface sfc) none = .ok r ∧
      r.s_upper = c * (factor * sfc.p + offset) ^ 2 / (2 * grav) ∧
      r.s_lower = c * (sfc.p ^ 2 - (factor * sfc.p + offset) ^ 2) / (2 * grav) := by
  obtain ⟨E, hE, hr, -⟩ := C52_layer_integrals argsort ha factor offset levels hne h0 sfc hps hlo hhi
  obtain ⟨f0, fb, fs, ft⟩ := extended_facts h0 hps.le hlo hE
  set pb := factor * sfc.p + offset with hpb
  refine ⟨_, hr, ?_⟩
  -- every level of the extended column has humidity `c p`
  have hqE : ∀ e ∈ E, e.q = c * e.p := by
    obtain ⟨hs, top, htop, bdy, hmin, hb, hi, hperm⟩ := hE
    have hS : ∀ l ∈ sfc :: (⟨0, 0, top.u, top.v⟩ : Level K) :: levels, l.q = c * l.p := by
      intro l hl
      simp only [List.mem_cons] at hl
      rcases hl with rfl | rfl | h
      · exact hq _ (by simp)
      · simp
      · exact hq _ (by simp [h])
    have hbq : bdy.q = c * bdy.p := by
      rcases hi with ⟨l, hl, rfl⟩ | ⟨l, hl, h, hh, h1, h2, -, h3, -, -⟩
      · exact hS _ hl
      · rw [h3, line, hS l hl, hS h hh]
        have : h.p - l.p ≠ 0 := by intro h; linarith
        field_simp
        ring
    intro e he
    have := hperm.mem_iff.1 he
    rw [List.mem_cons] at this
    rcases this with rfl | h
    · exact hbq
    · exact hS e h
  have key : ∀ (l : List (Level K)) (a : Level K) (hi : K),
      (a :: l).Pairwise (fun a b => a.p ≤ b.p) →
      (∃ e ∈ a :: l, e.p = hi) → (∀ e ∈ a :: l, e.p ≤ hi) → (∀ e ∈ a :: l, e.q = c * e.p) →
      pairSum water (a :: l) = c * (hi ^ 2 - a.p ^ 2) / (2 * grav) := by
    intro l
    induction l with
    | nil =>
      intro a hi _ h _ _
      obtain ⟨e, he, rfl⟩ := h
      simp only [List.mem_singleton] at he
      subst he
      simp [pairSum]
    | cons b l ih =>
      intro a hi hs h hle hq
      have hs' := List.pairwise_cons.1 hs
      have hb : ∃ e ∈ b :: l, e.p = hi := by
        obtain ⟨e, he, rfl⟩ := h
        rcases List.mem_cons.1 he with rfl | he
        · refine ⟨b, by simp, le_antisymm (hle b (by simp)) (hs'.1 b (by simp))⟩
        · exact ⟨e, he, rfl⟩
      rw [pairSum, ih b hi hs'.2 hb (fun e he => hle e (List.mem_cons_of_mem _ he))
        (fun e he => hq e (List.mem_cons_of_mem _ he)), water, hq a (by simp), hq b (by simp)]
      have hg : (grav : K) ≠ 0 := by
        unfold grav; norm_num
      field_simp
      ring
  have fin : ∀ (lo hi : K), lo ≤ hi → (∃ e ∈ E, e.p = lo) → (∃ e ∈ E, e.p = hi) →
      pairSum water (between lo hi E) = c * (hi ^ 2 - lo ^ 2) / (2 * grav) := by
    intro lo hi hlh h1 h2
    have hs := hE.1.filter (fun l => decide (lo ≤ l.p) && decide (l.p ≤ hi))
    have m1 : ∃ e ∈ between lo hi E, e.p = lo := by
      obtain ⟨e, he, rfl⟩ := h1
      exact ⟨e, List.mem_filter.2 ⟨he, by simpa using hlh⟩, rfl⟩
    have m2 : ∃ e ∈ between lo hi E, e.p = hi := by
      obtain ⟨e, he, rfl⟩ := h2
      exact ⟨e, List.mem_filter.2 ⟨he, by simpa using hlh⟩, rfl⟩
    have m3 : ∀ e ∈ between lo hi E, lo ≤ e.p ∧ e.p ≤ hi := by
      intro e he
      simpa using (List.mem_filter.1 he).2
    have m4 : ∀ e ∈ between lo hi E, e.q = c * e.p := fun e he => hqE e (List.mem_filter.1 he).1
    change (between lo hi E).Pairwise _ at hs
    generalize between lo hi E = l at hs m1 m2 m3 m4
    cases l with
    | nil => simp at m1
    | cons a l =>
      rw [key l a hi hs m2 (fun e he => (m3 e he).2) m4]
      have : a.p = lo := by
        obtain ⟨e, he, rfl⟩ := m1
        refine le_antisymm ?_ (m3 a (by simp)).1
        rcases List.mem_cons.1 he with rfl | he
        · exact le_rfl
        · exact (List.pairwise_cons.1 hs).1 e he
      rw [this]
  constructor
  · have := fin 0 pb hlo ft fb
    simpa [layerIntegrals] using this
  · simpa [layerIntegrals] using fin pb sfc.p hhi fb fs

/-- With the boundary at a pressure the column does not reach, preprocessing stops with an
error. -/
theorem C52_boundary_outside (argsort : List K → List ℕ) (ha : IsArgsort argsort)
    (factor offset : K) (levels : List (Level K)) (hne : levels ≠ []) (h0 : ∀ l ∈ levels, 0 ≤ l.p)
    (sfc : Level K) (hps : 0 < sfc.p) (tcw : Option K)
    (hout : factor * sfc.p + offset < 0 ∨ ∀ l ∈ sfc :: levels, l.p < factor * sfc.p + offset) :
    preprocessPressure argsort factor offset (column levels) (surface sfc) tcw =
      .error .valueError := by
  obtain ⟨i, hi, hmin, htop⟩ := argmin_levels levels hne
  let toa : Level K := ⟨0, 0, levels[i].u, levels[i].v⟩
  obtain ⟨E1, hperm1, hsort1, hE1⟩ := sortby_levels argsort ha (sfc :: toa :: levels)
  have hlen : 2 ≤ (E1.map Level.p).length := by
    rw [List.length_map, hperm1.length_eq]; simp
  have hmem : ∀ e ∈ E1, 0 ≤ e.p := by
    intro e he
    have := hperm1.mem_iff.1 he
    simp only [List.mem_cons] at this
    rcases this with rfl | rfl | h
    · exact hps.le
    · exact le_rfl
    · exact h0 e h
  have hint : ∀ f : List K, interpolate (factor * sfc.p + offset) (E1.map Level.p) f false =
      .error .valueError := by
    intro f
    refine (interpolate_error _ _ f).2.2 hlen (List.pairwise_map.2 hsort1) ?_
    rcases hout with h | h
    · left
      rw [List.getElem_map]
      exact h.trans_le (hmem _ (List.getElem_mem _))
    · right
      rw [List.getElem_map]
      have hm := hperm1.mem_iff.1 (List.getElem_mem (l := E1)
        (n := (E1.map Level.p).length - 1) (by rw [List.length_map] at *; omega))
      simp only [List.mem_cons] at hm
      rcases hm with hm | hm | hm
      · rw [hm]; exact h sfc (by simp)
      · rw [hm]; exact hps.trans (h sfc (by simp))
      · exact h _ (List.mem_cons_of_mem _ hm)
  have e1 : npIndex (levels.map Level.u) (i : ℤ) = .ok levels[i].u := by
    rw [npIndex_nat _ _ (by simpa using hi)]; simp
  have e2 : npIndex (levels.map Level.v) (i : ℤ) = .ok levels[i].v := by
    rw [npIndex_nat _ _ (by simpa using hi)]; simp
  have eu := hE1 Level.u
  have ev := hE1 Level.v
  have eq := hE1 Level.q
  have ep := hE1 Level.p
  simp only [List.map_cons] at eu ev eq ep
  unfold preprocessPressure extendPressurelevels
  simp only [column, surface, hmin, e1, e2, bind, Except.bind, pure, Except.pure, ofRat_zero]
  rw [eu, ev, eq, ep]
  simp only [hint]

/-- The default boundary (`pressure_boundary_factor = 0.72878581`,
`pressure_boundary_offset = 7438.803223`) suits every column whose surface pressure is at least
274.29 hPa, i.e. everywhere on earth: preprocessing succeeds, and the upper layer reaches down to a pressure
between zero and that of the surface. -/
theorem C52_default_boundary (argsort : List K → List ℕ) (ha : IsArgsort argsort)
    (levels : List (Level K)) (hne : levels ≠ []) (h0 : ∀ l ∈ levels, 0 ≤ l.p)
    (sfc : Level K) (h : 27429 ≤ sfc.p) (tcw : Option K) :
    ∃ pb E r, 0 < pb ∧ pb ≤ sfc.p ∧ IsExtended levels sfc pb E ∧
      preprocessPressure argsort ((72878581 / 100000000 : ℚ) : K) ((7438803223 / 1000000 : ℚ) : K)
        (column levels) (surface sfc) tcw = .ok r ∧
      (tcw = none → r = layerIntegrals sfc.p pb E) := by
  have hps : 0 < sfc.p := by linarith
  have hlo : 0 < ((72878581 / 100000000 : ℚ) : K) * sfc.p + ((7438803223 / 1000000 : ℚ) : K) := by
    push_cast
    positivity
  have hhi : ((72878581 / 100000000 : ℚ) : K) * sfc.p + ((7438803223 / 1000000 : ℚ) : K) ≤ sfc.p := by
    push_cast
    linarith
  obtain ⟨E, hE, hnone, hsome⟩ := C52_layer_integrals argsort ha ((72878581 / 100000000 : ℚ) : K)
    ((7438803223 / 1000000 : ℚ) : K) levels hne h0 sfc hps hlo.le hhi
  cases tcw with
  | none => exact ⟨_, E, _, hlo, hhi, hE, hnone, fun _ => rfl⟩
  | some w => exact ⟨_, E, _, hlo, hhi, hE, hsome w, nofun⟩

/-- an ordinary column -/
example : demoLevels ≠ [] ∧ (∀ l ∈ demoLevels, 0 ≤ l.p) ∧ 27429 ≤ demoSurface.p := by decide +kernel

example : IsArgsort (demoArgsort (K := ℚ)) ∧ (∀ l ∈ demoLevels, 0 ≤ l.p) ∧
    0 ≤ 7 / 10 * demoSurface.p + 5000 ∧ 7 / 10 * demoSurface.p + 5000 ≤ demoSurface.p ∧
    preprocessPressure demoArgsort (7 / 10) 5000 (column demoLevels) (surface demoSurface) none =
      .ok ⟨22200000 / 1372931, 28900000 / 1372931, 1691250000 / 9610517, 929200000 / 9610517,
        151000000 / 9610517, -56150000 / 9610517⟩ := by
  refine ⟨demoArgsort_isArgsort, ?_, ?_, ?_, ?_⟩ <;> decide +kernel

end

end Wam
