import Verif.Props.Column

/-!
# The two layers partition the column (C51, pressure levels); level order and levels below the
ground do not matter (C53)
-/

set_option linter.unusedSectionVars false
set_option linter.unusedVariables false

namespace Wam
open Spec

section
variable {K : Type} [Field K] [LinearOrder K] [IsStrictOrderedRing K]

theorem grav_pos : (0 : K) < grav := by unfold grav; norm_num

/-! ## C51 -/

/-- Upper plus lower layer is the whole column above ground, for the storage and for both
fluxes; with total column water given the storages add up to exactly that. -/
theorem C51_partition_pressure_levels (argsort : List K → List ℕ) (ha : IsArgsort argsort)
    (factor offset : K) (levels : List (Level K)) (hne : levels ≠ []) (h0 : ∀ l ∈ levels, 0 ≤ l.p)
    (sfc : Level K) (hps : 0 < sfc.p) (hlo : 0 ≤ factor * sfc.p + offset)
    (hhi : factor * sfc.p + offset ≤ sfc.p) :
    ∃ E, IsExtended levels sfc (factor * sfc.p + offset) E ∧
      (∃ r, preprocessPressure argsort factor offset (column levels) (surface sfc) none = .ok r ∧
        r.s_upper + r.s_lower = pairSum water (between 0 sfc.p E) ∧
        r.fx_upper + r.fx_lower = pairSum transportX (between 0 sfc.p E) ∧
        r.fy_upper + r.fy_lower = pairSum transportY (between 0 sfc.p E)) ∧
      (∀ tcw, pairSum water (between 0 sfc.p E) ≠ 0 →
        ∃ r, preprocessPressure argsort factor offset (column levels) (surface sfc) (some tcw) = .ok r ∧
          r.s_upper + r.s_lower = tcw) := by
  obtain ⟨E, hE, hr, ht⟩ := C52_layer_integrals argsort ha factor offset levels hne h0 sfc hps hlo hhi
  obtain ⟨f0, fb, fs, ft⟩ := extended_facts h0 hps.le hlo hE
  have hw := pairSum_between water water_eq_zero sfc.p _ hhi E hE.1 f0 fb fs
  have hx := pairSum_between transportX transportX_eq_zero sfc.p _ hhi E hE.1 f0 fb fs
  have hy := pairSum_between transportY transportY_eq_zero sfc.p _ hhi E hE.1 f0 fb fs
  refine ⟨E, hE, ⟨_, hr, hw, hx, hy⟩, ?_⟩
  intro tcw hz
  refine ⟨_, ht tcw, ?_⟩
  simp only [scale, layerIntegrals]
  rw [← mul_add, hw, div_mul_cancel₀ _ hz]

theorem pairSum_nonneg (f : Level K → Level K → K) (E : List (Level K))
    (hs : E.Pairwise (fun a b => a.p ≤ b.p))
    (hf : ∀ a ∈ E, ∀ b ∈ E, a.p ≤ b.p → 0 ≤ f a b) : 0 ≤ pairSum f E := by
  induction E with
  | nil => simp [pairSum]
  | cons a E ih =>
    cases E with
    | nil => simp [pairSum]
    | cons b E =>
      have hs' := List.pairwise_cons.1 hs
      rw [pairSum]
      exact add_nonneg (hf a (by simp) b (by simp) (hs'.1 b (by simp)))
        (ih hs'.2 fun x hx y hy => hf x (List.mem_cons_of_mem _ hx) y (List.mem_cons_of_mem _ hy))

theorem interpolated_nonneg (S : List (Level K)) (b : Level K) (h : Interpolated S b)
    (hq : ∀ l ∈ S, 0 ≤ l.q) : 0 ≤ b.q := by
  rcases h with ⟨l, hl, rfl⟩ | ⟨l, hl, h, hh, h1, h2, -, h3, -, -⟩
  · exact hq _ hl
  · rw [h3, line]
    have hd : 0 < h.p - l.p := by linarith
    have e : l.q + (h.q - l.q) * (b.p - l.p) / (h.p - l.p) =
        (l.q * (h.p - b.p) + h.q * (b.p - l.p)) / (h.p - l.p) := by
      field_simp
      ring
    rw [e]
    have := hq l hl
    have := hq h hh
    refine div_nonneg (add_nonneg (mul_nonneg ?_ ?_) (mul_nonneg ?_ ?_)) hd.le <;>
      first | assumption | linarith

/-- Non-negative humidity (and total column water) gives non-negative storages. -/
theorem C51_storages_nonneg (argsort : List K → List ℕ) (ha : IsArgsort argsort)
    (factor offset : K) (levels : List (Level K)) (hne : levels ≠ []) (h0 : ∀ l ∈ levels, 0 ≤ l.p)
    (sfc : Level K) (hps : 0 < sfc.p) (hlo : 0 ≤ factor * sfc.p + offset)
    (hhi : factor * sfc.p + offset ≤ sfc.p) (hq : ∀ l ∈ sfc :: levels, 0 ≤ l.q)
    (tcw : Option K) (htcw : ∀ t, tcw = some t → 0 ≤ t) :
    ∃ r, preprocessPressure argsort factor offset (column levels) (surface sfc) tcw = .ok r ∧
      0 ≤ r.s_upper ∧ 0 ≤ r.s_lower := by
  obtain ⟨E, hE, hr, ht⟩ := C52_layer_integrals argsort ha factor offset levels hne h0 sfc hps hlo hhi
  have hqE : ∀ e ∈ E, 0 ≤ e.q := by
    obtain ⟨hs, top, htop, bdy, hmin, hb, hi, hperm⟩ := hE
    have hS : ∀ l ∈ sfc :: (⟨0, 0, top.u, top.v⟩ : Level K) :: levels, 0 ≤ l.q := by
      intro l hl
      simp only [List.mem_cons] at hl
      rcases hl with rfl | rfl | h
      · exact hq _ (by simp)
      · exact le_rfl
      · exact hq _ (by simp [h])
    intro e he
    have := hperm.mem_iff.1 he
    rw [List.mem_cons] at this
    rcases this with rfl | h
    · exact interpolated_nonneg _ _ hi hS
    · exact hS e h
  have hwn : ∀ lo hi : K, 0 ≤ pairSum water (between lo hi E) := by
    intro lo hi
    refine pairSum_nonneg water _ (hE.1.filter _) ?_
    intro a ha b hb hab
    have h1 := hqE a (List.mem_filter.1 ha).1
    have h2 := hqE b (List.mem_filter.1 hb).1
    have := sub_nonneg.2 hab
    have := grav_pos (K := K)
    unfold water
    positivity
  cases tcw with
  | none => exact ⟨_, hr, hwn _ _, hwn _ _⟩
  | some t =>
    have htn := htcw t rfl
    refine ⟨_, ht t, ?_, ?_⟩ <;> exact mul_nonneg (div_nonneg htn (hwn _ _)) (hwn _ _)

/-- If the column holds no water vapour at all, the total column water is lost: both storages are
zero whatever `tcw` is. -/
theorem C51_dry_column_loses_tcw (argsort : List K → List ℕ) (ha : IsArgsort argsort)
    (factor offset : K) (levels : List (Level K)) (hne : levels ≠ []) (h0 : ∀ l ∈ levels, 0 ≤ l.p)
    (sfc : Level K) (hps : 0 < sfc.p) (hlo : 0 ≤ factor * sfc.p + offset)
    (hhi : factor * sfc.p + offset ≤ sfc.p) (hq : ∀ l ∈ sfc :: levels, l.q = 0) (tcw : K) :
    ∃ r, preprocessPressure argsort factor offset (column levels) (surface sfc) (some tcw) = .ok r ∧
      r.s_upper = 0 ∧ r.s_lower = 0 := by
  obtain ⟨r, hr, h1, h2⟩ := C52_linear_humidity_exact argsort ha factor offset levels hne h0 sfc hps
    hlo hhi 0 (fun l hl => by rw [hq l hl]; simp)
  obtain ⟨E, hE, hr', ht⟩ := C52_layer_integrals argsort ha factor offset levels hne h0 sfc hps hlo hhi
  rw [hr] at hr'
  injection hr' with hr'
  subst hr'
  refine ⟨_, ht tcw, ?_, ?_⟩
  · simp only [scale, h1]; simp
  · simp only [scale, h2]; simp

example : (∀ l ∈ demoSurface :: demoLevels, 0 ≤ l.q) ∧
    (∃ r, preprocessPressure demoArgsort (7 / 10) 5000 (column demoLevels) (surface demoSurface)
      (some 40) = .ok r ∧ r.s_upper + r.s_lower = 40) := by
  refine ⟨by decide +kernel, ?_⟩
  refine ⟨⟨8880 / 511, 11560 / 511, 676500 / 3577, 371680 / 3577, 60400 / 3577,
    -22460 / 3577⟩, ?_⟩
  decide +kernel

/-! ## C53 -/

/-- Distinct pressures: an interpolated level is unique. -/
theorem interpolated_unique (S : List (Level K)) (hd : ∀ a ∈ S, ∀ b ∈ S, a.p = b.p → a = b)
    (x y : Level K) (hxy : x.p = y.p) (hx : Interpolated S x) (hy : Interpolated S y) : x = y := by
  have aux : ∀ x y : Level K, x.p = y.p → (∃ l ∈ S, x = l) →
      (∃ l ∈ S, ∃ h ∈ S, l.p < y.p ∧ y.p ≤ h.p ∧ (∀ c ∈ S, c.p ≤ l.p ∨ h.p ≤ c.p) ∧
        y.q = line l.p l.q h.p h.q y.p ∧ y.u = line l.p l.u h.p h.u y.p ∧
        y.v = line l.p l.v h.p h.v y.p) → x = y := by
    rintro x y hxy ⟨l, hl, rfl⟩ ⟨a, ha, b, hb, h1, h2, h3, h4, h5, h6⟩
    have hbx : b.p = x.p := by
      rcases h3 x hl with h | h
      · linarith
      · exact le_antisymm h (hxy ▸ h2)
    have : b = x := hd b hb x hl hbx
    subst this
    have hne : b.p - a.p ≠ 0 := by intro h; linarith
    have hline : ∀ s t : K, line a.p s b.p t b.p = t := by
      intro s t; unfold line; field_simp; ring
    rw [← hxy, hline] at h4 h5 h6
    cases b; cases y
    simp only [Level.mk.injEq] at *
    exact ⟨hxy, h4.symm, h5.symm, h6.symm⟩
  rcases hx with hx | hx
  · rcases hy with hy | hy
    · obtain ⟨l, hl, rfl⟩ := hx
      obtain ⟨m, hm, rfl⟩ := hy
      exact hd _ hl _ hm hxy
    · exact aux x y hxy hx hy
  · rcases hy with hy | hy
    · exact (aux y x hxy.symm hy hx).symm
    · obtain ⟨a, ha, b, hb, h1, h2, h3, h4, h5, h6⟩ := hx
      obtain ⟨a', ha', b', hb', g1, g2, g3, g4, g5, g6⟩ := hy
      have ea : a = a' := by
        apply hd a ha a' ha'
        refine le_antisymm ?_ ?_
        · rcases g3 a ha with h | h
          · exact h
          · exfalso; linarith
        · rcases h3 a' ha' with h | h
          · exact h
          · exfalso; linarith
      have eb : b = b' := by
        apply hd b hb b' hb'
        refine le_antisymm ?_ ?_
        · rcases h3 b' hb' with h | h
          · exfalso; linarith
          · exact h
        · rcases g3 b hb with h | h
          · exfalso; linarith
          · exact h
      subst ea eb
      rw [← hxy] at g4 g5 g6
      cases x; cases y
      simp only [Level.mk.injEq] at *
      exact ⟨hxy, h4.trans g4.symm, h5.trans g5.symm, h6.trans g6.symm⟩

/-- The levels have different, positive pressures and none lies exactly at the surface. -/
def DistinctPressures (levels : List (Level K)) (ps : K) : Prop :=
  (levels.map Level.p).Nodup ∧ ∀ l ∈ levels, 0 < l.p ∧ l.p ≠ ps

theorem DistinctPressures.inj {levels : List (Level K)} {ps : K} (h : DistinctPressures levels ps)
    {a b : Level K} (ha : a ∈ levels) (hb : b ∈ levels) (hab : a.p = b.p) : a = b :=
  List.inj_on_of_nodup_map h.1 ha hb hab

theorem distinct_all {levels : List (Level K)} {sfc toa : Level K} (htoa : toa.p = 0)
    (hps : 0 < sfc.p) (h : DistinctPressures levels sfc.p) :
    ∀ a ∈ sfc :: toa :: levels, ∀ b ∈ sfc :: toa :: levels, a.p = b.p → a = b := by
  intro a ha b hb hab
  simp only [List.mem_cons] at ha hb
  rcases ha with rfl | rfl | ha <;> rcases hb with rfl | rfl | hb
  · rfl
  · linarith
  · exact absurd hab.symm (h.2 b hb).2
  · linarith
  · rfl
  · linarith [(h.2 b hb).1]
  · exact absurd hab (h.2 a ha).2
  · linarith [(h.2 a ha).1]
  · exact h.inj ha hb hab

/-- With distinct pressures the extended column is unique, and the same for any order of the
levels. -/
theorem extended_unique {levels levels' : List (Level K)} {sfc : Level K} {pb : K}
    {E E' : List (Level K)} (hps : 0 < sfc.p) (hd : DistinctPressures levels sfc.p)
    (hp : levels.Perm levels')
    (hE : IsExtended levels sfc pb E) (hE' : IsExtended levels' sfc pb E') : E = E' := by
  obtain ⟨hs, top, htop, bdy, hmin, hb, hi, hperm⟩ := hE
  obtain ⟨hs', top', htop', bdy', hmin', hb', hi', hperm'⟩ := hE'
  have et : top = top' := by
    have h1 := hp.mem_iff.2 htop'
    exact hd.inj htop h1 (le_antisymm (hmin _ h1) (hmin' _ (hp.mem_iff.1 htop)))
  subst et
  set toa : Level K := ⟨0, 0, top.u, top.v⟩ with htoa
  have hD := distinct_all (toa := toa) rfl hps hd
  have hmem : ∀ l, l ∈ sfc :: toa :: levels ↔ l ∈ sfc :: toa :: levels' := fun l =>
    ((hp.cons _).cons _).mem_iff
  have hi'' : Interpolated (sfc :: toa :: levels) bdy' := by
    rcases hi' with ⟨l, hl, h⟩ | ⟨l, hl, h, hh, h1, h2, h3, h4⟩
    · exact Or.inl ⟨l, (hmem l).2 hl, h⟩
    · exact Or.inr ⟨l, (hmem l).2 hl, h, (hmem h).2 hh, h1, h2,
        fun c hc => h3 c ((hmem c).1 hc), h4⟩
  have ebdy : bdy = bdy' := interpolated_unique _ hD _ _ (hb.trans hb'.symm) hi hi''
  subst ebdy
  have hEE : E.Perm E' :=
    hperm.trans ((((hp.cons _).cons _).cons _).trans hperm'.symm)
  have hbd : ∀ c ∈ sfc :: toa :: levels, c.p = bdy.p → c = bdy := by
    intro c hc h
    exact interpolated_unique _ hD _ _ h (Or.inl ⟨c, hc, rfl⟩) hi
  refine List.Perm.eq_of_pairwise (le := fun a b : Level K => a.p ≤ b.p) ?_ hs hs' hEE
  intro a b ha hb' h1 h2
  have hab := le_antisymm h1 h2
  have ha' := hperm.mem_iff.1 ha
  have hb'' := hperm.mem_iff.1 (hEE.mem_iff.2 hb')
  rw [List.mem_cons] at ha' hb''
  rcases ha' with rfl | ha' <;> rcases hb'' with rfl | hb''
  · rfl
  · exact (hbd b hb'' hab.symm).symm
  · exact hbd a ha' hab
  · exact hD a ha' b hb'' hab

/-- The order in which the levels are given (and the way the sorting routine treats equal
values) makes no difference. -/
theorem C53_level_order (argsort argsort' : List K → List ℕ) (ha : IsArgsort argsort)
    (ha' : IsArgsort argsort') (factor offset : K) (levels levels' : List (Level K))
    (hne : levels ≠ []) (sfc : Level K) (hps : 0 < sfc.p)
    (hd : DistinctPressures levels sfc.p) (hlo : 0 ≤ factor * sfc.p + offset)
    (hhi : factor * sfc.p + offset ≤ sfc.p) (hp : levels.Perm levels') (tcw : Option K) :
    preprocessPressure argsort factor offset (column levels) (surface sfc) tcw =
      preprocessPressure argsort' factor offset (column levels') (surface sfc) tcw := by
  have h0 : ∀ l ∈ levels, 0 ≤ l.p := fun l hl => (hd.2 l hl).1.le
  have h0' : ∀ l ∈ levels', 0 ≤ l.p := fun l hl => h0 l (hp.mem_iff.2 hl)
  have hne' : levels' ≠ [] := by
    rintro rfl; exact hne hp.eq_nil
  obtain ⟨E, hE, hr, ht⟩ := C52_layer_integrals argsort ha factor offset levels hne h0 sfc hps hlo hhi
  obtain ⟨E', hE', hr', ht'⟩ :=
    C52_layer_integrals argsort' ha' factor offset levels' hne' h0' sfc hps hlo hhi
  have := extended_unique hps hd hp hE hE'
  subst this
  cases tcw with
  | none => rw [hr, hr']
  | some t => rw [ht, ht']

theorem between_filter (lo hi ps : K) (h : hi ≤ ps) (E : List (Level K)) :
    between lo hi (E.filter fun l => decide (l.p ≤ ps)) = between lo hi E := by
  unfold between
  rw [List.filter_filter]
  apply List.filter_congr
  intro l _
  by_cases h1 : l.p ≤ hi
  · simp [h1, h1.trans h]
  · simp [h1]

/-- Levels below the ground make no difference: the result is the same as without them, and in
particular does not depend on the values there. -/
theorem C53_below_ground_ignored (argsort argsort' : List K → List ℕ) (ha : IsArgsort argsort)
    (ha' : IsArgsort argsort') (factor offset : K) (levels : List (Level K)) (sfc : Level K)
    (hps : 0 < sfc.p) (hd : DistinctPressures levels sfc.p) (habove : ∃ l ∈ levels, l.p < sfc.p)
    (hlo : 0 ≤ factor * sfc.p + offset) (hhi : factor * sfc.p + offset ≤ sfc.p)
    (tcw : Option K) :
    preprocessPressure argsort factor offset (column levels) (surface sfc) tcw =
      preprocessPressure argsort' factor offset
        (column (levels.filter fun l => decide (l.p < sfc.p))) (surface sfc) tcw := by
  set levels' := levels.filter fun l => decide (l.p < sfc.p) with hl'
  set pb := factor * sfc.p + offset with hpb
  have h0 : ∀ l ∈ levels, 0 ≤ l.p := fun l hl => (hd.2 l hl).1.le
  have hsub : ∀ l ∈ levels', l ∈ levels := fun l hl => (List.mem_filter.1 hl).1
  have hne : levels ≠ [] := by
    obtain ⟨l, hl, -⟩ := habove; exact List.ne_nil_of_mem hl
  have hne' : levels' ≠ [] := by
    obtain ⟨l, hl, h⟩ := habove
    exact List.ne_nil_of_mem (List.mem_filter.2 ⟨hl, by simpa using h⟩)
  have hd' : DistinctPressures levels' sfc.p :=
    ⟨hd.1.sublist ((List.filter_sublist).map _), fun l hl => hd.2 l (hsub l hl)⟩
  obtain ⟨E, hE, hr, ht⟩ := C52_layer_integrals argsort ha factor offset levels hne h0 sfc hps hlo hhi
  obtain ⟨E', hE', hr', ht'⟩ := C52_layer_integrals argsort' ha' factor offset levels' hne'
    (fun l hl => h0 l (hsub l hl)) sfc hps hlo hhi
  -- the part of `E` above the ground extends the levels above the ground
  have hfil : IsExtended levels' sfc pb (E.filter fun l => decide (l.p ≤ sfc.p)) := by
    obtain ⟨hs, top, htop, bdy, hmin, hb, hi, hperm⟩ := hE
    have htop' : top ∈ levels' := by
      obtain ⟨l, hl, h⟩ := habove
      exact List.mem_filter.2 ⟨htop, by simpa using (hmin l hl).trans_lt h⟩
    refine ⟨hs.filter _, top, htop', bdy, fun l hl => hmin l (hsub l hl), hb, ?_, ?_⟩
    · rcases hi with ⟨l, hl, h⟩ | ⟨l, hl, h, hh, h1, h2, h3, h4⟩
      · refine Or.inl ⟨l, ?_, h⟩
        simp only [List.mem_cons] at hl ⊢
        rcases hl with rfl | rfl | hl
        · exact Or.inl rfl
        · exact Or.inr (Or.inl rfl)
        · refine Or.inr (Or.inr (List.mem_filter.2 ⟨hl, ?_⟩))
          have : l.p ≤ sfc.p := by rw [← h, hb]; exact hhi
          simpa using lt_of_le_of_ne this (hd.2 l hl).2
      · have hhp : h.p ≤ sfc.p := by
          rcases h3 sfc (by simp) with h' | h'
          · rw [hb] at h1; linarith
          · exact h'
        have hlp : l.p < sfc.p := by rw [hb] at h1; linarith
        refine Or.inr ⟨l, ?_, h, ?_, h1, h2, ?_, h4⟩
        · simp only [List.mem_cons] at hl ⊢
          rcases hl with rfl | rfl | hl
          · exact Or.inl rfl
          · exact Or.inr (Or.inl rfl)
          · exact Or.inr (Or.inr (List.mem_filter.2 ⟨hl, by simpa using hlp⟩))
        · simp only [List.mem_cons] at hh ⊢
          rcases hh with rfl | rfl | hh
          · exact Or.inl rfl
          · exact Or.inr (Or.inl rfl)
          · exact Or.inr (Or.inr (List.mem_filter.2 ⟨hh, by
              simpa using lt_of_le_of_ne hhp (hd.2 h hh).2⟩))
        · intro c hc
          apply h3 c
          simp only [List.mem_cons] at hc ⊢
          rcases hc with rfl | rfl | hc
          · exact Or.inl rfl
          · exact Or.inr (Or.inl rfl)
          · exact Or.inr (Or.inr (hsub c hc))
    · have := hperm.filter (fun l => decide (l.p ≤ sfc.p))
      have h1 : bdy.p ≤ sfc.p := by rw [hb]; exact hhi
      rw [List.filter_cons_of_pos (by simpa using h1), List.filter_cons_of_pos (by simp),
        List.filter_cons_of_pos (by simpa using hps.le)] at this
      have e : levels.filter (fun l => decide (l.p ≤ sfc.p)) = levels' := by
        apply List.filter_congr
        intro l hl
        simp only [decide_eq_decide]
        exact ⟨fun h => lt_of_le_of_ne h (hd.2 l hl).2, le_of_lt⟩
      rwa [e] at this
  have hEE := extended_unique hps hd' (List.Perm.refl _) hfil hE'
  have hb1 : ∀ lo hi : K, hi ≤ sfc.p → between lo hi E = between lo hi E' := by
    intro lo hi h
    rw [← hEE, between_filter lo hi sfc.p h]
  have hint : layerIntegrals sfc.p pb E = layerIntegrals sfc.p pb E' := by
    unfold layerIntegrals
    rw [hb1 0 pb hhi, hb1 pb sfc.p le_rfl]
  cases tcw with
  | none => rw [hr, hr', hint]
  | some t => rw [ht, ht', hint, hb1 0 sfc.p le_rfl]

end

/-- A level exactly at the surface pressure: two correct sorting routines give different results,
so the condition on the surface pressure in `C53_level_order` cannot be dropped. -/
theorem C53_tie_at_the_surface :
    ∃ (f g : List ℚ → List ℕ), IsArgsort f ∧ IsArgsort g ∧
      preprocessPressure f (1 / 2) 0 (column [⟨1000, 1, 0, 0⟩, ⟨100, 0, 0, 0⟩])
        (surface ⟨1000, 0, 0, 0⟩) none ≠
      preprocessPressure g (1 / 2) 0 (column [⟨1000, 1, 0, 0⟩, ⟨100, 0, 0, 0⟩])
        (surface ⟨1000, 0, 0, 0⟩) none := by
  refine ⟨demoArgsort, fun l => (List.range l.length).reverse.insertionSort
    fun i j => l.getD i 0 ≤ l.getD j 0, demoArgsort_isArgsort, ?_, ?_⟩
  · intro l
    refine ⟨(List.perm_insertionSort _ _).trans (List.reverse_perm _), ?_⟩
    rw [List.pairwise_map]
    haveI : Std.Total (fun i j : ℕ => l.getD i 0 ≤ l.getD j 0) :=
      ⟨fun a b => le_total (l.getD a 0) (l.getD b 0)⟩
    haveI : IsTrans ℕ (fun i j : ℕ => l.getD i 0 ≤ l.getD j 0) :=
      ⟨fun a b c h1 h2 => le_trans h1 h2⟩
    exact List.pairwise_insertionSort _ _
  · decide +kernel

example : DistinctPressures demoLevels demoSurface.p ∧ (∃ l ∈ demoLevels, l.p < demoSurface.p) ∧
    (∃ l ∈ demoLevels, demoSurface.p < l.p) := by
  unfold DistinctPressures
  decide +kernel

end Wam
