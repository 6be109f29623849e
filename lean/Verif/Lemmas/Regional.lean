import Verif.Lemmas.Excerpt
import Verif.Props.RunPhysics

/-! # One step on a part of the grid, when nothing crosses its edge -/
set_option linter.unusedSectionVars false
set_option linter.unusedVariables false

namespace Wam
open Spec

namespace Local
variable {m n M N : ℕ} {K : Type*} [Field K] [LinearOrder K] [IsStrictOrderedRing K] (p : Place m n M N)

theorem extend_in (f : Arr (m + 2) (n + 2) K) (i : Fin (m + 2)) (j : Fin (n + 2)) : p.extend f (p.r i) (p.c j) = f i j := by
  unfold Place.extend
  have hi := i.isLt
  have hj := j.isLt
  rw [dif_pos (by simp only [Place.r, Place.c]; omega)]
  congr 1 <;> apply Fin.ext <;> simp [Place.r, Place.c]

theorem extend_out (f : Arr (m + 2) (n + 2) K) (I : Fin (M + 2)) (J : Fin (N + 2)) (h : ¬ p.Covers I J) : p.extend f I J = 0 := by
  unfold Place.extend
  rw [dif_neg]
  intro hc
  exact h ⟨⟨I.val - p.row, by omega⟩, ⟨J.val - p.col, by omega⟩, Fin.ext (by simp [Place.r]; omega), Fin.ext (by simp [Place.c]; omega)⟩

theorem sum_extend (f : Arr (m + 2) (n + 2) K) : ∑ I, ∑ J, p.extend f I J = ∑ i, ∑ j, f i j := by
  rw [← Fintype.sum_prod_type', ← Fintype.sum_prod_type']
  symm
  refine Fintype.sum_of_injective (fun x : Fin (m + 2) × Fin (n + 2) => (p.r x.1, p.c x.2)) ?_ _ _ ?_ ?_
  · rintro ⟨a, b⟩ ⟨c, d⟩ h
    simp only [Prod.mk.injEq, Place.r, Place.c, Fin.mk.injEq] at h
    exact Prod.ext (Fin.ext (by have := h.1; simp; omega)) (Fin.ext (by have := h.2; simp; omega))
  · rintro ⟨I, J⟩ h
    refine extend_out p f I J fun ⟨i, j, hi, hj⟩ => h ⟨(i, j), ?_⟩
    simp [hi, hj]
  · rintro ⟨i, j⟩
    exact (extend_in p f i j).symm

theorem deep_of_inside {ps : Bool} {i : Fin (m + 2)} {j : Fin (n + 2)} (h : ¬ isBoundary ps i j) : Deep ps 1 i j := by
  unfold isBoundary at h
  push Not at h
  have := i.isLt
  have := j.isLt
  refine ⟨⟨by omega, by omega⟩, ?_⟩
  cases ps
  · right
    have := h.2.2 rfl
    omega
  · exact Or.inl rfl

theorem advect_nonneg_of_zero (pb sgn : Bool) (s fx fy : Arr (m + 2) (n + 2) K) (hs : ∀ i j, 0 ≤ s i j) (i j) (h : s i j = 0) :
    0 ≤ advect pb sgn s fx fy i j := by
  cases sgn
  · rw [advect_eq_inflow]
    have := inflow_lower pb s fx fy hs i j
    rw [h] at this; simpa using this
  · rw [advect_eq_inflow_neg]
    have := inflow_lower pb s (fun i j => -fx i j) (fun i j => -fy i j) hs i j
    rw [h] at this; simpa using this

/-- Advection of a field that is zero at the edge of the small grid and outside, when nothing reaches the edge: it is the
advection on the small grid. -/
theorem advect_extend (ps pb : Bool) (hf : p.Fits ps pb) (sgn : Bool) (s : Arr (m + 2) (n + 2) K) (FX FY : Arr (M + 2) (N + 2) K)
    (hs : ∀ i j, 0 ≤ s i j) (hb : ∀ i j, isBoundary ps i j → s i j = 0)
    (ha : ∀ i j, isBoundary ps i j → advect ps sgn s (p.cut FX) (p.cut FY) i j = 0) :
    advect pb sgn (p.extend s) FX FY = p.extend (advect ps sgn s (p.cut FX) (p.cut FY)) := by
  have hpos : ∀ I J, 0 ≤ p.extend s I J := by
    intro I J
    unfold Place.extend
    split
    · exact hs _ _
    · exact le_rfl
  have hG : ∀ I J, 0 ≤ advect pb sgn (p.extend s) FX FY I J - p.extend (advect ps sgn s (p.cut FX) (p.cut FY)) I J := by
    intro I J
    by_cases hc : p.Covers I J
    · obtain ⟨i, j, rfl, rfl⟩ := hc
      rw [extend_in]
      by_cases hbd : isBoundary ps i j
      · rw [ha i j hbd, sub_zero]
        exact advect_nonneg_of_zero pb sgn _ FX FY hpos _ _ (by rw [extend_in, hb i j hbd])
      · rw [advect_cut p ps pb hf sgn s (p.extend s) FX FY 0 (fun i j _ => (extend_in p s i j).symm) i j (deep_of_inside hbd), sub_self]
    · rw [extend_out p _ I J hc, sub_zero]
      exact advect_nonneg_of_zero pb sgn _ FX FY hpos _ _ (extend_out p s I J hc)
  have hsum : ∑ I, ∑ J, (advect pb sgn (p.extend s) FX FY I J - p.extend (advect ps sgn s (p.cut FX) (p.cut FY)) I J) = 0 := by
    simp only [Finset.sum_sub_distrib]
    rw [C01_advection_conserves, sum_extend, C01_advection_conserves, sub_zero]
  have h1 := (Finset.sum_eq_zero_iff_of_nonneg fun I _ => Finset.sum_nonneg fun J _ => hG I J).mp hsum
  funext I J
  have h2 := (Finset.sum_eq_zero_iff_of_nonneg fun J _ => hG I J).mp (h1 I (Finset.mem_univ _)) J (Finset.mem_univ _)
  linarith

theorem rel_zero (s : K) : relStorage 0 s = 0 := by
  rw [relStorage_eq, fraction, zero_div]; exact min_eq_left zero_le_one

theorem rel_extend (f s : Arr (m + 2) (n + 2) K) (S : Arr (M + 2) (N + 2) K) (h : s = p.cut S) :
    (fun I J => relStorage (p.extend f I J) (S I J)) = p.extend fun i j => relStorage (f i j) (s i j) := by
  subst h
  funext I J
  by_cases hc : p.Covers I J
  · obtain ⟨i, j, rfl, rfl⟩ := hc
    rw [extend_in, extend_in]; rfl
  · rw [extend_out p f I J hc, extend_out p _ I J hc, rel_zero]

theorem eq_extendFwd (o : FwdOutput (m + 2) (n + 2) K) (O : FwdOutput (M + 2) (N + 2) K)
    (h : ∀ i j, SameCellFwd o i j O (p.r i) (p.c j))
    (h0 : ∀ I J, ¬ p.Covers I J → O.s_track_upper I J = 0 ∧ O.s_track_lower I J = 0 ∧ O.p_track_upper I J = 0 ∧
      O.p_track_lower I J = 0 ∧ O.tagged_evap I J = 0 ∧ O.losses I J = 0 ∧ O.gains I J = 0) : O = p.extendFwd o := by
  have key : ∀ (f : Arr (m + 2) (n + 2) K) (G : Arr (M + 2) (N + 2) K), (∀ i j, f i j = G (p.r i) (p.c j)) →
      (∀ I J, ¬ p.Covers I J → G I J = 0) → G = p.extend f := by
    intro f G h1 h2
    funext I J
    by_cases hc : p.Covers I J
    · obtain ⟨i, j, rfl, rfl⟩ := hc
      rw [extend_in, h1]
    · rw [extend_out p f I J hc, h2 I J hc]
  obtain ⟨a, b, c, d, e, f, g⟩ := O
  simp only [Place.extendFwd, FwdOutput.mk.injEq]
  exact ⟨key _ _ (fun i j => (h i j).s_track_upper) fun I J hc => (h0 I J hc).1,
    key _ _ (fun i j => (h i j).s_track_lower) fun I J hc => (h0 I J hc).2.1,
    key _ _ (fun i j => (h i j).p_track_upper) fun I J hc => (h0 I J hc).2.2.1,
    key _ _ (fun i j => (h i j).p_track_lower) fun I J hc => (h0 I J hc).2.2.2.1,
    key _ _ (fun i j => (h i j).tagged_evap) fun I J hc => (h0 I J hc).2.2.2.2.1,
    key _ _ (fun i j => (h i j).losses) fun I J hc => (h0 I J hc).2.2.2.2.2.1,
    key _ _ (fun i j => (h i j).gains) fun I J hc => (h0 I J hc).2.2.2.2.2.2⟩

theorem eq_extendBwd (o : BwdOutput (m + 2) (n + 2) K) (O : BwdOutput (M + 2) (N + 2) K)
    (h : ∀ i j, SameCellBwd o i j O (p.r i) (p.c j))
    (h0 : ∀ I J, ¬ p.Covers I J → O.s_track_upper I J = 0 ∧ O.s_track_lower I J = 0 ∧ O.e_track I J = 0 ∧
      O.tagged_precip I J = 0 ∧ O.losses I J = 0 ∧ O.gains I J = 0) : O = p.extendBwd o := by
  have key : ∀ (f : Arr (m + 2) (n + 2) K) (G : Arr (M + 2) (N + 2) K), (∀ i j, f i j = G (p.r i) (p.c j)) →
      (∀ I J, ¬ p.Covers I J → G I J = 0) → G = p.extend f := by
    intro f G h1 h2
    funext I J
    by_cases hc : p.Covers I J
    · obtain ⟨i, j, rfl, rfl⟩ := hc
      rw [extend_in, h1]
    · rw [extend_out p f I J hc, h2 I J hc]
  obtain ⟨a, b, c, d, e, f⟩ := O
  simp only [Place.extendBwd, BwdOutput.mk.injEq]
  exact ⟨key _ _ (fun i j => (h i j).s_track_upper) fun I J hc => (h0 I J hc).1,
    key _ _ (fun i j => (h i j).s_track_lower) fun I J hc => (h0 I J hc).2.1,
    key _ _ (fun i j => (h i j).e_track) fun I J hc => (h0 I J hc).2.2.1,
    key _ _ (fun i j => (h i j).tagged_precip) fun I J hc => (h0 I J hc).2.2.2.1,
    key _ _ (fun i j => (h i j).losses) fun I J hc => (h0 I J hc).2.2.2.2.1,
    key _ _ (fun i j => (h i j).gains) fun I J hc => (h0 I J hc).2.2.2.2.2⟩

theorem vert_zero (fv kvf : K) : verticalAdvection fv 0 0 = 0 ∧ verticalDispersion fv 0 0 kvf = 0 := by
  constructor
  · unfold verticalAdvection; split <;> simp
  · unfold verticalDispersion; simp

/-! ### forward -/

section
variable (ps pb : Bool) (hf : p.Fits ps pb) (dt kvf : K) (g : GridInfo (M + 2) K)
  (F : Fluxes (M + 2) (N + 2) K) (S0 S1 : States (M + 2) (N + 2) K) (mask : Arr (M + 2) (N + 2) K)
  (fz : Arr (m + 2) (n + 2) K) (FZ : Arr (M + 2) (N + 2) K)
  (hdt : 0 < dt) (ha : ∀ I, 0 < g.a I) (h0 : Wet S0) (h1 : Wet S1)
  (he : ∀ I J, 0 ≤ F.evap I J) (hp : ∀ I J, 0 ≤ F.precip I J) (hm : ∀ I J, 0 ≤ mask I J)
  (o : FwdOutput (m + 2) (n + 2) K)
  (hpos : ∀ i j, 0 ≤ o.s_track_lower i j ∧ 0 ≤ o.s_track_upper i j)
  (hb : ∀ i j, isBoundary ps i j → o.s_track_lower i j = 0 ∧ o.s_track_upper i j = 0)

include hb in
/-- what flows into an edge cell -/
theorem fwd_edge (i j) (hbd : isBoundary ps i j) :
    (fwdTransport ps dt kvf (p.cutGrid g).a (p.cutFluxes F) fz (p.cutStates S0) (p.cut mask) o.s_track_lower o.s_track_upper).1 i j =
      dt * (advect ps false (fun i j => relStorage (o.s_track_lower i j) ((p.cutStates S0).s_lower i j)) (p.cut F.fx_lower)
        (p.cut F.fy_lower) i j / g.a (p.r i) + mask (p.r i) (p.c j) * F.evap (p.r i) (p.c j)) ∧
    (fwdTransport ps dt kvf (p.cutGrid g).a (p.cutFluxes F) fz (p.cutStates S0) (p.cut mask) o.s_track_lower o.s_track_upper).2 i j =
      dt * (advect ps false (fun i j => relStorage (o.s_track_upper i j) ((p.cutStates S0).s_upper i j)) (p.cut F.fx_upper)
        (p.cut F.fy_upper) i j / g.a (p.r i)) := by
  obtain ⟨v1, v2⟩ := vert_zero (fz i j) kvf
  simp only [fwdTransport, (hb i j hbd).1, (hb i j hbd).2, rel_zero, v1, v2, zero_add, add_zero, mul_zero, sub_zero]
  exact ⟨rfl, rfl⟩

include hdt ha he hm h0 hpos hb in
theorem fwd_edge_nonneg (i j) (hbd : isBoundary ps i j) :
    0 ≤ (fwdTransport ps dt kvf (p.cutGrid g).a (p.cutFluxes F) fz (p.cutStates S0) (p.cut mask) o.s_track_lower o.s_track_upper).1 i j ∧
    0 ≤ (fwdTransport ps dt kvf (p.cutGrid g).a (p.cutFluxes F) fz (p.cutStates S0) (p.cut mask) o.s_track_lower o.s_track_upper).2 i j := by
  obtain ⟨e1, e2⟩ := fwd_edge p ps dt kvf g F S0 mask fz o hb i j hbd
  rw [e1, e2]
  have rl : ∀ i j, 0 ≤ relStorage (o.s_track_lower i j) ((p.cutStates S0).s_lower i j) := fun i j => by
    rw [relStorage_eq]; exact fraction_nonneg (hpos i j).1 (h0 (p.r i) (p.c j)).2.le
  have ru : ∀ i j, 0 ≤ relStorage (o.s_track_upper i j) ((p.cutStates S0).s_upper i j) := fun i j => by
    rw [relStorage_eq]; exact fraction_nonneg (hpos i j).2 (h0 (p.r i) (p.c j)).1.le
  have al := advect_nonneg_of_zero ps false _ (p.cut F.fx_lower) (p.cut F.fy_lower) rl i j (by simp only [(hb i j hbd).1, rel_zero])
  have au := advect_nonneg_of_zero ps false _ (p.cut F.fx_upper) (p.cut F.fy_upper) ru i j (by simp only [(hb i j hbd).2, rel_zero])
  exact ⟨mul_nonneg hdt.le (add_nonneg (div_nonneg al (ha _).le) (mul_nonneg (hm _ _) (he _ _))),
    mul_nonneg hdt.le (div_nonneg au (ha _).le)⟩

include hdt ha he hm h0 hpos hb hf in
/-- if nothing reaches the edge of the small grid, the step on the large grid is the step on the small grid -/
theorem forwardtrack_extend (hcut : ∀ i j, Deep ps 1 i j → fz i j = FZ (p.r i) (p.c j)) (h1 : Wet S1)
    (hout : ∀ I J, ¬ p.Covers I J → mask I J = 0)
    (hl : ∀ i j, isBoundary ps i j → (forwardtrack ps dt kvf (p.cutGrid g).a (p.cutFluxes F) fz (p.cutStates S1) (p.cutStates S0)
      (p.cut mask) o).losses i j = o.losses i j) :
    forwardtrack pb dt kvf g.a F FZ S1 S0 mask (p.extendFwd o) =
      p.extendFwd (forwardtrack ps dt kvf (p.cutGrid g).a (p.cutFluxes F) fz (p.cutStates S1) (p.cutStates S0) (p.cut mask) o) := by
  set rl : Arr (m + 2) (n + 2) K := fun i j => relStorage (o.s_track_lower i j) ((p.cutStates S0).s_lower i j) with hrl
  set ru : Arr (m + 2) (n + 2) K := fun i j => relStorage (o.s_track_upper i j) ((p.cutStates S0).s_upper i j) with hru
  have prl : ∀ i j, 0 ≤ rl i j := fun i j => by
    rw [hrl]; simp only [relStorage_eq]; exact fraction_nonneg (hpos i j).1 (h0 (p.r i) (p.c j)).2.le
  have pru : ∀ i j, 0 ≤ ru i j := fun i j => by
    rw [hru]; simp only [relStorage_eq]; exact fraction_nonneg (hpos i j).2 (h0 (p.r i) (p.c j)).1.le
  have brl : ∀ i j, isBoundary ps i j → rl i j = 0 := fun i j hbd => by simp only [hrl, (hb i j hbd).1, rel_zero]
  have bru : ∀ i j, isBoundary ps i j → ru i j = 0 := fun i j hbd => by simp only [hru, (hb i j hbd).2, rel_zero]
  have w1 : Wet (p.cutStates S1) := fun i j => h1 (p.r i) (p.c j)
  -- nothing reaches the edge
  have hedge : ∀ i j, isBoundary ps i j →
      advect ps false rl (p.cut F.fx_lower) (p.cut F.fy_lower) i j = 0 ∧
      advect ps false ru (p.cut F.fx_upper) (p.cut F.fy_upper) i j = 0 ∧
      mask (p.r i) (p.c j) * F.evap (p.r i) (p.c j) = 0 := by
    intro i j hbd
    have e := (C14_boundary_forward ps dt kvf (p.cutGrid g).a (p.cutFluxes F) fz (p.cutStates S0) (p.cutStates S1) (p.cut mask) o w1 i j
      hbd).2.2.1
    rw [hl i j hbd] at e
    obtain ⟨e1, e2⟩ := fwd_edge p ps dt kvf g F S0 mask fz o hb i j hbd
    have al := advect_nonneg_of_zero ps false rl (p.cut F.fx_lower) (p.cut F.fy_lower) prl i j (brl i j hbd)
    have au := advect_nonneg_of_zero ps false ru (p.cut F.fx_upper) (p.cut F.fy_upper) pru i j (bru i j hbd)
    have hme := mul_nonneg (hm (p.r i) (p.c j)) (he (p.r i) (p.c j))
    rw [e1, e2] at e
    have hA := ha (p.r i)
    have dl := div_nonneg al hA.le
    have du := div_nonneg au hA.le
    have hsum : dt * ((advect ps false rl (p.cut F.fx_lower) (p.cut F.fy_lower) i j / g.a (p.r i) +
        mask (p.r i) (p.c j) * F.evap (p.r i) (p.c j)) +
        advect ps false ru (p.cut F.fx_upper) (p.cut F.fy_upper) i j / g.a (p.r i)) = 0 := by
      rw [mul_add]; linarith
    rcases mul_eq_zero.mp hsum with h | h
    · exact absurd h hdt.ne'
    have z1 : advect ps false rl (p.cut F.fx_lower) (p.cut F.fy_lower) i j / g.a (p.r i) = 0 := by linarith
    have z2 : advect ps false ru (p.cut F.fx_upper) (p.cut F.fy_upper) i j / g.a (p.r i) = 0 := by linarith
    exact ⟨(div_eq_zero_iff.mp z1).resolve_right hA.ne', (div_eq_zero_iff.mp z2).resolve_right hA.ne', by linarith⟩
  have al := advect_extend p ps pb hf false rl F.fx_lower F.fy_lower prl brl fun i j hbd => (hedge i j hbd).1
  have au := advect_extend p ps pb hf false ru F.fx_upper F.fy_upper pru bru fun i j hbd => (hedge i j hbd).2.1
  have El : (fun I J => relStorage (p.extend o.s_track_lower I J) (S0.s_lower I J)) = p.extend rl := rel_extend p _ _ _ rfl
  have Eu : (fun I J => relStorage (p.extend o.s_track_upper I J) (S0.s_upper I J)) = p.extend ru := rel_extend p _ _ _ rfl
  have El' : ∀ I J, relStorage (p.extend o.s_track_lower I J) (S0.s_lower I J) = p.extend rl I J := fun I J => congrFun (congrFun El I) J
  have Eu' : ∀ I J, relStorage (p.extend o.s_track_upper I J) (S0.s_upper I J) = p.extend ru I J := fun I J => congrFun (congrFun Eu I) J
  -- vertical exchange
  have hvert : ∀ i j, verticalAdvection (FZ (p.r i) (p.c j)) (rl i j) (ru i j) = verticalAdvection (fz i j) (rl i j) (ru i j) ∧
      verticalDispersion (FZ (p.r i) (p.c j)) (rl i j) (ru i j) kvf = verticalDispersion (fz i j) (rl i j) (ru i j) kvf := by
    intro i j
    by_cases hbd : isBoundary ps i j
    · rw [brl i j hbd, bru i j hbd, (vert_zero _ kvf).1, (vert_zero _ kvf).1, (vert_zero _ kvf).2, (vert_zero _ kvf).2]
      exact ⟨rfl, rfl⟩
    · rw [hcut i j (deep_of_inside hbd)]; exact ⟨rfl, rfl⟩
  -- transport
  have T : ∀ i j,
      (fwdTransport pb dt kvf g.a F FZ S0 mask (p.extendFwd o).s_track_lower (p.extendFwd o).s_track_upper).1 (p.r i) (p.c j) =
      (fwdTransport ps dt kvf (p.cutGrid g).a (p.cutFluxes F) fz (p.cutStates S0) (p.cut mask) o.s_track_lower o.s_track_upper).1 i j ∧
      (fwdTransport pb dt kvf g.a F FZ S0 mask (p.extendFwd o).s_track_lower (p.extendFwd o).s_track_upper).2 (p.r i) (p.c j) =
      (fwdTransport ps dt kvf (p.cutGrid g).a (p.cutFluxes F) fz (p.cutStates S0) (p.cut mask) o.s_track_lower o.s_track_upper).2 i j := by
    intro i j
    simp only [fwdTransport, Place.extendFwd, El, Eu, El', Eu', al, au, extend_in, (hvert i j).1, (hvert i j).2]
    exact ⟨rfl, rfl⟩
  have Tout : ∀ I J, ¬ p.Covers I J →
      (fwdTransport pb dt kvf g.a F FZ S0 mask (p.extendFwd o).s_track_lower (p.extendFwd o).s_track_upper).1 I J = 0 ∧
      (fwdTransport pb dt kvf g.a F FZ S0 mask (p.extendFwd o).s_track_lower (p.extendFwd o).s_track_upper).2 I J = 0 := by
    intro I J hc
    obtain ⟨v1, v2⟩ := vert_zero (FZ I J) kvf
    simp only [fwdTransport, Place.extendFwd, El, Eu, El', Eu', al, au, extend_out p _ I J hc, hout I J hc, v1, v2]
    simp
  have Tedge : ∀ i j, isBoundary ps i j →
      (fwdTransport ps dt kvf (p.cutGrid g).a (p.cutFluxes F) fz (p.cutStates S0) (p.cut mask) o.s_track_lower o.s_track_upper).1 i j = 0 ∧
      (fwdTransport ps dt kvf (p.cutGrid g).a (p.cutFluxes F) fz (p.cutStates S0) (p.cut mask) o.s_track_lower o.s_track_upper).2 i j = 0 := by
    intro i j hbd
    obtain ⟨e1, e2⟩ := fwd_edge p ps dt kvf g F S0 mask fz o hb i j hbd
    obtain ⟨z1, z2, z3⟩ := hedge i j hbd
    rw [e1, e2]
    rw [hrl] at z1
    rw [hru] at z2
    rw [z1, z2, z3]
    simp
  have hset : ∀ i j,
      settle (getBoundary pb (p.r i) (p.c j))
        ((fwdTransport pb dt kvf g.a F FZ S0 mask (p.extendFwd o).s_track_lower (p.extendFwd o).s_track_upper).1 (p.r i) (p.c j))
        ((fwdTransport pb dt kvf g.a F FZ S0 mask (p.extendFwd o).s_track_lower (p.extendFwd o).s_track_upper).2 (p.r i) (p.c j))
        (S1.s_lower (p.r i) (p.c j)) (S1.s_upper (p.r i) (p.c j)) =
      settle (getBoundary ps i j)
        ((fwdTransport ps dt kvf (p.cutGrid g).a (p.cutFluxes F) fz (p.cutStates S0) (p.cut mask) o.s_track_lower o.s_track_upper).1 i j)
        ((fwdTransport ps dt kvf (p.cutGrid g).a (p.cutFluxes F) fz (p.cutStates S0) (p.cut mask) o.s_track_lower o.s_track_upper).2 i j)
        ((p.cutStates S1).s_lower i j) ((p.cutStates S1).s_upper i j) := by
    intro i j
    rw [(T i j).1, (T i j).2]
    by_cases hbd : isBoundary ps i j
    · rw [(Tedge i j hbd).1, (Tedge i j hbd).2, settle_zero _ _ _ (h1 _ _).2.le (h1 _ _).1.le, settle_zero _ _ _ (w1 _ _).2.le (w1 _ _).1.le]
    · obtain ⟨b1, b2⟩ := boundary_cut p ps pb hf i j (deep_of_inside hbd)
      rw [b1, b2]; rfl
  have hsetout : ∀ I J, ¬ p.Covers I J →
      settle (getBoundary pb I J)
        ((fwdTransport pb dt kvf g.a F FZ S0 mask (p.extendFwd o).s_track_lower (p.extendFwd o).s_track_upper).1 I J)
        ((fwdTransport pb dt kvf g.a F FZ S0 mask (p.extendFwd o).s_track_lower (p.extendFwd o).s_track_upper).2 I J)
        (S1.s_lower I J) (S1.s_upper I J) = ⟨0, 0, 0, 0⟩ := by
    intro I J hc
    rw [(Tout I J hc).1, (Tout I J hc).2, settle_zero _ _ _ (h1 _ _).2.le (h1 _ _).1.le]
  apply eq_extendFwd
  · intro i j
    simp only [forwardtrack]
    constructor <;> simp only [hset i j]
    · simp only [Place.extendFwd, El', Eu', extend_in]; rfl
    · simp only [Place.extendFwd, El', Eu', extend_in]; rfl
    · simp only [Place.extendFwd, extend_in]; rfl
    · simp only [Place.extendFwd, extend_in]
    · simp only [Place.extendFwd, extend_in]
  · intro I J hc
    simp only [forwardtrack, hsetout I J hc]
    simp only [Place.extendFwd, rel_zero, extend_out p _ I J hc, hout I J hc]
    simp

end

/-! ### backward -/

section
variable (ps pb : Bool) (hf : p.Fits ps pb) (dt kvf : K) (g : GridInfo (M + 2) K)
  (F : Fluxes (M + 2) (N + 2) K) (S0 S1 : States (M + 2) (N + 2) K) (mask : Arr (M + 2) (N + 2) K)
  (fz : Arr (m + 2) (n + 2) K) (FZ : Arr (M + 2) (N + 2) K)
  (hdt : 0 < dt) (ha : ∀ I, 0 < g.a I) (h1 : Wet S1) (h0 : Wet S0)
  (he : ∀ I J, 0 ≤ F.evap I J) (hp : ∀ I J, 0 ≤ F.precip I J) (hm : ∀ I J, 0 ≤ mask I J)
  (o : BwdOutput (m + 2) (n + 2) K)
  (hpos : ∀ i j, 0 ≤ o.s_track_lower i j ∧ 0 ≤ o.s_track_upper i j)
  (hb : ∀ i j, isBoundary ps i j → o.s_track_lower i j = 0 ∧ o.s_track_upper i j = 0)

include hb in
/-- what flows into an edge cell -/
theorem bwd_edge (i j) (hbd : isBoundary ps i j) :
    (bwdTransport ps dt kvf (p.cutGrid g).a (p.cutFluxes F) fz (p.cutStates S1) (p.cut mask) o.s_track_lower o.s_track_upper).1 i j =
      dt * (advect ps true (fun i j => relStorage (o.s_track_lower i j) ((p.cutStates S1).s_lower i j)) (p.cut F.fx_lower)
        (p.cut F.fy_lower) i j / g.a (p.r i) + mask (p.r i) (p.c j) * F.precip (p.r i) (p.c j) * S1.s_lower (p.r i) (p.c j) / (S1.s_upper (p.r i) (p.c j) + S1.s_lower (p.r i) (p.c j))) ∧
    (bwdTransport ps dt kvf (p.cutGrid g).a (p.cutFluxes F) fz (p.cutStates S1) (p.cut mask) o.s_track_lower o.s_track_upper).2 i j =
      dt * (advect ps true (fun i j => relStorage (o.s_track_upper i j) ((p.cutStates S1).s_upper i j)) (p.cut F.fx_upper)
        (p.cut F.fy_upper) i j / g.a (p.r i) + mask (p.r i) (p.c j) * F.precip (p.r i) (p.c j) * S1.s_upper (p.r i) (p.c j) / (S1.s_upper (p.r i) (p.c j) + S1.s_lower (p.r i) (p.c j))) := by
  obtain ⟨v1, v2⟩ := vert_zero (-fz i j) kvf
  simp only [bwdTransport, (hb i j hbd).1, (hb i j hbd).2, rel_zero, v1, v2, zero_add, add_zero, mul_zero, sub_zero]
  exact ⟨rfl, rfl⟩

include hdt ha hp hm h1 hpos hb in
theorem bwd_edge_nonneg (i j) (hbd : isBoundary ps i j) :
    0 ≤ (bwdTransport ps dt kvf (p.cutGrid g).a (p.cutFluxes F) fz (p.cutStates S1) (p.cut mask) o.s_track_lower o.s_track_upper).1 i j ∧
    0 ≤ (bwdTransport ps dt kvf (p.cutGrid g).a (p.cutFluxes F) fz (p.cutStates S1) (p.cut mask) o.s_track_lower o.s_track_upper).2 i j := by
  obtain ⟨e1, e2⟩ := bwd_edge p ps dt kvf g F S1 mask fz o hb i j hbd
  rw [e1, e2]
  have rl : ∀ i j, 0 ≤ relStorage (o.s_track_lower i j) ((p.cutStates S1).s_lower i j) := fun i j => by
    rw [relStorage_eq]; exact fraction_nonneg (hpos i j).1 (h1 (p.r i) (p.c j)).2.le
  have ru : ∀ i j, 0 ≤ relStorage (o.s_track_upper i j) ((p.cutStates S1).s_upper i j) := fun i j => by
    rw [relStorage_eq]; exact fraction_nonneg (hpos i j).2 (h1 (p.r i) (p.c j)).1.le
  have al := advect_nonneg_of_zero ps true _ (p.cut F.fx_lower) (p.cut F.fy_lower) rl i j (by simp only [(hb i j hbd).1, rel_zero])
  have au := advect_nonneg_of_zero ps true _ (p.cut F.fx_upper) (p.cut F.fy_upper) ru i j (by simp only [(hb i j hbd).2, rel_zero])
  have hden := add_pos (h1 (p.r i) (p.c j)).1 (h1 (p.r i) (p.c j)).2
  have tl : 0 ≤ mask (p.r i) (p.c j) * F.precip (p.r i) (p.c j) * S1.s_lower (p.r i) (p.c j) / (S1.s_upper (p.r i) (p.c j) + S1.s_lower (p.r i) (p.c j)) :=
    div_nonneg (mul_nonneg (mul_nonneg (hm _ _) (hp _ _)) (h1 _ _).2.le) hden.le
  have tu : 0 ≤ mask (p.r i) (p.c j) * F.precip (p.r i) (p.c j) * S1.s_upper (p.r i) (p.c j) / (S1.s_upper (p.r i) (p.c j) + S1.s_lower (p.r i) (p.c j)) :=
    div_nonneg (mul_nonneg (mul_nonneg (hm _ _) (hp _ _)) (h1 _ _).1.le) hden.le
  exact ⟨mul_nonneg hdt.le (add_nonneg (div_nonneg al (ha _).le) tl), mul_nonneg hdt.le (add_nonneg (div_nonneg au (ha _).le) tu)⟩

include hdt ha hp hm h1 hpos hb hf in
/-- if nothing reaches the edge of the small grid, the step on the large grid is the step on the small grid -/
theorem backtrack_extend (hcut : ∀ i j, Deep ps 1 i j → fz i j = FZ (p.r i) (p.c j)) (h0 : Wet S0)
    (hout : ∀ I J, ¬ p.Covers I J → mask I J = 0)
    (hl : ∀ i j, isBoundary ps i j → (backtrack ps dt kvf (p.cutGrid g).a (p.cutFluxes F) fz (p.cutStates S1) (p.cutStates S0)
      (p.cut mask) o).losses i j = o.losses i j) :
    backtrack pb dt kvf g.a F FZ S1 S0 mask (p.extendBwd o) =
      p.extendBwd (backtrack ps dt kvf (p.cutGrid g).a (p.cutFluxes F) fz (p.cutStates S1) (p.cutStates S0) (p.cut mask) o) := by
  set rl : Arr (m + 2) (n + 2) K := fun i j => relStorage (o.s_track_lower i j) ((p.cutStates S1).s_lower i j) with hrl
  set ru : Arr (m + 2) (n + 2) K := fun i j => relStorage (o.s_track_upper i j) ((p.cutStates S1).s_upper i j) with hru
  have prl : ∀ i j, 0 ≤ rl i j := fun i j => by
    rw [hrl]; simp only [relStorage_eq]; exact fraction_nonneg (hpos i j).1 (h1 (p.r i) (p.c j)).2.le
  have pru : ∀ i j, 0 ≤ ru i j := fun i j => by
    rw [hru]; simp only [relStorage_eq]; exact fraction_nonneg (hpos i j).2 (h1 (p.r i) (p.c j)).1.le
  have brl : ∀ i j, isBoundary ps i j → rl i j = 0 := fun i j hbd => by simp only [hrl, (hb i j hbd).1, rel_zero]
  have bru : ∀ i j, isBoundary ps i j → ru i j = 0 := fun i j hbd => by simp only [hru, (hb i j hbd).2, rel_zero]
  have w0 : Wet (p.cutStates S0) := fun i j => h0 (p.r i) (p.c j)
  -- nothing reaches the edge
  have hedge : ∀ i j, isBoundary ps i j →
      advect ps true rl (p.cut F.fx_lower) (p.cut F.fy_lower) i j = 0 ∧
      advect ps true ru (p.cut F.fx_upper) (p.cut F.fy_upper) i j = 0 ∧
      mask (p.r i) (p.c j) * F.precip (p.r i) (p.c j) * S1.s_lower (p.r i) (p.c j) / (S1.s_upper (p.r i) (p.c j) + S1.s_lower (p.r i) (p.c j)) = 0 ∧
      mask (p.r i) (p.c j) * F.precip (p.r i) (p.c j) * S1.s_upper (p.r i) (p.c j) / (S1.s_upper (p.r i) (p.c j) + S1.s_lower (p.r i) (p.c j)) = 0 := by
    intro i j hbd
    have e := (C14_boundary_backward ps dt kvf (p.cutGrid g).a (p.cutFluxes F) fz (p.cutStates S0) (p.cutStates S1) (p.cut mask) o w0 i j
      hbd).2.2.1
    rw [hl i j hbd] at e
    obtain ⟨e1, e2⟩ := bwd_edge p ps dt kvf g F S1 mask fz o hb i j hbd
    have al := advect_nonneg_of_zero ps true rl (p.cut F.fx_lower) (p.cut F.fy_lower) prl i j (brl i j hbd)
    have au := advect_nonneg_of_zero ps true ru (p.cut F.fx_upper) (p.cut F.fy_upper) pru i j (bru i j hbd)
    have hden := add_pos (h1 (p.r i) (p.c j)).1 (h1 (p.r i) (p.c j)).2
    have tl : 0 ≤ mask (p.r i) (p.c j) * F.precip (p.r i) (p.c j) * S1.s_lower (p.r i) (p.c j) / (S1.s_upper (p.r i) (p.c j) + S1.s_lower (p.r i) (p.c j)) :=
      div_nonneg (mul_nonneg (mul_nonneg (hm _ _) (hp _ _)) (h1 _ _).2.le) hden.le
    have tu : 0 ≤ mask (p.r i) (p.c j) * F.precip (p.r i) (p.c j) * S1.s_upper (p.r i) (p.c j) / (S1.s_upper (p.r i) (p.c j) + S1.s_lower (p.r i) (p.c j)) :=
      div_nonneg (mul_nonneg (mul_nonneg (hm _ _) (hp _ _)) (h1 _ _).1.le) hden.le
    rw [e1, e2] at e
    have hA := ha (p.r i)
    have dl := div_nonneg al hA.le
    have du := div_nonneg au hA.le
    have hsum : dt * ((advect ps true rl (p.cut F.fx_lower) (p.cut F.fy_lower) i j / g.a (p.r i) +
        mask (p.r i) (p.c j) * F.precip (p.r i) (p.c j) * S1.s_lower (p.r i) (p.c j) / (S1.s_upper (p.r i) (p.c j) + S1.s_lower (p.r i) (p.c j))) +
        (advect ps true ru (p.cut F.fx_upper) (p.cut F.fy_upper) i j / g.a (p.r i) +
        mask (p.r i) (p.c j) * F.precip (p.r i) (p.c j) * S1.s_upper (p.r i) (p.c j) / (S1.s_upper (p.r i) (p.c j) + S1.s_lower (p.r i) (p.c j)))) = 0 := by
      rw [mul_add]; linarith
    rcases mul_eq_zero.mp hsum with h | h
    · exact absurd h hdt.ne'
    have z1 : advect ps true rl (p.cut F.fx_lower) (p.cut F.fy_lower) i j / g.a (p.r i) = 0 := by linarith
    have z2 : advect ps true ru (p.cut F.fx_upper) (p.cut F.fy_upper) i j / g.a (p.r i) = 0 := by linarith
    exact ⟨(div_eq_zero_iff.mp z1).resolve_right hA.ne', (div_eq_zero_iff.mp z2).resolve_right hA.ne', by linarith, by linarith⟩
  have al := advect_extend p ps pb hf true rl F.fx_lower F.fy_lower prl brl fun i j hbd => (hedge i j hbd).1
  have au := advect_extend p ps pb hf true ru F.fx_upper F.fy_upper pru bru fun i j hbd => (hedge i j hbd).2.1
  have El : (fun I J => relStorage (p.extend o.s_track_lower I J) (S1.s_lower I J)) = p.extend rl := rel_extend p _ _ _ rfl
  have Eu : (fun I J => relStorage (p.extend o.s_track_upper I J) (S1.s_upper I J)) = p.extend ru := rel_extend p _ _ _ rfl
  have El' : ∀ I J, relStorage (p.extend o.s_track_lower I J) (S1.s_lower I J) = p.extend rl I J := fun I J => congrFun (congrFun El I) J
  have Eu' : ∀ I J, relStorage (p.extend o.s_track_upper I J) (S1.s_upper I J) = p.extend ru I J := fun I J => congrFun (congrFun Eu I) J
  -- vertical exchange
  have hvert : ∀ i j, verticalAdvection (-FZ (p.r i) (p.c j)) (rl i j) (ru i j) = verticalAdvection (-fz i j) (rl i j) (ru i j) ∧
      verticalDispersion (-FZ (p.r i) (p.c j)) (rl i j) (ru i j) kvf = verticalDispersion (-fz i j) (rl i j) (ru i j) kvf := by
    intro i j
    by_cases hbd : isBoundary ps i j
    · rw [brl i j hbd, bru i j hbd, (vert_zero _ kvf).1, (vert_zero _ kvf).1, (vert_zero _ kvf).2, (vert_zero _ kvf).2]
      exact ⟨rfl, rfl⟩
    · rw [hcut i j (deep_of_inside hbd)]; exact ⟨rfl, rfl⟩
  -- transport
  have T : ∀ i j,
      (bwdTransport pb dt kvf g.a F FZ S1 mask (p.extendBwd o).s_track_lower (p.extendBwd o).s_track_upper).1 (p.r i) (p.c j) =
      (bwdTransport ps dt kvf (p.cutGrid g).a (p.cutFluxes F) fz (p.cutStates S1) (p.cut mask) o.s_track_lower o.s_track_upper).1 i j ∧
      (bwdTransport pb dt kvf g.a F FZ S1 mask (p.extendBwd o).s_track_lower (p.extendBwd o).s_track_upper).2 (p.r i) (p.c j) =
      (bwdTransport ps dt kvf (p.cutGrid g).a (p.cutFluxes F) fz (p.cutStates S1) (p.cut mask) o.s_track_lower o.s_track_upper).2 i j := by
    intro i j
    simp only [bwdTransport, Place.extendBwd, El, Eu, El', Eu', al, au, extend_in, (hvert i j).1, (hvert i j).2]
    exact ⟨rfl, rfl⟩
  have Tout : ∀ I J, ¬ p.Covers I J →
      (bwdTransport pb dt kvf g.a F FZ S1 mask (p.extendBwd o).s_track_lower (p.extendBwd o).s_track_upper).1 I J = 0 ∧
      (bwdTransport pb dt kvf g.a F FZ S1 mask (p.extendBwd o).s_track_lower (p.extendBwd o).s_track_upper).2 I J = 0 := by
    intro I J hc
    obtain ⟨v1, v2⟩ := vert_zero (-FZ I J) kvf
    simp only [bwdTransport, Place.extendBwd, El, Eu, El', Eu', al, au, extend_out p _ I J hc, hout I J hc, v1, v2]
    simp
  have Tedge : ∀ i j, isBoundary ps i j →
      (bwdTransport ps dt kvf (p.cutGrid g).a (p.cutFluxes F) fz (p.cutStates S1) (p.cut mask) o.s_track_lower o.s_track_upper).1 i j = 0 ∧
      (bwdTransport ps dt kvf (p.cutGrid g).a (p.cutFluxes F) fz (p.cutStates S1) (p.cut mask) o.s_track_lower o.s_track_upper).2 i j = 0 := by
    intro i j hbd
    obtain ⟨e1, e2⟩ := bwd_edge p ps dt kvf g F S1 mask fz o hb i j hbd
    obtain ⟨z1, z2, z3, z4⟩ := hedge i j hbd
    rw [e1, e2]
    rw [hrl] at z1
    rw [hru] at z2
    rw [z1, z2, z3, z4]
    simp
  have hset : ∀ i j,
      settle (getBoundary pb (p.r i) (p.c j))
        ((bwdTransport pb dt kvf g.a F FZ S1 mask (p.extendBwd o).s_track_lower (p.extendBwd o).s_track_upper).1 (p.r i) (p.c j))
        ((bwdTransport pb dt kvf g.a F FZ S1 mask (p.extendBwd o).s_track_lower (p.extendBwd o).s_track_upper).2 (p.r i) (p.c j))
        (S0.s_lower (p.r i) (p.c j)) (S0.s_upper (p.r i) (p.c j)) =
      settle (getBoundary ps i j)
        ((bwdTransport ps dt kvf (p.cutGrid g).a (p.cutFluxes F) fz (p.cutStates S1) (p.cut mask) o.s_track_lower o.s_track_upper).1 i j)
        ((bwdTransport ps dt kvf (p.cutGrid g).a (p.cutFluxes F) fz (p.cutStates S1) (p.cut mask) o.s_track_lower o.s_track_upper).2 i j)
        ((p.cutStates S0).s_lower i j) ((p.cutStates S0).s_upper i j) := by
    intro i j
    rw [(T i j).1, (T i j).2]
    by_cases hbd : isBoundary ps i j
    · rw [(Tedge i j hbd).1, (Tedge i j hbd).2, settle_zero _ _ _ (h0 _ _).2.le (h0 _ _).1.le, settle_zero _ _ _ (w0 _ _).2.le (w0 _ _).1.le]
    · obtain ⟨b1, b2⟩ := boundary_cut p ps pb hf i j (deep_of_inside hbd)
      rw [b1, b2]; rfl
  have hsetout : ∀ I J, ¬ p.Covers I J →
      settle (getBoundary pb I J)
        ((bwdTransport pb dt kvf g.a F FZ S1 mask (p.extendBwd o).s_track_lower (p.extendBwd o).s_track_upper).1 I J)
        ((bwdTransport pb dt kvf g.a F FZ S1 mask (p.extendBwd o).s_track_lower (p.extendBwd o).s_track_upper).2 I J)
        (S0.s_lower I J) (S0.s_upper I J) = ⟨0, 0, 0, 0⟩ := by
    intro I J hc
    rw [(Tout I J hc).1, (Tout I J hc).2, settle_zero _ _ _ (h0 _ _).2.le (h0 _ _).1.le]
  apply eq_extendBwd
  · intro i j
    simp only [backtrack]
    constructor <;> simp only [hset i j]
    · simp only [Place.extendBwd, El', Eu', extend_in]; rfl
    · simp only [Place.extendBwd, extend_in]; rfl
    · simp only [Place.extendBwd, extend_in]
    · simp only [Place.extendBwd, extend_in]
  · intro I J hc
    simp only [backtrack, hsetout I J hc]
    simp only [Place.extendBwd, rel_zero, extend_out p _ I J hc, hout I J hc]
    simp

end

end Local

end Wam
