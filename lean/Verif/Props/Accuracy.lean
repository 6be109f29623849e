import Verif.Lemmas.ApproxRun
import Verif.Props.Contract

/-!
# C92, C93: how much rounding can change

C85 says which properties survive rounding as they are.  Here: by how much a step and a run of rounded
arithmetic (`Model/Rounded`, every `+ - * /` rounded) can differ from exact arithmetic.
-/
set_option linter.unusedSectionVars false
set_option linter.unusedVariables false

namespace Wam
open Spec

variable {K : Type*} [Field K] [LinearOrder K] [IsStrictOrderedRing K] {R : Rounding K} {u η V σ : K} {m n : ℕ}
  {P : Type*}

/-! ### One step -/

/-- **C92** (forward step): scaling of the fluxes, stabilisation, vertical flux, transport and bookkeeping in
floats differ from the same step in exact arithmetic (from the same data) by at most `7280 u (1 + kvf) V` kg in
the tracked storage of a cell, where `V` is the largest amount of water in a layer of a cell (or of rain or
evaporation within a time step) and `u` the unit roundoff; accumulated fields are rounded once more (`P` is
their size).  The horizontal fluxes may be as large as they like. -/
theorem C92_step_forward (A : Accurate R u η) (periodic : Bool) (dt kvf : Fl R) (g : GridInfo (m + 2) (Fl R))
    (F : Fluxes (m + 2) (n + 2) (Fl R)) (S0 S1 : States (m + 2) (n + 2) (Fl R))
    (mask : Arr (m + 2) (n + 2) (Fl R)) (out : FwdOutput (m + 2) (n + 2) (Fl R)) (P : K)
    (H : Sized u η V σ dt.val kvf.val (exactG g).a (exactF F) (exactS S0) (exactS S1) (exactA mask))
    (hout : BoundedFwd V P (exactG g).a (exactFwd out))
    (hpos : ∀ i j, 0 ≤ (out.s_track_lower i j).val ∧ 0 ≤ (out.s_track_upper i j).val) :
    let X := stabilizeFluxes dt g.a (scaleFluxes g F) S0
    let Y := stabilizeFluxes dt.val (exactG g).a (scaleFluxes (exactG g) (exactF F)) (exactS S0)
    CloseFwd (7280 * u * (1 + kvf.val) * V) (u * (P + 30 * V)) (u * (P + 19800 * (1 + kvf.val) * V)) (exactG g).a
      (exactFwd (forwardtrack periodic dt kvf g.a X (calculateFz g.a X S0 S1 dt kvf) S1 S0 mask out))
      (forwardtrack periodic dt.val kvf.val (exactG g).a Y
        (calculateFz (exactG g).a Y (exactS S0) (exactS S1) dt.val kvf.val) (exactS S1) (exactS S0)
        (exactA mask) (exactFwd out)) :=
  (fwd_close periodic A H out hout hpos).1

/-- **C92** (backward step) -/
theorem C92_step_backward (A : Accurate R u η) (periodic : Bool) (dt kvf : Fl R) (g : GridInfo (m + 2) (Fl R))
    (F : Fluxes (m + 2) (n + 2) (Fl R)) (S0 S1 : States (m + 2) (n + 2) (Fl R))
    (mask : Arr (m + 2) (n + 2) (Fl R)) (out : BwdOutput (m + 2) (n + 2) (Fl R)) (P : K)
    (H : Sized u η V σ dt.val kvf.val (exactG g).a (exactF F) (exactS S0) (exactS S1) (exactA mask))
    (hout : BoundedBwd V P (exactG g).a (exactBwd out))
    (hpos : ∀ i j, 0 ≤ (out.s_track_lower i j).val ∧ 0 ≤ (out.s_track_upper i j).val) :
    let X := stabilizeFluxes dt g.a (scaleFluxes g F) S1
    let Y := stabilizeFluxes dt.val (exactG g).a (scaleFluxes (exactG g) (exactF F)) (exactS S1)
    CloseBwd (7280 * u * (1 + kvf.val) * V) (u * (P + 30 * V)) (u * (P + 19800 * (1 + kvf.val) * V)) (exactG g).a
      (exactBwd (backtrack periodic dt kvf g.a X (calculateFz g.a X S0 S1 dt kvf) S1 S0 mask out))
      (backtrack periodic dt.val kvf.val (exactG g).a Y
        (calculateFz (exactG g).a Y (exactS S0) (exactS S1) dt.val kvf.val) (exactS S1) (exactS S0)
        (exactA mask) (exactBwd out)) :=
  (bwd_close periodic A H out hout hpos).1

/-! ### Sums over the cells -/

theorem gap_le_cells (a : Fin (m + 2) → K) (ha : ∀ i, 0 < a i) {f g : Arr (m + 2) (n + 2) K} {ε : K}
    (h : ∀ i j, a i * |f i j - g i j| ≤ ε) : gap a f g ≤ (m + 2) * (n + 2) * ε := by
  unfold gap total
  calc _ ≤ ∑ i : Fin (m + 2), ∑ j : Fin (n + 2), ε :=
        Finset.sum_le_sum fun i _ => Finset.sum_le_sum fun j _ => h i j
    _ = _ := by
      simp only [Finset.sum_const, Finset.card_univ, Fintype.card_fin, nsmul_eq_mul]
      push_cast
      ring

theorem total_gap (a : Fin (m + 2) → K) (ha : ∀ i, 0 < a i) (f g : Arr (m + 2) (n + 2) K) :
    |total a f - total a g| ≤ gap a f g := by
  rw [← total_sub]
  unfold gap total
  refine (Finset.abs_sum_le_sum_abs _ _).trans (Finset.sum_le_sum fun i _ => ?_)
  refine (Finset.abs_sum_le_sum_abs _ _).trans (Finset.sum_le_sum fun j _ => ?_)
  rw [abs_mul, abs_of_pos (ha i)]

theorem gap_triangle (a : Fin (m + 2) → K) (ha : ∀ i, 0 < a i) (f g h : Arr (m + 2) (n + 2) K) :
    gap a f h ≤ gap a f g + gap a g h := by
  unfold gap
  rw [← total_add]
  exact total_le a ha fun i j => abs_sub_le _ _ _

theorem net_gap_fwd (a : Fin (m + 2) → K) (ha : ∀ i, 0 < a i) (x y : FwdOutput (m + 2) (n + 2) K) :
    |fwdNet a x + fwdBalance a x - (fwdNet a y + fwdBalance a y)| ≤
      fwdStorageGap a x y + fwdFateGap a x y + gap a x.tagged_evap y.tagged_evap + gap a x.gains y.gains := by
  have h1 := total_gap a ha x.s_track_lower y.s_track_lower
  have h2 := total_gap a ha x.s_track_upper y.s_track_upper
  have h3 := total_gap a ha x.p_track_lower y.p_track_lower
  have h4 := total_gap a ha x.p_track_upper y.p_track_upper
  have h5 := total_gap a ha x.losses y.losses
  have h6 := total_gap a ha x.tagged_evap y.tagged_evap
  have h7 := total_gap a ha x.gains y.gains
  simp only [fwdNet, fwdBalance, fwdStorageGap, fwdFateGap]
  rw [abs_le] at *
  constructor <;> linarith [h1.1, h1.2, h2.1, h2.2, h3.1, h3.2, h4.1, h4.2, h5.1, h5.2, h6.1, h6.2, h7.1, h7.2]

theorem net_gap_bwd (a : Fin (m + 2) → K) (ha : ∀ i, 0 < a i) (x y : BwdOutput (m + 2) (n + 2) K) :
    |bwdNet a x + bwdBalance a x - (bwdNet a y + bwdBalance a y)| ≤
      bwdStorageGap a x y + bwdFateGap a x y + gap a x.tagged_precip y.tagged_precip + gap a x.gains y.gains := by
  have h1 := total_gap a ha x.s_track_lower y.s_track_lower
  have h2 := total_gap a ha x.s_track_upper y.s_track_upper
  have h3 := total_gap a ha x.e_track y.e_track
  have h5 := total_gap a ha x.losses y.losses
  have h6 := total_gap a ha x.tagged_precip y.tagged_precip
  have h7 := total_gap a ha x.gains y.gains
  simp only [bwdNet, bwdBalance, bwdStorageGap, bwdFateGap]
  rw [abs_le] at *
  constructor <;> linarith [h1.1, h1.2, h2.1, h2.2, h3.1, h3.2, h5.1, h5.2, h6.1, h6.2, h7.1, h7.2]

theorem close_gap_fwd (a : Fin (m + 2) → K) (ha : ∀ i, 0 < a i) {x y : FwdOutput (m + 2) (n + 2) K}
    {ε₁ ε₂ ε₃ : K} (h : CloseFwd ε₁ ε₂ ε₃ a x y) :
    fwdStorageGap a x y + fwdFateGap a x y + gap a x.tagged_evap y.tagged_evap + gap a x.gains y.gains ≤
      (m + 2) * (n + 2) * (2 * ε₁ + 3 * ε₂ + 2 * ε₃) := by
  have h1 := gap_le_cells a ha fun i j => (h i j).1.1
  have h2 := gap_le_cells a ha fun i j => (h i j).1.2
  have h3 := gap_le_cells a ha fun i j => (h i j).2.1.1
  have h4 := gap_le_cells a ha fun i j => (h i j).2.1.2.1
  have h5 := gap_le_cells a ha fun i j => (h i j).2.1.2.2
  have h6 := gap_le_cells a ha fun i j => (h i j).2.2.1
  have h7 := gap_le_cells a ha fun i j => (h i j).2.2.2
  simp only [fwdStorageGap, fwdFateGap]
  linarith

theorem close_gap_bwd (a : Fin (m + 2) → K) (ha : ∀ i, 0 < a i) {x y : BwdOutput (m + 2) (n + 2) K}
    {ε₁ ε₂ ε₃ : K} (h : CloseBwd ε₁ ε₂ ε₃ a x y) :
    bwdStorageGap a x y + bwdFateGap a x y + gap a x.tagged_precip y.tagged_precip + gap a x.gains y.gains ≤
      (m + 2) * (n + 2) * (2 * ε₁ + 2 * ε₂ + 2 * ε₃) := by
  have h1 := gap_le_cells a ha fun i j => (h i j).1.1
  have h2 := gap_le_cells a ha fun i j => (h i j).1.2
  have h3 := gap_le_cells a ha fun i j => (h i j).2.1.1
  have h4 := gap_le_cells a ha fun i j => (h i j).2.1.2
  have h6 := gap_le_cells a ha fun i j => (h i j).2.2.1
  have h7 := gap_le_cells a ha fun i j => (h i j).2.2.2
  simp only [bwdStorageGap, bwdFateGap]
  linarith

/-! ### Runs -/

section run
variable {cfg : RunConfig (Fl R)} {src : Source m n (Fl R)} {inp : Input m n (Fl R)} {path : ℤ → P}

theorem SizedRun.V_nonneg {cfg : RunConfig K} {a : Fin (m + 2) → K} {inp : Input m n K}
    (H : SizedRun u η V σ cfg a inp) (h : cfg.tracking_start_date ≤ cfg.tracking_end_date) : 0 ≤ V := by
  refine le_trans ?_ (H.storage _ le_rfl h 0 0).1
  exact mul_nonneg (H.σ_pos.le.trans (H.wet _ le_rfl h 0 0).1) (zero_le_one.trans (H.area 0))

theorem SizedRun.area_pos {cfg : RunConfig K} {a : Fin (m + 2) → K} {inp : Input m n K}
    (H : SizedRun u η V σ cfg a inp) (i) : 0 < a i := lt_of_lt_of_le one_pos (H.area i)

/-- the state of a forward run in floats stays bounded -/
theorem fwd_trace (A : Accurate R u η) (hdt : R.rnd (cfg.timestep : K) = cfg.timestep)
    (h : Runnable cfg src inp) (H : SizedRun u η V σ (exactC cfg) (exactG src.grid).a (exactI inp))
    {M : ℕ} (hM : WritesWithinFwd cfg M) (hMu : (M : K) * u ≤ 1 / 2) (o : FwdOutput (m + 2) (n + 2) (Fl R))
    (h0 : BoundedFwd V 0 (exactG src.grid).a (exactFwd o))
    (h0' : ∀ i j, 0 ≤ (o.s_track_lower i j).val ∧ 0 ≤ (o.s_track_upper i j).val) (k : ℕ) (hk : k ≤ cfg.steps) :
    let x := (fwdProc cfg src.grid inp).out o k
    BoundedFwd V (144 * M * (1 + cfg.kvf.val) * V) (exactG src.grid).a (exactFwd x) ∧
    ∀ i j, 0 ≤ (x.s_track_lower i j).val ∧ 0 ≤ (x.s_track_upper i j).val := by
  intro x
  have hu := A.u_nonneg
  have hV := SizedRun.V_nonneg H h.ordered
  have hκ : 0 ≤ 1 + cfg.kvf.val := by have : 0 ≤ cfg.kvf.val := H.kvf_nonneg; linarith
  set c := 72 * (1 + cfg.kvf.val) * V with hc
  have hc0 : 0 ≤ c := by rw [hc]; exact mul_nonneg (mul_nonneg (by norm_num) hκ) hV
  set p := fwdProc cfg src.grid inp with hp
  have age : ∀ k ≤ cfg.steps, p.age k < M := fun k hk => p.age_lt (N := cfg.steps) (fun k hk => by
    obtain ⟨i, h1, h2, h3⟩ := hM k hk
    exact ⟨i, h1, h2, decide_eq_true h3⟩) hk
  have small : ∀ k ≤ cfg.steps, (p.age k : K) * u ≤ 1 / 2 := fun k hk =>
    (mul_le_mul_of_nonneg_right (by exact_mod_cast (age k hk).le) hu).trans hMu
  have mono : ∀ {P P' : K} {y : FwdOutput (m + 2) (n + 2) K}, P ≤ P' → BoundedFwd V P (exactG src.grid).a y →
      BoundedFwd V P' (exactG src.grid).a y := by
    intro P P' y hPP hy i j
    obtain ⟨h1, h2, h3, h4, h5, h6, h7⟩ := hy i j
    exact ⟨h1, h2, h3.trans hPP, h4.trans hPP, h5.trans hPP, h6.trans hPP, h7.trans hPP⟩
  have inv := p.out_inv_age o (fun s x => BoundedFwd V (accBound u c s) (exactG src.grid).a (exactFwd x) ∧
    ∀ i j, 0 ≤ (x.s_track_lower i j).val ∧ 0 ≤ (x.s_track_upper i j).val)
    ⟨mono (by simp [accBound]) h0, h0'⟩ cfg.steps (fun k hk x hx => by
      obtain ⟨_, h2, h3⟩ := fwdStepAt_close A hdt h H k hk x hx.1 hx.2
      exact ⟨mono (accBound_step hu hc0 (small k hk.le)) h2, h3⟩) (fun s x hx => by
      refine ⟨fun i j => ?_, hx.2⟩
      obtain ⟨h1, h2, _⟩ := hx.1 i j
      refine ⟨h1, h2, ?_⟩
      simp [accBound, hp, fwdProc, FwdOutput.flush, exactFwd, exactA])
  obtain ⟨h1, h2⟩ := inv k hk
  refine ⟨mono ?_ h1, h2⟩
  refine (accBound_le hu hc0 (age k hk).le hMu).trans (le_of_eq ?_)
  rw [hc]; ring

/-- the state of a backward run in floats stays bounded -/
theorem bwd_trace (A : Accurate R u η) (hdt : R.rnd (cfg.timestep : K) = cfg.timestep)
    (h : Runnable cfg src inp) (H : SizedRun u η V σ (exactC cfg) (exactG src.grid).a (exactI inp))
    {M : ℕ} (hM : WritesWithinBwd cfg M) (hMu : (M : K) * u ≤ 1 / 2) (o : BwdOutput (m + 2) (n + 2) (Fl R))
    (h0 : BoundedBwd V 0 (exactG src.grid).a (exactBwd o))
    (h0' : ∀ i j, 0 ≤ (o.s_track_lower i j).val ∧ 0 ≤ (o.s_track_upper i j).val) (k : ℕ) (hk : k ≤ cfg.steps) :
    let x := (bwdProc cfg src.grid inp).out o k
    BoundedBwd V (144 * M * (1 + cfg.kvf.val) * V) (exactG src.grid).a (exactBwd x) ∧
    ∀ i j, 0 ≤ (x.s_track_lower i j).val ∧ 0 ≤ (x.s_track_upper i j).val := by
  intro x
  have hu := A.u_nonneg
  have hV := SizedRun.V_nonneg H h.ordered
  have hκ : 0 ≤ 1 + cfg.kvf.val := by have : 0 ≤ cfg.kvf.val := H.kvf_nonneg; linarith
  set c := 72 * (1 + cfg.kvf.val) * V with hc
  have hc0 : 0 ≤ c := by rw [hc]; exact mul_nonneg (mul_nonneg (by norm_num) hκ) hV
  set p := bwdProc cfg src.grid inp with hp
  have age : ∀ k ≤ cfg.steps, p.age k < M := fun k hk => p.age_lt (N := cfg.steps) (fun k hk => by
    obtain ⟨i, h1, h2, h3⟩ := hM k hk
    exact ⟨i, h1, h2, decide_eq_true h3⟩) hk
  have small : ∀ k ≤ cfg.steps, (p.age k : K) * u ≤ 1 / 2 := fun k hk =>
    (mul_le_mul_of_nonneg_right (by exact_mod_cast (age k hk).le) hu).trans hMu
  have mono : ∀ {P P' : K} {y : BwdOutput (m + 2) (n + 2) K}, P ≤ P' → BoundedBwd V P (exactG src.grid).a y →
      BoundedBwd V P' (exactG src.grid).a y := by
    intro P P' y hPP hy i j
    obtain ⟨h1, h2, h3, h4, h6, h7⟩ := hy i j
    exact ⟨h1, h2, h3.trans hPP, h4.trans hPP, h6.trans hPP, h7.trans hPP⟩
  have inv := p.out_inv_age o (fun s x => BoundedBwd V (accBound u c s) (exactG src.grid).a (exactBwd x) ∧
    ∀ i j, 0 ≤ (x.s_track_lower i j).val ∧ 0 ≤ (x.s_track_upper i j).val)
    ⟨mono (by simp [accBound]) h0, h0'⟩ cfg.steps (fun k hk x hx => by
      obtain ⟨_, h2, h3⟩ := bwdStepAt_close A hdt h H k hk x hx.1 hx.2
      exact ⟨mono (accBound_step hu hc0 (small k hk.le)) h2, h3⟩) (fun s x hx => by
      refine ⟨fun i j => ?_, hx.2⟩
      obtain ⟨h1, h2, _⟩ := hx.1 i j
      refine ⟨h1, h2, ?_⟩
      simp [accBound, hp, bwdProc, BwdOutput.flush, exactBwd, exactA])
  obtain ⟨h1, h2⟩ := inv k hk
  refine ⟨mono ?_ h1, h2⟩
  refine (accBound_le hu hc0 (age k hk).le hMu).trans (le_of_eq ?_)
  rw [hc]; ring

theorem sumFiles_exact_fwdNet (a : Fin (m + 2) → K) (l : List (ℤ × FwdOutput (m + 2) (n + 2) (Fl R))) :
    sumFiles l (fun x => fwdNet a (exactFwd x)) =
      sumFiles l (fun f => total a (exactA f.p_track_lower) + total a (exactA f.p_track_upper))
      + sumFiles l (fun f => total a (exactA f.losses)) - sumFiles l (fun f => total a (exactA f.tagged_evap))
      - sumFiles l (fun f => total a (exactA f.gains)) := by
  induction l with
  | nil => simp [sumFiles]
  | cons x l ih =>
    simp only [sumFiles, List.map_cons, List.sum_cons] at ih ⊢
    rw [ih, fwdNet]; simp only [exactFwd]; ring

theorem sumFiles_exact_bwdNet (a : Fin (m + 2) → K) (l : List (ℤ × BwdOutput (m + 2) (n + 2) (Fl R))) :
    sumFiles l (fun x => bwdNet a (exactBwd x)) = sumFiles l (fun f => total a (exactA f.e_track))
      + sumFiles l (fun f => total a (exactA f.losses)) - sumFiles l (fun f => total a (exactA f.tagged_precip))
      - sumFiles l (fun f => total a (exactA f.gains)) := by
  induction l with
  | nil => simp [sumFiles]
  | cons x l ih =>
    simp only [sumFiles, List.map_cons, List.sum_cons] at ih ⊢
    rw [ih, bwdNet]; simp only [exactBwd]; ring

/-- nothing is left in the accumulated fields at the end of a run -/
theorem fwd_final_net {o : FwdOutput (m + 2) (n + 2) (Fl R)} (a : Fin (m + 2) → K)
    (ho : fwdNet a (exactFwd o) = 0) : fwdNet a (exactFwd ((fwdProc cfg src.grid inp).out o cfg.steps)) = 0 := by
  rcases hN : cfg.steps with _ | N
  · exact ho
  · have hw : (fwdProc cfg src.grid inp).write (N + 1) = true := by simp [fwdProc, writes, hN]
    simp only [Proc.out, hw, if_true]
    simp [fwdProc, FwdOutput.flush, exactFwd, exactA, fwdNet, total]

/-- one step of a forward run changes the budget by rounding only -/
theorem fwd_drift_step (A : Accurate R u η) (hdt : R.rnd (cfg.timestep : K) = cfg.timestep)
    (h : Runnable cfg src inp) (H : SizedRun u η V σ (exactC cfg) (exactG src.grid).a (exactI inp)) (k : ℕ)
    (hk : k < cfg.steps) (x : FwdOutput (m + 2) (n + 2) (Fl R)) {M : ℕ}
    (hx : BoundedFwd V (144 * M * (1 + cfg.kvf.val) * V) (exactG src.grid).a (exactFwd x))
    (hpos : ∀ i j, 0 ≤ (x.s_track_lower i j).val ∧ 0 ≤ (x.s_track_upper i j).val) :
    let z := fwdStepAt cfg src.grid inp (cfg.fwdTime k) x
    let y := fwdStepAt (exactC cfg) (exactG src.grid) (exactI inp) (cfg.fwdTime k) (exactFwd x)
    let a := (exactG src.grid).a
    fwdStorageGap a (exactFwd z) y + fwdFateGap a (exactFwd z) y +
        gap a (exactFwd z).tagged_evap y.tagged_evap + gap a (exactFwd z).gains y.gains ≤
      (m + 2) * (n + 2) * ((55000 + 720 * M) * u * (1 + cfg.kvf.val) * V) ∧
    fwdNet a y + fwdBalance a y = fwdNet a (exactFwd x) + fwdBalance a (exactFwd x) := by
  intro z y a
  have hu := A.u_nonneg
  have hV := SizedRun.V_nonneg H h.ordered
  have hκ : 0 ≤ cfg.kvf.val := H.kvf_nonneg
  have t0 := cfg.fwdTime_mem h.timestep_pos h.ordered k hk.le
  have ha := SizedRun.area_pos H
  obtain ⟨c, _, _⟩ := fwdStepAt_close A hdt h H k hk x hx hpos
  refine ⟨(close_gap_fwd a ha c).trans (mul_le_mul_of_nonneg_left ?_ (by positivity)), ?_⟩
  · have h1 : 0 ≤ u * V := mul_nonneg hu hV
    have h2 : 0 ≤ u * V * cfg.kvf.val := mul_nonneg h1 hκ
    nlinarith
  · exact fwd_net_step _ _ _ _ _ _ _ _ _ _ (fun i j =>
      ⟨H.σ_pos.trans_le (H.wet _ t0.1 t0.2 i j).1, H.σ_pos.trans_le (H.wet _ t0.1 t0.2 i j).2⟩) ha

/-- **C92** (forward run): the water budget of a whole run in floats (C27) closes up to rounding: what was in
the atmosphere at the start plus everything tagged and gained equals everything tracked and lost plus what is
in the atmosphere at the end, up to `(55000 + 720 M) u (1 + kvf) V` per cell and step, where `u` is the unit
roundoff, `V` the largest amount of water in a layer of a cell, and at most `M` steps pass between outputs. -/
theorem C92_run_budget_forward (A : Accurate R u η) (disk : P → Option (FwdOutput (m + 2) (n + 2) (Fl R)))
    (hdt : R.rnd (cfg.timestep : K) = cfg.timestep) (h : Runnable cfg src inp)
    (H : SizedRun u η V σ (exactC cfg) (exactG src.grid).a (exactI inp))
    (M : ℕ) (hM : WritesWithinFwd cfg M) (hMu : (M : K) * u ≤ 1 / 2)
    (hstart : ∀ i j, (0 ≤ ((startFwd cfg path disk).1 i j).val ∧
        ((startFwd cfg path disk).1 i j).val * (src.grid.a i).val ≤ V) ∧
      (0 ≤ ((startFwd cfg path disk).2 i j).val ∧ ((startFwd cfg path disk).2 i j).val * (src.grid.a i).val ≤ V))
    {s} (hs : EndsIn (fwdRun cfg src path disk) s) :
    let tot := fun f : Arr (m + 2) (n + 2) (Fl R) => total (fun i => (src.grid.a i).val) (fun i j => (f i j).val)
    let N := stepCount cfg.tracking_start_date cfg.tracking_end_date (cfg.timestep * 1000000)
    |tot (startFwd cfg path disk).1 + tot (startFwd cfg path disk).2
        + sumFiles s.files (fun f => tot f.tagged_evap) + sumFiles s.files (fun f => tot f.gains)
        - (sumFiles s.files (fun f => tot f.p_track_lower + tot f.p_track_upper)
          + sumFiles s.files (fun f => tot f.losses)
          + tot s.output.s_track_lower + tot s.output.s_track_upper)| ≤
      N * ((m + 2) * (n + 2) * ((55000 + 720 * M) * u * (1 + cfg.kvf.val) * V)) := by
  intro tot N
  obtain ⟨o, r, ho, rfl⟩ := fwd_ends cfg src inp path disk h hs
  have ho' := fwd_init_eq' cfg src Fl.ofRat_zero path disk o ho
  have ha := SizedRun.area_pos H
  have p0 : ∀ i j, 0 ≤ (o.s_track_lower i j).val ∧ 0 ≤ (o.s_track_upper i j).val := by
    intro i j; rw [ho']; exact ⟨(hstart i j).1.1, (hstart i j).2.1⟩
  have b0 : BoundedFwd V 0 (exactG src.grid).a (exactFwd o) := by
    intro i j
    rw [ho']
    refine ⟨?_, ?_, ?_⟩
    · simp only [exactFwd, exactA]
      rw [abs_of_nonneg (hstart i j).1.1]; exact (hstart i j).1.2
    · simp only [exactFwd, exactA]
      rw [abs_of_nonneg (hstart i j).2.1]; exact (hstart i j).2.2
    · simp [exactFwd, exactA, FwdOutput.zeros]
  have n0 : fwdNet (exactG src.grid).a (exactFwd o) = 0 := by
    rw [ho']; simp [exactFwd, exactA, FwdOutput.zeros, fwdNet, total]
  have key := (fwdProc cfg src.grid inp).drift o (fun x => fwdNet (exactG src.grid).a (exactFwd x))
    (fun x => fwdBalance (exactG src.grid).a (exactFwd x)) cfg.steps
    ((m + 2) * (n + 2) * ((55000 + 720 * M) * u * (1 + cfg.kvf.val) * V)) (fun k hk => by
      obtain ⟨t1, t2⟩ := fwd_trace A hdt h H hM hMu o b0 p0 k hk.le
      obtain ⟨d1, d2⟩ := fwd_drift_step A hdt h H k hk _ t1 t2
      rw [← d2]
      exact (net_gap_fwd _ ha _ _).trans d1) (fun x => by
      simp [fwdProc, FwdOutput.flush, exactFwd, exactA, fwdNet, fwdBalance, total]) cfg.steps le_rfl
  rw [fwd_final_net _ n0, n0] at key
  rw [sumFiles_exact_fwdNet] at key
  have e1 : fwdBalance (exactG src.grid).a (exactFwd o) =
      tot (startFwd cfg path disk).1 + tot (startFwd cfg path disk).2 := by rw [ho']; rfl
  rw [e1] at key
  rw [abs_sub_comm]
  generalize hfs : (fwdProc cfg src.grid inp).files o cfg.steps = fs at key
  generalize hou : (fwdProc cfg src.grid inp).out o cfg.steps = ou at key
  change |sumFiles fs (fun f => tot f.p_track_lower + tot f.p_track_upper) + sumFiles fs (fun f => tot f.losses) -
    sumFiles fs (fun f => tot f.tagged_evap) - sumFiles fs (fun f => tot f.gains) + 0 +
    (tot ou.s_track_lower + tot ou.s_track_upper) - _| ≤ _ at key
  simp only [fwdStateAt, hfs, hou]
  refine le_trans (le_of_eq ?_) key
  congr 1
  ring

/-- nothing is left in the accumulated fields at the end of a run -/
theorem bwd_final_net {o : BwdOutput (m + 2) (n + 2) (Fl R)} (a : Fin (m + 2) → K)
    (ho : bwdNet a (exactBwd o) = 0) : bwdNet a (exactBwd ((bwdProc cfg src.grid inp).out o cfg.steps)) = 0 := by
  rcases hN : cfg.steps with _ | N
  · exact ho
  · have hw : (bwdProc cfg src.grid inp).write (N + 1) = true := by simp [bwdProc, writes, hN]
    simp only [Proc.out, hw, if_true]
    simp [bwdProc, BwdOutput.flush, exactBwd, exactA, bwdNet, total]

/-- one step of a backward run changes the budget by rounding only -/
theorem bwd_drift_step (A : Accurate R u η) (hdt : R.rnd (cfg.timestep : K) = cfg.timestep)
    (h : Runnable cfg src inp) (H : SizedRun u η V σ (exactC cfg) (exactG src.grid).a (exactI inp)) (k : ℕ)
    (hk : k < cfg.steps) (x : BwdOutput (m + 2) (n + 2) (Fl R)) {M : ℕ}
    (hx : BoundedBwd V (144 * M * (1 + cfg.kvf.val) * V) (exactG src.grid).a (exactBwd x))
    (hpos : ∀ i j, 0 ≤ (x.s_track_lower i j).val ∧ 0 ≤ (x.s_track_upper i j).val) :
    let z := bwdStepAt cfg src.grid inp (cfg.bwdTime k) x
    let y := bwdStepAt (exactC cfg) (exactG src.grid) (exactI inp) (cfg.bwdTime k) (exactBwd x)
    let a := (exactG src.grid).a
    bwdStorageGap a (exactBwd z) y + bwdFateGap a (exactBwd z) y +
        gap a (exactBwd z).tagged_precip y.tagged_precip + gap a (exactBwd z).gains y.gains ≤
      (m + 2) * (n + 2) * ((55000 + 720 * M) * u * (1 + cfg.kvf.val) * V) ∧
    bwdNet a y + bwdBalance a y = bwdNet a (exactBwd x) + bwdBalance a (exactBwd x) := by
  intro z y a
  have hu := A.u_nonneg
  have hV := SizedRun.V_nonneg H h.ordered
  have hκ : 0 ≤ cfg.kvf.val := H.kvf_nonneg
  have t0 := cfg.bwdTime_mem h.timestep_pos h.ordered k hk.le
  have ha := SizedRun.area_pos H
  obtain ⟨c, _, _⟩ := bwdStepAt_close A hdt h H k hk x hx hpos
  refine ⟨(close_gap_bwd a ha c).trans (mul_le_mul_of_nonneg_left ?_ (by positivity)), ?_⟩
  · have h1 : 0 ≤ u * V := mul_nonneg hu hV
    have h2 : 0 ≤ u * V * cfg.kvf.val := mul_nonneg h1 hκ
    nlinarith
  · exact bwd_net_step _ _ _ _ _ _ _ _ _ _ (fun i j =>
      ⟨H.σ_pos.trans_le (H.wet _ t0.1 t0.2 i j).1, H.σ_pos.trans_le (H.wet _ t0.1 t0.2 i j).2⟩) ha

/-- **C92** (backward run): the water budget of a whole run in floats (C27) closes up to rounding: what was in
the atmosphere at the start plus everything tagged and gained equals everything tracked and lost plus what is
in the atmosphere at the end, up to `(55000 + 720 M) u (1 + kvf) V` per cell and step, where `u` is the unit
roundoff, `V` the largest amount of water in a layer of a cell, and at most `M` steps pass between outputs. -/
theorem C92_run_budget_backward (A : Accurate R u η) (disk : P → Option (BwdOutput (m + 2) (n + 2) (Fl R)))
    (hdt : R.rnd (cfg.timestep : K) = cfg.timestep) (h : Runnable cfg src inp)
    (H : SizedRun u η V σ (exactC cfg) (exactG src.grid).a (exactI inp))
    (M : ℕ) (hM : WritesWithinBwd cfg M) (hMu : (M : K) * u ≤ 1 / 2)
    (hstart : ∀ i j, (0 ≤ ((startBwd cfg path disk).1 i j).val ∧
        ((startBwd cfg path disk).1 i j).val * (src.grid.a i).val ≤ V) ∧
      (0 ≤ ((startBwd cfg path disk).2 i j).val ∧ ((startBwd cfg path disk).2 i j).val * (src.grid.a i).val ≤ V))
    {s} (hs : EndsIn (bwdRun cfg src path disk) s) :
    let tot := fun f : Arr (m + 2) (n + 2) (Fl R) => total (fun i => (src.grid.a i).val) (fun i j => (f i j).val)
    let N := stepCount cfg.tracking_start_date cfg.tracking_end_date (cfg.timestep * 1000000)
    |tot (startBwd cfg path disk).1 + tot (startBwd cfg path disk).2
        + sumFiles s.files (fun f => tot f.tagged_precip) + sumFiles s.files (fun f => tot f.gains)
        - (sumFiles s.files (fun f => tot f.e_track)
          + sumFiles s.files (fun f => tot f.losses)
          + tot s.output.s_track_lower + tot s.output.s_track_upper)| ≤
      N * ((m + 2) * (n + 2) * ((55000 + 720 * M) * u * (1 + cfg.kvf.val) * V)) := by
  intro tot N
  obtain ⟨o, r, ho, rfl⟩ := bwd_ends cfg src inp path disk h hs
  have ho' := bwd_init_eq' cfg src Fl.ofRat_zero path disk o ho
  have ha := SizedRun.area_pos H
  have p0 : ∀ i j, 0 ≤ (o.s_track_lower i j).val ∧ 0 ≤ (o.s_track_upper i j).val := by
    intro i j; rw [ho']; exact ⟨(hstart i j).1.1, (hstart i j).2.1⟩
  have b0 : BoundedBwd V 0 (exactG src.grid).a (exactBwd o) := by
    intro i j
    rw [ho']
    refine ⟨?_, ?_, ?_⟩
    · simp only [exactBwd, exactA]
      rw [abs_of_nonneg (hstart i j).1.1]; exact (hstart i j).1.2
    · simp only [exactBwd, exactA]
      rw [abs_of_nonneg (hstart i j).2.1]; exact (hstart i j).2.2
    · simp [exactBwd, exactA, BwdOutput.zeros]
  have n0 : bwdNet (exactG src.grid).a (exactBwd o) = 0 := by
    rw [ho']; simp [exactBwd, exactA, BwdOutput.zeros, bwdNet, total]
  have key := (bwdProc cfg src.grid inp).drift o (fun x => bwdNet (exactG src.grid).a (exactBwd x))
    (fun x => bwdBalance (exactG src.grid).a (exactBwd x)) cfg.steps
    ((m + 2) * (n + 2) * ((55000 + 720 * M) * u * (1 + cfg.kvf.val) * V)) (fun k hk => by
      obtain ⟨t1, t2⟩ := bwd_trace A hdt h H hM hMu o b0 p0 k hk.le
      obtain ⟨d1, d2⟩ := bwd_drift_step A hdt h H k hk _ t1 t2
      rw [← d2]
      exact (net_gap_bwd _ ha _ _).trans d1) (fun x => by
      simp [bwdProc, BwdOutput.flush, exactBwd, exactA, bwdNet, bwdBalance, total]) cfg.steps le_rfl
  rw [bwd_final_net _ n0, n0] at key
  rw [sumFiles_exact_bwdNet] at key
  have e1 : bwdBalance (exactG src.grid).a (exactBwd o) =
      tot (startBwd cfg path disk).1 + tot (startBwd cfg path disk).2 := by rw [ho']; rfl
  rw [e1] at key
  rw [abs_sub_comm]
  generalize hfs : (bwdProc cfg src.grid inp).files o cfg.steps = fs at key
  generalize hou : (bwdProc cfg src.grid inp).out o cfg.steps = ou at key
  change |sumFiles fs (fun f => tot f.e_track) + sumFiles fs (fun f => tot f.losses) -
    sumFiles fs (fun f => tot f.tagged_precip) - sumFiles fs (fun f => tot f.gains) + 0 +
    (tot ou.s_track_lower + tot ou.s_track_upper) - _| ≤ _ at key
  simp only [bwdStateAt, hfs, hou]
  refine le_trans (le_of_eq ?_) key
  congr 1
  ring

end run

end Wam
