import Verif.Lemmas.ApproxStep
import Verif.Props.Rounded

/-! Rounding errors of runs. -/

set_option linter.unusedSectionVars false
set_option linter.unusedVariables false

namespace Wam
open Spec

variable {K : Type*} [Field K] [LinearOrder K] [IsStrictOrderedRing K] {R : Rounding K} {u η V σ : K} {m n : ℕ}

/-! ### Age of the accumulated fields -/

namespace Proc
variable {ω : Type*} (p : Proc ω)

/-- number of steps since the last output -/
def age : ℕ → ℕ
  | 0 => 0
  | k + 1 => if p.write (k + 1) then 0 else age k + 1

theorem age_spec (k : ℕ) : p.age k ≤ k ∧ ∀ i, k - p.age k < i → i ≤ k → p.write i = false := by
  induction k with
  | zero => simp [age]; omega
  | succ k ih =>
    simp only [age]
    split
    · exact ⟨by omega, fun i h1 h2 => by omega⟩
    · rename_i h
      refine ⟨by omega, fun i h1 h2 => ?_⟩
      rcases Nat.lt_or_ge k i with h3 | h3
      · have : i = k + 1 := by omega
        rw [this]; simpa using h
      · exact ih.2 i (by omega) h3

theorem age_lt {N M : ℕ} (hM : ∀ k, k + M ≤ N → ∃ i, k < i ∧ i ≤ k + M ∧ p.write i = true) {k : ℕ} (hk : k ≤ N) :
    p.age k < M := by
  by_contra h
  obtain ⟨h1, h2⟩ := p.age_spec k
  obtain ⟨i, hi, hi', hw⟩ := hM (k - M) (by omega)
  rw [h2 i (by omega) (by omega)] at hw
  exact absurd hw (by simp)

/-- an invariant that may depend on the age -/
theorem out_inv_age (o : ω) (I : ℕ → ω → Prop) (h0 : I 0 o) (N : ℕ)
    (hs : ∀ k < N, ∀ x, I (p.age k) x → I (p.age k + 1) (p.step k x))
    (hf : ∀ s x, I s x → I 0 (p.flush x)) : ∀ k ≤ N, I (p.age k) (p.out o k) := by
  intro k hk
  induction k with
  | zero => exact h0
  | succ k ih =>
    have := hs k (by omega) _ (ih (by omega))
    simp only [out, age]
    split
    · exact hf _ _ this
    · exact this

/-- a budget that closes up to `δ` in every step -/
theorem drift (o : ω) (net bal : ω → K) (N : ℕ) (δ : K)
    (hs : ∀ k < N, |net (p.full o k) + bal (p.full o k) - (net (p.out o k) + bal (p.out o k))| ≤ δ)
    (hf : ∀ x, net (p.flush x) = 0 ∧ bal (p.flush x) = bal x) :
    ∀ k ≤ N, |sumFiles (p.files o k) net + net (p.out o k) + bal (p.out o k) - (net o + bal o)| ≤ k * δ := by
  intro k hk
  induction k with
  | zero => simp [sumFiles, files, out]
  | succ k ih =>
    have ih := ih (by omega)
    have hk' := hs k (by omega)
    have e : p.step k (p.out o k) = p.full o k := rfl
    have key : sumFiles (p.files o (k + 1)) net + net (p.out o (k + 1)) + bal (p.out o (k + 1)) =
        sumFiles (p.files o k) net + net (p.full o k) + bal (p.full o k) := by
      simp only [sumFiles, files, out]
      split
      · simp only [List.map_append, List.sum_append, List.map_cons, List.map_nil, List.sum_cons,
          List.sum_nil, (hf _).1, (hf _).2, e]
        ring
      · simp only [List.append_nil, e]
    rw [key]
    rw [abs_le] at *
    push_cast
    constructor <;> linarith [hk'.1, hk'.2, ih.1, ih.2]

/-- two processes on different data, step by step -/
theorem gap_files₂ {ω' : Type*} {q : Proc ω'} (o : ω) (o' : ω') (G B : ω → ω' → K) (N : ℕ) (δ : K)
    (hB : ∀ x y, 0 ≤ B x y)
    (hw : ∀ k, p.write k = q.write k) (ht : ∀ k, p.time k = q.time k)
    (hfG : ∀ x y, G (p.flush x) (q.flush y) = G x y)
    (hfB : ∀ x y, B (p.flush x) (q.flush y) = 0) (hδ : 0 ≤ δ)
    (hs : ∀ k < N, G (p.full o k) (q.full o' k) + B (p.full o k) (q.full o' k) ≤
      G (p.out o k) (q.out o' k) + B (p.out o k) (q.out o' k) + δ) :
    ∀ k ≤ N, (p.files o k).length = (q.files o' k).length ∧
      (G (p.out o k) (q.out o' k) + B (p.out o k) (q.out o' k) +
        (((p.files o k).zip (q.files o' k)).map fun x => B x.1.2 x.2.2).sum ≤ G o o' + B o o' + k * δ) ∧
      (∀ x ∈ (p.files o k).zip (q.files o' k), x.1.1 = x.2.1 ∧ G x.1.2 x.2.2 ≤ G o o' + B o o' + k * δ) := by
  intro k hk
  induction k with
  | zero => simp [Proc.out, Proc.files]
  | succ k ih =>
    obtain ⟨hl, ih, ih'⟩ := ih (by omega)
    have h := hs k (by omega)
    have hpos : 0 ≤ (((p.files o k).zip (q.files o' k)).map fun x => B x.1.2 x.2.2).sum :=
      List.sum_nonneg fun y hy => by
        obtain ⟨x, _, rfl⟩ := List.mem_map.1 hy
        exact hB _ _
    have old : ∀ x ∈ (p.files o k).zip (q.files o' k), x.1.1 = x.2.1 ∧
        G x.1.2 x.2.2 ≤ G o o' + B o o' + ((k + 1 : ℕ) : K) * δ := by
      intro x hx
      refine ⟨(ih' x hx).1, (ih' x hx).2.trans ?_⟩
      push_cast
      linarith
    simp only [Proc.out, Proc.files, ← hw]
    cases hwk : p.write (k + 1) with
    | false =>
      simp only [Bool.false_eq_true, if_false, List.append_nil]
      refine ⟨hl, ?_, old⟩
      simp only [Proc.full] at h
      push_cast
      linarith
    | true =>
      simp only [if_true]
      rw [List.zip_append hl]
      refine ⟨by simp [hl], ?_, ?_⟩
      · simp only [List.zip_cons_cons, List.zip_nil_right, List.map_append, List.sum_append, List.map_cons,
          List.map_nil, List.sum_cons, List.sum_nil]
        rw [hfG, hfB]
        simp only [Proc.full] at h ⊢
        push_cast
        linarith
      · intro x hx
        rcases List.mem_append.1 hx with hx | hx
        · exact old x hx
        · simp only [List.zip_cons_cons, List.zip_nil_right, List.mem_singleton] at hx
          subst hx
          refine ⟨ht _, ?_⟩
          have := hB (p.full o k) (q.full o' k)
          push_cast
          linarith

end Proc

/-! ### Accumulated fields stay moderate -/

/-- bound for an accumulated field after `s` steps -/
def accBound (u c : K) (s : ℕ) : K := s * c * (1 + 2 * s * u)

theorem accBound_step {c : K} (hu : 0 ≤ u) (hc : 0 ≤ c) {s : ℕ} (hs : (s : K) * u ≤ 1 / 2) :
    (1 + u) * accBound u c s + c ≤ accBound u c (s + 1) := by
  unfold accBound
  push_cast
  have h1 : 0 ≤ (s : K) * c * u := by positivity
  have h2 := mul_le_mul_of_nonneg_left hs h1
  have h3 : 0 ≤ c * u * (s + 1) := by positivity
  nlinarith

theorem accBound_le {c : K} (hu : 0 ≤ u) (hc : 0 ≤ c) {s M : ℕ} (hs : s ≤ M) (hM : (M : K) * u ≤ 1 / 2) :
    accBound u c s ≤ 2 * M * c := by
  unfold accBound
  have h0 : (s : K) ≤ M := by exact_mod_cast hs
  have h1 : (s : K) * u ≤ 1 / 2 := (mul_le_mul_of_nonneg_right h0 hu).trans hM
  have h2 : 0 ≤ (s : K) * c := by positivity
  calc (s : K) * c * (1 + 2 * s * u) ≤ s * c * 2 := mul_le_mul_of_nonneg_left (by linarith) h2
    _ ≤ _ := by nlinarith

/-! ### Steps of a run -/

theorem Fl.val_nonneg {x : Fl R} (h : 0 ≤ x) : 0 ≤ x.val := by simpa using (Fl.le_def _ _).1 h

section run
variable (cfg : RunConfig (Fl R)) (src : Source m n (Fl R)) (inp : Input m n (Fl R))

theorem exactA_maskAt (t : ℤ) : exactA (maskAt cfg inp t) = maskAt (exactC cfg) (exactI inp) t := by
  have h : inWindow (exactC cfg) t ↔ inWindow cfg t := Iff.rfl
  unfold maskAt
  by_cases hw : inWindow cfg t
  · rw [if_pos hw, if_pos (h.2 hw)]; rfl
  · rw [if_neg hw, if_neg (h.not.2 hw)]
    funext i j
    simp [exactA, ofRat_zero]

theorem maskAt_le_one {cfg : RunConfig K} {a : Fin (m + 2) → K} {inp : Input m n K}
    (H : SizedRun u η V σ cfg a inp) {t : ℤ} (h1 : cfg.tracking_start_date ≤ t) (h2 : t ≤ cfg.tracking_end_date)
    (i j) : |maskAt cfg inp t i j| ≤ 1 := by
  unfold maskAt
  split
  · exact H.region t h1 h2 i j
  · simp [ofRat_zero]

variable {cfg src inp}

/-- sizes of a step of a run -/
theorem SizedRun.at {cfg : RunConfig K} {a : Fin (m + 2) → K} {inp : Input m n K}
    (H : SizedRun u η V σ cfg a inp) (hpos : 0 < cfg.timestep) {t t' th tm : ℤ}
    (h1 : cfg.tracking_start_date ≤ t) (h2 : t ≤ cfg.tracking_end_date)
    (h3 : cfg.tracking_start_date ≤ t') (h4 : t' ≤ cfg.tracking_end_date)
    (h5 : cfg.tracking_start_date ≤ th) (h6 : th ≤ cfg.tracking_end_date)
    (h7 : cfg.tracking_start_date ≤ tm) (h8 : tm ≤ cfg.tracking_end_date) :
    Sized u η V σ (cfg.timestep : K) cfg.kvf a (inp.fluxes th) (inp.states t) (inp.states t')
      (maskAt cfg inp tm) :=
  { dt_pos := by exact_mod_cast hpos
    kvf_nonneg := H.kvf_nonneg
    area := H.area
    σ_pos := H.σ_pos
    σ_le := H.σ_le
    wet := fun i j => ⟨(H.wet t h1 h2 i j).1, (H.wet t h1 h2 i j).2, (H.wet t' h3 h4 i j).1, (H.wet t' h3 h4 i j).2⟩
    storage := fun i j => ⟨(H.storage t h1 h2 i j).1, (H.storage t h1 h2 i j).2, (H.storage t' h3 h4 i j).1,
      (H.storage t' h3 h4 i j).2⟩
    rain := H.rain th h5 h6
    evap := H.evap th h5 h6
    mask := maskAt_le_one H h7 h8
    tiny := H.tiny
    tiny' := H.tiny' }

/-- one step of a forward run, rounded and exact -/
theorem fwdStepAt_close (A : Accurate R u η) (hdt : R.rnd (cfg.timestep : K) = cfg.timestep)
    (h : Runnable cfg src inp) (H : SizedRun u η V σ (exactC cfg) (exactG src.grid).a (exactI inp)) (k : ℕ)
    (hk : k < cfg.steps) (x : FwdOutput (m + 2) (n + 2) (Fl R)) {P : K}
    (hx : BoundedFwd V P (exactG src.grid).a (exactFwd x))
    (hpos : ∀ i j, 0 ≤ (x.s_track_lower i j).val ∧ 0 ≤ (x.s_track_upper i j).val) :
    let z := fwdStepAt cfg src.grid inp (cfg.fwdTime k) x
    let κ := 1 + cfg.kvf.val
    CloseFwd (7280 * u * κ * V) (u * (P + 30 * V)) (u * (P + 19800 * κ * V)) (exactG src.grid).a (exactFwd z)
      (fwdStepAt (exactC cfg) (exactG src.grid) (exactI inp) (cfg.fwdTime k) (exactFwd x)) ∧
    BoundedFwd V ((1 + u) * P + 72 * κ * V) (exactG src.grid).a (exactFwd z) ∧
    ∀ i j, 0 ≤ (z.s_track_lower i j).val ∧ 0 ≤ (z.s_track_upper i j).val := by
  intro z κ
  have hts := h.timestep_pos
  have hAB := h.ordered
  have t0 := cfg.fwdTime_mem hts hAB k hk.le
  have t1 := cfg.fwdTime_mem hts hAB (k + 1) hk
  have th := cfg.fwdHalf_mem hts hAB k hk
  rw [cfg.fwdTime_succ] at t1
  have ed : (ofRat (cfg.timestep : ℚ) : Fl R).val = (cfg.timestep : K) := by
    show R.rnd ((cfg.timestep : ℚ) : K) = _
    rw [Rat.cast_intCast]; exact hdt
  have S := SizedRun.at H hts t0.1 t0.2 t1.1 t1.2 th.1 th.2 t0.1 t0.2
  rw [show ((exactC cfg).timestep : K) = (ofRat (cfg.timestep : ℚ) : Fl R).val from ed.symm,
    ← exactA_maskAt] at S
  have key := fwd_close (dt := ofRat cfg.timestep) (kvf := cfg.kvf) (g := src.grid)
    (F := inp.fluxes (cfg.fwdTime k + cfg.halfDt)) (S0 := inp.states (cfg.fwdTime k))
    (S1 := inp.states (cfg.fwdTime k + cfg.dt)) (mask := maskAt cfg inp (cfg.fwdTime k))
    cfg.periodic_boundary A S x hx hpos
  refine ⟨?_, key.2, ?_⟩
  · have k1 := key.1
    rw [ed] at k1
    rw [show fwdStepAt (exactC cfg) (exactG src.grid) (exactI inp) (cfg.fwdTime k) (exactFwd x) = _ by
      unfold fwdStepAt stableFluxes
      rw [ofRat_int, ← exactA_maskAt]]
    exact k1
  · intro i j
    have w := H.wet _ t1.1 t1.2
    have hσ := H.σ_pos
    have nn : ∀ i j, 0 ≤ (inp.states (cfg.fwdTime k + cfg.dt)).s_upper i j ∧
        0 ≤ (inp.states (cfg.fwdTime k + cfg.dt)).s_lower i j := fun i j =>
      ⟨(Fl.le_def _ _).2 (by rw [Fl.val_zero]; exact hσ.le.trans (w i j).1),
        (Fl.le_def _ _).2 (by rw [Fl.val_zero]; exact hσ.le.trans (w i j).2)⟩
    have b := C85_tracked_within_storage_forward cfg.periodic_boundary (ofRat cfg.timestep) cfg.kvf src.grid.a
      (stableFluxes cfg src.grid (inp.fluxes (cfg.fwdTime k + cfg.halfDt)) (inp.states (cfg.fwdTime k)))
      (calculateFz src.grid.a (stableFluxes cfg src.grid (inp.fluxes (cfg.fwdTime k + cfg.halfDt))
        (inp.states (cfg.fwdTime k))) (inp.states (cfg.fwdTime k)) (inp.states (cfg.fwdTime k + cfg.dt))
        (ofRat cfg.timestep) cfg.kvf)
      (inp.states (cfg.fwdTime k)) (inp.states (cfg.fwdTime k + cfg.dt)) (maskAt cfg inp (cfg.fwdTime k)) x nn i j
    exact ⟨Fl.val_nonneg b.1.1, Fl.val_nonneg b.2.1⟩

/-- one step of a backward run, rounded and exact -/
theorem bwdStepAt_close (A : Accurate R u η) (hdt : R.rnd (cfg.timestep : K) = cfg.timestep)
    (h : Runnable cfg src inp) (H : SizedRun u η V σ (exactC cfg) (exactG src.grid).a (exactI inp)) (k : ℕ)
    (hk : k < cfg.steps) (x : BwdOutput (m + 2) (n + 2) (Fl R)) {P : K}
    (hx : BoundedBwd V P (exactG src.grid).a (exactBwd x))
    (hpos : ∀ i j, 0 ≤ (x.s_track_lower i j).val ∧ 0 ≤ (x.s_track_upper i j).val) :
    let z := bwdStepAt cfg src.grid inp (cfg.bwdTime k) x
    let κ := 1 + cfg.kvf.val
    CloseBwd (7280 * u * κ * V) (u * (P + 30 * V)) (u * (P + 19800 * κ * V)) (exactG src.grid).a (exactBwd z)
      (bwdStepAt (exactC cfg) (exactG src.grid) (exactI inp) (cfg.bwdTime k) (exactBwd x)) ∧
    BoundedBwd V ((1 + u) * P + 72 * κ * V) (exactG src.grid).a (exactBwd z) ∧
    ∀ i j, 0 ≤ (z.s_track_lower i j).val ∧ 0 ≤ (z.s_track_upper i j).val := by
  intro z κ
  have hts := h.timestep_pos
  have hAB := h.ordered
  have t0 := cfg.bwdTime_mem hts hAB k hk.le
  have t1 := cfg.bwdTime_mem hts hAB (k + 1) hk
  have th := cfg.bwdHalf_mem hts hAB k hk
  rw [cfg.bwdTime_succ] at t1
  have ed : (ofRat (cfg.timestep : ℚ) : Fl R).val = (cfg.timestep : K) := by
    show R.rnd ((cfg.timestep : ℚ) : K) = _
    rw [Rat.cast_intCast]; exact hdt
  have S := SizedRun.at H hts t1.1 t1.2 t0.1 t0.2 th.1 th.2 t0.1 t0.2
  rw [show ((exactC cfg).timestep : K) = (ofRat (cfg.timestep : ℚ) : Fl R).val from ed.symm,
    ← exactA_maskAt] at S
  have key := bwd_close (dt := ofRat cfg.timestep) (kvf := cfg.kvf) (g := src.grid)
    (F := inp.fluxes (cfg.bwdTime k - cfg.halfDt)) (S0 := inp.states (cfg.bwdTime k - cfg.dt))
    (S1 := inp.states (cfg.bwdTime k)) (mask := maskAt cfg inp (cfg.bwdTime k))
    cfg.periodic_boundary A S x hx hpos
  refine ⟨?_, key.2, ?_⟩
  · have k1 := key.1
    rw [ed] at k1
    rw [show bwdStepAt (exactC cfg) (exactG src.grid) (exactI inp) (cfg.bwdTime k) (exactBwd x) = _ by
      unfold bwdStepAt stableFluxes
      rw [ofRat_int, ← exactA_maskAt]]
    exact k1
  · intro i j
    have w := H.wet _ t1.1 t1.2
    have hσ := H.σ_pos
    have nn : ∀ i j, 0 ≤ (inp.states (cfg.bwdTime k - cfg.dt)).s_upper i j ∧
        0 ≤ (inp.states (cfg.bwdTime k - cfg.dt)).s_lower i j := fun i j =>
      ⟨(Fl.le_def _ _).2 (by rw [Fl.val_zero]; exact hσ.le.trans (w i j).1),
        (Fl.le_def _ _).2 (by rw [Fl.val_zero]; exact hσ.le.trans (w i j).2)⟩
    have b := C85_tracked_within_storage_backward cfg.periodic_boundary (ofRat cfg.timestep) cfg.kvf src.grid.a
      (stableFluxes cfg src.grid (inp.fluxes (cfg.bwdTime k - cfg.halfDt)) (inp.states (cfg.bwdTime k)))
      (calculateFz src.grid.a (stableFluxes cfg src.grid (inp.fluxes (cfg.bwdTime k - cfg.halfDt))
        (inp.states (cfg.bwdTime k))) (inp.states (cfg.bwdTime k - cfg.dt)) (inp.states (cfg.bwdTime k))
        (ofRat cfg.timestep) cfg.kvf)
      (inp.states (cfg.bwdTime k - cfg.dt)) (inp.states (cfg.bwdTime k)) (maskAt cfg inp (cfg.bwdTime k)) x nn i j
    exact ⟨Fl.val_nonneg b.1.1, Fl.val_nonneg b.2.1⟩

end run

end Wam
