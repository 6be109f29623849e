import Verif.Props.Restart

/-!
# C33-C35: time bounds and progress reports
-/
set_option linter.unusedSectionVars false
set_option linter.unusedVariables false

namespace Wam
open Spec

namespace Proc
variable {ω : Type*} (p : Proc ω) (o : ω)

/-- a file and the files before it -/
theorem files_split (k : ℕ) (l l' : List (ℤ × ω)) (x : ℤ × ω) (h : p.files o k = l ++ x :: l') :
    ∃ b < k, p.write (b + 1) = true ∧ x = (p.time (b + 1), p.full o b) ∧ l = p.files o b := by
  induction k generalizing l' with
  | zero => simp [files] at h
  | succ k ih =>
    by_cases hw : p.write (k + 1) = true
    · simp only [files, hw, if_true] at h
      rcases List.eq_nil_or_concat l' with rfl | ⟨l'', z, rfl⟩
      · obtain ⟨h1, h2⟩ := List.append_inj' h rfl
        refine ⟨k, by omega, hw, ?_, h1.symm⟩
        simpa using h2.symm
      · have : p.files o k ++ [(p.time (k + 1), p.full o k)] = (l ++ x :: l'') ++ [z] := by
          rw [h]; simp
        obtain ⟨h1, h2⟩ := List.append_inj' this rfl
        obtain ⟨b, hb, e⟩ := ih l'' h1
        exact ⟨b, by omega, e⟩
    · simp only [files, hw, if_false, List.append_nil, Bool.false_eq_true] at h
      obtain ⟨b, hb, e⟩ := ih l' h
      exact ⟨b, by omega, e⟩

theorem files_length_mono (j k : ℕ) (h : j ≤ k) : (p.files o j).length ≤ (p.files o k).length :=
  (p.files_prefix o j k h).length_le

/-- nothing was written between two states with the same files -/
theorem no_write (j k : ℕ) (hjk : j ≤ k) (h : p.files o k = p.files o j) :
    ∀ i, j < i → i ≤ k → p.write i = false := by
  intro i h1 h2
  obtain ⟨i, rfl⟩ : ∃ i', i = i' + 1 := ⟨i - 1, by omega⟩
  by_contra hw
  have hw : p.write (i + 1) = true := by simpa using hw
  have e1 := p.files_length_mono o j i (by omega)
  have e2 := p.files_length_mono o (i + 1) k h2
  rw [h] at e2
  simp only [files, hw, if_true, List.length_append, List.length_singleton] at e2
  omega

/-- two files in a row -/
theorem files_consecutive (k : ℕ) (l l' : List (ℤ × ω)) (x y : ℤ × ω)
    (h : p.files o k = l ++ x :: y :: l') :
    ∃ a b, a < b ∧ b < k ∧ p.write (a + 1) = true ∧ p.write (b + 1) = true ∧
      x = (p.time (a + 1), p.full o a) ∧ y = (p.time (b + 1), p.full o b) ∧
      ∀ i, a + 1 < i → i ≤ b → p.write i = false := by
  obtain ⟨b, hb, hw, hy, hl⟩ := p.files_split o k (l ++ [x]) l' y (by rw [h]; simp)
  obtain ⟨a, ha, hw', hx, hf⟩ := p.files_getLast o b x (by rw [← hl]; simp)
  exact ⟨a, b, ha, hb, hw', hw, hx, hy, p.no_write o (a + 1) b (by omega) hf⟩

/-- the first file -/
theorem files_first (k : ℕ) (l' : List (ℤ × ω)) (y : ℤ × ω) (h : p.files o k = y :: l') :
    ∃ b < k, p.write (b + 1) = true ∧ y = (p.time (b + 1), p.full o b) ∧
      ∀ i, 0 < i → i ≤ b → p.write i = false := by
  obtain ⟨b, hb, hw, hy, hl⟩ := p.files_split o k [] l' y (by rw [h]; simp)
  exact ⟨b, hb, hw, hy, p.no_write o 0 b (by omega) (by rw [← hl]; rfl)⟩

/-- reports go with the files -/
theorem reports_split {τ ρ : Type*} (store : τ → ω → τ) (report : τ → ω → ρ) (tr : τ) (k : ℕ) :
    (p.reports o store report tr k).length = (p.files o k).length ∧
    ∀ l l' x, p.files o k = l ++ x :: l' → (p.reports o store report tr k)[l.length]? =
      some (x.1, report ((l.map Prod.snd).foldl store tr) x.2) := by
  induction k with
  | zero => simp [reports, files]
  | succ k ih =>
    obtain ⟨ih1, ih2⟩ := ih
    by_cases hw : p.write (k + 1) = true
    · simp only [reports, files, hw, if_true]
      refine ⟨by simp [ih1], ?_⟩
      intro l l' x h
      rcases List.eq_nil_or_concat l' with rfl | ⟨l'', z, rfl⟩
      · obtain ⟨h1, h2⟩ := List.append_inj' h rfl
        have h2 : (p.time (k + 1), p.full o k) = x := by simpa using h2
        rw [← h2, ← h1, List.getElem?_append_right (by rw [ih1]), ih1, Nat.sub_self,
          track_eq_foldl]
        rfl
      · have : p.files o k ++ [(p.time (k + 1), p.full o k)] = (l ++ x :: l'') ++ [z] := by
          rw [h]; simp
        obtain ⟨h1, h2⟩ := List.append_inj' this rfl
        rw [List.getElem?_append_left (by rw [ih1, h1]; simp)]
        exact ih2 l l'' x h1
    · simp only [reports, files, hw, if_false, Bool.false_eq_true, List.append_nil]
      exact ⟨ih1, ih2⟩

end Proc

variable {m n : ℕ} {K : Type*} [Field K] [LinearOrder K] [IsStrictOrderedRing K] {P : Type*}

/-! ### C33 -/

/-- multiples of `u` among the step times: the next one after a multiple is one `u` later, and if it
is not there yet, then less than `u` has passed -/
theorem next_multiple (dt u x : ℤ) (hdt : 0 < dt) (hu : 0 < u) (hdu : dt ∣ u) (hx : u ∣ x)
    (d : ℕ) (hd : 0 < d) (hn : ∀ i : ℕ, 0 < i → i < d → ¬ u ∣ x + i * dt) :
    d * dt ≤ u ∧ (u ∣ x + d * dt → d * dt = u) := by
  obtain ⟨q, rfl⟩ := hdu
  have hq : 0 < q := by
    by_contra h
    have : dt * q ≤ 0 := mul_nonpos_of_nonneg_of_nonpos hdt.le (by omega)
    omega
  obtain ⟨q, rfl⟩ := Int.eq_ofNat_of_zero_le hq.le
  have hqd : d ≤ q := by
    by_contra h
    refine hn q (by omega) (by omega) ?_
    rw [mul_comm (q : ℤ) dt]
    exact dvd_add hx (dvd_refl _)
  refine ⟨?_, ?_⟩
  · rw [mul_comm dt]; exact mul_le_mul_of_nonneg_right (by exact_mod_cast hqd) hdt.le
  · intro h
    have h1 : dt * q ∣ d * dt := (dvd_add_right hx).mp h
    have h2 := Int.le_of_dvd (by positivity) h1
    have : (q : ℤ) ≤ d := by
      rw [mul_comm dt] at h2; exact le_of_mul_le_mul_right h2 hdt
    have : d = q := by omega
    rw [this, mul_comm]


theorem fwd_time_lt (cfg : RunConfig K) (hdt : 0 < cfg.timestep) (i j : ℕ) :
    (cfg.fwdTime i < cfg.fwdTime j ↔ i < j) ∧ (cfg.fwdTime i ≤ cfg.fwdTime j ↔ i ≤ j) := by
  have hd := cfg.dt_pos hdt
  have key : ∀ i j : ℕ, cfg.fwdTime i ≤ cfg.fwdTime j ↔ i ≤ j := by
    intro i j
    unfold RunConfig.fwdTime
    constructor
    · intro h1
      have : (i : ℤ) * cfg.dt ≤ j * cfg.dt := by linarith
      exact_mod_cast le_of_mul_le_mul_right this hd
    · intro h1
      have : (i : ℤ) * cfg.dt ≤ j * cfg.dt :=
        mul_le_mul_of_nonneg_right (by exact_mod_cast h1) hd.le
      linarith
  refine ⟨?_, key i j⟩
  rw [← not_le, key, not_le]

/-- tagged water of the file of step `b + 1` when the last flush was at step `a` -/
theorem fwd_tagged_since (cfg : RunConfig K) (g : GridInfo (m + 2) K) (inp : Input m n K) (o)
    (a b N : ℕ) (hab : a ≤ b) (hbN : b < N) (hdt : 0 < cfg.timestep)
    (h0 : FwdOutput.acc ((fwdProc cfg g inp).out o a) = 0)
    (hn : ∀ i, a < i → i ≤ b → (fwdProc cfg g inp).write i = false) (i j) :
    let A := cfg.tracking_start_date
    let dt := cfg.timestep * 1000000
    ((fwdProc cfg g inp).full o b).tagged_evap i j =
      ∑ k ∈ (Finset.range N).filter (fun k : ℕ => (cfg.fwdTime a ≤ A + k * dt ∧ A + k * dt < cfg.fwdTime (b + 1)) ∧
          cfg.tagging_start_date ≤ A + k * dt ∧ A + k * dt ≤ cfg.tagging_end_date),
        inp.region (A + k * dt) i j * (inp.fluxes (A + k * dt + dt / 2)).evap i j * cfg.timestep := by
  intro A dt
  have key := congrFun (congrFun (congrFun ((fwd_linear cfg g inp).acc_full_since o a b h0 hab hn)
    2) i) j
  have hh : dt / 2 = cfg.halfDt := by
    have := cfg.dt_eq
    change dt = 2 * cfg.halfDt at this
    omega
  refine Eq.trans key ?_
  have hset : Finset.Ico a (b + 1) = (Finset.range N).filter
      (fun k : ℕ => cfg.fwdTime a ≤ A + k * dt ∧ A + k * dt < cfg.fwdTime (b + 1)) := by
    ext k
    simp only [Finset.mem_Ico, Finset.mem_filter, Finset.mem_range]
    have e1 := (fwd_time_lt cfg hdt a k).2
    have e2 := (fwd_time_lt cfg hdt k (b + 1)).1
    change _ ↔ k < N ∧ cfg.fwdTime a ≤ cfg.fwdTime k ∧ cfg.fwdTime k < cfg.fwdTime (b + 1)
    rw [e1, e2]
    omega
  rw [← Finset.filter_filter, ← hset, Finset.sum_filter]
  simp only [Finset.sum_apply]
  refine Finset.sum_congr rfl fun k _ => ?_
  have hz : ∀ k, ((fwdProc cfg g inp).coreAt FwdOutput.core o k).tagged_evap i j = 0 := by
    intro k; cases k <;> simp [Proc.coreAt, FwdOutput.core, FwdOutput.zeros, ofRat_zero]
  have e : (fwdProc cfg g inp).inc FwdOutput.core FwdOutput.acc o k 2 i j =
      maskAt cfg inp (cfg.fwdTime k) i j *
        (inp.fluxes (cfg.fwdTime k + cfg.halfDt)).evap i j * cfg.timestep := by
    show ((fwdProc cfg g inp).coreAt FwdOutput.core o k).tagged_evap i j +
      maskAt cfg inp (cfg.fwdTime k) i j *
        (inp.fluxes (cfg.fwdTime k + cfg.halfDt)).evap i j * ofRat cfg.timestep = _
    rw [hz, zero_add, ofRat_int]
  rw [e, hh]
  unfold maskAt
  by_cases hw : inWindow cfg (cfg.fwdTime k)
  · rw [if_pos hw]
    exact (if_pos (show cfg.tagging_start_date ≤ A + k * dt ∧ A + k * dt ≤ cfg.tagging_end_date
      from hw)).symm
  · rw [if_neg hw, ofRat_zero, zero_mul, zero_mul]
    exact (if_neg (show ¬ (cfg.tagging_start_date ≤ A + k * dt ∧ A + k * dt ≤ cfg.tagging_end_date)
      from hw)).symm

/-- **C33** (forward), what a file contains: the tagged water in the file at `T'` that follows the file
at `T` is what was tagged in the steps starting in `[T, T')`. -/
theorem C33_accumulation_forward (cfg : RunConfig K) (src : Source m n K) (inp : Input m n K)
    (path : ℤ → P) (disk : P → Option (FwdOutput (m + 2) (n + 2) K)) (h : Runnable cfg src inp)
    {s} (hs : EndsIn (fwdRun cfg src path disk) s) (l l' T T' f f')
    (hf : s.files = l ++ (T, f) :: (T', f') :: l') (i j) :
    let A := cfg.tracking_start_date
    let dt := cfg.timestep * 1000000
    let N := ((cfg.tracking_end_date - A) / dt).toNat
    f'.tagged_evap i j =
      ∑ k ∈ (Finset.range N).filter (fun k : ℕ => (T ≤ A + k * dt ∧ A + k * dt < T') ∧
          cfg.tagging_start_date ≤ A + k * dt ∧ A + k * dt ≤ cfg.tagging_end_date),
        inp.region (A + k * dt) i j * (inp.fluxes (A + k * dt + dt / 2)).evap i j * cfg.timestep := by
  intro A dt N
  obtain ⟨o, r, ho, rfl⟩ := fwd_ends cfg src inp path disk h hs
  obtain ⟨a, b, hab, hb, hw, hw', hx, hy, hn⟩ := Proc.files_consecutive _ _ _ _ _ _ _ hf
  obtain ⟨rfl, rfl⟩ := Prod.mk.inj hx
  obtain ⟨rfl, rfl⟩ := Prod.mk.inj hy
  exact fwd_tagged_since cfg src.grid inp o (a + 1) b cfg.steps (by omega) hb h.timestep_pos
    ((fwd_linear cfg src.grid inp).acc_out_of_write o a hw) hn i j

/-- **C33** (forward), what the first file contains: everything since the start of the run. -/
theorem C33_accumulation_first_forward (cfg : RunConfig K) (src : Source m n K) (inp : Input m n K)
    (path : ℤ → P) (disk : P → Option (FwdOutput (m + 2) (n + 2) K)) (h : Runnable cfg src inp)
    {s} (hs : EndsIn (fwdRun cfg src path disk) s) (l' T' f')
    (hf : s.files = (T', f') :: l') (i j) :
    let A := cfg.tracking_start_date
    let dt := cfg.timestep * 1000000
    let N := ((cfg.tracking_end_date - A) / dt).toNat
    f'.tagged_evap i j =
      ∑ k ∈ (Finset.range N).filter (fun k : ℕ => (A ≤ A + k * dt ∧ A + k * dt < T') ∧
          cfg.tagging_start_date ≤ A + k * dt ∧ A + k * dt ≤ cfg.tagging_end_date),
        inp.region (A + k * dt) i j * (inp.fluxes (A + k * dt + dt / 2)).evap i j * cfg.timestep := by
  intro A dt N
  obtain ⟨o, r, ho, rfl⟩ := fwd_ends cfg src inp path disk h hs
  obtain ⟨b, hb, hw', hy, hn⟩ := Proc.files_first _ _ _ _ _ hf
  obtain ⟨rfl, rfl⟩ := Prod.mk.inj hy
  have hacc : FwdOutput.acc o = 0 := (fwd_init_eq _ _ _ _ _ ho) ▸ fwd_acc_zeros _ _
  have e0 : cfg.fwdTime 0 = A := by simp [RunConfig.fwdTime, A]
  have := fwd_tagged_since cfg src.grid inp o 0 b cfg.steps (by omega) hb h.timestep_pos
    hacc hn i j
  rw [e0] at this
  exact this

/-- **C33** (forward), what `time_bnds` says.  `time_bnds` of the file at `T'` is `[T' - u, T']` with `u`
the output frequency.  Let `u` be a multiple of the time step, and `T` the time of the previous file
(or the start of the run).
* If `T` and `T'` are multiples of `u`, then `time_bnds` is exactly `[T, T']`, the period of
  accumulation: aligned outputs tile time without gap or overlap.
* In any case `time_bnds` is right iff one output frequency lies between `T` and `T'`.
* If `T` is a multiple of `u` but `T'` (then the last step) is not, `time_bnds` starts strictly before
  `T`: the periods of the last two files overlap. -/
theorem C33_time_bounds_forward (cfg : RunConfig K) (src : Source m n K) (inp : Input m n K)
    (path : ℤ → P) (disk : P → Option (FwdOutput (m + 2) (n + 2) K)) (h : Runnable cfg src inp)
    {s} (hs : EndsIn (fwdRun cfg src path disk) s) (T T' f')
    (hf : (∃ l f l', s.files = l ++ (T, f) :: (T', f') :: l') ∨
      (T = cfg.tracking_start_date ∧ ∃ l', s.files = (T', f') :: l')) :
    let u := cfg.output_frequency
    let bounds := timeBounds true T' u
    (bounds = (T, T') ↔ T' = T + u) ∧
    (0 < u → cfg.timestep * 1000000 ∣ u → u ∣ T → u ∣ T' → bounds = (T, T')) ∧
    (0 < u → cfg.timestep * 1000000 ∣ u → u ∣ T → ¬ u ∣ T' → bounds.1 < T ∧ bounds.2 = T') := by
  intro u bounds
  obtain ⟨o, r, ho, rfl⟩ := fwd_ends cfg src inp path disk h hs
  have hd := cfg.dt_pos h.timestep_pos
  obtain ⟨a, b, hab, rfl, rfl, hn⟩ : ∃ a b, a < b ∧ T = cfg.fwdTime a ∧ T' = cfg.fwdTime b ∧
      ∀ i, a < i → i < b → ¬ cfg.output_frequency ∣ cfg.fwdTime i := by
    rcases hf with ⟨l, f, l', hf⟩ | ⟨rfl, l', hf⟩
    · obtain ⟨a, b, hab, hb, hw, hw', hx, hy, hn⟩ := Proc.files_consecutive _ _ _ _ _ _ _ hf
      obtain ⟨rfl, rfl⟩ := Prod.mk.inj hx
      obtain ⟨rfl, rfl⟩ := Prod.mk.inj hy
      refine ⟨a + 1, b + 1, by omega, rfl, rfl, fun i h1 h2 => ?_⟩
      exact fun hc => of_decide_eq_false (hn i h1 (by omega)) (Or.inl hc)
    · obtain ⟨b, hb, hw', hy, hn⟩ := Proc.files_first _ _ _ _ _ hf
      obtain ⟨rfl, rfl⟩ := Prod.mk.inj hy
      refine ⟨0, b + 1, by omega, by simp [RunConfig.fwdTime], rfl, fun i h1 h2 => ?_⟩
      exact fun hc => of_decide_eq_false (hn i h1 (by omega)) (Or.inl hc)
  have hbd : bounds = (cfg.fwdTime b - u, cfg.fwdTime b) := by simp [bounds, timeBounds]
  obtain ⟨d, rfl⟩ := Nat.exists_eq_add_of_le hab.le
  have ht : cfg.fwdTime (a + d) = cfg.fwdTime a + d * cfg.dt := by
    unfold RunConfig.fwdTime; push_cast; ring
  have key : 0 < u → cfg.timestep * 1000000 ∣ u → u ∣ cfg.fwdTime a → d * cfg.dt ≤ u ∧
      (u ∣ cfg.fwdTime (a + d) → d * cfg.dt = u) := by
    intro hu hdu hx
    have := next_multiple cfg.dt u (cfg.fwdTime a) hd hu hdu (hx) d (by omega) (by
      intro i h1 h2 h3
      refine hn (a + i) (by omega) (by omega) ?_
      have e : cfg.fwdTime (a + i) = cfg.fwdTime a + i * cfg.dt := by
        unfold RunConfig.fwdTime; push_cast; ring
      rw [e]
      exact h3)
    refine ⟨this.1, fun h4 => this.2 ?_⟩
    rwa [ht] at h4
  refine ⟨?_, ?_, ?_⟩
  · rw [hbd, Prod.mk.injEq]
    constructor
    · rintro ⟨h1, _⟩; linarith
    · intro h1; exact ⟨by linarith, rfl⟩
  · intro hu hdu h1 h2
    have := (key hu hdu h1).2 h2
    rw [hbd, Prod.mk.injEq]
    exact ⟨by linarith, rfl⟩
  · intro hu hdu h1 h2
    have h3 := (key hu hdu h1).1
    have h4 : (d : ℤ) * cfg.dt ≠ u := by
      intro h5
      apply h2
      rw [ht, h5]
      exact dvd_add h1 (dvd_refl _)
    rw [hbd]
    refine ⟨?_, rfl⟩
    have : (d : ℤ) * cfg.dt < u := lt_of_le_of_ne h3 h4
    show cfg.fwdTime (a + d) - u < cfg.fwdTime a
    linarith

theorem bwd_time_lt (cfg : RunConfig K) (hdt : 0 < cfg.timestep) (i j : ℕ) :
    (cfg.bwdTime j < cfg.bwdTime i ↔ i < j) ∧ (cfg.bwdTime j ≤ cfg.bwdTime i ↔ i ≤ j) := by
  have hd := cfg.dt_pos hdt
  have key : ∀ i j : ℕ, cfg.bwdTime j ≤ cfg.bwdTime i ↔ i ≤ j := by
    intro i j
    unfold RunConfig.bwdTime
    constructor
    · intro h1
      have : (i : ℤ) * cfg.dt ≤ j * cfg.dt := by linarith
      exact_mod_cast le_of_mul_le_mul_right this hd
    · intro h1
      have : (i : ℤ) * cfg.dt ≤ j * cfg.dt :=
        mul_le_mul_of_nonneg_right (by exact_mod_cast h1) hd.le
      linarith
  refine ⟨?_, key i j⟩
  rw [← not_le, key, not_le]

/-- tagged water of the file of step `b + 1` when the last flush was at step `a` -/
theorem bwd_tagged_since (cfg : RunConfig K) (g : GridInfo (m + 2) K) (inp : Input m n K) (o)
    (a b N : ℕ) (hab : a ≤ b) (hbN : b < N) (hdt : 0 < cfg.timestep)
    (h0 : BwdOutput.acc ((bwdProc cfg g inp).out o a) = 0)
    (hn : ∀ i, a < i → i ≤ b → (bwdProc cfg g inp).write i = false) (i j) :
    let B := cfg.tracking_end_date
    let dt := cfg.timestep * 1000000
    ((bwdProc cfg g inp).full o b).tagged_precip i j =
      ∑ k ∈ (Finset.range N).filter (fun k : ℕ => (cfg.bwdTime (b + 1) < B - k * dt ∧ B - k * dt ≤ cfg.bwdTime a) ∧
          cfg.tagging_start_date ≤ B - k * dt ∧ B - k * dt ≤ cfg.tagging_end_date),
        inp.region (B - k * dt) i j * (inp.fluxes (B - k * dt - dt / 2)).precip i j * cfg.timestep := by
  intro B dt
  have key := congrFun (congrFun (congrFun ((bwd_linear cfg g inp).acc_full_since o a b h0 hab hn)
    1) i) j
  have hh : dt / 2 = cfg.halfDt := by
    have := cfg.dt_eq
    change dt = 2 * cfg.halfDt at this
    omega
  refine Eq.trans key ?_
  have hset : Finset.Ico a (b + 1) = (Finset.range N).filter
      (fun k : ℕ => cfg.bwdTime (b + 1) < B - k * dt ∧ B - k * dt ≤ cfg.bwdTime a) := by
    ext k
    simp only [Finset.mem_Ico, Finset.mem_filter, Finset.mem_range]
    have e1 := (bwd_time_lt cfg hdt a k).2
    have e2 := (bwd_time_lt cfg hdt k (b + 1)).1
    change _ ↔ k < N ∧ cfg.bwdTime (b + 1) < cfg.bwdTime k ∧ cfg.bwdTime k ≤ cfg.bwdTime a
    rw [e1, e2]
    omega
  rw [← Finset.filter_filter, ← hset, Finset.sum_filter]
  simp only [Finset.sum_apply]
  refine Finset.sum_congr rfl fun k _ => ?_
  have hz : ∀ k, ((bwdProc cfg g inp).coreAt BwdOutput.core o k).tagged_precip i j = 0 := by
    intro k; cases k <;> simp [Proc.coreAt, BwdOutput.core, BwdOutput.zeros, ofRat_zero]
  have e : (bwdProc cfg g inp).inc BwdOutput.core BwdOutput.acc o k 1 i j =
      maskAt cfg inp (cfg.bwdTime k) i j *
        (inp.fluxes (cfg.bwdTime k - cfg.halfDt)).precip i j * cfg.timestep := by
    show ((bwdProc cfg g inp).coreAt BwdOutput.core o k).tagged_precip i j +
      maskAt cfg inp (cfg.bwdTime k) i j *
        (inp.fluxes (cfg.bwdTime k - cfg.halfDt)).precip i j * ofRat cfg.timestep = _
    rw [hz, zero_add, ofRat_int]
  rw [e, hh]
  unfold maskAt
  by_cases hw : inWindow cfg (cfg.bwdTime k)
  · rw [if_pos hw]
    exact (if_pos (show cfg.tagging_start_date ≤ B - k * dt ∧ B - k * dt ≤ cfg.tagging_end_date
      from hw)).symm
  · rw [if_neg hw, ofRat_zero, zero_mul, zero_mul]
    exact (if_neg (show ¬ (cfg.tagging_start_date ≤ B - k * dt ∧ B - k * dt ≤ cfg.tagging_end_date)
      from hw)).symm

/-- **C33** (backward), what a file contains: the tagged water in the file at `T'` that follows the file
at `T` is what was tagged in the steps starting (backwards) in `(T', T]`. -/
theorem C33_accumulation_backward (cfg : RunConfig K) (src : Source m n K) (inp : Input m n K)
    (path : ℤ → P) (disk : P → Option (BwdOutput (m + 2) (n + 2) K)) (h : Runnable cfg src inp)
    {s} (hs : EndsIn (bwdRun cfg src path disk) s) (l l' T T' f f')
    (hf : s.files = l ++ (T, f) :: (T', f') :: l') (i j) :
    let B := cfg.tracking_end_date
    let dt := cfg.timestep * 1000000
    let N := ((B - cfg.tracking_start_date) / dt).toNat
    f'.tagged_precip i j =
      ∑ k ∈ (Finset.range N).filter (fun k : ℕ => (T' < B - k * dt ∧ B - k * dt ≤ T) ∧
          cfg.tagging_start_date ≤ B - k * dt ∧ B - k * dt ≤ cfg.tagging_end_date),
        inp.region (B - k * dt) i j * (inp.fluxes (B - k * dt - dt / 2)).precip i j * cfg.timestep := by
  intro B dt N
  obtain ⟨o, r, ho, rfl⟩ := bwd_ends cfg src inp path disk h hs
  obtain ⟨a, b, hab, hb, hw, hw', hx, hy, hn⟩ := Proc.files_consecutive _ _ _ _ _ _ _ hf
  obtain ⟨rfl, rfl⟩ := Prod.mk.inj hx
  obtain ⟨rfl, rfl⟩ := Prod.mk.inj hy
  exact bwd_tagged_since cfg src.grid inp o (a + 1) b cfg.steps (by omega) hb h.timestep_pos
    ((bwd_linear cfg src.grid inp).acc_out_of_write o a hw) hn i j

/-- **C33** (backward), what the first file contains: everything since the start of the run. -/
theorem C33_accumulation_first_backward (cfg : RunConfig K) (src : Source m n K) (inp : Input m n K)
    (path : ℤ → P) (disk : P → Option (BwdOutput (m + 2) (n + 2) K)) (h : Runnable cfg src inp)
    {s} (hs : EndsIn (bwdRun cfg src path disk) s) (l' T' f')
    (hf : s.files = (T', f') :: l') (i j) :
    let B := cfg.tracking_end_date
    let dt := cfg.timestep * 1000000
    let N := ((B - cfg.tracking_start_date) / dt).toNat
    f'.tagged_precip i j =
      ∑ k ∈ (Finset.range N).filter (fun k : ℕ => (T' < B - k * dt ∧ B - k * dt ≤ B) ∧
          cfg.tagging_start_date ≤ B - k * dt ∧ B - k * dt ≤ cfg.tagging_end_date),
        inp.region (B - k * dt) i j * (inp.fluxes (B - k * dt - dt / 2)).precip i j * cfg.timestep := by
  intro B dt N
  obtain ⟨o, r, ho, rfl⟩ := bwd_ends cfg src inp path disk h hs
  obtain ⟨b, hb, hw', hy, hn⟩ := Proc.files_first _ _ _ _ _ hf
  obtain ⟨rfl, rfl⟩ := Prod.mk.inj hy
  have hacc : BwdOutput.acc o = 0 := (bwd_init_eq _ _ _ _ _ ho) ▸ bwd_acc_zeros _ _
  have e0 : cfg.bwdTime 0 = B := by simp [RunConfig.bwdTime, B]
  have := bwd_tagged_since cfg src.grid inp o 0 b cfg.steps (by omega) hb h.timestep_pos
    hacc hn i j
  rw [e0] at this
  exact this

/-- **C33** (backward), what `time_bnds` says.  `time_bnds` of the file at `T'` is `[T' + u, T']` with `u`
the output frequency.  Let `u` be a multiple of the time step, and `T` the time of the previous file
(or the start of the run).
* If `T` and `T'` are multiples of `u`, then `time_bnds` is exactly `[T, T']`, the period of
  accumulation: aligned outputs tile time without gap or overlap.
* In any case `time_bnds` is right iff one output frequency lies between `T` and `T'`.
* If `T` is a multiple of `u` but `T'` (then the last step) is not, `time_bnds` starts strictly before
  `T`: the periods of the last two files overlap. -/
theorem C33_time_bounds_backward (cfg : RunConfig K) (src : Source m n K) (inp : Input m n K)
    (path : ℤ → P) (disk : P → Option (BwdOutput (m + 2) (n + 2) K)) (h : Runnable cfg src inp)
    {s} (hs : EndsIn (bwdRun cfg src path disk) s) (T T' f')
    (hf : (∃ l f l', s.files = l ++ (T, f) :: (T', f') :: l') ∨
      (T = cfg.tracking_end_date ∧ ∃ l', s.files = (T', f') :: l')) :
    let u := cfg.output_frequency
    let bounds := timeBounds false T' u
    (bounds = (T, T') ↔ T' = T - u) ∧
    (0 < u → cfg.timestep * 1000000 ∣ u → u ∣ T → u ∣ T' → bounds = (T, T')) ∧
    (0 < u → cfg.timestep * 1000000 ∣ u → u ∣ T → ¬ u ∣ T' → T < bounds.1 ∧ bounds.2 = T') := by
  intro u bounds
  obtain ⟨o, r, ho, rfl⟩ := bwd_ends cfg src inp path disk h hs
  have hd := cfg.dt_pos h.timestep_pos
  obtain ⟨a, b, hab, rfl, rfl, hn⟩ : ∃ a b, a < b ∧ T = cfg.bwdTime a ∧ T' = cfg.bwdTime b ∧
      ∀ i, a < i → i < b → ¬ cfg.output_frequency ∣ cfg.bwdTime i := by
    rcases hf with ⟨l, f, l', hf⟩ | ⟨rfl, l', hf⟩
    · obtain ⟨a, b, hab, hb, hw, hw', hx, hy, hn⟩ := Proc.files_consecutive _ _ _ _ _ _ _ hf
      obtain ⟨rfl, rfl⟩ := Prod.mk.inj hx
      obtain ⟨rfl, rfl⟩ := Prod.mk.inj hy
      refine ⟨a + 1, b + 1, by omega, rfl, rfl, fun i h1 h2 => ?_⟩
      exact fun hc => of_decide_eq_false (hn i h1 (by omega)) (Or.inl hc)
    · obtain ⟨b, hb, hw', hy, hn⟩ := Proc.files_first _ _ _ _ _ hf
      obtain ⟨rfl, rfl⟩ := Prod.mk.inj hy
      refine ⟨0, b + 1, by omega, by simp [RunConfig.bwdTime], rfl, fun i h1 h2 => ?_⟩
      exact fun hc => of_decide_eq_false (hn i h1 (by omega)) (Or.inl hc)
  have hbd : bounds = (cfg.bwdTime b + u, cfg.bwdTime b) := by simp [bounds, timeBounds]
  obtain ⟨d, rfl⟩ := Nat.exists_eq_add_of_le hab.le
  have ht : cfg.bwdTime (a + d) = cfg.bwdTime a - d * cfg.dt := by
    unfold RunConfig.bwdTime; push_cast; ring
  have key : 0 < u → cfg.timestep * 1000000 ∣ u → u ∣ cfg.bwdTime a → d * cfg.dt ≤ u ∧
      (u ∣ cfg.bwdTime (a + d) → d * cfg.dt = u) := by
    intro hu hdu hx
    have := next_multiple cfg.dt u (-cfg.bwdTime a) hd hu hdu ((dvd_neg).mpr hx) d (by omega) (by
      intro i h1 h2 h3
      refine hn (a + i) (by omega) (by omega) ?_
      have e : cfg.bwdTime (a + i) = cfg.bwdTime a - i * cfg.dt := by
        unfold RunConfig.bwdTime; push_cast; ring
      rw [e]
      have := (dvd_neg).mpr h3; rwa [neg_add, neg_neg, ← sub_eq_add_neg] at this)
    refine ⟨this.1, fun h4 => this.2 ?_⟩
    rw [ht] at h4; have := (dvd_neg).mpr h4; rwa [neg_sub, sub_eq_add_neg, add_comm] at this
  refine ⟨?_, ?_, ?_⟩
  · rw [hbd, Prod.mk.injEq]
    constructor
    · rintro ⟨h1, _⟩; linarith
    · intro h1; exact ⟨by linarith, rfl⟩
  · intro hu hdu h1 h2
    have := (key hu hdu h1).2 h2
    rw [hbd, Prod.mk.injEq]
    exact ⟨by linarith, rfl⟩
  · intro hu hdu h1 h2
    have h3 := (key hu hdu h1).1
    have h4 : (d : ℤ) * cfg.dt ≠ u := by
      intro h5
      apply h2
      rw [ht, h5]
      exact dvd_sub h1 (dvd_refl _)
    rw [hbd]
    refine ⟨?_, rfl⟩
    have : (d : ℤ) * cfg.dt < u := lt_of_le_of_ne h3 h4
    show cfg.bwdTime a < cfg.bwdTime (a + d) + u
    linarith

/-! ### C34: totals in the progress reports -/

instance (periodic : Bool) (i : Fin m) (j : Fin n) : Decidable (isBoundary periodic i j) :=
  inferInstanceAs (Decidable (_ ∨ _ ∨ (_ ∧ _)))

/-- a field on the boundary cells only -/
def Spec.onBoundary (periodic : Bool) (f : Arr (m + 2) (n + 2) K) : Arr (m + 2) (n + 2) K :=
  fun i j => if isBoundary periodic i j then f i j else 0

/-- a field on the interior cells only -/
def Spec.onInterior (periodic : Bool) (f : Arr (m + 2) (n + 2) K) : Arr (m + 2) (n + 2) K :=
  fun i j => if isBoundary periodic i j then 0 else f i j

theorem weightedTotal_eq (w : Fin (m + 2) → K) (f : Arr (m + 2) (n + 2) K) :
    weightedTotal w f = total w f := by
  simp only [weightedTotal, npSum_eq, total, mul_comm]

theorem total_split (periodic : Bool) (w : Fin (m + 2) → K) (f : Arr (m + 2) (n + 2) K) :
    total w f = total w (onInterior periodic f) + total w (onBoundary periodic f) := by
  simp only [total, ← Finset.sum_add_distrib]
  refine Finset.sum_congr rfl fun i _ => Finset.sum_congr rfl fun j _ => ?_
  unfold onInterior onBoundary
  split <;> simp

theorem sum_inner {q : ℕ} (g : Fin (q + 2) → K) (h0 : g 0 = 0) (h1 : g (Fin.last _) = 0) :
    ∑ i, g i = ∑ i : Fin q, g i.castSucc.succ := by
  rw [Fin.sum_univ_succ, h0, zero_add, Fin.sum_univ_castSucc]
  have : g (Fin.last q).succ = 0 := by rw [Fin.succ_last]; exact h1
  rw [this, add_zero]

theorem interiorTotal_eq (periodic : Bool) (w : Fin (m + 2) → K) (f : Arr (m + 2) (n + 2) K) :
    interiorTotal periodic w f = total w (onInterior periodic f) := by
  have hrow : ∀ g : Fin (m + 2) → Fin (n + 2) → K,
      (∀ j, g 0 j = 0) → (∀ j, g (Fin.last _) j = 0) →
      ∑ i, ∑ j, g i j = ∑ i : Fin m, ∑ j, g i.castSucc.succ j := fun g h0 h1 =>
    sum_inner (fun i => ∑ j, g i j) (Finset.sum_eq_zero fun j _ => h0 j)
      (Finset.sum_eq_zero fun j _ => h1 j)
  unfold interiorTotal total
  rw [hrow (fun i j => w i * onInterior periodic f i j)
    (fun j => by simp [onInterior, isBoundary]) (fun j => by simp [onInterior, isBoundary])]
  cases periodic with
  | true =>
    simp only [if_true, npSum_eq, Arr.rowsInner]
    refine Finset.sum_congr rfl fun i _ => Finset.sum_congr rfl fun j _ => ?_
    have : ¬ isBoundary true i.castSucc.succ j := by
      simp [isBoundary]; omega
    simp [onInterior, this, mul_comm]
  | false =>
    simp only [Bool.false_eq_true, if_false, npSum_eq, Arr.rowsInner, Arr.colsInner]
    refine Finset.sum_congr rfl fun i _ => ?_
    rw [sum_inner]
    · refine Finset.sum_congr rfl fun j _ => ?_
      have : ¬ isBoundary false i.castSucc.succ j.castSucc.succ := by
        simp [isBoundary]; omega
      simp [onInterior, this, mul_comm]
    · simp [onInterior, isBoundary]
    · simp [onInterior, isBoundary]

theorem sumFiles_append {ω : Type*} (l l' : List (ℤ × ω)) (q : ω → K) :
    sumFiles (l ++ l') q = sumFiles l q + sumFiles l' q := by
  simp [sumFiles]

theorem sumFiles_single {ω : Type*} (T : ℤ) (f : ω) (q : ω → K) : sumFiles [(T, f)] q = q f := by
  simp [sumFiles]

theorem total_zero (w : Fin (m + 2) → K) : total w (fun (_ : Fin (m + 2)) (_ : Fin (n + 2)) => (0 : K)) = 0 := by
  simp [total]

theorem onInterior_zero (periodic : Bool) :
    onInterior periodic (fun (_ : Fin (m + 2)) (_ : Fin (n + 2)) => (0 : K)) = fun _ _ => 0 := by
  funext i j; simp [onInterior]

theorem add_div_mul4 (a b c d t z : K) : (a + b + c + d) / t * z =
    a / t * z + b / t * z + c / t * z + d / t * z := by ring

theorem fwd_tracker_totals (periodic : Bool) (w : Fin (m + 2) → K) (tr : Tracker K)
    (l : List (ℤ × FwdOutput (m + 2) (n + 2) K)) :
    let t := (l.map Prod.snd).foldl (fun tr x => Tracker.storeFwd periodic w tr x) tr
    t.tracked = tr.tracked + sumFiles l (fun f => (total w f.p_track_lower + total w f.p_track_upper)) ∧
    t.total_tagged_moisture = tr.total_tagged_moisture + sumFiles l (fun f => total w f.tagged_evap) ∧
    t.lost_water = tr.lost_water + sumFiles l (fun f => total w (onInterior periodic f.losses)) ∧
    t.boundary_transport = tr.boundary_transport +
      sumFiles l (fun f => total w (onBoundary periodic f.losses)) ∧
    t.gained_water = tr.gained_water + sumFiles l (fun f => total w f.gains) := by
  induction l generalizing tr with
  | nil => simp [sumFiles]
  | cons x l ih =>
    intro t
    obtain ⟨h1, h2, h3, h4, h5⟩ := ih (Tracker.storeFwd periodic w tr x.2)
    have e : ∀ q : FwdOutput (m + 2) (n + 2) K → K, sumFiles (x :: l) q = q x.2 + sumFiles l q := by
      intro q; simp [sumFiles]
    have hb : weightedTotal w x.2.losses - interiorTotal periodic w x.2.losses =
        total w (onBoundary periodic x.2.losses) := by
      rw [weightedTotal_eq, interiorTotal_eq, total_split periodic]; ring
    refine ⟨?_, ?_, ?_, ?_, ?_⟩
    · refine h1.trans ?_
      rw [e, ← add_assoc]; congr 1
      simp only [Tracker.storeFwd, weightedTotal_eq]
    · refine h2.trans ?_
      rw [e, ← add_assoc]; congr 1
      simp only [Tracker.storeFwd, weightedTotal_eq]
    · refine h3.trans ?_
      rw [e, ← add_assoc]; congr 1
      simp only [Tracker.storeFwd, interiorTotal_eq]
    · refine h4.trans ?_
      rw [e, ← add_assoc]; congr 1
      simp only [Tracker.storeFwd, hb]
    · refine h5.trans ?_
      rw [e, ← add_assoc]; congr 1
      simp only [Tracker.storeFwd, weightedTotal_eq]

/-- **C34** (forward): with every file goes one report, and the numbers in the report that accompanies the
file at `T` are percentages of all tagged moisture up to then: the totals (weighted with the
cosine of latitude) over all files written so far, this one included, of tracked, gained and
lost water - lost in the interior and lost across the boundary, which together are all losses -
and the tracked water in the atmosphere at `T`. -/
theorem C34_report_totals_forward (cfg : RunConfig K) (src : Source m n K) (inp : Input m n K)
    (path : ℤ → P) (disk : P → Option (FwdOutput (m + 2) (n + 2) K)) (h : Runnable cfg src inp)
    {s} (hs : EndsIn (fwdRun cfg src path disk) s) :
    s.reports.length = s.files.length ∧
    ∀ l T f l', s.files = l ++ (T, f) :: l' → ∃ rep, s.reports[l.length]? = some (T, rep) ∧
      let w := src.weight
      let sofar := l ++ [(T, f)]
      let tagged := sumFiles sofar (fun f => total w f.tagged_evap)
      rep.tracked_percentage = sumFiles sofar (fun f => (total w f.p_track_lower + total w f.p_track_upper)) / tagged * 100 ∧
      rep.in_atmos_percentage = (total w f.s_track_upper + total w f.s_track_lower) / tagged * 100 ∧
      rep.lost_percentage =
        sumFiles sofar (fun f => total w (onInterior cfg.periodic_boundary f.losses)) / tagged * 100 ∧
      rep.boundary_percentage =
        sumFiles sofar (fun f => total w (onBoundary cfg.periodic_boundary f.losses)) / tagged * 100 ∧
      rep.lost_percentage + rep.boundary_percentage =
        sumFiles sofar (fun f => total w f.losses) / tagged * 100 ∧
      rep.gained_percentage = sumFiles sofar (fun f => total w f.gains) / tagged * 100 ∧
      rep.closure_check_percentage = rep.tracked_percentage + rep.in_atmos_percentage +
        rep.lost_percentage + rep.gained_percentage + rep.boundary_percentage := by
  obtain ⟨o, r, ho, rfl⟩ := fwd_ends cfg src inp path disk h hs
  have hacc := fwd_init_eq _ _ _ _ _ ho
  set store := fun tr x => Tracker.storeFwd (m := m) (n := n) cfg.periodic_boundary src.weight tr x
    with hstore
  set report := fun tr x => Tracker.reportFwd (m := m) (n := n) cfg.periodic_boundary src.weight tr x
    with hreport
  obtain ⟨k1, k2⟩ := Proc.reports_split (fwdProc cfg src.grid inp) o store report
    (store Tracker.zero o) cfg.steps
  refine ⟨k1, ?_⟩
  intro l T f l' hf
  refine ⟨_, k2 l l' (T, f) hf, ?_⟩
  intro w sofar tagged
  set tr := (l.map Prod.snd).foldl store (store Tracker.zero o) with htr
  have hz : (store Tracker.zero o).tracked = 0 ∧ (store Tracker.zero o).total_tagged_moisture = 0 ∧
      (store Tracker.zero o).lost_water = 0 ∧ (store Tracker.zero o).boundary_transport = 0 ∧
      (store Tracker.zero o).gained_water = 0 := by
    simp only [hstore, Tracker.storeFwd, Tracker.zero, weightedTotal_eq, interiorTotal_eq, hacc,
      FwdOutput.zeros, ofRat_zero, total_zero, onInterior_zero]
    simp
  obtain ⟨z1, z2, z3, z4, z5⟩ := hz
  obtain ⟨t1, t2, t3, t4, t5⟩ := fwd_tracker_totals cfg.periodic_boundary w (store Tracker.zero o) l
  rw [← hstore, ← htr] at t1 t2 t3 t4 t5
  rw [z1, zero_add] at t1
  rw [z2, zero_add] at t2
  rw [z3, zero_add] at t3
  rw [z4, zero_add] at t4
  rw [z5, zero_add] at t5
  have hb : total src.weight f.losses - total src.weight (onInterior cfg.periodic_boundary f.losses) =
      total src.weight (onBoundary cfg.periodic_boundary f.losses) := by
    rw [total_split cfg.periodic_boundary]; ring
  have h100 : (ofRat 100 : K) = 100 := by simp [NpOps.ofRat]
  have hs : ∀ q : FwdOutput (m + 2) (n + 2) K → K, sumFiles sofar q = sumFiles l q + q f := by
    intro q; simp only [sofar, sumFiles_append, sumFiles_single]
  have htag : tr.total_tagged_moisture + total src.weight f.tagged_evap = tagged := by
    rw [t2]; exact (hs _).symm
  simp only [hreport, Tracker.reportFwd, mkReport, h100, t1, t3, t4, t5, hs,
    interiorTotal_eq, weightedTotal_eq, hb, htag]
  refine ⟨?_, rfl, rfl, rfl, ?_, rfl, trivial⟩
  · congr 2; exact add_right_comm _ _ _ |>.trans (add_assoc _ _ _)
  · have : ∀ g : FwdOutput (m + 2) (n + 2) K, total w g.losses = total w (onInterior cfg.periodic_boundary g.losses) +
        total w (onBoundary cfg.periodic_boundary g.losses) := fun g => total_split _ _ _
    have e : sumFiles l (fun f => total w f.losses) =
        sumFiles l (fun f => total w (onInterior cfg.periodic_boundary f.losses)) +
        sumFiles l (fun f => total w (onBoundary cfg.periodic_boundary f.losses)) := by
      unfold sumFiles
      rw [← List.sum_map_add]
      simp only [this]
    rw [e, this f]
    ring

/-- **C35** (forward).  Intended: the reported tagging closure is 100 %.  Actual: if the weights are
proportional to the cell areas, then the closure reported with the file at `T` is
`100 * (tagged + initial storage + 2 * gains) / tagged`, because gained water is added where it
should be subtracted (and because storage from a restart file is not counted). -/
theorem C35_closure_forward (cfg : RunConfig K) (src : Source m n K) (inp : Input m n K)
    (path : ℤ → P) (disk : P → Option (FwdOutput (m + 2) (n + 2) K)) (h : Runnable cfg src inp)
    (hw : ∀ t, cfg.tracking_start_date ≤ t → t ≤ cfg.tracking_end_date → Wet (inp.states t))
    (ha : ∀ i, 0 < src.grid.a i) (c : K) (hc : ∀ i, src.weight i = c * src.grid.a i)
    {s} (hs : EndsIn (fwdRun cfg src path disk) s) (l T f l')
    (hf : s.files = l ++ (T, f) :: l') (rep) (hrep : s.reports[l.length]? = some (T, rep)) :
    let tot := total (n := n) src.weight
    let sofar := l ++ [(T, f)]
    let tagged := sumFiles sofar (fun f => tot f.tagged_evap)
    rep.closure_check_percentage = 100 * (tagged + (tot (startFwd cfg path disk).1 +
      tot (startFwd cfg path disk).2) + 2 * sumFiles sofar (fun f => tot f.gains)) / tagged := by
  intro tot sofar tagged
  obtain ⟨_, hrp⟩ := C34_report_totals_forward cfg src inp path disk h hs
  obtain ⟨rep', hr1, e1, e2, e3, e4, e5, e6, e7⟩ := hrp l T f l' hf
  rw [hrep] at hr1
  obtain rfl : rep = rep' := by simpa using hr1
  have e7' : rep.closure_check_percentage = rep.tracked_percentage + rep.in_atmos_percentage +
      (rep.lost_percentage + rep.boundary_percentage) + rep.gained_percentage := by rw [e7]; ring
  rw [e7', e1, e2, e5, e6]
  obtain ⟨o, r, ho, rfl⟩ := fwd_ends cfg src inp path disk h hs
  have ho' := fwd_init_eq cfg src path disk o ho
  have hacc : FwdOutput.acc o = 0 := ho' ▸ fwd_acc_zeros _ _
  obtain ⟨b, hb, hwb, hx, rfl⟩ := Proc.files_split _ _ _ _ _ _ hf
  have hff : f = (fwdProc cfg src.grid inp).full o b := (Prod.mk.inj hx).2
  have key := (fwdProc cfg src.grid inp).conserve o (fwdNet src.grid.a) (fwdBalance src.grid.a)
    cfg.steps (fun k hk => fwd_budget_full cfg src inp h hw ha o k hk)
    (fun x => fwdNet_flush src.grid.a x) b hb.le
  have key2 := fwd_budget_full cfg src inp h hw ha o b hb
  simp only at key2
  rw [← hff] at key2
  rw [fwdNet_of_acc _ _ hacc, sumFiles_fwdNet] at key
  have hwt : ∀ g : Arr (m + 2) (n + 2) K, total src.weight g = c * total src.grid.a g := by
    intro g
    simp only [total, hc, Finset.mul_sum, mul_assoc]
  have e1 : fwdBalance src.grid.a o = total src.grid.a (startFwd cfg path disk).1 +
      total src.grid.a (startFwd cfg path disk).2 := by
    rw [ho']; rfl
  rw [e1] at key
  simp only [fwdNet, fwdBalance] at key key2
  have hsm : ∀ q : FwdOutput (m + 2) (n + 2) K → K, sumFiles sofar q =
      sumFiles ((fwdProc cfg src.grid inp).files o b) q + q f := by
    intro q; simp only [sofar, sumFiles_append, sumFiles_single]
  rw [show (fwdProc cfg src.grid inp).files o b ++ [(T, f)] = sofar from rfl]
  have hcm : ∀ q : FwdOutput (m + 2) (n + 2) K → K,
      sumFiles ((fwdProc cfg src.grid inp).files o b) (fun f => c * q f) =
      c * sumFiles ((fwdProc cfg src.grid inp).files o b) q := by
    intro q; simp only [sumFiles, List.sum_map_mul_left]
  have hcm2 : ∀ q q' : FwdOutput (m + 2) (n + 2) K → K,
      sumFiles ((fwdProc cfg src.grid inp).files o b) (fun f => c * q f + c * q' f) =
      c * sumFiles ((fwdProc cfg src.grid inp).files o b) (fun f => q f + q' f) := by
    intro q q'; simp only [sumFiles, ← mul_add, List.sum_map_mul_left]
  rw [← add_div_mul4, div_mul_eq_mul_div, mul_comm _ (100 : K)]
  congr 2
  simp only [tot, tagged, hsm, hwt, hcm, hcm2]
  linear_combination c * key + c * key2

theorem bwd_tracker_totals (periodic : Bool) (w : Fin (m + 2) → K) (tr : Tracker K)
    (l : List (ℤ × BwdOutput (m + 2) (n + 2) K)) :
    let t := (l.map Prod.snd).foldl (fun tr x => Tracker.storeBwd periodic w tr x) tr
    t.tracked = tr.tracked + sumFiles l (fun f => (total w f.e_track)) ∧
    t.total_tagged_moisture = tr.total_tagged_moisture + sumFiles l (fun f => total w f.tagged_precip) ∧
    t.lost_water = tr.lost_water + sumFiles l (fun f => total w (onInterior periodic f.losses)) ∧
    t.boundary_transport = tr.boundary_transport +
      sumFiles l (fun f => total w (onBoundary periodic f.losses)) ∧
    t.gained_water = tr.gained_water + sumFiles l (fun f => total w f.gains) := by
  induction l generalizing tr with
  | nil => simp [sumFiles]
  | cons x l ih =>
    intro t
    obtain ⟨h1, h2, h3, h4, h5⟩ := ih (Tracker.storeBwd periodic w tr x.2)
    have e : ∀ q : BwdOutput (m + 2) (n + 2) K → K, sumFiles (x :: l) q = q x.2 + sumFiles l q := by
      intro q; simp [sumFiles]
    have hb : weightedTotal w x.2.losses - interiorTotal periodic w x.2.losses =
        total w (onBoundary periodic x.2.losses) := by
      rw [weightedTotal_eq, interiorTotal_eq, total_split periodic]; ring
    refine ⟨?_, ?_, ?_, ?_, ?_⟩
    · refine h1.trans ?_
      rw [e, ← add_assoc]; congr 1
      simp only [Tracker.storeBwd, weightedTotal_eq]
    · refine h2.trans ?_
      rw [e, ← add_assoc]; congr 1
      simp only [Tracker.storeBwd, weightedTotal_eq]
    · refine h3.trans ?_
      rw [e, ← add_assoc]; congr 1
      simp only [Tracker.storeBwd, interiorTotal_eq]
    · refine h4.trans ?_
      rw [e, ← add_assoc]; congr 1
      simp only [Tracker.storeBwd, hb]
    · refine h5.trans ?_
      rw [e, ← add_assoc]; congr 1
      simp only [Tracker.storeBwd, weightedTotal_eq]

/-- **C34** (backward): with every file goes one report, and the numbers in the report that accompanies the
file at `T` are percentages of all tagged moisture up to then: the totals (weighted with the
cosine of latitude) over all files written so far, this one included, of tracked, gained and
lost water - lost in the interior and lost across the boundary, which together are all losses -
and the tracked water in the atmosphere at `T`. -/
theorem C34_report_totals_backward (cfg : RunConfig K) (src : Source m n K) (inp : Input m n K)
    (path : ℤ → P) (disk : P → Option (BwdOutput (m + 2) (n + 2) K)) (h : Runnable cfg src inp)
    {s} (hs : EndsIn (bwdRun cfg src path disk) s) :
    s.reports.length = s.files.length ∧
    ∀ l T f l', s.files = l ++ (T, f) :: l' → ∃ rep, s.reports[l.length]? = some (T, rep) ∧
      let w := src.weight
      let sofar := l ++ [(T, f)]
      let tagged := sumFiles sofar (fun f => total w f.tagged_precip)
      rep.tracked_percentage = sumFiles sofar (fun f => (total w f.e_track)) / tagged * 100 ∧
      rep.in_atmos_percentage = (total w f.s_track_upper + total w f.s_track_lower) / tagged * 100 ∧
      rep.lost_percentage =
        sumFiles sofar (fun f => total w (onInterior cfg.periodic_boundary f.losses)) / tagged * 100 ∧
      rep.boundary_percentage =
        sumFiles sofar (fun f => total w (onBoundary cfg.periodic_boundary f.losses)) / tagged * 100 ∧
      rep.lost_percentage + rep.boundary_percentage =
        sumFiles sofar (fun f => total w f.losses) / tagged * 100 ∧
      rep.gained_percentage = sumFiles sofar (fun f => total w f.gains) / tagged * 100 ∧
      rep.closure_check_percentage = rep.tracked_percentage + rep.in_atmos_percentage +
        rep.lost_percentage + rep.gained_percentage + rep.boundary_percentage := by
  obtain ⟨o, r, ho, rfl⟩ := bwd_ends cfg src inp path disk h hs
  have hacc := bwd_init_eq _ _ _ _ _ ho
  set store := fun tr x => Tracker.storeBwd (m := m) (n := n) cfg.periodic_boundary src.weight tr x
    with hstore
  set report := fun tr x => Tracker.reportBwd (m := m) (n := n) cfg.periodic_boundary src.weight tr x
    with hreport
  obtain ⟨k1, k2⟩ := Proc.reports_split (bwdProc cfg src.grid inp) o store report
    (store Tracker.zero o) cfg.steps
  refine ⟨k1, ?_⟩
  intro l T f l' hf
  refine ⟨_, k2 l l' (T, f) hf, ?_⟩
  intro w sofar tagged
  set tr := (l.map Prod.snd).foldl store (store Tracker.zero o) with htr
  have hz : (store Tracker.zero o).tracked = 0 ∧ (store Tracker.zero o).total_tagged_moisture = 0 ∧
      (store Tracker.zero o).lost_water = 0 ∧ (store Tracker.zero o).boundary_transport = 0 ∧
      (store Tracker.zero o).gained_water = 0 := by
    simp only [hstore, Tracker.storeBwd, Tracker.zero, weightedTotal_eq, interiorTotal_eq, hacc,
      BwdOutput.zeros, ofRat_zero, total_zero, onInterior_zero]
    simp
  obtain ⟨z1, z2, z3, z4, z5⟩ := hz
  obtain ⟨t1, t2, t3, t4, t5⟩ := bwd_tracker_totals cfg.periodic_boundary w (store Tracker.zero o) l
  rw [← hstore, ← htr] at t1 t2 t3 t4 t5
  rw [z1, zero_add] at t1
  rw [z2, zero_add] at t2
  rw [z3, zero_add] at t3
  rw [z4, zero_add] at t4
  rw [z5, zero_add] at t5
  have hb : total src.weight f.losses - total src.weight (onInterior cfg.periodic_boundary f.losses) =
      total src.weight (onBoundary cfg.periodic_boundary f.losses) := by
    rw [total_split cfg.periodic_boundary]; ring
  have h100 : (ofRat 100 : K) = 100 := by simp [NpOps.ofRat]
  have hs : ∀ q : BwdOutput (m + 2) (n + 2) K → K, sumFiles sofar q = sumFiles l q + q f := by
    intro q; simp only [sofar, sumFiles_append, sumFiles_single]
  have htag : tr.total_tagged_moisture + total src.weight f.tagged_precip = tagged := by
    rw [t2]; exact (hs _).symm
  simp only [hreport, Tracker.reportBwd, mkReport, h100, t1, t3, t4, t5, hs,
    interiorTotal_eq, weightedTotal_eq, hb, htag]
  refine ⟨?_, rfl, rfl, rfl, ?_, rfl, trivial⟩
  · rfl
  · have : ∀ g : BwdOutput (m + 2) (n + 2) K, total w g.losses = total w (onInterior cfg.periodic_boundary g.losses) +
        total w (onBoundary cfg.periodic_boundary g.losses) := fun g => total_split _ _ _
    have e : sumFiles l (fun f => total w f.losses) =
        sumFiles l (fun f => total w (onInterior cfg.periodic_boundary f.losses)) +
        sumFiles l (fun f => total w (onBoundary cfg.periodic_boundary f.losses)) := by
      unfold sumFiles
      rw [← List.sum_map_add]
      simp only [this]
    rw [e, this f]
    ring

/-- **C35** (backward).  Intended: the reported tagging closure is 100 %.  Actual: if the weights are
proportional to the cell areas, then the closure reported with the file at `T` is
`100 * (tagged + initial storage + 2 * gains) / tagged`, because gained water is added where it
should be subtracted (and because storage from a restart file is not counted). -/
theorem C35_closure_backward (cfg : RunConfig K) (src : Source m n K) (inp : Input m n K)
    (path : ℤ → P) (disk : P → Option (BwdOutput (m + 2) (n + 2) K)) (h : Runnable cfg src inp)
    (hw : ∀ t, cfg.tracking_start_date ≤ t → t ≤ cfg.tracking_end_date → Wet (inp.states t))
    (ha : ∀ i, 0 < src.grid.a i) (c : K) (hc : ∀ i, src.weight i = c * src.grid.a i)
    {s} (hs : EndsIn (bwdRun cfg src path disk) s) (l T f l')
    (hf : s.files = l ++ (T, f) :: l') (rep) (hrep : s.reports[l.length]? = some (T, rep)) :
    let tot := total (n := n) src.weight
    let sofar := l ++ [(T, f)]
    let tagged := sumFiles sofar (fun f => tot f.tagged_precip)
    rep.closure_check_percentage = 100 * (tagged + (tot (startBwd cfg path disk).1 +
      tot (startBwd cfg path disk).2) + 2 * sumFiles sofar (fun f => tot f.gains)) / tagged := by
  intro tot sofar tagged
  obtain ⟨_, hrp⟩ := C34_report_totals_backward cfg src inp path disk h hs
  obtain ⟨rep', hr1, e1, e2, e3, e4, e5, e6, e7⟩ := hrp l T f l' hf
  rw [hrep] at hr1
  obtain rfl : rep = rep' := by simpa using hr1
  have e7' : rep.closure_check_percentage = rep.tracked_percentage + rep.in_atmos_percentage +
      (rep.lost_percentage + rep.boundary_percentage) + rep.gained_percentage := by rw [e7]; ring
  rw [e7', e1, e2, e5, e6]
  obtain ⟨o, r, ho, rfl⟩ := bwd_ends cfg src inp path disk h hs
  have ho' := bwd_init_eq cfg src path disk o ho
  have hacc : BwdOutput.acc o = 0 := ho' ▸ bwd_acc_zeros _ _
  obtain ⟨b, hb, hwb, hx, rfl⟩ := Proc.files_split _ _ _ _ _ _ hf
  have hff : f = (bwdProc cfg src.grid inp).full o b := (Prod.mk.inj hx).2
  have key := (bwdProc cfg src.grid inp).conserve o (bwdNet src.grid.a) (bwdBalance src.grid.a)
    cfg.steps (fun k hk => bwd_budget_full cfg src inp h hw ha o k hk)
    (fun x => bwdNet_flush src.grid.a x) b hb.le
  have key2 := bwd_budget_full cfg src inp h hw ha o b hb
  simp only at key2
  rw [← hff] at key2
  rw [bwdNet_of_acc _ _ hacc, sumFiles_bwdNet] at key
  have hwt : ∀ g : Arr (m + 2) (n + 2) K, total src.weight g = c * total src.grid.a g := by
    intro g
    simp only [total, hc, Finset.mul_sum, mul_assoc]
  have e1 : bwdBalance src.grid.a o = total src.grid.a (startBwd cfg path disk).1 +
      total src.grid.a (startBwd cfg path disk).2 := by
    rw [ho']; rfl
  rw [e1] at key
  simp only [bwdNet, bwdBalance] at key key2
  have hsm : ∀ q : BwdOutput (m + 2) (n + 2) K → K, sumFiles sofar q =
      sumFiles ((bwdProc cfg src.grid inp).files o b) q + q f := by
    intro q; simp only [sofar, sumFiles_append, sumFiles_single]
  rw [show (bwdProc cfg src.grid inp).files o b ++ [(T, f)] = sofar from rfl]
  have hcm : ∀ q : BwdOutput (m + 2) (n + 2) K → K,
      sumFiles ((bwdProc cfg src.grid inp).files o b) (fun f => c * q f) =
      c * sumFiles ((bwdProc cfg src.grid inp).files o b) q := by
    intro q; simp only [sumFiles, List.sum_map_mul_left]
  have hcm2 : ∀ q q' : BwdOutput (m + 2) (n + 2) K → K,
      sumFiles ((bwdProc cfg src.grid inp).files o b) (fun f => c * q f + c * q' f) =
      c * sumFiles ((bwdProc cfg src.grid inp).files o b) (fun f => q f + q' f) := by
    intro q q'; simp only [sumFiles, ← mul_add, List.sum_map_mul_left]
  rw [← add_div_mul4, div_mul_eq_mul_div, mul_comm _ (100 : K)]
  congr 2
  simp only [tot, tagged, hsm, hwt, hcm, hcm2]
  linear_combination c * key + c * key2

end Wam
