import Verif.Spec.Load
import Verif.Props.Load
import Verif.Props.RunMore

/-! # C89: data that are read can be traced to one place in the files

The converse of C37: no assumption is made on the folder of preprocessed data.  If `load_data`
returns something, then the file of the day holds the requested time once, and what is returned are
those data. -/

set_option linter.unusedSectionVars false
set_option linter.unusedVariables false

namespace Wam
open Spec

/-! ### Labels -/

theorem isoSecondString_label (c c' : Calendar) (t t' : ℤ) (h : FourDigitYear c t)
    (h' : FourDigitYear c' t') :
    isoSecondString (dateTimeOf c t) = isoSecondString (dateTimeOf c' t') ↔ SameLabel c t c' t' := by
  obtain ⟨a, b, k⟩ := hourMinute_lt c t
  obtain ⟨a', b', k'⟩ := hourMinute_lt c' t'
  obtain ⟨p, q⟩ := monthDay_lt c _ (dateTimeOf_valid c t).1
  obtain ⟨p', q'⟩ := monthDay_lt c' _ (dateTimeOf_valid c' t').1
  unfold SameLabel
  constructor
  · intro e
    unfold isoSecondString isoMinuteString at e
    obtain ⟨e1, e2⟩ := List.append_inj e rfl
    rw [List.cons.injEq] at e2
    obtain ⟨e3, e4⟩ := List.append_inj e1 rfl
    rw [List.cons.injEq] at e4
    obtain ⟨e5, e6⟩ := List.append_inj e4.2 rfl
    rw [List.cons.injEq] at e6
    exact ⟨dayString_inj _ _ p q p' q' h h' e3, (pad2_inj a a').1 e5, (pad2_inj b b').1 e6.2,
      (pad2_inj k k').1 e2.2⟩
  · rintro ⟨e1, e2, e3, e4⟩
    unfold isoSecondString isoMinuteString
    rw [e1, e2, e3, e4]

theorem filter_eq_singleton {γ : Type*} (p : γ → Bool) :
    ∀ (xs : List γ) (x : γ), xs.filter p = [x] →
      ∃ l r, xs = l ++ x :: r ∧ p x = true ∧ ∀ y ∈ l ++ r, p y = false := by
  intro xs
  induction xs with
  | nil => intro x h; simp at h
  | cons a xs ih =>
    intro x h
    cases ha : p a with
    | true =>
      rw [List.filter_cons_of_pos ha, List.cons.injEq] at h
      obtain ⟨rfl, h⟩ := h
      refine ⟨[], xs, rfl, ha, ?_⟩
      intro y hy
      rw [List.nil_append] at hy
      have := List.filter_eq_nil_iff.1 h y hy
      simpa using this
    | false =>
      rw [List.filter_cons_of_neg (by simp [ha])] at h
      obtain ⟨l, r, e, h1, h2⟩ := ih x h
      refine ⟨a :: l, r, by rw [e]; rfl, h1, ?_⟩
      intro y hy
      rw [List.cons_append, List.mem_cons] at hy
      rcases hy with rfl | hy
      · exact ha
      · exact h2 y hy

section
variable {κ α : Type} [LinearOrder κ]

theorem selectTime_only (f : DataFile κ α) (c : Calendar) (s : ℤ) (d : Dataset κ α)
    (hy : FourDigitYear c s) (hf : ∀ e ∈ f.entries, FourDigitYear f.calendar e.1)
    (h : selectTime f (isoSecondString (dateTimeOf c s)) = .ok d) : OnlyEntry f c s d := by
  unfold selectTime at h
  split at h
  · rename_i e he
    injection h with h
    obtain ⟨l, r, h1, h2, h3⟩ := filter_eq_singleton _ _ _ he
    have hm : ∀ e' ∈ l ++ r, e' ∈ f.entries := by
      intro e' h'
      rw [h1]
      rcases List.mem_append.1 h' with h' | h'
      · exact List.mem_append_left _ h'
      · exact List.mem_append_right _ (List.mem_cons_of_mem _ h')
    have hme : e ∈ f.entries := by rw [h1]; simp
    refine ⟨l, e.1, r, by rw [h1, ← h], ?_, ?_⟩
    · exact (isoSecondString_label _ _ _ _ (hf e hme) hy).1 (by simpa using h2)
    · intro e' h' hl
      have := h3 e' h'
      rw [(isoSecondString_label _ _ _ _ (hf e' (hm e' h')) hy).2 hl] at this
      simp at this
  · cases h

theorem labelSlice_bound (xs : List κ) (a b : κ) (is : List ℕ) (h : labelSlice xs a b = .ok is) :
    ∀ i ∈ is, i < xs.length := by
  unfold labelSlice at h
  intro i hi
  split_ifs at h
  · injection h with h
    subst h
    have := List.countP_le_length (p := fun x => decide (x ≤ b)) (l := xs)
    rw [List.mem_range'] at hi
    obtain ⟨k, h1, h2⟩ := hi
    omega
  · injection h with h
    subst h
    have := List.countP_le_length (p := fun x => decide (b ≤ x)) (l := xs)
    rw [List.mem_range'] at hi
    obtain ⟨k, h1, h2⟩ := hi
    omega

/-- whatever `select_subdomain` returns consists of cells of its argument -/
theorem selectSubdomain_attached (ds d : Dataset κ α) (b : BoundingBox κ)
    (h : selectSubdomain ds b = .ok d) : d.vars = ds.vars ∧ Attached ds d := by
  unfold selectSubdomain at h
  split_ifs at h with hwe
  · cases hc : labelSlice ds.longitude b.west b.east with
    | error e => rw [hc] at h; cases h
    | ok cols =>
      cases hr : labelSlice ds.latitude b.north b.south with
      | error e => rw [hc, hr] at h; cases h
      | ok rows =>
        rw [hc, hr] at h
        injection h with h
        subst h
        exact ⟨rfl, Dataset.isel_attached _ _ _ (labelSlice_bound _ _ _ _ hr)
          (labelSlice_bound _ _ _ _ hc)⟩
  · simp only at h
    set ds1 := ds.isel (List.range ds.latitude.length) ((List.range ds.longitude.length).rotate
      (argminBool (ds.longitude.map (inBox b.west b.east)))) with hds1
    have ha : Attached ds ds1 := Dataset.isel_attached _ _ _ (by simp) (by simp)
    cases hr : labelSlice ds1.latitude b.north b.south with
    | error e => rw [hr] at h; cases h
    | ok rows =>
      rw [hr] at h
      injection h with h
      subst h
      refine ⟨rfl, ha.trans (Dataset.isel_attached _ _ _ (labelSlice_bound _ _ _ _ hr) ?_)⟩
      intro j hj
      have := (List.mem_filter.1 hj).1
      rw [List.length_map, List.mem_range] at this
      exact this

theorem Spec.Attached.refl (ds : Dataset κ α) : Attached ds ds :=
  fun i j y x hy hx => ⟨i, j, hy, hx, fun _ => rfl⟩

theorem readSlice_only (files : List Char → Except Err (DataFile κ α)) (cfg : IOConfig κ)
    (sub : Subset) (s : ℤ) (ds : Dataset κ α) (hy : FourDigitYear cfg.calendar s)
    (hf : ∀ p f, files p = .ok f → ∀ e ∈ f.entries, FourDigitYear f.calendar e.1)
    (h : readSlice files (sliceKey cfg s sub) = .ok ds) :
    SliceFrom files cfg.calendar cfg.preprocessed_data_folder cfg.tracking_domain sub.variables s ds := by
  unfold readSlice sliceKey at h
  simp only at h
  cases h1 : files (inputPath cfg.calendar s cfg.preprocessed_data_folder) with
  | error e => rw [h1] at h; cases h
  | ok f =>
    rw [h1] at h
    cases h2 : selectTime f (isoSecondString (dateTimeOf cfg.calendar s)) with
    | error e => simp only [bind, Except.bind, h2] at h; cases h
    | ok d =>
      simp only [bind, Except.bind, h2] at h
      have hent := selectTime_only f _ s d hy (hf _ _ h1) h2
      unfold Dataset.getVars at h
      split_ifs at h with hv
      · simp only at h
        refine ⟨f, d, h1, hent, ?_, ?_⟩
        · intro v hv'
          simpa using List.all_eq_true.1 hv v hv'
        · cases hb : cfg.tracking_domain with
          | none =>
            rw [hb] at h
            injection h with h
            subst h
            exact ⟨rfl, fun i j y x hy hx => ⟨i, j, hy, hx, fun _ => rfl⟩, fun _ => ⟨rfl, rfl, rfl⟩⟩
          | some b =>
            rw [hb] at h
            simp only at h
            obtain ⟨e1, e2⟩ := selectSubdomain_attached _ _ _ h
            exact ⟨e1, e2, fun h => by cases h⟩
end

/-! ### The theorems -/

section
variable {κ K : Type} [LinearOrder κ] [Field K] [LinearOrder K] [IsStrictOrderedRing K]

/-- **C89**: whatever is in the folder of preprocessed data, if `load_data` returns a dataset for time
`t`, then every input time it stems from occurs exactly once in the file of its day, with all the
requested variables, and the dataset is made of those data and nothing else. -/
theorem C89_read_from_the_files (files : List Char → Except Err (DataFile κ K)) (cfg : IOConfig κ)
    (sub : Subset) (t : ℤ) (ds : Dataset κ K) (hf : 0 < cfg.input_frequency)
    (hy : ∀ s, |s - t| < cfg.input_frequency → FourDigitYear cfg.calendar s)
    (hfy : ∀ p f, files p = .ok f → ∀ e ∈ f.entries, FourDigitYear f.calendar e.1)
    (h : loadData files cfg t sub = .ok ds) :
    ReadFrom files cfg.calendar cfg.preprocessed_data_folder cfg.tracking_domain cfg.input_frequency
      sub.variables t ds := by
  obtain ⟨d1, g1, g2, d2, g3, g4⟩ := C48_floor_ceil t _ hf
  obtain ⟨e1, e2, e3⟩ := C48_multiple t _ hf
  unfold loadData loadDataWith at h
  simp only at h
  by_cases hd : cfg.input_frequency ∣ t
  · rw [if_pos (Or.inl (e1.1 hd))] at h
    exact Or.inl ⟨hd, readSlice_only files cfg sub t ds (hy t (by simpa using hf)) hfy h⟩
  · have hstep : ceilTime t cfg.input_frequency = floorTime t cfg.input_frequency +
        cfg.input_frequency := by
      rcases e3 with h | h
      · exact absurd h.1 hd
      · exact h.2
    have n1 : floorTime t cfg.input_frequency ≠ t := fun e => hd (e ▸ d1)
    have n2 : ceilTime t cfg.input_frequency ≠ t := fun e => hd (e ▸ d2)
    rw [if_neg (by intro h; rcases h with h | h <;> omega)] at h
    generalize floorTime t cfg.input_frequency = s0 at *
    generalize ceilTime t cfg.input_frequency = s1 at *
    cases h0 : readSlice files (sliceKey cfg s0 sub) with
    | error e => simp only [h0, bind, Except.bind] at h; cases h
    | ok da0 =>
      cases h1 : readSlice files (sliceKey cfg s1 sub) with
      | error e => simp only [h0, h1, bind, Except.bind] at h; cases h
      | ok da1 =>
        simp only [h0, h1, bind, Except.bind] at h
        injection h with h
        subst h
        have c0 := readSlice_only files cfg sub s0 da0
          (hy s0 (by rw [abs_of_nonpos (by omega)]; omega)) hfy h0
        have c1 := readSlice_only files cfg sub s1 da1
          (hy s1 (by rw [abs_of_nonneg (by omega)]; omega)) hfy h1
        refine Or.inr ⟨s0, s1, da0, da1, d1, by omega, by omega, hstep, c0, c1, ?_, ?_⟩
        · obtain ⟨_, _, _, _, _, e, _⟩ := c0
          exact e
        · intro _ _
          refine ⟨rfl, rfl, ?_⟩
          intro v i j
          simp only [Dataset.lerp]
          have hne : ((s1 - s0 : ℤ) : K) ≠ 0 := by rw [Int.cast_ne_zero]; omega
          rw [show (ofRat (((t - s0 : ℤ) : ℚ) / ((s1 - s0 : ℤ) : ℚ)) : K) =
            ((t - s0 : ℤ) : K) / ((s1 - s0 : ℤ) : K) by
              rw [show (ofRat : ℚ → K) = Rat.cast from rfl]; push_cast; rfl]
          rw [add_mul, div_mul_eq_mul_div, div_mul_cancel₀ _ hne]
          push_cast
          ring

end

/-! ### Runs -/

section
variable {m n : ℕ} {α : Type*} [Add α] [Sub α] [Mul α] [Div α] [Neg α] [NpOps α] {P : Type*}

private theorem fwdBody_reads (cfg : RunConfig α) (src : Source m n α)
    (r : Region (m + 2) (n + 2) α) (s s') (h : fwdBody cfg src r s = .ok s') :
    ((∃ x, src.states s.t0 = .ok x) ∧ (∃ x, src.fluxes s.th = .ok x) ∧
      ∃ x, src.states s.t1 = .ok x) ∧
    s'.t0 = s.t0 + cfg.dt ∧ s'.th = s.th + cfg.dt ∧ s'.t1 = s.t1 + cfg.dt := by
  unfold fwdBody at h
  split at h
  · cases h
  · rename_i o l hadv
    constructor
    · unfold fwdAdvance at hadv
      split at hadv
      · rename_i a b c _ _ h1 h2 h3 _
        exact ⟨⟨_, h1⟩, ⟨_, h2⟩, _, h3⟩
      all_goals cases hadv
    · simp only at h
      split at h <;> · injection h with h; subst h; exact ⟨rfl, rfl, rfl⟩

private theorem bwdBody_reads (cfg : RunConfig α) (src : Source m n α)
    (r : Region (m + 2) (n + 2) α) (s s') (h : bwdBody cfg src r s = .ok s') :
    ((∃ x, src.states s.t0 = .ok x) ∧ (∃ x, src.fluxes s.th = .ok x) ∧
      ∃ x, src.states s.t1 = .ok x) ∧
    s'.t0 = s.t0 - cfg.dt ∧ s'.th = s.th - cfg.dt ∧ s'.t1 = s.t1 - cfg.dt := by
  unfold bwdBody at h
  split at h
  · cases h
  · rename_i o l hadv
    constructor
    · unfold bwdAdvance at hadv
      split at hadv
      · rename_i a b c _ _ h1 h2 h3 _
        exact ⟨⟨_, h1⟩, ⟨_, h2⟩, _, h3⟩
      all_goals cases hadv
    · simp only at h
      split at h <;> · injection h with h; subst h; exact ⟨rfl, rfl, rfl⟩

private theorem fwdLoop_reads (cfg : RunConfig α) (src : Source m n α)
    (r : Region (m + 2) (n + 2) α) (hdt : 0 ≤ cfg.dt) :
    ∀ fuel s sf, whileLoop (fwdGuard cfg) (fwdBody cfg src r) fuel s = .finished sf →
    ∀ j : ℕ, s.t1 + j * cfg.dt ≤ cfg.tracking_end_date →
      (∃ x, src.states (s.t0 + j * cfg.dt) = .ok x) ∧ (∃ x, src.fluxes (s.th + j * cfg.dt) = .ok x) ∧
      ∃ x, src.states (s.t1 + j * cfg.dt) = .ok x := by
  intro fuel
  induction fuel with
  | zero =>
    intro s sf h j hj
    unfold whileLoop at h
    split at h
    · cases h
    · rename_i hg
      exfalso
      apply hg
      unfold fwdGuard
      have : 0 ≤ (j : ℤ) * cfg.dt := by positivity
      simp only [decide_eq_true_eq]
      omega
  | succ fuel ih =>
    intro s sf h j hj
    unfold whileLoop at h
    have hpos : 0 ≤ (j : ℤ) * cfg.dt := by positivity
    rw [if_pos (by unfold fwdGuard; simp only [decide_eq_true_eq]; omega)] at h
    split at h
    · rename_i s' hs'
      obtain ⟨hr, e0, eh, e1⟩ := fwdBody_reads cfg src r s s' hs'
      cases j with
      | zero => simpa using hr
      | succ j =>
        have := ih s' sf h j (by rw [e1]; push_cast at hj; linarith)
        rw [e0, eh, e1] at this
        push_cast
        rw [show s.t0 + ((j : ℤ) + 1) * cfg.dt = s.t0 + cfg.dt + j * cfg.dt by ring,
          show s.th + ((j : ℤ) + 1) * cfg.dt = s.th + cfg.dt + j * cfg.dt by ring,
          show s.t1 + ((j : ℤ) + 1) * cfg.dt = s.t1 + cfg.dt + j * cfg.dt by ring]
        exact this
    · cases h

private theorem bwdLoop_reads (cfg : RunConfig α) (src : Source m n α)
    (r : Region (m + 2) (n + 2) α) (hdt : 0 ≤ cfg.dt) :
    ∀ fuel s sf, whileLoop (bwdGuard cfg) (bwdBody cfg src r) fuel s = .finished sf →
    ∀ j : ℕ, cfg.tracking_start_date ≤ s.t0 - j * cfg.dt →
      (∃ x, src.states (s.t0 - j * cfg.dt) = .ok x) ∧ (∃ x, src.fluxes (s.th - j * cfg.dt) = .ok x) ∧
      ∃ x, src.states (s.t1 - j * cfg.dt) = .ok x := by
  intro fuel
  induction fuel with
  | zero =>
    intro s sf h j hj
    unfold whileLoop at h
    split at h
    · cases h
    · rename_i hg
      exfalso
      apply hg
      unfold bwdGuard
      have : 0 ≤ (j : ℤ) * cfg.dt := by positivity
      simp only [decide_eq_true_eq]
      omega
  | succ fuel ih =>
    intro s sf h j hj
    unfold whileLoop at h
    have hpos : 0 ≤ (j : ℤ) * cfg.dt := by positivity
    rw [if_pos (by unfold bwdGuard; simp only [decide_eq_true_eq]; omega)] at h
    split at h
    · rename_i s' hs'
      obtain ⟨hr, e0, eh, e1⟩ := bwdBody_reads cfg src r s s' hs'
      cases j with
      | zero => simpa using hr
      | succ j =>
        have := ih s' sf h j (by rw [e0]; push_cast at hj; linarith)
        rw [e0, eh, e1] at this
        push_cast
        rw [show s.t0 - ((j : ℤ) + 1) * cfg.dt = s.t0 - cfg.dt - j * cfg.dt by ring,
          show s.th - ((j : ℤ) + 1) * cfg.dt = s.th - cfg.dt - j * cfg.dt by ring,
          show s.t1 - ((j : ℤ) + 1) * cfg.dt = s.t1 - cfg.dt - j * cfg.dt by ring]
        exact this
    · cases h

/-- **C89** (forward runs): a forward run that completes has read the storages at the beginning and the
end, and the fluxes in the middle, of every time step that fits in the tracking period; none of them was
missing.  Times are in microseconds, the time step in seconds. -/
theorem C89_complete_forward (cfg : RunConfig α) (src : Source m n α) (path : ℤ → P)
    (disk : P → Option (FwdOutput (m + 2) (n + 2) α)) (fuel : ℕ) (s)
    (hts : 0 < cfg.timestep) (hs : fwdRun cfg src path disk fuel = .finished s) (t : ℤ)
    (k : ℕ) (ht : t = cfg.tracking_start_date + k * (cfg.timestep * 1000000))
    (hk : t + cfg.timestep * 1000000 ≤ cfg.tracking_end_date) :
    (∃ x, src.states t = .ok x) ∧ (∃ x, src.fluxes (t + cfg.timestep * 500000) = .ok x) ∧
      ∃ x, src.states (t + cfg.timestep * 1000000) = .ok x := by
  have hdt : cfg.dt = cfg.timestep * 1000000 := rfl
  have hhd : cfg.halfDt = cfg.timestep * 500000 := rfl
  unfold fwdRun at hs
  split at hs
  · cases hs
  · rename_i o _
    split at hs
    · cases hs
    · rename_i r _
      have h := fwdLoop_reads cfg src r (by rw [hdt]; positivity) fuel _ s hs k
      simp only [fwdStart, hdt, hhd] at h
      have h := h (by linarith)
      rw [show cfg.tracking_start_date + cfg.timestep * 500000 + k * (cfg.timestep * 1000000) =
        t + cfg.timestep * 500000 by rw [ht]; ring,
        show cfg.tracking_start_date + cfg.timestep * 1000000 + k * (cfg.timestep * 1000000) =
        t + cfg.timestep * 1000000 by rw [ht]; ring, ← ht] at h
      exact h

/-- **C89** (backward runs) -/
theorem C89_complete_backward (cfg : RunConfig α) (src : Source m n α) (path : ℤ → P)
    (disk : P → Option (BwdOutput (m + 2) (n + 2) α)) (fuel : ℕ) (s)
    (hts : 0 < cfg.timestep) (hs : bwdRun cfg src path disk fuel = .finished s) (t : ℤ)
    (k : ℕ) (ht : t = cfg.tracking_end_date - k * (cfg.timestep * 1000000))
    (hk : cfg.tracking_start_date ≤ t - cfg.timestep * 1000000) :
    (∃ x, src.states t = .ok x) ∧ (∃ x, src.fluxes (t - cfg.timestep * 500000) = .ok x) ∧
      ∃ x, src.states (t - cfg.timestep * 1000000) = .ok x := by
  have hdt : cfg.dt = cfg.timestep * 1000000 := rfl
  have hhd : cfg.halfDt = cfg.timestep * 500000 := rfl
  unfold bwdRun at hs
  split at hs
  · cases hs
  · rename_i o _
    split at hs
    · cases hs
    · rename_i r _
      have h := bwdLoop_reads cfg src r (by rw [hdt]; positivity) fuel _ s hs k
      simp only [bwdStart, hdt, hhd] at h
      have h := h (by linarith)
      rw [show cfg.tracking_end_date - cfg.timestep * 500000 - k * (cfg.timestep * 1000000) =
        t - cfg.timestep * 500000 by rw [ht]; ring,
        show cfg.tracking_end_date - cfg.timestep * 1000000 - k * (cfg.timestep * 1000000) =
        t - cfg.timestep * 1000000 by rw [ht]; ring, ← ht] at h
      exact ⟨h.2.2, h.2.1, h.1⟩

end


section
variable {κ K : Type} [LinearOrder κ] [Field K] [LinearOrder K] [IsStrictOrderedRing K] {m n : ℕ}
  {P : Type*}

/-- **C89** (end to end): for every time step of a completed forward run that reads from a folder of
preprocessed data, the storages and fluxes it used are what the files of the days say about those
times. -/
theorem C89_forward_run_from_files (files : List Char → Except Err (DataFile κ K))
    (io : IOConfig κ) (hf : 0 < io.input_frequency) (grid : GridInfo (m + 2) K)
    (region : Except Err (Region (m + 2) (n + 2) K)) (weight : Fin (m + 2) → K)
    (cfg : RunConfig K) (path : ℤ → P) (disk : P → Option (FwdOutput (m + 2) (n + 2) K))
    (fuel : ℕ) (s) (hts : 0 < cfg.timestep)
    (hy : ∀ s, cfg.tracking_start_date - io.input_frequency < s →
      s < cfg.tracking_end_date + io.input_frequency → FourDigitYear io.calendar s)
    (hfy : ∀ p f, files p = .ok f → ∀ e ∈ f.entries, FourDigitYear f.calendar e.1)
    (hs : fwdRun cfg (archiveSource files io grid region weight) path disk fuel = .finished s) (t : ℤ)
    (k : ℕ) (ht : t = cfg.tracking_start_date + k * (cfg.timestep * 1000000))
    (hk : t + cfg.timestep * 1000000 ≤ cfg.tracking_end_date) :
    let reads := fun (sub : Subset) (vars : List Var) (t : ℤ) => ∃ ds, loadData files io t sub = .ok ds ∧
      ReadFrom files io.calendar io.preprocessed_data_folder io.tracking_domain io.input_frequency vars t ds
    let storages := [Var.s_upper, .s_lower]
    let rest := [Var.fx_upper, .fx_lower, .fy_upper, .fy_lower, .evap, .precip]
    reads .states storages t ∧ reads .fluxes rest (t + cfg.timestep * 500000) ∧
      reads .states storages (t + cfg.timestep * 1000000) := by
  have hpos : 0 ≤ (k : ℤ) * (cfg.timestep * 1000000) := by positivity
  obtain ⟨h1, h2, h3⟩ := C89_complete_forward cfg _ path disk fuel s hts hs t k ht hk
  have key : ∀ (sub : Subset) (u : ℤ), cfg.tracking_start_date ≤ u → u ≤ cfg.tracking_end_date →
      ∀ ds, loadData files io u sub = .ok ds →
      ReadFrom files io.calendar io.preprocessed_data_folder io.tracking_domain io.input_frequency
        sub.variables u ds := by
    intro sub u hu1 hu2 ds h
    refine C89_read_from_the_files files io sub u ds hf (fun s' h' => ?_) hfy h
    rw [abs_lt] at h'
    exact hy s' (by omega) (by omega)
  have get : ∀ {β γ : Type} (x : Except Err β) (f : β → γ), (∃ y, x.map f = .ok y) →
      ∃ z, x = .ok z := by
    intro β γ x f ⟨y, h⟩
    cases x with
    | error e => cases h
    | ok z => exact ⟨z, rfl⟩
  obtain ⟨a, ha⟩ := get _ _ h1
  obtain ⟨b, hb⟩ := get _ _ h2
  obtain ⟨c, hc⟩ := get _ _ h3
  exact ⟨⟨a, ha, key _ _ (by omega) (by omega) a ha⟩, ⟨b, hb, key _ _ (by omega) (by omega) b hb⟩,
    c, hc, key _ _ (by omega) (by omega) c hc⟩

/-- **C89** (end to end, backward) -/
theorem C89_backward_run_from_files (files : List Char → Except Err (DataFile κ K))
    (io : IOConfig κ) (hf : 0 < io.input_frequency) (grid : GridInfo (m + 2) K)
    (region : Except Err (Region (m + 2) (n + 2) K)) (weight : Fin (m + 2) → K)
    (cfg : RunConfig K) (path : ℤ → P) (disk : P → Option (BwdOutput (m + 2) (n + 2) K))
    (fuel : ℕ) (s) (hts : 0 < cfg.timestep)
    (hy : ∀ s, cfg.tracking_start_date - io.input_frequency < s →
      s < cfg.tracking_end_date + io.input_frequency → FourDigitYear io.calendar s)
    (hfy : ∀ p f, files p = .ok f → ∀ e ∈ f.entries, FourDigitYear f.calendar e.1)
    (hs : bwdRun cfg (archiveSource files io grid region weight) path disk fuel = .finished s) (t : ℤ)
    (k : ℕ) (ht : t = cfg.tracking_end_date - k * (cfg.timestep * 1000000))
    (hk : cfg.tracking_start_date ≤ t - cfg.timestep * 1000000) :
    let reads := fun (sub : Subset) (vars : List Var) (t : ℤ) => ∃ ds, loadData files io t sub = .ok ds ∧
      ReadFrom files io.calendar io.preprocessed_data_folder io.tracking_domain io.input_frequency vars t ds
    let storages := [Var.s_upper, .s_lower]
    let rest := [Var.fx_upper, .fx_lower, .fy_upper, .fy_lower, .evap, .precip]
    reads .states storages t ∧ reads .fluxes rest (t - cfg.timestep * 500000) ∧
      reads .states storages (t - cfg.timestep * 1000000) := by
  have hpos : 0 ≤ (k : ℤ) * (cfg.timestep * 1000000) := by positivity
  obtain ⟨h1, h2, h3⟩ := C89_complete_backward cfg _ path disk fuel s hts hs t k ht hk
  have key : ∀ (sub : Subset) (u : ℤ), cfg.tracking_start_date ≤ u → u ≤ cfg.tracking_end_date →
      ∀ ds, loadData files io u sub = .ok ds →
      ReadFrom files io.calendar io.preprocessed_data_folder io.tracking_domain io.input_frequency
        sub.variables u ds := by
    intro sub u hu1 hu2 ds h
    refine C89_read_from_the_files files io sub u ds hf (fun s' h' => ?_) hfy h
    rw [abs_lt] at h'
    exact hy s' (by omega) (by omega)
  have get : ∀ {β γ : Type} (x : Except Err β) (f : β → γ), (∃ y, x.map f = .ok y) →
      ∃ z, x = .ok z := by
    intro β γ x f ⟨y, h⟩
    cases x with
    | error e => cases h
    | ok z => exact ⟨z, rfl⟩
  obtain ⟨a, ha⟩ := get _ _ h1
  obtain ⟨b, hb⟩ := get _ _ h2
  obtain ⟨c, hc⟩ := get _ _ h3
  exact ⟨⟨a, ha, key _ _ (by omega) (by omega) a ha⟩, ⟨b, hb, key _ _ (by omega) (by omega) b hb⟩,
    c, hc, key _ _ (by omega) (by omega) c hc⟩

end

/-! ### Examples -/

namespace LoadOnlyDemo

/-- data that depend on the time -/
def data (k : ℕ) : Dataset ℤ ℚ :=
  ⟨[1, 0, -1], [5, 6, 7], [.s_upper, .s_lower, .fx_upper, .fx_lower, .fy_upper, .fy_lower, .evap,
    .precip], fun _ i j => 3 + k + i + 2 * j⟩

/-- a day with data at 00:00 and 06:00, and a stray time at 06:00:00.5 if `twice` -/
def folder (twice : Bool) (p : List Char) : Except Err (DataFile ℤ ℚ) :=
  if p = "in/1970-01-01_fluxes_storages.nc".toList then
    .ok ⟨.standard, [(0, data 0), (21600000000, data 6)] ++
      if twice then [(21600500000, data 7)] else []⟩
  else .error .fileNotFound

/-- no tracking domain -/
def io : IOConfig ℤ := ⟨.standard, "in".toList, none, 21600000000⟩

/-- the hypotheses of `C89_read_from_the_files` are met at 02:00 -/
example : ∃ ds, loadData (folder false) io 7200000000 .states = .ok ds ∧
    ReadFrom (folder false) .standard "in".toList none 21600000000 [.s_upper, .s_lower]
      7200000000 ds := by
  have h : ∃ ds, loadData (folder false) io 7200000000 .states = .ok ds := ⟨_, by rfl⟩
  obtain ⟨ds, h⟩ := h
  refine ⟨ds, h, C89_read_from_the_files (folder false) io .states _ ds (by decide) ?_ ?_ h⟩
  · intro s hs
    have hs : |s - 7200000000| < 21600000000 := hs
    rw [abs_lt] at hs
    have hy : FourDigitYear .standard 0 := by unfold FourDigitYear; decide +kernel
    have hz : FourDigitYear .standard (-1) := by unfold FourDigitYear; decide +kernel
    by_cases h0 : 0 ≤ s
    · exact FourDigitYear.sameDay hy (by unfold SameDay; omega)
    · exact FourDigitYear.sameDay hz (by unfold SameDay; omega)
  · intro p f hf e he
    unfold folder at hf
    split at hf
    · injection hf with hf
      subst hf
      have hy : FourDigitYear .standard 0 := by unfold FourDigitYear; decide +kernel
      simp only [Bool.false_eq_true, if_false, List.append_nil, List.mem_cons,
        List.not_mem_nil, or_false] at he
      rcases he with rfl | rfl
      · exact hy
      · exact FourDigitYear.sameDay hy (by unfold SameDay; decide)
    · cases hf

/-- a second time within the same second is an error, not a silent choice -/
example : (loadData (folder true) io 21600000000 .states).toBool = false := by decide +kernel

/-- the hypotheses of `C89_complete_forward` are met by the runs of `Demo`: all four steps -/
example (t : ℤ) (k : ℕ) (ht : t = Demo.cfg.tracking_start_date + k * (Demo.cfg.timestep * 1000000))
    (hk : t + Demo.cfg.timestep * 1000000 ≤ Demo.cfg.tracking_end_date) :
    (∃ x, Demo.src.states t = .ok x) := by
  obtain ⟨s, ⟨fuel, hs⟩, _⟩ := Demo.fwd_ends
  exact (C89_complete_forward Demo.cfg Demo.src Demo.path _ _ s (by decide) (hs _ le_rfl) t k ht hk).1

example (t : ℤ) (k : ℕ) (ht : t = Demo.cfg.tracking_end_date - k * (Demo.cfg.timestep * 1000000))
    (hk : Demo.cfg.tracking_start_date ≤ t - Demo.cfg.timestep * 1000000) :
    (∃ x, Demo.src.states t = .ok x) := by
  obtain ⟨s, ⟨fuel, hs⟩, _⟩ := Demo.bwd_ends
  exact (C89_complete_backward Demo.cfg Demo.src Demo.path _ _ s (by decide) (hs _ le_rfl) t k ht hk).1

/-- the hypothesis of `C89_forward_run_from_files`, `C89_backward_run_from_files` that the run
completes is met: 40 minutes of tracking with this folder -/
example : ∃ s, fwdRun Demo.cfg (archiveSource (folder false) io Demo.src.grid Demo.src.region
    Demo.src.weight) Demo.path (fun _ => none) 4 = .finished s := ⟨_, rfl⟩

example : ∃ s, bwdRun Demo.cfg (archiveSource (folder false) io Demo.src.grid Demo.src.region
    Demo.src.weight) Demo.path (fun _ => none) 4 = .finished s := ⟨_, rfl⟩

end LoadOnlyDemo

end Wam
