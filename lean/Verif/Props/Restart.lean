import Verif.Props.RunPhysics

/-!
# C29, C30: restarts and crashes

For any arithmetic in which `x * 0 = 0`: exact numbers, and numbers of one precision with rounding
(`Fl`, see `Props/Rounded`).  The stored files keep the numbers exactly (in reality the fields are float32
in the files, so a restart is exact up to that conversion; DESIGN.md, findings).
-/
set_option linter.unusedSectionVars false
set_option linter.unusedVariables false

namespace Wam
open Spec

/-! ### The output folder -/

section Disk
variable {P ω : Type*} [DecidableEq P] (path : ℤ → P)

theorem writeFiles_append (disk : P → Option ω) (l l' : List (ℤ × ω)) :
    writeFiles path disk (l ++ l') = writeFiles path (writeFiles path disk l) l' := by
  induction l generalizing disk with
  | nil => rfl
  | cons x l ih => exact ih _

theorem writeFiles_last (disk : P → Option ω) (l : List (ℤ × ω)) (t : ℤ) (o : ω) :
    writeFiles path disk (l ++ [(t, o)]) (path t) = some o := by
  rw [writeFiles_append]
  simp [writeFiles]

theorem writeFiles_other (disk : P → Option ω) (l : List (ℤ × ω)) (p : P)
    (h : ∀ x ∈ l, path x.1 ≠ p) : writeFiles path disk l p = disk p := by
  induction l generalizing disk with
  | nil => rfl
  | cons x l ih =>
    rw [show writeFiles path disk (x :: l) = writeFiles path _ l from rfl,
      ih _ (fun y hy => h y (List.mem_cons_of_mem _ hy)), Function.update_of_ne]
    exact (h x (List.mem_cons_self ..)).symm

theorem writeFiles_agree (disk disk' : P → Option ω) (l : List (ℤ × ω)) (p : P)
    (h : disk p = disk' p ∨ ∃ x ∈ l, path x.1 = p) :
    writeFiles path disk l p = writeFiles path disk' l p := by
  induction l generalizing disk disk' with
  | nil =>
    rcases h with h | ⟨x, hx, _⟩
    · exact h
    · simp at hx
  | cons x l ih =>
    apply ih
    by_cases hx : path x.1 = p
    · left; rw [← hx]; simp
    · rcases h with h | ⟨y, hy, hp⟩
      · left
        rw [Function.update_of_ne (Ne.symm hx), Function.update_of_ne (Ne.symm hx), h]
      · rcases List.mem_cons.mp hy with rfl | hy
        · exact absurd hp hx
        · exact Or.inr ⟨y, hy, hp⟩

end Disk

/-! ### Splitting a process at a written time -/

namespace Proc
variable {ω : Type*} (p : Proc ω) (o : ω)

theorem files_prefix (j k : ℕ) (h : j ≤ k) : p.files o j <+: p.files o k := by
  obtain ⟨d, rfl⟩ := Nat.exists_eq_add_of_le h
  rw [shift_files]
  exact List.prefix_append _ _

/-- the files after `k` iterations are those of the whole run up to the time reached -/
theorem files_filter (f : ℤ → Bool) (k N : ℕ) (hkN : k ≤ N)
    (hf : ∀ i, i ≤ N → (f (p.time i) = true ↔ i ≤ k)) :
    (p.files o N).filter (fun x => f x.1) = p.files o k := by
  obtain ⟨d, rfl⟩ := Nat.exists_eq_add_of_le hkN
  rw [shift_files, List.filter_append, List.filter_eq_self.mpr, List.filter_eq_nil_iff.mpr,
    List.append_nil]
  · intro x hx
    obtain ⟨i, hi, _, rfl⟩ := (mem_files _ _).mp hx
    have := (hf (k + (i + 1)) (by omega)).not.mpr (by omega)
    exact this
  · intro x hx
    obtain ⟨i, hi, _, rfl⟩ := (mem_files _ _).mp hx
    exact (hf (i + 1) (by omega)).mpr (by omega)

/-- the last file -/
theorem files_getLast (k : ℕ) (x : ℤ × ω) (h : (p.files o k).getLast? = some x) :
    ∃ b < k, p.write (b + 1) = true ∧ x = (p.time (b + 1), p.full o b) ∧
      p.files o k = p.files o (b + 1) := by
  induction k with
  | zero => simp [files] at h
  | succ k ih =>
    by_cases hw : p.write (k + 1) = true
    · refine ⟨k, by omega, hw, ?_, rfl⟩
      simp only [files, hw, if_true, List.getLast?_append, List.getLast?_singleton, Option.some_or,
        Option.some.injEq] at h
      exact h.symm
    · have e : p.files o (k + 1) = p.files o k := by simp [files, hw]
      rw [e] at h
      obtain ⟨b, hb, h1, h2, h3⟩ := ih h
      exact ⟨b, by omega, h1, h2, e.trans h3⟩

end Proc

variable {m n : ℕ} {K : Type*} [Add K] [Sub K] [Mul K] [Div K] [Neg K] [NpOps K]
  [MulZeroNum K] {P : Type*}

theorem RunConfig.steps_fwd_end (cfg : RunConfig K) (hdt : 0 < cfg.timestep) (b : ℕ) :
    ({ cfg with tracking_end_date := cfg.fwdTime b } : RunConfig K).steps = b := by
  have hd := cfg.dt_pos hdt
  show ((cfg.tracking_start_date + b * cfg.dt - cfg.tracking_start_date) / cfg.dt).toNat = b
  rw [add_sub_cancel_left, Int.mul_ediv_cancel _ hd.ne']
  simp

theorem RunConfig.steps_fwd_start (cfg : RunConfig K) (hdt : 0 < cfg.timestep) (b : ℕ) :
    ({ cfg with tracking_start_date := cfg.fwdTime b, restart := true } : RunConfig K).steps =
      cfg.steps - b := by
  have hd := cfg.dt_pos hdt
  show ((cfg.tracking_end_date - (cfg.tracking_start_date + b * cfg.dt)) / cfg.dt).toNat =
    ((cfg.tracking_end_date - cfg.tracking_start_date) / cfg.dt).toNat - b
  have : cfg.tracking_end_date - (cfg.tracking_start_date + b * cfg.dt) =
    (cfg.tracking_end_date - cfg.tracking_start_date) + (-(b : ℤ)) * cfg.dt := by ring
  rw [this, Int.add_mul_ediv_right _ _ hd.ne']
  omega

theorem RunConfig.steps_bwd_start (cfg : RunConfig K) (hdt : 0 < cfg.timestep) (b : ℕ) :
    ({ cfg with tracking_start_date := cfg.bwdTime b } : RunConfig K).steps = b := by
  have hd := cfg.dt_pos hdt
  show ((cfg.tracking_end_date - (cfg.tracking_end_date - b * cfg.dt)) / cfg.dt).toNat = b
  rw [sub_sub_cancel, Int.mul_ediv_cancel _ hd.ne']
  simp

theorem RunConfig.steps_bwd_end (cfg : RunConfig K) (hdt : 0 < cfg.timestep) (b : ℕ) :
    ({ cfg with tracking_end_date := cfg.bwdTime b, restart := true } : RunConfig K).steps =
      cfg.steps - b := by
  have hd := cfg.dt_pos hdt
  show ((cfg.tracking_end_date - b * cfg.dt - cfg.tracking_start_date) / cfg.dt).toNat =
    ((cfg.tracking_end_date - cfg.tracking_start_date) / cfg.dt).toNat - b
  have : cfg.tracking_end_date - b * cfg.dt - cfg.tracking_start_date =
    (cfg.tracking_end_date - cfg.tracking_start_date) + (-(b : ℤ)) * cfg.dt := by ring
  rw [this, Int.add_mul_ediv_right _ _ hd.ne']
  omega

theorem Spec.Runnable.fwd_end {cfg : RunConfig K} {src : Source m n K} {inp : Input m n K}
    (h : Runnable cfg src inp) (b : ℕ) (hb : b ≤ cfg.steps) :
    Runnable { cfg with tracking_end_date := cfg.fwdTime b } src inp := by
  obtain ⟨h1, h2⟩ := cfg.fwdTime_mem h.timestep_pos h.ordered b hb
  refine ⟨h.timestep_pos, h1, ⟨fun t ht ht' => h.serves.states t ht (ht'.trans h2),
    fun t ht ht' => h.serves.fluxes t ht (ht'.trans h2), ?_⟩⟩
  obtain ⟨r, hr, hr'⟩ := h.serves.region
  exact ⟨r, hr, fun t ht ht' => hr' t ht (ht'.trans h2)⟩

theorem Spec.Runnable.fwd_start {cfg : RunConfig K} {src : Source m n K} {inp : Input m n K}
    (h : Runnable cfg src inp) (b : ℕ) (hb : b ≤ cfg.steps) :
    Runnable { cfg with tracking_start_date := cfg.fwdTime b, restart := true } src inp := by
  obtain ⟨h1, h2⟩ := cfg.fwdTime_mem h.timestep_pos h.ordered b hb
  refine ⟨h.timestep_pos, h2, ⟨fun t ht ht' => h.serves.states t (h1.trans ht) ht',
    fun t ht ht' => h.serves.fluxes t (h1.trans ht) ht', ?_⟩⟩
  obtain ⟨r, hr, hr'⟩ := h.serves.region
  exact ⟨r, hr, fun t ht ht' => hr' t (h1.trans ht) ht'⟩

theorem Spec.Runnable.bwd_start {cfg : RunConfig K} {src : Source m n K} {inp : Input m n K}
    (h : Runnable cfg src inp) (b : ℕ) (hb : b ≤ cfg.steps) :
    Runnable { cfg with tracking_start_date := cfg.bwdTime b } src inp := by
  obtain ⟨h1, h2⟩ := cfg.bwdTime_mem h.timestep_pos h.ordered b hb
  refine ⟨h.timestep_pos, h2, ⟨fun t ht ht' => h.serves.states t (h1.trans ht) ht',
    fun t ht ht' => h.serves.fluxes t (h1.trans ht) ht', ?_⟩⟩
  obtain ⟨r, hr, hr'⟩ := h.serves.region
  exact ⟨r, hr, fun t ht ht' => hr' t (h1.trans ht) ht'⟩

theorem Spec.Runnable.bwd_end {cfg : RunConfig K} {src : Source m n K} {inp : Input m n K}
    (h : Runnable cfg src inp) (b : ℕ) (hb : b ≤ cfg.steps) :
    Runnable { cfg with tracking_end_date := cfg.bwdTime b, restart := true } src inp := by
  obtain ⟨h1, h2⟩ := cfg.bwdTime_mem h.timestep_pos h.ordered b hb
  refine ⟨h.timestep_pos, h1, ⟨fun t ht ht' => h.serves.states t ht (ht'.trans h2),
    fun t ht ht' => h.serves.fluxes t ht (ht'.trans h2), ?_⟩⟩
  obtain ⟨r, hr, hr'⟩ := h.serves.region
  exact ⟨r, hr, fun t ht ht' => hr' t ht (ht'.trans h2)⟩

theorem fwdTime_shift (cfg : RunConfig K) (b k : ℕ) :
    ({ cfg with tracking_start_date := cfg.fwdTime b, restart := true } : RunConfig K).fwdTime k =
      cfg.fwdTime (b + k) := by
  show cfg.tracking_start_date + b * cfg.dt + k * cfg.dt = cfg.tracking_start_date + _ * cfg.dt
  push_cast; ring

theorem bwdTime_shift (cfg : RunConfig K) (b k : ℕ) :
    ({ cfg with tracking_end_date := cfg.bwdTime b, restart := true } : RunConfig K).bwdTime k =
      cfg.bwdTime (b + k) := by
  show cfg.tracking_end_date - b * cfg.dt - k * cfg.dt = cfg.tracking_end_date - _ * cfg.dt
  push_cast; ring

/-- first part of a forward run that is stopped after the `b`-th step, a written one -/
theorem fwd_first_part (cfg : RunConfig K) (g : GridInfo (m + 2) K) (inp : Input m n K) (o)
    (hdt : 0 < cfg.timestep) (b : ℕ) (hb : b ≤ cfg.steps)
    (hw : writes cfg.fwdTime cfg.output_frequency cfg.steps b) :
    let cfg1 : RunConfig K := { cfg with tracking_end_date := cfg.fwdTime b }
    (fwdProc cfg1 g inp).files o b = (fwdProc cfg g inp).files o b ∧
      (fwdProc cfg1 g inp).out o b = (fwdProc cfg g inp).out o b := by
  intro cfg1
  have hst : cfg1.steps = b := cfg.steps_fwd_end hdt b
  have hwr : ∀ k ≤ b, 0 < k → (fwdProc cfg1 g inp).write k = (fwdProc cfg g inp).write k := by
    intro k hk _
    simp only [fwdProc, hst]
    apply decide_eq_decide.mpr
    rcases hk.lt_or_eq with h | rfl
    · exact or_congr Iff.rfl (by omega)
    · exact ⟨fun _ => hw, fun _ => Or.inr rfl⟩
  exact ⟨Proc.files_congr (p := fwdProc cfg1 g inp) (q := fwdProc cfg g inp) o b (fun _ _ => rfl) hwr
      rfl (fun _ _ _ => rfl) b le_rfl,
    Proc.out_congr (p := fwdProc cfg1 g inp) (q := fwdProc cfg g inp) o b (fun _ _ => rfl) hwr rfl b
      le_rfl⟩

/-- second part of a forward run -/
theorem fwd_second_part (cfg : RunConfig K) (g : GridInfo (m + 2) K) (inp : Input m n K) (o)
    (hdt : 0 < cfg.timestep) (b : ℕ) (hb : b ≤ cfg.steps) :
    let cfg2 : RunConfig K := { cfg with tracking_start_date := cfg.fwdTime b, restart := true }
    (fwdProc cfg2 g inp).files o cfg2.steps = ((fwdProc cfg g inp).shift b).files o cfg2.steps ∧
      (fwdProc cfg2 g inp).out o cfg2.steps = ((fwdProc cfg g inp).shift b).out o cfg2.steps := by
  intro cfg2
  have hst : cfg2.steps = cfg.steps - b := cfg.steps_fwd_start hdt b
  have ht : ∀ k, cfg2.fwdTime k = cfg.fwdTime (b + k) := fwdTime_shift cfg b
  have hwr : ∀ k ≤ cfg2.steps, 0 < k →
      (fwdProc cfg2 g inp).write k = ((fwdProc cfg g inp).shift b).write k := by
    intro k hk _
    simp only [fwdProc, Proc.shift, writes, hst, ht]
    exact decide_eq_decide.mpr (or_congr Iff.rfl (by omega))
  have hs : ∀ k < cfg2.steps, (fwdProc cfg2 g inp).step k = ((fwdProc cfg g inp).shift b).step k := by
    intro k hk
    simp only [fwdProc, Proc.shift, ht]
    rfl
  exact ⟨Proc.files_congr o _ hs hwr rfl (fun k _ _ => ht k) _ le_rfl,
    Proc.out_congr o _ hs hwr rfl _ le_rfl⟩

/-- first part of a backward run that is stopped after the `b`-th step, a written one -/
theorem bwd_first_part (cfg : RunConfig K) (g : GridInfo (m + 2) K) (inp : Input m n K) (o)
    (hdt : 0 < cfg.timestep) (b : ℕ) (hb : b ≤ cfg.steps)
    (hw : writes cfg.bwdTime cfg.output_frequency cfg.steps b) :
    let cfg1 : RunConfig K := { cfg with tracking_start_date := cfg.bwdTime b }
    (bwdProc cfg1 g inp).files o b = (bwdProc cfg g inp).files o b ∧
      (bwdProc cfg1 g inp).out o b = (bwdProc cfg g inp).out o b := by
  intro cfg1
  have hst : cfg1.steps = b := cfg.steps_bwd_start hdt b
  have hwr : ∀ k ≤ b, 0 < k → (bwdProc cfg1 g inp).write k = (bwdProc cfg g inp).write k := by
    intro k hk _
    simp only [bwdProc, hst]
    apply decide_eq_decide.mpr
    rcases hk.lt_or_eq with h | rfl
    · exact or_congr Iff.rfl (by omega)
    · exact ⟨fun _ => hw, fun _ => Or.inr rfl⟩
  exact ⟨Proc.files_congr (p := bwdProc cfg1 g inp) (q := bwdProc cfg g inp) o b (fun _ _ => rfl) hwr
      rfl (fun _ _ _ => rfl) b le_rfl,
    Proc.out_congr (p := bwdProc cfg1 g inp) (q := bwdProc cfg g inp) o b (fun _ _ => rfl) hwr rfl b
      le_rfl⟩

/-- second part of a backward run -/
theorem bwd_second_part (cfg : RunConfig K) (g : GridInfo (m + 2) K) (inp : Input m n K) (o)
    (hdt : 0 < cfg.timestep) (b : ℕ) (hb : b ≤ cfg.steps) :
    let cfg2 : RunConfig K := { cfg with tracking_end_date := cfg.bwdTime b, restart := true }
    (bwdProc cfg2 g inp).files o cfg2.steps = ((bwdProc cfg g inp).shift b).files o cfg2.steps ∧
      (bwdProc cfg2 g inp).out o cfg2.steps = ((bwdProc cfg g inp).shift b).out o cfg2.steps := by
  intro cfg2
  have hst : cfg2.steps = cfg.steps - b := cfg.steps_bwd_end hdt b
  have ht : ∀ k, cfg2.bwdTime k = cfg.bwdTime (b + k) := bwdTime_shift cfg b
  have hwr : ∀ k ≤ cfg2.steps, 0 < k →
      (bwdProc cfg2 g inp).write k = ((bwdProc cfg g inp).shift b).write k := by
    intro k hk _
    simp only [bwdProc, Proc.shift, writes, hst, ht]
    exact decide_eq_decide.mpr (or_congr Iff.rfl (by omega))
  have hs : ∀ k < cfg2.steps, (bwdProc cfg2 g inp).step k = ((bwdProc cfg g inp).shift b).step k := by
    intro k hk
    simp only [bwdProc, Proc.shift, ht]
    rfl
  exact ⟨Proc.files_congr o _ hs hwr rfl (fun k _ _ => ht k) _ le_rfl,
    Proc.out_congr o _ hs hwr rfl _ le_rfl⟩

theorem fwd_flush_eq (o : FwdOutput (m + 2) (n + 2) K) : o.flush =
    { FwdOutput.zeros with s_track_upper := o.s_track_upper, s_track_lower := o.s_track_lower } := by
  simp [FwdOutput.flush, FwdOutput.zeros, MulZeroNum.mul_zero]

theorem bwd_flush_eq (o : BwdOutput (m + 2) (n + 2) K) : o.flush =
    { BwdOutput.zeros with s_track_upper := o.s_track_upper, s_track_lower := o.s_track_lower } := by
  simp [BwdOutput.flush, BwdOutput.zeros, MulZeroNum.mul_zero]

/-- the restart run on a folder that holds the file of step `b + 1` -/
theorem fwd_restart (cfg : RunConfig K) (src : Source m n K) (inp : Input m n K) (path : ℤ → P)
    (h : Runnable cfg src inp) (o) (b : ℕ) (hb : b + 1 ≤ cfg.steps)
    (hw : (fwdProc cfg src.grid inp).write (b + 1) = true)
    (disk' : P → Option (FwdOutput (m + 2) (n + 2) K))
    (hd : disk' (path (cfg.fwdTime (b + 1))) = some ((fwdProc cfg src.grid inp).full o b)) :
    ∃ s2, EndsIn (fwdRun { cfg with tracking_start_date := cfg.fwdTime (b + 1), restart := true }
        src path disk') s2 ∧
      (fwdProc cfg src.grid inp).files o cfg.steps =
        (fwdProc cfg src.grid inp).files o (b + 1) ++ s2.files ∧
      s2.output = (fwdProc cfg src.grid inp).out o cfg.steps ∧
      s2.t0 = cfg.fwdTime cfg.steps := by
  set cfg2 : RunConfig K := { cfg with tracking_start_date := cfg.fwdTime (b + 1), restart := true }
  have h2 : Runnable cfg2 src inp := h.fwd_start (b + 1) hb
  have hinit : fwdInitialize cfg2 src path disk' =
      .ok ((fwdProc cfg src.grid inp).out o (b + 1)) := by
    unfold fwdInitialize
    rw [h2.serves.states _ le_rfl h2.ordered]
    show (match disk' (path (cfg.fwdTime (b + 1))) with
      | none => _
      | some ds => _) = _
    rw [hd]
    simp only [Proc.out, hw, if_true]
    show _ = Except.ok (FwdOutput.flush _)
    rw [fwd_flush_eq]
    rfl
  obtain ⟨r, hr, _, hrun⟩ := fwd_run_eq cfg2 src inp path disk' h2 _ hinit
  obtain ⟨e1, e2⟩ := fwd_second_part cfg src.grid inp
    ((fwdProc cfg src.grid inp).out o (b + 1)) h.timestep_pos (b + 1) hb
  have hst : b + 1 + cfg2.steps = cfg.steps := by
    rw [cfg.steps_fwd_start h.timestep_pos (b + 1)]; omega
  have f1 : (fwdProc cfg src.grid inp).files o cfg.steps =
      (fwdProc cfg src.grid inp).files o (b + 1) ++
        (fwdStateAt cfg2 src inp r ((fwdProc cfg src.grid inp).out o (b + 1)) cfg2.steps).files := by
    have := Proc.shift_files (fwdProc cfg src.grid inp) o (b + 1) cfg2.steps
    rw [hst] at this
    rw [this, ← e1]
    rfl
  have f2 : (fwdStateAt cfg2 src inp r ((fwdProc cfg src.grid inp).out o (b + 1)) cfg2.steps).output =
      (fwdProc cfg src.grid inp).out o cfg.steps := by
    have := Proc.shift_out (fwdProc cfg src.grid inp) o (b + 1) cfg2.steps
    rw [hst, ← e2] at this
    exact this
  have f3 : cfg2.fwdTime cfg2.steps = cfg.fwdTime cfg.steps :=
    (fwdTime_shift cfg (b + 1) _).trans (congrArg cfg.fwdTime hst)
  exact ⟨_, ⟨cfg2.steps, fun fuel hf => (hrun fuel).trans (if_neg (not_lt.mpr hf))⟩, f1, f2, f3⟩

/-- the restart run on a folder that holds the file of step `b + 1` -/
theorem bwd_restart (cfg : RunConfig K) (src : Source m n K) (inp : Input m n K) (path : ℤ → P)
    (h : Runnable cfg src inp) (o) (b : ℕ) (hb : b + 1 ≤ cfg.steps)
    (hw : (bwdProc cfg src.grid inp).write (b + 1) = true)
    (disk' : P → Option (BwdOutput (m + 2) (n + 2) K))
    (hd : disk' (path (cfg.bwdTime (b + 1))) = some ((bwdProc cfg src.grid inp).full o b)) :
    ∃ s2, EndsIn (bwdRun { cfg with tracking_end_date := cfg.bwdTime (b + 1), restart := true }
        src path disk') s2 ∧
      (bwdProc cfg src.grid inp).files o cfg.steps =
        (bwdProc cfg src.grid inp).files o (b + 1) ++ s2.files ∧
      s2.output = (bwdProc cfg src.grid inp).out o cfg.steps ∧
      s2.t1 = cfg.bwdTime cfg.steps := by
  set cfg2 : RunConfig K := { cfg with tracking_end_date := cfg.bwdTime (b + 1), restart := true }
  have h2 : Runnable cfg2 src inp := h.bwd_end (b + 1) hb
  have hinit : bwdInitialize cfg2 src path disk' =
      .ok ((bwdProc cfg src.grid inp).out o (b + 1)) := by
    unfold bwdInitialize
    rw [h2.serves.states _ h2.ordered le_rfl]
    show (match disk' (path (cfg.bwdTime (b + 1))) with
      | none => _
      | some ds => _) = _
    rw [hd]
    simp only [Proc.out, hw, if_true]
    show _ = Except.ok (BwdOutput.flush _)
    rw [bwd_flush_eq]
    rfl
  obtain ⟨r, hr, _, hrun⟩ := bwd_run_eq cfg2 src inp path disk' h2 _ hinit
  obtain ⟨e1, e2⟩ := bwd_second_part cfg src.grid inp
    ((bwdProc cfg src.grid inp).out o (b + 1)) h.timestep_pos (b + 1) hb
  have hst : b + 1 + cfg2.steps = cfg.steps := by
    rw [cfg.steps_bwd_end h.timestep_pos (b + 1)]; omega
  have f1 : (bwdProc cfg src.grid inp).files o cfg.steps =
      (bwdProc cfg src.grid inp).files o (b + 1) ++
        (bwdStateAt cfg2 src inp r ((bwdProc cfg src.grid inp).out o (b + 1)) cfg2.steps).files := by
    have := Proc.shift_files (bwdProc cfg src.grid inp) o (b + 1) cfg2.steps
    rw [hst] at this
    rw [this, ← e1]
    rfl
  have f2 : (bwdStateAt cfg2 src inp r ((bwdProc cfg src.grid inp).out o (b + 1)) cfg2.steps).output =
      (bwdProc cfg src.grid inp).out o cfg.steps := by
    have := Proc.shift_out (bwdProc cfg src.grid inp) o (b + 1) cfg2.steps
    rw [hst, ← e2] at this
    exact this
  have f3 : cfg2.bwdTime cfg2.steps = cfg.bwdTime cfg.steps :=
    (bwdTime_shift cfg (b + 1) _).trans (congrArg cfg.bwdTime hst)
  exact ⟨_, ⟨cfg2.steps, fun fuel hf => (hrun fuel).trans (if_neg (not_lt.mpr hf))⟩, f1, f2, f3⟩

/-! ### C29 -/

/-- **C29** (forward).  Let a run over `[A, C]` be possible and end in `s`, and let `B` be one of the
times at which it writes a file.  Then the run over `[A, B]` ends, the restart run over `[B, C]` on
the folder it leaves behind ends, and together they write exactly the files of the uninterrupted run
- same times, same contents, in the same order - and end with the same tracked fields at the same
time. -/
theorem C29_restart_forward [DecidableEq P] (cfg : RunConfig K) (src : Source m n K) (inp : Input m n K)
    (path : ℤ → P) (disk : P → Option (FwdOutput (m + 2) (n + 2) K)) (h : Runnable cfg src inp)
    {s} (hs : EndsIn (fwdRun cfg src path disk) s) (B : ℤ) (hB : B ∈ s.files.map Prod.fst) :
    ∃ s1 s2, EndsIn (fwdRun { cfg with tracking_end_date := B } src path disk) s1 ∧
      EndsIn (fwdRun { cfg with tracking_start_date := B, restart := true } src path
        (writeFiles path disk s1.files)) s2 ∧
      s.files = s1.files ++ s2.files ∧ s.output = s2.output ∧ s.t0 = s2.t0 := by
  obtain ⟨o, r, ho, rfl⟩ := fwd_ends cfg src inp path disk h hs
  obtain ⟨x, hx, rfl⟩ := List.mem_map.mp hB
  obtain ⟨b, hb, hw, rfl⟩ := (Proc.mem_files _ _).mp hx
  have hw' : writes cfg.fwdTime cfg.output_frequency cfg.steps (b + 1) := of_decide_eq_true hw
  change ∃ s1 s2, EndsIn (fwdRun { cfg with tracking_end_date := cfg.fwdTime (b + 1) } src path disk)
    s1 ∧ EndsIn (fwdRun { cfg with tracking_start_date := cfg.fwdTime (b + 1), restart := true } src
    path (writeFiles path disk s1.files)) s2 ∧ _
  set cfg1 : RunConfig K := { cfg with tracking_end_date := cfg.fwdTime (b + 1) }
  have h1 : Runnable cfg1 src inp := h.fwd_end (b + 1) hb
  have ho1 : fwdInitialize cfg1 src path disk = .ok o := ho
  obtain ⟨r1, _, _, hrun⟩ := fwd_run_eq cfg1 src inp path disk h1 o ho1
  have hst : cfg1.steps = b + 1 := cfg.steps_fwd_end h.timestep_pos (b + 1)
  have hf1 : (fwdStateAt cfg1 src inp r1 o cfg1.steps).files =
      (fwdProc cfg src.grid inp).files o (b + 1) := by
    rw [hst]
    exact (fwd_first_part cfg src.grid inp o h.timestep_pos (b + 1) hb hw').1
  obtain ⟨s2, hs2, e1, e2, e3⟩ := fwd_restart cfg src inp path h o b hb hw
    (writeFiles path disk (fwdStateAt cfg1 src inp r1 o cfg1.steps).files) (by
      rw [hf1]
      simp only [Proc.files, hw, if_true]
      exact writeFiles_last path disk _ _ _)
  exact ⟨_, s2, ⟨cfg1.steps, fun fuel hf => (hrun fuel).trans (if_neg (not_lt.mpr hf))⟩, hs2,
    by rw [hf1]; exact e1, e2.symm, e3.symm⟩

/-- **C29** (backward): the mirror image, a run over `[B, C]` followed by a restart over `[A, B]`. -/
theorem C29_restart_backward [DecidableEq P] (cfg : RunConfig K) (src : Source m n K) (inp : Input m n K)
    (path : ℤ → P) (disk : P → Option (BwdOutput (m + 2) (n + 2) K)) (h : Runnable cfg src inp)
    {s} (hs : EndsIn (bwdRun cfg src path disk) s) (B : ℤ) (hB : B ∈ s.files.map Prod.fst) :
    ∃ s1 s2, EndsIn (bwdRun { cfg with tracking_start_date := B } src path disk) s1 ∧
      EndsIn (bwdRun { cfg with tracking_end_date := B, restart := true } src path
        (writeFiles path disk s1.files)) s2 ∧
      s.files = s1.files ++ s2.files ∧ s.output = s2.output ∧ s.t1 = s2.t1 := by
  obtain ⟨o, r, ho, rfl⟩ := bwd_ends cfg src inp path disk h hs
  obtain ⟨x, hx, rfl⟩ := List.mem_map.mp hB
  obtain ⟨b, hb, hw, rfl⟩ := (Proc.mem_files _ _).mp hx
  have hw' : writes cfg.bwdTime cfg.output_frequency cfg.steps (b + 1) := of_decide_eq_true hw
  change ∃ s1 s2, EndsIn (bwdRun { cfg with tracking_start_date := cfg.bwdTime (b + 1) } src path disk)
    s1 ∧ EndsIn (bwdRun { cfg with tracking_end_date := cfg.bwdTime (b + 1), restart := true } src
    path (writeFiles path disk s1.files)) s2 ∧ _
  set cfg1 : RunConfig K := { cfg with tracking_start_date := cfg.bwdTime (b + 1) }
  have h1 : Runnable cfg1 src inp := h.bwd_start (b + 1) hb
  have ho1 : bwdInitialize cfg1 src path disk = .ok o := ho
  obtain ⟨r1, _, _, hrun⟩ := bwd_run_eq cfg1 src inp path disk h1 o ho1
  have hst : cfg1.steps = b + 1 := cfg.steps_bwd_start h.timestep_pos (b + 1)
  have hf1 : (bwdStateAt cfg1 src inp r1 o cfg1.steps).files =
      (bwdProc cfg src.grid inp).files o (b + 1) := by
    rw [hst]
    exact (bwd_first_part cfg src.grid inp o h.timestep_pos (b + 1) hb hw').1
  obtain ⟨s2, hs2, e1, e2, e3⟩ := bwd_restart cfg src inp path h o b hb hw
    (writeFiles path disk (bwdStateAt cfg1 src inp r1 o cfg1.steps).files) (by
      rw [hf1]
      simp only [Proc.files, hw, if_true]
      exact writeFiles_last path disk _ _ _)
  exact ⟨_, s2, ⟨cfg1.steps, fun fuel hf => (hrun fuel).trans (if_neg (not_lt.mpr hf))⟩, hs2,
    by rw [hf1]; exact e1, e2.symm, e3.symm⟩

/-! ### C30 -/

/-- **C30** (forward).  Let the uninterrupted run end in `s`.  Kill it after any number `k` of
iterations (state `sk`).  Then
* the files on disk are exactly the files of the uninterrupted run up to the time reached;
* if at least one file was written, the last one at `B`, then a restart run from `B` completes the
  folder to exactly the folder of the uninterrupted run - also if the crash left garbage in place
  of files that come after `B` (`disk'`; a file that was being written).  Output paths of different
  times must differ from that of `B` (see C42);
* if no file was written, running the same configuration again gives the complete folder, provided
  the restart file (if any) is still there. -/
theorem C30_crash_forward [DecidableEq P] (cfg : RunConfig K) (src : Source m n K) (inp : Input m n K)
    (path : ℤ → P) (disk : P → Option (FwdOutput (m + 2) (n + 2) K)) (h : Runnable cfg src inp)
    {s} (hs : EndsIn (fwdRun cfg src path disk) s) (k : ℕ) (sk)
    (hk : fwdRun cfg src path disk k = .stillRunning sk ∨ fwdRun cfg src path disk k = .finished sk) :
    sk.files = s.files.filter (fun x => decide (x.1 ≤ sk.t0)) ∧
    (∀ B f, sk.files.getLast? = some (B, f) →
      (∀ x ∈ s.files, B < x.1 → path x.1 ≠ path B) →
      ∀ disk' : P → Option (FwdOutput (m + 2) (n + 2) K),
      (∀ q, disk' q = writeFiles path disk sk.files q ∨ ∃ x ∈ s.files, B < x.1 ∧ path x.1 = q) →
      ∃ s2, EndsIn (fwdRun { cfg with tracking_start_date := B, restart := true } src path disk') s2 ∧
        writeFiles path disk' s2.files = writeFiles path disk s.files) ∧
    (sk.files = [] →
      ∀ disk' : P → Option (FwdOutput (m + 2) (n + 2) K),
      (∀ q, disk' q = disk q ∨ ∃ x ∈ s.files, path x.1 = q) →
      (cfg.restart = true → disk' (path cfg.tracking_start_date) = disk (path cfg.tracking_start_date)) →
      ∃ s2, EndsIn (fwdRun cfg src path disk') s2 ∧
        writeFiles path disk' s2.files = writeFiles path disk s.files) := by
  obtain ⟨o, r, ho, rfl⟩ := fwd_ends cfg src inp path disk h hs
  obtain ⟨r', hr1, hr2, hrun⟩ := fwd_run_eq cfg src inp path disk h o ho
  have hd := cfg.dt_pos h.timestep_pos
  obtain ⟨k', hk', rfl⟩ : ∃ k' ≤ cfg.steps, sk = fwdStateAt cfg src inp r' o k' := by
    rw [hrun] at hk
    by_cases hlt : k < cfg.steps
    · rw [if_pos hlt] at hk
      refine ⟨k, hlt.le, ?_⟩
      exact (by simpa using hk : _ = sk).symm
    · rw [if_neg hlt] at hk
      refine ⟨cfg.steps, le_rfl, ?_⟩
      exact (by simpa using hk : _ = sk).symm
  have htime : ∀ i j : ℕ, (cfg.fwdTime i ≤ cfg.fwdTime j ↔ i ≤ j) := by
    intro i j
    unfold RunConfig.fwdTime
    constructor
    · intro h1
      have : (i : ℤ) * cfg.dt ≤ j * cfg.dt := by linarith
      exact_mod_cast le_of_mul_le_mul_right this hd
    · intro h1
      have : (i : ℤ) * cfg.dt ≤ j * cfg.dt :=
        mul_le_mul_of_nonneg_right (by exact_mod_cast h1) hd.le
      linarith
  refine ⟨?_, ?_, ?_⟩
  · exact (Proc.files_filter (fwdProc cfg src.grid inp) o
      (fun t => decide (t ≤ cfg.fwdTime k')) k' cfg.steps hk' (fun i _ => by
        rw [decide_eq_true_eq]; exact htime i k')).symm
  · intro B f hlast hpath disk' hdisk'
    obtain ⟨b, hb, hw, hx, hfiles⟩ := Proc.files_getLast _ _ _ _ hlast
    have hB : B = cfg.fwdTime (b + 1) := congrArg Prod.fst hx
    have hf : f = (fwdProc cfg src.grid inp).full o b := congrArg Prod.snd hx
    subst hB
    have hsk : (fwdStateAt cfg src inp r' o k').files = (fwdProc cfg src.grid inp).files o (b + 1) :=
      hfiles
    rw [hsk] at hdisk'
    obtain ⟨s2, hs2, e1, _, _⟩ := fwd_restart cfg src inp path h o b (by omega) hw disk' (by
      rcases hdisk' (path (cfg.fwdTime (b + 1))) with hq | ⟨x, hx1, hx2, hx3⟩
      · rw [hq]
        simp only [Proc.files, hw, if_true]
        exact writeFiles_last path disk _ _ _
      · exact absurd hx3 (hpath x hx1 hx2))
    refine ⟨s2, hs2, ?_⟩
    have hfs : (fwdStateAt cfg src inp r o cfg.steps).files =
      (fwdProc cfg src.grid inp).files o (b + 1) ++ s2.files := e1
    rw [hfs, writeFiles_append]
    funext q
    apply writeFiles_agree
    rcases hdisk' q with hq | ⟨x, hx1, hx2, hx3⟩
    · exact Or.inl hq
    · right
      rw [hfs, List.mem_append] at hx1
      rcases hx1 with hx1 | hx1
      · obtain ⟨i, hi, _, rfl⟩ := (Proc.mem_files _ _).mp hx1
        have : cfg.fwdTime (i + 1) ≤ cfg.fwdTime (b + 1) := (htime _ _).mpr (by omega)
        exact absurd this (not_le.mpr hx2)
      · exact ⟨x, hx1, hx3⟩
  · intro hnil disk' hdisk' hrest
    have ho' : fwdInitialize cfg src path disk' = .ok o := by
      rw [← ho]
      unfold fwdInitialize
      cases hc : cfg.restart
      · simp
      · rw [hrest hc]
    obtain ⟨r3, _, _, hrun'⟩ := fwd_run_eq cfg src inp path disk' h o ho'
    refine ⟨_, ⟨cfg.steps, fun fuel hf => (hrun' fuel).trans (if_neg (not_lt.mpr hf))⟩, ?_⟩
    funext q
    apply writeFiles_agree
    rcases hdisk' q with hq | hq
    · exact Or.inl hq
    · exact Or.inr hq

/-- **C30** (backward).  Let the uninterrupted run end in `s`.  Kill it after any number `k` of
iterations (state `sk`).  Then
* the files on disk are exactly the files of the uninterrupted run up to the time reached;
* if at least one file was written, the last one at `B`, then a restart run from `B` completes the
  folder to exactly the folder of the uninterrupted run - also if the crash left garbage in place
  of files that come after `B` (`disk'`; a file that was being written).  Output paths of different
  times must differ from that of `B` (see C42);
* if no file was written, running the same configuration again gives the complete folder, provided
  the restart file (if any) is still there. -/
theorem C30_crash_backward [DecidableEq P] (cfg : RunConfig K) (src : Source m n K) (inp : Input m n K)
    (path : ℤ → P) (disk : P → Option (BwdOutput (m + 2) (n + 2) K)) (h : Runnable cfg src inp)
    {s} (hs : EndsIn (bwdRun cfg src path disk) s) (k : ℕ) (sk)
    (hk : bwdRun cfg src path disk k = .stillRunning sk ∨ bwdRun cfg src path disk k = .finished sk) :
    sk.files = s.files.filter (fun x => decide (sk.t1 ≤ x.1)) ∧
    (∀ B f, sk.files.getLast? = some (B, f) →
      (∀ x ∈ s.files, x.1 < B → path x.1 ≠ path B) →
      ∀ disk' : P → Option (BwdOutput (m + 2) (n + 2) K),
      (∀ q, disk' q = writeFiles path disk sk.files q ∨ ∃ x ∈ s.files, x.1 < B ∧ path x.1 = q) →
      ∃ s2, EndsIn (bwdRun { cfg with tracking_end_date := B, restart := true } src path disk') s2 ∧
        writeFiles path disk' s2.files = writeFiles path disk s.files) ∧
    (sk.files = [] →
      ∀ disk' : P → Option (BwdOutput (m + 2) (n + 2) K),
      (∀ q, disk' q = disk q ∨ ∃ x ∈ s.files, path x.1 = q) →
      (cfg.restart = true → disk' (path cfg.tracking_end_date) = disk (path cfg.tracking_end_date)) →
      ∃ s2, EndsIn (bwdRun cfg src path disk') s2 ∧
        writeFiles path disk' s2.files = writeFiles path disk s.files) := by
  obtain ⟨o, r, ho, rfl⟩ := bwd_ends cfg src inp path disk h hs
  obtain ⟨r', hr1, hr2, hrun⟩ := bwd_run_eq cfg src inp path disk h o ho
  have hd := cfg.dt_pos h.timestep_pos
  obtain ⟨k', hk', rfl⟩ : ∃ k' ≤ cfg.steps, sk = bwdStateAt cfg src inp r' o k' := by
    rw [hrun] at hk
    by_cases hlt : k < cfg.steps
    · rw [if_pos hlt] at hk
      refine ⟨k, hlt.le, ?_⟩
      exact (by simpa using hk : _ = sk).symm
    · rw [if_neg hlt] at hk
      refine ⟨cfg.steps, le_rfl, ?_⟩
      exact (by simpa using hk : _ = sk).symm
  have htime : ∀ i j : ℕ, (cfg.bwdTime j ≤ cfg.bwdTime i ↔ i ≤ j) := by
    intro i j
    unfold RunConfig.bwdTime
    constructor
    · intro h1
      have : (i : ℤ) * cfg.dt ≤ j * cfg.dt := by linarith
      exact_mod_cast le_of_mul_le_mul_right this hd
    · intro h1
      have : (i : ℤ) * cfg.dt ≤ j * cfg.dt :=
        mul_le_mul_of_nonneg_right (by exact_mod_cast h1) hd.le
      linarith
  refine ⟨?_, ?_, ?_⟩
  · exact (Proc.files_filter (bwdProc cfg src.grid inp) o
      (fun t => decide (cfg.bwdTime k' ≤ t)) k' cfg.steps hk' (fun i _ => by
        rw [decide_eq_true_eq]; exact htime i k')).symm
  · intro B f hlast hpath disk' hdisk'
    obtain ⟨b, hb, hw, hx, hfiles⟩ := Proc.files_getLast _ _ _ _ hlast
    have hB : B = cfg.bwdTime (b + 1) := congrArg Prod.fst hx
    have hf : f = (bwdProc cfg src.grid inp).full o b := congrArg Prod.snd hx
    subst hB
    have hsk : (bwdStateAt cfg src inp r' o k').files = (bwdProc cfg src.grid inp).files o (b + 1) :=
      hfiles
    rw [hsk] at hdisk'
    obtain ⟨s2, hs2, e1, _, _⟩ := bwd_restart cfg src inp path h o b (by omega) hw disk' (by
      rcases hdisk' (path (cfg.bwdTime (b + 1))) with hq | ⟨x, hx1, hx2, hx3⟩
      · rw [hq]
        simp only [Proc.files, hw, if_true]
        exact writeFiles_last path disk _ _ _
      · exact absurd hx3 (hpath x hx1 hx2))
    refine ⟨s2, hs2, ?_⟩
    have hfs : (bwdStateAt cfg src inp r o cfg.steps).files =
      (bwdProc cfg src.grid inp).files o (b + 1) ++ s2.files := e1
    rw [hfs, writeFiles_append]
    funext q
    apply writeFiles_agree
    rcases hdisk' q with hq | ⟨x, hx1, hx2, hx3⟩
    · exact Or.inl hq
    · right
      rw [hfs, List.mem_append] at hx1
      rcases hx1 with hx1 | hx1
      · obtain ⟨i, hi, _, rfl⟩ := (Proc.mem_files _ _).mp hx1
        have : cfg.bwdTime (b + 1) ≤ cfg.bwdTime (i + 1) := (htime _ _).mpr (by omega)
        exact absurd this (not_le.mpr hx2)
      · exact ⟨x, hx1, hx3⟩
  · intro hnil disk' hdisk' hrest
    have ho' : bwdInitialize cfg src path disk' = .ok o := by
      rw [← ho]
      unfold bwdInitialize
      cases hc : cfg.restart
      · simp
      · rw [hrest hc]
    obtain ⟨r3, _, _, hrun'⟩ := bwd_run_eq cfg src inp path disk' h o ho'
    refine ⟨_, ⟨cfg.steps, fun fuel hf => (hrun' fuel).trans (if_neg (not_lt.mpr hf))⟩, ?_⟩
    funext q
    apply writeFiles_agree
    rcases hdisk' q with hq | hq
    · exact Or.inl hq
    · exact Or.inr hq

end Wam
