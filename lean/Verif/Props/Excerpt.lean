import Verif.Lemmas.Excerpt

/-!
# C98: a run on a part of the grid
-/
set_option linter.unusedSectionVars false
set_option linter.unusedVariables false

namespace Wam
open Spec

section
variable {m n M N : ℕ} {α : Type*} [Add α] [Sub α] [Mul α] [Div α] [Neg α] [NpOps α] {P P' : Type*}

/-- **C98** (forward).  A run on a part of the grid agrees with the run on the whole grid in all cells that are at least as
many cells away from the edge of the part as there have been time steps: all seven variables of the files, exactly (not up to
rounding), for every number type. -/
theorem C98_part_of_the_grid_forward (p : Place m n M N) (cfg : RunConfig α) (src : Source M N α) (inp : Input M N α) (ps : Bool)
    (hf : p.Fits ps cfg.periodic_boundary) (path : ℤ → P) (path' : ℤ → P') (D : P → Option (FwdOutput (M + 2) (N + 2) α))
    (d : P' → Option (FwdOutput (m + 2) (n + 2) α)) (h : Runnable cfg src inp)
    (hd : cfg.restart = true → d (path' cfg.tracking_start_date) = (D (path cfg.tracking_start_date)).map p.cutFwd)
    {S} (hS : EndsIn (fwdRun cfg src path D) S) :
    ∃ s, EndsIn (fwdRun { cfg with periodic_boundary := ps } (p.cutSource src) path' d) s ∧
      s.files.map Prod.fst = S.files.map Prod.fst ∧
      ∀ t o O, (t, o) ∈ s.files → (t, O) ∈ S.files → ∀ (k : ℕ) i j, t ≤ cfg.tracking_start_date + k * cfg.dt → Deep ps k i j →
        SameCellFwd o i j O (p.r i) (p.c j) := by
  obtain ⟨O, R, hO, rfl⟩ := fwd_ends cfg src inp path D h hS
  have hinit : ∃ o, fwdInitialize { cfg with periodic_boundary := ps } (p.cutSource src) path' d = .ok o ∧
      ∀ i j, SameCellFwd o i j O (p.r i) (p.c j) := by
    unfold fwdInitialize at hO ⊢
    rw [Local.cut_states_ok p src _ (h.serves.states _ le_rfl h.ordered)]
    rw [h.serves.states _ le_rfl h.ordered] at hO
    simp only at hO ⊢
    by_cases hr : cfg.restart = true
    · rw [if_pos hr] at hO ⊢
      rw [hd hr]
      rcases hD : D (path cfg.tracking_start_date) with _ | F
      · rw [hD] at hO; simp at hO
      · rw [hD] at hO
        simp only [Option.map_some] at hO ⊢
        injection hO with hO
        subst hO
        exact ⟨_, rfl, fun i j => by constructor <;> rfl⟩
    · rw [if_neg hr] at hO ⊢
      injection hO with hO
      subst hO
      exact ⟨_, rfl, fun i j => by constructor <;> rfl⟩
  obtain ⟨o, ho, hcell⟩ := hinit
  obtain ⟨r, -, -, hrun⟩ := fwd_run_eq { cfg with periodic_boundary := ps } (p.cutSource src) (p.cutInput inp) path' d
    (Local.runnable_cut p h ps) o ho
  have hst : (RunConfig.steps { cfg with periodic_boundary := ps }) = cfg.steps := rfl
  refine ⟨_, ⟨cfg.steps, fun fuel hfuel => by rw [hrun, if_neg (by rw [hst]; omega)]⟩, ?_, ?_⟩
  · show ((fwdProc { cfg with periodic_boundary := ps } (p.cutGrid src.grid) (p.cutInput inp)).files o cfg.steps).map Prod.fst =
      ((fwdProc cfg src.grid inp).files O cfg.steps).map Prod.fst
    rw [Proc.files_time, Proc.files_time]; rfl
  · intro t x X hx hX k i j hk hdeep
    have hx : (t, x) ∈ (fwdProc { cfg with periodic_boundary := ps } (p.cutGrid src.grid) (p.cutInput inp)).files o cfg.steps := hx
    have hX : (t, X) ∈ (fwdProc cfg src.grid inp).files O cfg.steps := hX
    obtain ⟨l, hl, _, e⟩ := (Proc.mem_files _ _).mp hx
    obtain ⟨l', hl', _, e'⟩ := (Proc.mem_files _ _).mp hX
    have hdt := cfg.dt_pos h.timestep_pos
    have t1 : t = cfg.fwdTime (l + 1) := congrArg Prod.fst e
    have t2 : t = cfg.fwdTime (l' + 1) := congrArg Prod.fst e'
    have hll : l = l' := by
      have := t1.symm.trans t2
      unfold RunConfig.fwdTime at this
      push_cast at this
      have h2 : ((l : ℤ) - l') * cfg.dt = 0 := by linarith
      rcases mul_eq_zero.mp h2 with h3 | h3 <;> omega
    subst hll
    have hlk : l + 1 ≤ k := by
      rw [t1] at hk
      unfold RunConfig.fwdTime at hk
      push_cast at hk
      have h2 : ((l : ℤ) + 1) * cfg.dt ≤ k * cfg.dt := by linarith
      have := le_of_mul_le_mul_right h2 hdt
      omega
    have ex : x = (fwdProc { cfg with periodic_boundary := ps } (p.cutGrid src.grid) (p.cutInput inp)).full o l := congrArg Prod.snd e
    have eX : X = (fwdProc cfg src.grid inp).full O l := congrArg Prod.snd e'
    rw [ex, eX]
    exact (Local.fwd_out_cut p cfg ps hf src.grid inp o O hcell l).2 i j (Local.deep_mono hlk hdeep)

/-- **C98** (backward).  A run on a part of the grid agrees with the run on the whole grid in all cells that are at least as
many cells away from the edge of the part as there have been time steps: all six variables of the files, exactly (not up to
rounding), for every number type. -/
theorem C98_part_of_the_grid_backward (p : Place m n M N) (cfg : RunConfig α) (src : Source M N α) (inp : Input M N α) (ps : Bool)
    (hf : p.Fits ps cfg.periodic_boundary) (path : ℤ → P) (path' : ℤ → P') (D : P → Option (BwdOutput (M + 2) (N + 2) α))
    (d : P' → Option (BwdOutput (m + 2) (n + 2) α)) (h : Runnable cfg src inp)
    (hd : cfg.restart = true → d (path' cfg.tracking_end_date) = (D (path cfg.tracking_end_date)).map p.cutBwd)
    {S} (hS : EndsIn (bwdRun cfg src path D) S) :
    ∃ s, EndsIn (bwdRun { cfg with periodic_boundary := ps } (p.cutSource src) path' d) s ∧
      s.files.map Prod.fst = S.files.map Prod.fst ∧
      ∀ t o O, (t, o) ∈ s.files → (t, O) ∈ S.files → ∀ (k : ℕ) i j, cfg.tracking_end_date - k * cfg.dt ≤ t → Deep ps k i j →
        SameCellBwd o i j O (p.r i) (p.c j) := by
  obtain ⟨O, R, hO, rfl⟩ := bwd_ends cfg src inp path D h hS
  have hinit : ∃ o, bwdInitialize { cfg with periodic_boundary := ps } (p.cutSource src) path' d = .ok o ∧
      ∀ i j, SameCellBwd o i j O (p.r i) (p.c j) := by
    unfold bwdInitialize at hO ⊢
    rw [Local.cut_states_ok p src _ (h.serves.states _ h.ordered le_rfl)]
    rw [h.serves.states _ h.ordered le_rfl] at hO
    simp only at hO ⊢
    by_cases hr : cfg.restart = true
    · rw [if_pos hr] at hO ⊢
      rw [hd hr]
      rcases hD : D (path cfg.tracking_end_date) with _ | F
      · rw [hD] at hO; simp at hO
      · rw [hD] at hO
        simp only [Option.map_some] at hO ⊢
        injection hO with hO
        subst hO
        exact ⟨_, rfl, fun i j => by constructor <;> rfl⟩
    · rw [if_neg hr] at hO ⊢
      injection hO with hO
      subst hO
      exact ⟨_, rfl, fun i j => by constructor <;> rfl⟩
  obtain ⟨o, ho, hcell⟩ := hinit
  obtain ⟨r, -, -, hrun⟩ := bwd_run_eq { cfg with periodic_boundary := ps } (p.cutSource src) (p.cutInput inp) path' d
    (Local.runnable_cut p h ps) o ho
  have hst : (RunConfig.steps { cfg with periodic_boundary := ps }) = cfg.steps := rfl
  refine ⟨_, ⟨cfg.steps, fun fuel hfuel => by rw [hrun, if_neg (by rw [hst]; omega)]⟩, ?_, ?_⟩
  · show ((bwdProc { cfg with periodic_boundary := ps } (p.cutGrid src.grid) (p.cutInput inp)).files o cfg.steps).map Prod.fst =
      ((bwdProc cfg src.grid inp).files O cfg.steps).map Prod.fst
    rw [Proc.files_time, Proc.files_time]; rfl
  · intro t x X hx hX k i j hk hdeep
    have hx : (t, x) ∈ (bwdProc { cfg with periodic_boundary := ps } (p.cutGrid src.grid) (p.cutInput inp)).files o cfg.steps := hx
    have hX : (t, X) ∈ (bwdProc cfg src.grid inp).files O cfg.steps := hX
    obtain ⟨l, hl, _, e⟩ := (Proc.mem_files _ _).mp hx
    obtain ⟨l', hl', _, e'⟩ := (Proc.mem_files _ _).mp hX
    have hdt := cfg.dt_pos h.timestep_pos
    have t1 : t = cfg.bwdTime (l + 1) := congrArg Prod.fst e
    have t2 : t = cfg.bwdTime (l' + 1) := congrArg Prod.fst e'
    have hll : l = l' := by
      have := t1.symm.trans t2
      unfold RunConfig.bwdTime at this
      push_cast at this
      have h2 : ((l : ℤ) - l') * cfg.dt = 0 := by linarith
      rcases mul_eq_zero.mp h2 with h3 | h3 <;> omega
    subst hll
    have hlk : l + 1 ≤ k := by
      rw [t1] at hk
      unfold RunConfig.bwdTime at hk
      push_cast at hk
      have h2 : ((l : ℤ) + 1) * cfg.dt ≤ k * cfg.dt := by linarith
      have := le_of_mul_le_mul_right h2 hdt
      omega
    have ex : x = (bwdProc { cfg with periodic_boundary := ps } (p.cutGrid src.grid) (p.cutInput inp)).full o l := congrArg Prod.snd e
    have eX : X = (bwdProc cfg src.grid inp).full O l := congrArg Prod.snd e'
    rw [ex, eX]
    exact (Local.bwd_out_cut p cfg ps hf src.grid inp o O hcell l).2 i j (Local.deep_mono hlk hdeep)

end

end Wam
