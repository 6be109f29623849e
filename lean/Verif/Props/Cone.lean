import Verif.Lemmas.Cone
import Verif.Lemmas.Demo

/-!
# C130: how far the influence of a value reaches
-/
set_option linter.unusedSectionVars false
set_option linter.unusedVariables false

namespace Wam
open Spec

section
variable {m n : ℕ} {α : Type*} [Add α] [Sub α] [Mul α] [Div α] [Neg α] [NpOps α] {P P' : Type*}

/-- **C130** (forward).  Two experiments on one grid whose data differ only at the times and cells of `D`, and whose restart
files differ only in the cells of `E`, give files at the same times; and a cell has the same values in both files of a time `t`
unless something that differs is near enough to have reached it: what differs at a time `u` reaches at most one cell further
than there are (whole) time steps between `u` and `t`; what differs in the restart file reaches one cell per time step.
Everything is exact, for every number type. -/
theorem C130_influence_forward (cfg : RunConfig α) (src src' : Source m n α) (inp inp' : Input m n α)
    (D : ℤ → Fin (m + 2) → Fin (n + 2) → Prop) (E : Fin (m + 2) → Fin (n + 2) → Prop)
    (path : ℤ → P) (path' : ℤ → P') (disk : P → Option (FwdOutput (m + 2) (n + 2) α))
    (disk' : P' → Option (FwdOutput (m + 2) (n + 2) α)) (h : Runnable cfg src inp) (h' : Runnable cfg src' inp')
    (hg : src'.grid = src.grid) (hD : SameExcept D cfg.tracking_start_date cfg.tracking_end_date inp inp')
    (hE : cfg.restart = true → ∀ f f', disk (path cfg.tracking_start_date) = some f →
      disk' (path' cfg.tracking_start_date) = some f' → ∀ i j, ¬ E i j →
      f.s_track_upper i j = f'.s_track_upper i j ∧ f.s_track_lower i j = f'.s_track_lower i j)
    {s s'} (hs : EndsIn (fwdRun cfg src path disk) s) (hs' : EndsIn (fwdRun cfg src' path' disk') s') :
    s.files.map Prod.fst = s'.files.map Prod.fst ∧
    ∀ t o o', (t, o) ∈ s.files → (t, o') ∈ s'.files → ∀ i j,
      (∀ u i' j', D u i' j' → cfg.tracking_start_date ≤ u → u ≤ t →
        (t - u) + cfg.timestep * 1000000 < cellSteps cfg.periodic_boundary i i' j j' * (cfg.timestep * 1000000)) →
      (cfg.restart = true → ∀ i' j', E i' j' →
        t - cfg.tracking_start_date < cellSteps cfg.periodic_boundary i i' j j' * (cfg.timestep * 1000000)) →
      SameCellFwd o i j o' i j := by
  obtain ⟨O, R, hO, rfl⟩ := fwd_ends cfg src inp path disk h hs
  obtain ⟨O', R', hO', rfl⟩ := fwd_ends cfg src' inp' path' disk' h' hs'
  have hinit : ∀ i j, ¬ (cfg.restart = true ∧ E i j) → SameCellFwd O i j O' i j := by
    intro i j hij
    unfold fwdInitialize at hO hO'
    rw [h.serves.states _ le_rfl h.ordered] at hO
    rw [h'.serves.states _ le_rfl h'.ordered] at hO'
    simp only at hO hO'
    by_cases hr : cfg.restart = true
    · rw [if_pos hr] at hO hO'
      rcases hF : disk (path cfg.tracking_start_date) with _ | F
      · rw [hF] at hO; simp at hO
      · rcases hF' : disk' (path' cfg.tracking_start_date) with _ | F'
        · rw [hF'] at hO'; simp at hO'
        · rw [hF] at hO
          rw [hF'] at hO'
          simp only at hO hO'
          injection hO with hO
          injection hO' with hO'
          subst hO hO'
          have hc := hE hr F F' hF hF' i j fun he => hij ⟨hr, he⟩
          constructor <;> first
            | rfl
            | exact hc.1
            | exact hc.2
    · rw [if_neg hr] at hO hO'
      injection hO with hO
      injection hO' with hO'
      subst hO hO'
      constructor <;> rfl
  refine ⟨?_, ?_⟩
  · show ((fwdProc cfg src.grid inp).files O cfg.steps).map Prod.fst =
      ((fwdProc cfg src'.grid inp').files O' cfg.steps).map Prod.fst
    rw [Proc.files_time, Proc.files_time]; rfl
  · intro t x X hx hX i j h1 h2
    have hx : (t, x) ∈ (fwdProc cfg src.grid inp).files O cfg.steps := hx
    have hX : (t, X) ∈ (fwdProc cfg src'.grid inp').files O' cfg.steps := hX
    rw [hg] at hX
    obtain ⟨l, hl, _, e⟩ := (Proc.mem_files _ _).mp hx
    obtain ⟨l', hl', _, e'⟩ := (Proc.mem_files _ _).mp hX
    have hdt := cfg.dt_pos h.timestep_pos
    have t1 : t = cfg.fwdTime (l + 1) := congrArg Prod.fst e
    have t2 : t = cfg.fwdTime (l' + 1) := congrArg Prod.fst e'
    have hll : l = l' := by
      have := t1.symm.trans t2
      unfold RunConfig.fwdTime at this
      push_cast at this
      have h2 : ((l : ℤ) - l') * cfg.dt = 0 := by linarith
      rcases mul_eq_zero.mp h2 with h3 | h3 <;> omega
    subst hll
    have ex : x = (fwdProc cfg src.grid inp).full O l := congrArg Prod.snd e
    have eX : X = (fwdProc cfg src.grid inp').full O' l := congrArg Prod.snd e'
    rw [ex, eX]
    exact Cone.fwd_out_cone (E := fun i j => cfg.restart = true ∧ E i j) h.timestep_pos h.ordered src.grid hD hinit l hl i j
      (t1 ▸ ⟨h1, fun i' j' he => h2 he.1 i' j' he.2⟩)

/-- **C130** (backward).  Two experiments on one grid whose data differ only at the times and cells of `D`, and whose restart
files differ only in the cells of `E`, give files at the same times; and a cell has the same values in both files of a time `t`
unless something that differs is near enough to have reached it: what differs at a time `u` reaches at most one cell further
than there are (whole) time steps between `u` and `t`; what differs in the restart file reaches one cell per time step.
Everything is exact, for every number type. -/
theorem C130_influence_backward (cfg : RunConfig α) (src src' : Source m n α) (inp inp' : Input m n α)
    (D : ℤ → Fin (m + 2) → Fin (n + 2) → Prop) (E : Fin (m + 2) → Fin (n + 2) → Prop)
    (path : ℤ → P) (path' : ℤ → P') (disk : P → Option (BwdOutput (m + 2) (n + 2) α))
    (disk' : P' → Option (BwdOutput (m + 2) (n + 2) α)) (h : Runnable cfg src inp) (h' : Runnable cfg src' inp')
    (hg : src'.grid = src.grid) (hD : SameExcept D cfg.tracking_start_date cfg.tracking_end_date inp inp')
    (hE : cfg.restart = true → ∀ f f', disk (path cfg.tracking_end_date) = some f →
      disk' (path' cfg.tracking_end_date) = some f' → ∀ i j, ¬ E i j →
      f.s_track_upper i j = f'.s_track_upper i j ∧ f.s_track_lower i j = f'.s_track_lower i j)
    {s s'} (hs : EndsIn (bwdRun cfg src path disk) s) (hs' : EndsIn (bwdRun cfg src' path' disk') s') :
    s.files.map Prod.fst = s'.files.map Prod.fst ∧
    ∀ t o o', (t, o) ∈ s.files → (t, o') ∈ s'.files → ∀ i j,
      (∀ u i' j', D u i' j' → u ≤ cfg.tracking_end_date → t ≤ u →
        (u - t) + cfg.timestep * 1000000 < cellSteps cfg.periodic_boundary i i' j j' * (cfg.timestep * 1000000)) →
      (cfg.restart = true → ∀ i' j', E i' j' →
        cfg.tracking_end_date - t < cellSteps cfg.periodic_boundary i i' j j' * (cfg.timestep * 1000000)) →
      SameCellBwd o i j o' i j := by
  obtain ⟨O, R, hO, rfl⟩ := bwd_ends cfg src inp path disk h hs
  obtain ⟨O', R', hO', rfl⟩ := bwd_ends cfg src' inp' path' disk' h' hs'
  have hinit : ∀ i j, ¬ (cfg.restart = true ∧ E i j) → SameCellBwd O i j O' i j := by
    intro i j hij
    unfold bwdInitialize at hO hO'
    rw [h.serves.states _ h.ordered le_rfl] at hO
    rw [h'.serves.states _ h'.ordered le_rfl] at hO'
    simp only at hO hO'
    by_cases hr : cfg.restart = true
    · rw [if_pos hr] at hO hO'
      rcases hF : disk (path cfg.tracking_end_date) with _ | F
      · rw [hF] at hO; simp at hO
      · rcases hF' : disk' (path' cfg.tracking_end_date) with _ | F'
        · rw [hF'] at hO'; simp at hO'
        · rw [hF] at hO
          rw [hF'] at hO'
          simp only at hO hO'
          injection hO with hO
          injection hO' with hO'
          subst hO hO'
          have hc := hE hr F F' hF hF' i j fun he => hij ⟨hr, he⟩
          constructor <;> first
            | rfl
            | exact hc.1
            | exact hc.2
    · rw [if_neg hr] at hO hO'
      injection hO with hO
      injection hO' with hO'
      subst hO hO'
      constructor <;> rfl
  refine ⟨?_, ?_⟩
  · show ((bwdProc cfg src.grid inp).files O cfg.steps).map Prod.fst =
      ((bwdProc cfg src'.grid inp').files O' cfg.steps).map Prod.fst
    rw [Proc.files_time, Proc.files_time]; rfl
  · intro t x X hx hX i j h1 h2
    have hx : (t, x) ∈ (bwdProc cfg src.grid inp).files O cfg.steps := hx
    have hX : (t, X) ∈ (bwdProc cfg src'.grid inp').files O' cfg.steps := hX
    rw [hg] at hX
    obtain ⟨l, hl, _, e⟩ := (Proc.mem_files _ _).mp hx
    obtain ⟨l', hl', _, e'⟩ := (Proc.mem_files _ _).mp hX
    have hdt := cfg.dt_pos h.timestep_pos
    have t1 : t = cfg.bwdTime (l + 1) := congrArg Prod.fst e
    have t2 : t = cfg.bwdTime (l' + 1) := congrArg Prod.fst e'
    have hll : l = l' := by
      have := t1.symm.trans t2
      unfold RunConfig.bwdTime at this
      push_cast at this
      have h2 : ((l : ℤ) - l') * cfg.dt = 0 := by linarith
      rcases mul_eq_zero.mp h2 with h3 | h3 <;> omega
    subst hll
    have ex : x = (bwdProc cfg src.grid inp).full O l := congrArg Prod.snd e
    have eX : X = (bwdProc cfg src.grid inp').full O' l := congrArg Prod.snd e'
    rw [ex, eX]
    exact Cone.bwd_out_cone (E := fun i j => cfg.restart = true ∧ E i j) h.timestep_pos h.ordered src.grid hD hinit l hl i j
      (t1 ▸ ⟨h1, fun i' j' he => h2 he.1 i' j' he.2⟩)

end

/-! ### Not vacuous -/

namespace Demo

/-- other values in the last cell after ten minutes: 1000 kg/m2 more water in the upper layer, no rain -/
def stormInp : Input 1 1 ℚ :=
  { inp with
    states := fun t => ⟨fun i j => (inp.states t).s_upper i j + if step < t ∧ i = 2 ∧ j = 2 then 1000 else 0,
      (inp.states t).s_lower⟩
    fluxes := fun t => { inp.fluxes t with
      precip := fun i j => if step < t ∧ i = 2 ∧ j = 2 then 0 else (inp.fluxes t).precip i j } }

def stormSrc : Source 1 1 ℚ :=
  { src with
    states := fun t => if 0 ≤ t ∧ t ≤ 4 * step then .ok (stormInp.states t) else .error .keyError
    fluxes := fun t => if 0 ≤ t ∧ t ≤ 4 * step then .ok (stormInp.fluxes t) else .error .keyError }

theorem storm_runnable : Runnable cfg stormSrc stormInp where
  timestep_pos := by decide
  ordered := by decide
  serves :=
    { states := fun t h0 h1 => if_pos ⟨h0, h1⟩
      fluxes := fun t h0 h1 => if_pos ⟨h0, h1⟩
      region := ⟨_, rfl, fun t _ _ => rfl⟩ }

/-- where the data differ -/
def storm (t : ℤ) (i j : Fin 3) : Prop := step < t ∧ i = 2 ∧ j = 2

theorem storm_except : SameExcept (m := 1) (n := 1) storm cfg.tracking_start_date cfg.tracking_end_date inp stormInp where
  s_upper := fun t i j _ _ h => by
    simp only [stormInp]
    rw [if_neg (show ¬ (step < t ∧ i = 2 ∧ j = 2) from h), add_zero]
  s_lower := fun _ _ _ _ _ _ => rfl
  fx_upper := fun _ _ _ _ _ _ => rfl
  fy_upper := fun _ _ _ _ _ _ => rfl
  fx_lower := fun _ _ _ _ _ _ => rfl
  fy_lower := fun _ _ _ _ _ _ => rfl
  evap := fun _ _ _ _ _ _ => rfl
  precip := fun t i j _ _ h => by
    simp only [stormInp]
    rw [if_neg (show ¬ (step < t ∧ i = 2 ∧ j = 2) from h)]
  region := fun _ _ _ _ _ _ => rfl

/-- The file after twenty minutes has the same values for the middle cell, two cells from the last one. -/
example : ∃ s s', EndsIn (fwdRun cfg src path fun _ => none) s ∧ EndsIn (fwdRun cfg stormSrc path fun _ => none) s' ∧
    (2 * step ∈ s.files.map Prod.fst) ∧
    ∀ o o', (2 * step, o) ∈ s.files → (2 * step, o') ∈ s'.files → SameCellFwd o 1 1 o' 1 1 := by
  obtain ⟨s, hs, hf⟩ := fwd_ends
  obtain ⟨o, ho⟩ := fwd_init_ok cfg stormSrc stormInp path (fun _ => none) storm_runnable (by decide)
  obtain ⟨r, _, _, hrun⟩ := fwd_run_eq cfg stormSrc stormInp path _ storm_runnable o ho
  have hs' : EndsIn (fwdRun cfg stormSrc path fun _ => none) _ :=
    ⟨cfg.steps, fun fuel hf => (hrun fuel).trans (if_neg (not_lt.mpr hf))⟩
  refine ⟨s, _, hs, hs', by rw [hf]; simp, fun o o' h1 h2 => ?_⟩
  refine (C130_influence_forward cfg src stormSrc inp stormInp storm (fun _ _ => False) path path _ _ runnable storm_runnable rfl
    storm_except (fun h => absurd h (by decide)) hs hs').2 _ o o' h1 h2 1 1 ?_ fun h => absurd h (by decide)
  rintro u i' j' ⟨hu, rfl, rfl⟩ _ _
  have hc : cellSteps cfg.periodic_boundary (1 : Fin 3) 2 (1 : Fin 3) 2 = 2 := by decide
  rw [hc]
  have ht : cfg.timestep = 600 := rfl
  have hst : step = 600000000 := rfl
  rw [ht]
  push_cast
  omega

/-- Two backward runs restarted from files that differ in the last cell: after two steps the cells that are three cells away
are still the same. -/
example (disk disk' : ℤ → Option (BwdOutput 3 3 ℚ)) (f f' : BwdOutput 3 3 ℚ)
    (hf : disk (4 * step) = some f) (hf' : disk' (4 * step) = some f')
    (hff : ∀ i j, ¬ (i = 2 ∧ j = 2) → f.s_track_upper i j = f'.s_track_upper i j ∧ f.s_track_lower i j = f'.s_track_lower i j)
    {s s'} (hs : EndsIn (bwdRun { cfg with restart := true } src path disk) s)
    (hs' : EndsIn (bwdRun { cfg with restart := true } src path disk') s') :
    ∀ o o', (2 * step, o) ∈ s.files → (2 * step, o') ∈ s'.files → SameCellBwd o 0 1 o' 0 1 := by
  have hr : Runnable { cfg with restart := true } src inp := ⟨runnable.timestep_pos, runnable.ordered, runnable.serves⟩
  intro o o' h1 h2
  refine (C130_influence_backward { cfg with restart := true } src src inp inp (fun _ _ _ => False) (fun i j => i = 2 ∧ j = 2)
    path path disk disk' hr hr rfl ?_ ?_ hs hs').2 _ o o' h1 h2 0 1 (fun _ _ _ h => h.elim) ?_
  · constructor <;> intros <;> rfl
  · intro _ g g' hg hg' i j hij
    have e1 : f = g := Option.some.inj (hf.symm.trans hg)
    have e2 : f' = g' := Option.some.inj (hf'.symm.trans hg')
    subst e1 e2
    exact hff i j hij
  · rintro _ i' j' ⟨rfl, rfl⟩
    show 4 * step - 2 * step < ((cellSteps false (0 : Fin 3) 2 (1 : Fin 3) 2 : ℕ) : ℤ) * (600 * 1000000)
    have hc : cellSteps false (0 : Fin 3) 2 (1 : Fin 3) 2 = 3 := by decide
    have hst : step = 600000000 := rfl
    rw [hc, hst]
    norm_num

end Demo

end Wam
