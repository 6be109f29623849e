import Verif.Props.Excerpt
import Verif.Props.Regional
import Verif.Lemmas.Demo

/-! # A concrete case for C98 and C99

A 7x7 grid with a 5x5 grid in its middle; two time steps of ten minutes; water is tagged in the centre. -/

namespace Wam.RegionalDemo
open Spec

def step : ℤ := 600000000

def cfg : RunConfig ℚ :=
  { tracking_start_date := 0, tracking_end_date := 2 * step, tagging_start_date := 0, tagging_end_date := 2 * step,
    timestep := 600, output_frequency := 2 * step, kvf := 3, periodic_boundary := true, restart := false }

/-- the 5x5 grid in the middle of the 7x7 grid -/
def place : Place 3 3 5 5 := ⟨1, 1, by decide, by decide⟩

def inp : Input 5 5 ℚ :=
  { states := fun t => ⟨fun i j => 4 + i + j + t / 600000000, fun i j => 8 + i - t / 600000000⟩
    fluxes := fun _ =>
      { fx_lower := fun i j => if i = 3 ∧ j = 3 then 1 / 1000 else 0
        fy_lower := fun i j => if i = 3 ∧ j = 3 then - 1 / 1000 else 0
        fx_upper := fun _ _ => 0
        fy_upper := fun i j => if i = 0 ∨ i = 6 then (1 + (j.val : ℚ)) / 1000 else 0
        evap := fun i j => (1 + i + j) / 1000
        precip := fun i _ => (2 + i) / 2000 }
    region := fun _ i j => if i = 3 ∧ j = 3 then 1 else 0 }

def src : Source 5 5 ℚ :=
  { states := fun t => if 0 ≤ t ∧ t ≤ 2 * step then .ok (inp.states t) else .error .keyError
    fluxes := fun t => if 0 ≤ t ∧ t ≤ 2 * step then .ok (inp.fluxes t) else .error .keyError
    grid := ⟨fun i => 2 + i, 1, fun _ => 1⟩
    region := .ok (.stationary (inp.region 0))
    weight := fun i => 2 + i }

def path : ℤ → ℤ := id

theorem runnable : Runnable cfg src inp where
  timestep_pos := by decide
  ordered := by decide
  serves :=
    { states := fun t h0 h1 => if_pos ⟨h0, h1⟩
      fluxes := fun t h0 h1 => if_pos ⟨h0, h1⟩
      region := ⟨_, rfl, fun t _ _ => rfl⟩ }

theorem physical : Physical inp cfg.tracking_start_date cfg.tracking_end_date where
  wet := by
    intro t h0 h1 i j
    have e0 : (0 : ℚ) ≤ t := by exact_mod_cast h0
    have e1 : (t : ℚ) ≤ 1200000000 := by exact_mod_cast h1
    simp only [inp]
    constructor <;> have := i.val.cast_nonneg (α := ℚ) <;> have := j.val.cast_nonneg (α := ℚ)
    · positivity
    · have : (t : ℚ) / 600000000 ≤ 2 := by rw [div_le_iff₀ (by norm_num)]; linarith
      linarith
  precip := by intro t _ _ i j; simp only [inp]; positivity
  evap := by intro t _ _ i j; simp only [inp]; positivity
  region := by intro t _ _ i j; simp only [inp]; split <;> norm_num

theorem area_pos : ∀ i, 0 < src.grid.a i := by
  intro i; simp only [src]; positivity

theorem fits : place.Fits false cfg.periodic_boundary := fun h => nomatch h

theorem ends_fwd : ∃ s, EndsIn (fwdRun cfg src path fun _ => none) s ∧ s.files.map Prod.fst = [2 * step] := by
  obtain ⟨o, ho⟩ := fwd_init_ok cfg src inp path (fun _ => none) runnable (by decide)
  obtain ⟨r, _, _, hrun⟩ := fwd_run_eq cfg src inp path _ runnable o ho
  refine ⟨_, ⟨cfg.steps, fun fuel hf => (hrun fuel).trans (if_neg (not_lt.mpr hf))⟩, ?_⟩
  rfl

/-- C98: the run on the 5x5 grid, without periodic boundaries, has the same results in its centre as the run on the 7x7 grid -/
example : ∃ s S, EndsIn (fwdRun { cfg with periodic_boundary := false } (place.cutSource src) path fun _ => none) s ∧
    EndsIn (fwdRun cfg src path fun _ => none) S ∧ ∃ o O, (2 * step, o) ∈ s.files ∧ (2 * step, O) ∈ S.files ∧
      SameCellFwd o 2 2 O 3 3 := by
  obtain ⟨S, hS, hfS⟩ := ends_fwd
  obtain ⟨s, hs, hfs, hsame⟩ := C98_part_of_the_grid_forward place cfg src inp false fits path path _ (fun _ => none) runnable
    (fun h => nomatch h) hS
  have hO : 2 * step ∈ S.files.map Prod.fst := by rw [hfS]; exact List.mem_singleton.mpr rfl
  have ho : 2 * step ∈ s.files.map Prod.fst := by rw [hfs]; exact hO
  obtain ⟨⟨_, O⟩, hO, rfl⟩ := List.mem_map.mp hO
  obtain ⟨⟨_, o⟩, ho, heq⟩ := List.mem_map.mp ho
  simp only at heq
  subst heq
  exact ⟨s, S, hs, hS, o, O, ho, hO, hsame _ o O ho hO 2 2 2 (by decide) (by unfold Deep; decide)⟩

/-- what the run on the 5x5 grid writes -/
def proc : Proc (FwdOutput 5 5 ℚ) :=
  fwdProc { cfg with periodic_boundary := false } (place.cutSource src).grid (place.cutInput inp)

theorem no_losses : ∀ i j : Fin 5, isBoundary (m := 5) (n := 5) false i j → (proc.full FwdOutput.zeros 1).losses i j = 0 := by
  unfold isBoundary
  decide +kernel

theorem moves : 0 < (proc.full FwdOutput.zeros 1).s_track_lower 2 3 := by decide +kernel

theorem ends_small : ∃ s, EndsIn (fwdRun { cfg with periodic_boundary := false } (place.cutSource src) path fun _ => none) s ∧
    s.files = [(2 * step, proc.full FwdOutput.zeros 1)] := by
  obtain ⟨o, ho⟩ := fwd_init_ok { cfg with periodic_boundary := false } (place.cutSource src) (place.cutInput inp) path (fun _ => none)
    (Local.runnable_cut place runnable false) (by decide)
  obtain ⟨r, _, _, hrun⟩ := fwd_run_eq { cfg with periodic_boundary := false } (place.cutSource src) (place.cutInput inp) path _ (Local.runnable_cut place runnable false) o ho
  have ho' : FwdOutput.zeros = o := Except.ok.inj ho
  subst ho'
  refine ⟨_, ⟨cfg.steps, fun fuel hf => (hrun fuel).trans (if_neg (not_lt.mpr hf))⟩, ?_⟩
  rfl

/-- C99: the run on the 5x5 grid loses nothing at its edge, and the run on the 7x7 grid has the same results -/
example : ∃ s S, EndsIn (fwdRun { cfg with periodic_boundary := false } (place.cutSource src) path fun _ => none) s ∧
    EndsIn (fwdRun cfg src path fun _ => none) S ∧ S.files = s.files.map (fun x => (x.1, place.extendFwd x.2)) ∧
      ∀ x ∈ S.files, 0 < x.2.s_track_lower 3 4 := by
  obtain ⟨s, hs, hfs⟩ := ends_small
  have hloss : ∀ x ∈ s.files, ∀ i j, isBoundary false i j → x.2.losses i j = 0 := by
    intro x hx
    rw [hfs] at hx
    cases List.mem_singleton.mp hx
    exact no_losses
  obtain ⟨S, hS, hfS, _⟩ := C99_no_boundary_losses_forward place cfg src inp false fits path path (fun _ => none) (fun _ => none) runnable
    physical area_pos
    (fun t _ _ _ I J hc => if_neg (fun h => hc ⟨2, 2, h.1.symm, h.2.symm⟩))
    (fun h => nomatch h) (fun _ _ => ⟨le_rfl, le_rfl⟩) (fun _ _ _ => ⟨rfl, rfl⟩) hs hloss
  refine ⟨s, S, hs, hS, hfS, fun x hx => ?_⟩
  rw [hfS, hfs] at hx
  cases List.mem_singleton.mp hx
  exact moves

theorem ends_bwd : ∃ s, EndsIn (bwdRun cfg src path fun _ => none) s ∧ s.files.map Prod.fst = [0] := by
  obtain ⟨o, ho⟩ := bwd_init_ok cfg src inp path (fun _ => none) runnable (by decide)
  obtain ⟨r, _, _, hrun⟩ := bwd_run_eq cfg src inp path _ runnable o ho
  refine ⟨_, ⟨cfg.steps, fun fuel hf => (hrun fuel).trans (if_neg (not_lt.mpr hf))⟩, ?_⟩
  rfl

/-- C98, backward: the run on the 5x5 grid, without periodic boundaries, has the same results in its centre as the run on the 7x7 grid -/
example : ∃ s S, EndsIn (bwdRun { cfg with periodic_boundary := false } (place.cutSource src) path fun _ => none) s ∧
    EndsIn (bwdRun cfg src path fun _ => none) S ∧ ∃ o O, ((0 : ℤ), o) ∈ s.files ∧ ((0 : ℤ), O) ∈ S.files ∧
      SameCellBwd o 2 2 O 3 3 := by
  obtain ⟨S, hS, hfS⟩ := ends_bwd
  obtain ⟨s, hs, hfs, hsame⟩ := C98_part_of_the_grid_backward place cfg src inp false fits path path _ (fun _ => none) runnable
    (fun h => nomatch h) hS
  have hO : (0 : ℤ) ∈ S.files.map Prod.fst := by rw [hfS]; exact List.mem_singleton.mpr rfl
  have ho : (0 : ℤ) ∈ s.files.map Prod.fst := by rw [hfs]; exact hO
  obtain ⟨⟨_, O⟩, hO, rfl⟩ := List.mem_map.mp hO
  obtain ⟨⟨_, o⟩, ho, heq⟩ := List.mem_map.mp ho
  simp only at heq
  subst heq
  exact ⟨s, S, hs, hS, o, O, ho, hO, hsame _ o O ho hO 2 2 2 (by decide) (by unfold Deep; decide)⟩

/-- what the backward run on the 5x5 grid writes -/
def procB : Proc (BwdOutput 5 5 ℚ) :=
  bwdProc { cfg with periodic_boundary := false } (place.cutSource src).grid (place.cutInput inp)

theorem no_losses_bwd : ∀ i j : Fin 5, isBoundary (m := 5) (n := 5) false i j → (procB.full BwdOutput.zeros 1).losses i j = 0 := by
  unfold isBoundary
  decide +kernel

theorem moves_bwd : 0 < (procB.full BwdOutput.zeros 1).s_track_lower 2 1 := by decide +kernel

theorem ends_small_bwd : ∃ s, EndsIn (bwdRun { cfg with periodic_boundary := false } (place.cutSource src) path fun _ => none) s ∧
    s.files = [((0 : ℤ), procB.full BwdOutput.zeros 1)] := by
  obtain ⟨o, ho⟩ := bwd_init_ok { cfg with periodic_boundary := false } (place.cutSource src) (place.cutInput inp) path (fun _ => none)
    (Local.runnable_cut place runnable false) (by decide)
  obtain ⟨r, _, _, hrun⟩ := bwd_run_eq { cfg with periodic_boundary := false } (place.cutSource src) (place.cutInput inp) path _ (Local.runnable_cut place runnable false) o ho
  have ho' : BwdOutput.zeros = o := Except.ok.inj ho
  subst ho'
  refine ⟨_, ⟨cfg.steps, fun fuel hf => (hrun fuel).trans (if_neg (not_lt.mpr hf))⟩, ?_⟩
  rfl

/-- C99, backward: the run on the 5x5 grid loses nothing at its edge, and the run on the 7x7 grid has the same results -/
example : ∃ s S, EndsIn (bwdRun { cfg with periodic_boundary := false } (place.cutSource src) path fun _ => none) s ∧
    EndsIn (bwdRun cfg src path fun _ => none) S ∧ S.files = s.files.map (fun x => (x.1, place.extendBwd x.2)) ∧
      ∀ x ∈ S.files, 0 < x.2.s_track_lower 3 2 := by
  obtain ⟨s, hs, hfs⟩ := ends_small_bwd
  have hloss : ∀ x ∈ s.files, ∀ i j, isBoundary false i j → x.2.losses i j = 0 := by
    intro x hx
    rw [hfs] at hx
    cases List.mem_singleton.mp hx
    exact no_losses_bwd
  obtain ⟨S, hS, hfS, _⟩ := C99_no_boundary_losses_backward place cfg src inp false fits path path (fun _ => none) (fun _ => none) runnable
    physical area_pos
    (fun t _ _ _ I J hc => if_neg (fun h => hc ⟨2, 2, h.1.symm, h.2.symm⟩))
    (fun h => nomatch h) (fun _ _ => ⟨le_rfl, le_rfl⟩) (fun _ _ _ => ⟨rfl, rfl⟩) hs hloss
  refine ⟨s, S, hs, hS, hfS, fun x hx => ?_⟩
  rw [hfS, hfs] at hx
  cases List.mem_singleton.mp hx
  exact moves_bwd

end Wam.RegionalDemo
