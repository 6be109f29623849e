import Verif.Props.Domain

/-! # A concrete case for C100

Preprocessed data on a grid of 5x5 cells, a tracking domain of 3x3 cells, one time step of one hour; water is tagged in the
centre.  (The number type is ℚ, with simple functions in the place of the sine and cosine.) -/

namespace Wam.DomainDemo
open Spec

def trig : NpTrig ℚ := ⟨3, id, fun _ => 1⟩

def lat : List ℚ := [52, 51, 50, 49, 48]
def lon : List ℚ := [3, 4, 5, 6, 7]

def value : Var → ℕ → ℕ → ℚ
  | .s_upper, i, j => 100 + i + j
  | .s_lower, i, j => 200 + i - j
  | .evap, _, _ => 1 / 1000
  | .precip, i, _ => (1 + i) / 2000
  | _, _, _ => 0

def data : Dataset ℚ ℚ :=
  ⟨lat, lon, [.fx_upper, .fx_lower, .fy_upper, .fy_lower, .evap, .precip, .s_upper, .s_lower], value⟩

def files (_ : List Char) : Except Err (DataFile ℚ ℚ) := .ok ⟨.standard, [(0, data), (3600000000, data)]⟩

def io : IOConfig ℚ := ⟨.standard, "in".toList, none, 3600000000⟩

def box : BoundingBox ℚ := ⟨4, 49, 6, 51⟩

def tag : TaggingRegion ℚ ℚ := .box ⟨5, 50, 5, 50⟩

def run : RunConfig ℚ :=
  { tracking_start_date := 0, tracking_end_date := 3600000000, tagging_start_date := 0, tagging_end_date := 3600000000
    timestep := 3600, output_frequency := 3600000000, kvf := 3, periodic_boundary := false, restart := false }

def place : Place 1 1 3 3 := ⟨1, 1, by decide, by decide⟩

theorem oneGrid : OneGrid files lat lon 3 3 1 1 where
  rows := rfl
  cols := rfl
  dy_pos := by decide +kernel
  dx_pos := by decide +kernel
  lat_spaced := by
    have : ∀ i (h : i < 4), lat[i + 1]'(by show i + 1 < 5; omega) = lat[i]'(by show i < 5; omega) - 1 := by decide +kernel
    intro i h
    exact this i (by have h : i + 1 < 5 := h; omega)
  lon_spaced := by
    have : ∀ i (h : i < 4), lon[i + 1]'(by show i + 1 < 5; omega) = lon[i]'(by show i < 5; omega) + 1 := by decide +kernel
    intro i h
    exact this i (by have h : i + 1 < 5 := h; omega)
  same := by
    intro name file h e he
    have : file = ⟨.standard, [(0, data), (3600000000, data)]⟩ := (Except.ok.inj h).symm
    subst this
    simp only [List.mem_cons, List.not_mem_nil, or_false] at he
    rcases he with rfl | rfl <;> exact ⟨rfl, rfl⟩

theorem isBox : IsBox place box lat lon where
  plain := by decide +kernel
  rows := by decide +kernel
  cols := by decide +kernel

def whole (t : ℤ) : Source 3 3 ℚ := letI := trig; experimentSource files { io with tracking_domain := none } tag t
def part (t : ℤ) : Source 1 1 ℚ := letI := trig; experimentSource files { io with tracking_domain := some box } tag t

def inp : Input 3 3 ℚ :=
  { states := fun _ => data.toStates
    fluxes := fun _ => data.toFluxes
    region := fun _ i j => if i = 2 ∧ j = 2 then 1 else 0 }

theorem read (sub : Subset) : readSlice files (sliceKey io 0 sub) = .ok { data with vars := sub.variables } ∧
    readSlice files (sliceKey io 3600000000 sub) = .ok { data with vars := sub.variables } := by
  cases sub <;> exact ⟨rfl, rfl⟩

theorem load (sub : Subset) (t : ℤ) (h0 : 0 ≤ t) (h1 : t ≤ 3600000000) :
    loadData files io t sub = .ok { data with vars := sub.variables } := by
  unfold loadData loadDataWith
  by_cases e0 : t = 0
  · subst e0
    rw [if_pos (.inl (by decide))]
    exact (read sub).1
  by_cases e1 : t = 3600000000
  · subst e1
    rw [if_pos (.inl (by decide))]
    exact (read sub).2
  have hf : floorTime t io.input_frequency = 0 := by unfold floorTime; simp only [io]; omega
  have hc : ceilTime t io.input_frequency = 3600000000 := by unfold ceilTime; simp only [io]; omega
  rw [hf, hc, if_neg (by omega)]
  simp only [(read sub).1, (read sub).2, bind, Except.bind, pure, Except.pure, Dataset.lerp, sub_self, mul_zero, add_zero]

theorem runnable (t : ℤ) (ht : t = 0 ∨ t = 3600000000) : Runnable run (whole t) inp where
  timestep_pos := by decide
  ordered := by decide
  serves :=
    { states := fun t h0 h1 => by
        show (loadData files io t .states).map Dataset.toStates = _
        rw [load _ t h0 h1]
        rfl
      fluxes := fun t h0 h1 => by
        show (loadData files io t .fluxes).map Dataset.toFluxes = _
        rw [load _ t h0 h1]
        rfl
      region := by
        refine ⟨.stationary (inp.region 0), ?_, fun t _ _ => rfl⟩
        unfold whole experimentSource archiveSource
        simp only
        have hl : loadData files { io with tracking_domain := none } t .states = .ok { data with vars := Subset.states.variables } :=
          load .states t (by omega) (by omega)
        rw [hl]
        unfold tag trackingRegion
        simp only
        congr 2
        funext i j
        revert i j
        decide +kernel }

theorem physical : Physical inp run.tracking_start_date run.tracking_end_date where
  wet := fun t _ _ => (by decide +kernel : ∀ i j : Fin 5, 0 < (inp.states 0).s_upper i j ∧ 0 < (inp.states 0).s_lower i j)
  precip := fun t _ _ => (by decide +kernel : ∀ i j : Fin 5, 0 ≤ (inp.fluxes 0).precip i j)
  evap := fun t _ _ => (by decide +kernel : ∀ i j : Fin 5, 0 ≤ (inp.fluxes 0).evap i j)
  region := fun t _ _ => (by decide +kernel : ∀ i j : Fin 5, 0 ≤ inp.region 0 i j)

theorem area_pos : letI := trig; ∀ I, 0 < (getGridInfo (fun i : Fin (3 + 2) => lat.getD i 0) fun j : Fin (3 + 2) => lon.getD j 0).a I := by
  decide +kernel

theorem fits : place.Fits false run.periodic_boundary := fun h => nomatch h

theorem whole_ends : ∃ s, EndsIn (fwdRun run (whole 0) (id : ℤ → ℤ) fun _ => none) s ∧ s.files.map Prod.fst = [3600000000] := by
  obtain ⟨o, ho⟩ := fwd_init_ok run (whole 0) inp (id : ℤ → ℤ) (fun _ => none) (runnable 0 (.inl rfl)) (by decide)
  obtain ⟨r, _, _, hrun⟩ := fwd_run_eq run (whole 0) inp (id : ℤ → ℤ) _ (runnable 0 (.inl rfl)) o ho
  refine ⟨_, ⟨run.steps, fun fuel hf => (hrun fuel).trans (if_neg (not_lt.mpr hf))⟩, ?_⟩
  rfl

/-- `C100_same_inside_forward` applies -/
example : ∃ s S, EndsIn (fwdRun run (part 0) (id : ℤ → ℤ) fun _ => none) s ∧
    EndsIn (fwdRun run (whole 0) (id : ℤ → ℤ) fun _ => none) S ∧ ∃ o O, (3600000000, o) ∈ s.files ∧ (3600000000, O) ∈ S.files ∧
      SameCellFwd o 1 1 O 2 2 := by
  letI := trig
  obtain ⟨S, hS, hfS⟩ := whole_ends
  obtain ⟨s, hs, hfs, hsame⟩ := C100_same_inside_forward place oneGrid isBox run io tag trivial inp false fits (id : ℤ → ℤ)
    (id : ℤ → ℤ) _ (fun _ => none) (runnable 0 (.inl rfl)) (fun h => nomatch h) hS
  have hO : 3600000000 ∈ S.files.map Prod.fst := by rw [hfS]; exact List.mem_singleton.mpr rfl
  have ho : 3600000000 ∈ s.files.map Prod.fst := by rw [hfs]; exact hO
  obtain ⟨⟨_, O⟩, hO, rfl⟩ := List.mem_map.mp hO
  obtain ⟨⟨_, o⟩, ho, heq⟩ := List.mem_map.mp ho
  simp only at heq
  subst heq
  exact ⟨s, S, hs, hS, o, O, ho, hO, hsame _ o O ho hO 1 1 1 (by decide) (by unfold Deep; decide)⟩

/-- what the run with the tracking domain writes -/
def proc : Proc (FwdOutput 3 3 ℚ) := fwdProc run (place.cutSource (whole 0)).grid (place.cutInput inp)

theorem no_losses : ∀ i j : Fin 3, isBoundary (m := 3) (n := 3) false i j → (proc.full FwdOutput.zeros 0).losses i j = 0 := by
  unfold isBoundary
  decide +kernel

theorem tracked : 0 < (proc.full FwdOutput.zeros 0).s_track_lower 1 1 := by decide +kernel

theorem part_ends : ∃ s, EndsIn (fwdRun { run with periodic_boundary := false } (place.cutSource (whole 0)) (id : ℤ → ℤ) fun _ => none) s ∧
    s.files = [(3600000000, proc.full FwdOutput.zeros 0)] := by
  have hr := Local.runnable_cut place (runnable 0 (.inl rfl)) false
  obtain ⟨o, ho⟩ := fwd_init_ok _ (place.cutSource (whole 0)) (place.cutInput inp) (id : ℤ → ℤ) (fun _ => none) hr (by decide)
  obtain ⟨r, _, _, hrun⟩ := fwd_run_eq _ (place.cutSource (whole 0)) (place.cutInput inp) (id : ℤ → ℤ) _ hr o ho
  have ho' : FwdOutput.zeros = o := Except.ok.inj ho
  subst ho'
  refine ⟨_, ⟨run.steps, fun fuel hf => (hrun fuel).trans (if_neg (not_lt.mpr hf))⟩, ?_⟩
  rfl

/-- `C100_large_enough_forward` applies -/
example : ∃ s S, EndsIn (fwdRun run (part 0) (id : ℤ → ℤ) fun _ => none) s ∧
    EndsIn (fwdRun run (whole 0) (id : ℤ → ℤ) fun _ => none) S ∧ S.files = s.files.map (fun x => (x.1, place.extendFwd x.2)) ∧
      ∀ x ∈ S.files, 0 < x.2.s_track_lower 2 2 := by
  letI := trig
  obtain ⟨s, hs, hfs⟩ := part_ends
  have hpart : part 0 = place.cutSource (whole 0) := C100_domain_is_a_part place oneGrid isBox io tag trivial 0 ⟨_, load _ 0 (by decide) (by decide)⟩
  have hs' : EndsIn (fwdRun { run with periodic_boundary := false } (part 0) (id : ℤ → ℤ) fun _ => none) s := by rw [hpart]; exact hs
  have hloss : ∀ x ∈ s.files, ∀ i j, isBoundary false i j → x.2.losses i j = 0 := by
    intro x hx
    rw [hfs] at hx
    cases List.mem_singleton.mp hx
    exact no_losses
  obtain ⟨S, hS, hfS⟩ := C100_large_enough_forward place oneGrid isBox run io tag trivial inp false fits (id : ℤ → ℤ) (id : ℤ → ℤ)
    (fun _ => none) (fun _ => none) (runnable 0 (.inl rfl)) physical area_pos
    (fun t _ _ _ I J hc => if_neg (fun h => hc ⟨1, 1, h.1.symm, h.2.symm⟩))
    (fun h => nomatch h) (fun _ _ => ⟨le_rfl, le_rfl⟩) (fun _ _ _ => ⟨rfl, rfl⟩) hs' hloss
  refine ⟨s, S, hs', hS, hfS, fun x hx => ?_⟩
  rw [hfS, hfs] at hx
  cases List.mem_singleton.mp hx
  exact tracked

theorem whole_ends_bwd : ∃ s, EndsIn (bwdRun run (whole 3600000000) (id : ℤ → ℤ) fun _ => none) s ∧ s.files.map Prod.fst = [0] := by
  obtain ⟨o, ho⟩ := bwd_init_ok run (whole 3600000000) inp (id : ℤ → ℤ) (fun _ => none) (runnable 3600000000 (.inr rfl)) (by decide)
  obtain ⟨r, _, _, hrun⟩ := bwd_run_eq run (whole 3600000000) inp (id : ℤ → ℤ) _ (runnable 3600000000 (.inr rfl)) o ho
  refine ⟨_, ⟨run.steps, fun fuel hf => (hrun fuel).trans (if_neg (not_lt.mpr hf))⟩, ?_⟩
  rfl

/-- `C100_same_inside_backward` applies -/
example : ∃ s S, EndsIn (bwdRun run (part 3600000000) (id : ℤ → ℤ) fun _ => none) s ∧
    EndsIn (bwdRun run (whole 3600000000) (id : ℤ → ℤ) fun _ => none) S ∧ ∃ o O, ((0 : ℤ), o) ∈ s.files ∧ ((0 : ℤ), O) ∈ S.files ∧
      SameCellBwd o 1 1 O 2 2 := by
  letI := trig
  obtain ⟨S, hS, hfS⟩ := whole_ends_bwd
  obtain ⟨s, hs, hfs, hsame⟩ := C100_same_inside_backward place oneGrid isBox run io tag trivial inp false fits (id : ℤ → ℤ)
    (id : ℤ → ℤ) _ (fun _ => none) (runnable 3600000000 (.inr rfl)) (fun h => nomatch h) hS
  have hO : (0 : ℤ) ∈ S.files.map Prod.fst := by rw [hfS]; exact List.mem_singleton.mpr rfl
  have ho : (0 : ℤ) ∈ s.files.map Prod.fst := by rw [hfs]; exact hO
  obtain ⟨⟨_, O⟩, hO, rfl⟩ := List.mem_map.mp hO
  obtain ⟨⟨_, o⟩, ho, heq⟩ := List.mem_map.mp ho
  simp only at heq
  subst heq
  exact ⟨s, S, hs, hS, o, O, ho, hO, hsame _ o O ho hO 1 1 1 (by decide) (by unfold Deep; decide)⟩

/-- what the backward run with the tracking domain writes -/
def procB : Proc (BwdOutput 3 3 ℚ) := bwdProc run (place.cutSource (whole 3600000000)).grid (place.cutInput inp)

theorem no_losses_bwd : ∀ i j : Fin 3, isBoundary (m := 3) (n := 3) false i j → (procB.full BwdOutput.zeros 0).losses i j = 0 := by
  unfold isBoundary
  decide +kernel

theorem tracked_bwd : 0 < (procB.full BwdOutput.zeros 0).s_track_lower 1 1 := by decide +kernel

theorem part_ends_bwd : ∃ s, EndsIn (bwdRun { run with periodic_boundary := false } (place.cutSource (whole 3600000000)) (id : ℤ → ℤ) fun _ => none) s ∧
    s.files = [((0 : ℤ), procB.full BwdOutput.zeros 0)] := by
  have hr := Local.runnable_cut place (runnable 3600000000 (.inr rfl)) false
  obtain ⟨o, ho⟩ := bwd_init_ok _ (place.cutSource (whole 3600000000)) (place.cutInput inp) (id : ℤ → ℤ) (fun _ => none) hr (by decide)
  obtain ⟨r, _, _, hrun⟩ := bwd_run_eq _ (place.cutSource (whole 3600000000)) (place.cutInput inp) (id : ℤ → ℤ) _ hr o ho
  have ho' : BwdOutput.zeros = o := Except.ok.inj ho
  subst ho'
  refine ⟨_, ⟨run.steps, fun fuel hf => (hrun fuel).trans (if_neg (not_lt.mpr hf))⟩, ?_⟩
  rfl

/-- `C100_large_enough_backward` applies -/
example : ∃ s S, EndsIn (bwdRun run (part 3600000000) (id : ℤ → ℤ) fun _ => none) s ∧
    EndsIn (bwdRun run (whole 3600000000) (id : ℤ → ℤ) fun _ => none) S ∧ S.files = s.files.map (fun x => (x.1, place.extendBwd x.2)) ∧
      ∀ x ∈ S.files, 0 < x.2.s_track_lower 2 2 := by
  letI := trig
  obtain ⟨s, hs, hfs⟩ := part_ends_bwd
  have hpart : part 3600000000 = place.cutSource (whole 3600000000) := C100_domain_is_a_part place oneGrid isBox io tag trivial 3600000000 ⟨_, load _ 3600000000 (by decide) (by decide)⟩
  have hs' : EndsIn (bwdRun { run with periodic_boundary := false } (part 3600000000) (id : ℤ → ℤ) fun _ => none) s := by rw [hpart]; exact hs
  have hloss : ∀ x ∈ s.files, ∀ i j, isBoundary false i j → x.2.losses i j = 0 := by
    intro x hx
    rw [hfs] at hx
    cases List.mem_singleton.mp hx
    exact no_losses_bwd
  obtain ⟨S, hS, hfS⟩ := C100_large_enough_backward place oneGrid isBox run io tag trivial inp false fits (id : ℤ → ℤ) (id : ℤ → ℤ)
    (fun _ => none) (fun _ => none) (runnable 3600000000 (.inr rfl)) physical area_pos
    (fun t _ _ _ I J hc => if_neg (fun h => hc ⟨1, 1, h.1.symm, h.2.symm⟩))
    (fun h => nomatch h) (fun _ _ => ⟨le_rfl, le_rfl⟩) (fun _ _ _ => ⟨rfl, rfl⟩) hs' hloss
  refine ⟨s, S, hs', hS, hfS, fun x hx => ?_⟩
  rw [hfS, hfs] at hx
  cases List.mem_singleton.mp hx
  exact tracked_bwd

end Wam.DomainDemo
