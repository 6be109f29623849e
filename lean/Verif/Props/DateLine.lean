import Verif.Lemmas.DateLine
import Verif.Props.Excerpt
import Verif.Props.Regional

/-!
# C105: a tracking domain across the date line
-/
set_option linter.unusedSectionVars false
set_option linter.unusedVariables false

namespace Wam
open Spec

section
variable {m n M N : ℕ} {K : Type} [Field K] [LinearOrder K] [IsStrictOrderedRing K] [NpTrig K] {P P' : Type}
  {files : List Char → Except Err (DataFile K K)} {lat lon : List K} {dy dx : K} {l k : ℕ}

private theorem first_states_load {io : IOConfig K} {tag : TaggingRegion K K} {first t : ℤ} {S}
    (h : (experimentSource files io tag first : Source M N K).states t = .ok S) : ∃ ds, loadData files io t .states = .ok ds := by
  have h : (loadData files io t .states).map Dataset.toStates = .ok S := h
  rcases hl : loadData files io t .states with e | ds
  · rw [hl] at h; exact nomatch h
  · exact ⟨ds, rfl⟩

/-- input data with the columns counted from column `w` on -/
def Spec.turnInput (w : Fin (N + 2)) (inp : Input M N K) : Input M N K where
  states := fun t => turnStates w (inp.states t)
  fluxes := fun t => turnFluxes w (inp.fluxes t)
  region := fun t => rot w (inp.region t)

theorem runnable_turn {run : RunConfig K} {src : Source M N K} {inp : Input M N K} (w : Fin (N + 2)) (h : Runnable run src inp) :
    Runnable run (turnSource w src) (turnInput w inp) := by
  refine ⟨h.timestep_pos, h.ordered, ⟨fun t a b => ?_, fun t a b => ?_, ?_⟩⟩
  · show (src.states t).map _ = _
    rw [h.serves.states t a b]; rfl
  · show (src.fluxes t).map _ = _
    rw [h.serves.fluxes t a b]; rfl
  · obtain ⟨r, hr, ht⟩ := h.serves.region
    refine ⟨turnRegion w r, by show (src.region).map _ = _; rw [hr]; rfl, fun t a b => ?_⟩
    have ht := ht t a b
    cases r with
    | stationary mask =>
      have : mask = inp.region t := Except.ok.inj ht
      rw [show (turnInput w inp).region t = rot w (inp.region t) from rfl, ← this]; rfl
    | moving f =>
      have ht : f t = .ok (inp.region t) := ht
      show (f t).map (rot w) = _
      rw [ht]; rfl

private theorem physical_turn {inp : Input M N K} {A B : ℤ} (w : Fin (N + 2)) (h : Physical inp A B) : Physical (turnInput w inp) A B :=
  ⟨fun t a b i j => h.wet t a b i (j + w), fun t a b i j => h.precip t a b i (j + w), fun t a b i j => h.evap t a b i (j + w),
    fun t a b i j => h.region t a b i (j + w)⟩

/-- **C105** (reading).  With a tracking domain across the date line that has no or at least two columns west of it, a run reads at every
time the rows and columns of the domain, from its western to its eastern end, out of what it reads without domain: data, grid
information, tagging region and weights; and the same errors. -/
theorem C105_domain_across_the_date_line (p : Place m n M N) {box : BoundingBox K} (hg : OneGrid files lat lon M N dy dx)
    (hb : AcrossDateLine p box lat lon l k) (hone : l ≠ 1) (io : IOConfig K) (tag : TaggingRegion K K) (ht : RegionOn tag lat lon) (first : ℤ)
    (hfirst : ∃ ds, loadData files { io with tracking_domain := none } first .states = .ok ds) :
    (experimentSource files { io with tracking_domain := some box } tag first : Source m n K) =
      p.cutSource (turnSource (firstColumn N l) (experimentSource files { io with tracking_domain := none } tag first)) := by
  obtain ⟨e, g⟩ := DateLine.experiment_across p hg hb io tag ht first hfirst
  rw [e, DateLine.grid_across p hg hb.first (by have := hb.size; omega) hb.outside hone, ← g]
  rfl

/-- **C105** (finding).  With exactly one column west of the date line the data are the same, but areas and lengths of the cells are
computed as if the columns were `N + 1` times as far apart as they are (on a global grid: 360 degrees minus the spacing). -/
theorem C105_one_column_west_of_the_date_line (p : Place m n M N) {box : BoundingBox K} (hg : OneGrid files lat lon M N dy dx)
    (hb : AcrossDateLine p box lat lon 1 k) (io : IOConfig K) (tag : TaggingRegion K K) (ht : RegionOn tag lat lon) (first : ℤ)
    (hfirst : ∃ ds, loadData files { io with tracking_domain := none } first .states = .ok ds) :
    (experimentSource files { io with tracking_domain := some box } tag first : Source m n K) =
      { p.cutSource (turnSource (firstColumn N 1) (experimentSource files { io with tracking_domain := none } tag first)) with
        grid := p.cutGrid (getGridInfo (fun i : Fin (M + 2) => lat.getD i 0) fun j : Fin (N + 2) => ((N : K) + 1) * dx * (j.val : K)) } := by
  obtain ⟨e, g⟩ := DateLine.experiment_across p hg hb io tag ht first hfirst
  rw [e, DateLine.grid_across_one p hg hb.first hb.outside]
  simp only [ofRat_zero]

/-- **C105** (forward).  In the cells of a domain across the date line that are further from its edge than there have been time steps,
all results are those of the run without tracking domain on data that begin at the western end of the domain. -/
theorem C105_same_inside_forward (p : Place m n M N) {box : BoundingBox K} (hg : OneGrid files lat lon M N dy dx)
    (hb : AcrossDateLine p box lat lon l k) (hone : l ≠ 1) (run : RunConfig K) (io : IOConfig K) (tag : TaggingRegion K K)
    (ht : RegionOn tag lat lon) (inp : Input M N K) (path : ℤ → P) (path' : ℤ → P')
    (D : P → Option (FwdOutput (M + 2) (N + 2) K)) (d : P' → Option (FwdOutput (m + 2) (n + 2) K))
    (h : Runnable run (experimentSource files { io with tracking_domain := none } tag run.tracking_start_date) inp)
    (hd : run.restart = true → d (path' run.tracking_start_date) = (D (path run.tracking_start_date)).map p.cutFwd)
    {S} (hS : EndsIn (fwdRun run (turnSource (firstColumn N l)
      (experimentSource files { io with tracking_domain := none } tag run.tracking_start_date)) path D) S) :
    ∃ s, EndsIn (fwdRun { run with periodic_boundary := false }
        (experimentSource files { io with tracking_domain := some box } tag run.tracking_start_date) path' d) s ∧
      s.files.map Prod.fst = S.files.map Prod.fst ∧
      ∀ t o O, (t, o) ∈ s.files → (t, O) ∈ S.files → ∀ (q : ℕ) i j, t ≤ run.tracking_start_date + q * run.dt → Deep false q i j →
        SameCellFwd o i j O (p.r i) (p.c j) := by
  rw [C105_domain_across_the_date_line p hg hb hone io tag ht _ (first_states_load (h.serves.states _ le_rfl h.ordered))]
  exact C98_part_of_the_grid_forward p run _ _ false (fun h => nomatch h) path path' D d (runnable_turn _ h) hd hS

/-- **C105** (forward).  If the files of a run with a domain across the date line report no losses at the edge of the domain, and
nothing outside the domain is tagged, the run without tracking domain on data that begin at the western end of the domain gives the same
results, and no tracked water outside the domain. -/
theorem C105_large_enough_forward (p : Place m n M N) {box : BoundingBox K} (hg : OneGrid files lat lon M N dy dx)
    (hb : AcrossDateLine p box lat lon l k) (hone : l ≠ 1) (run : RunConfig K) (io : IOConfig K) (tag : TaggingRegion K K)
    (ht : RegionOn tag lat lon) (inp : Input M N K) (path : ℤ → P) (path' : ℤ → P')
    (D : P → Option (FwdOutput (M + 2) (N + 2) K)) (d : P' → Option (FwdOutput (m + 2) (n + 2) K))
    (h : Runnable run (experimentSource files { io with tracking_domain := none } tag run.tracking_start_date) inp)
    (hp : Physical inp run.tracking_start_date run.tracking_end_date)
    (ha : ∀ I, 0 < (getGridInfo (fun i : Fin (M + 2) => lat.getD i 0) fun j : Fin (N + 2) => lon.getD j 0).a I)
    (hmask : ∀ t, run.tracking_start_date ≤ t → t ≤ run.tracking_end_date → inWindow run t →
      ∀ I J, ¬ p.Covers I J → inp.region t I (J + firstColumn N l) = 0)
    (hd : run.restart = true → D (path run.tracking_start_date) = (d (path' run.tracking_start_date)).map p.extendFwd)
    (hstart : ∀ i j, 0 ≤ (startFwd run path' d).1 i j ∧ 0 ≤ (startFwd run path' d).2 i j)
    (hedge : ∀ i j, isBoundary false i j → (startFwd run path' d).1 i j = 0 ∧ (startFwd run path' d).2 i j = 0)
    {s} (hs : EndsIn (fwdRun { run with periodic_boundary := false }
        (experimentSource files { io with tracking_domain := some box } tag run.tracking_start_date) path' d) s)
    (hloss : ∀ x ∈ s.files, ∀ i j, isBoundary false i j → x.2.losses i j = 0) :
    ∃ S, EndsIn (fwdRun run (turnSource (firstColumn N l)
        (experimentSource files { io with tracking_domain := none } tag run.tracking_start_date)) path D) S ∧
      S.files = s.files.map (fun x => (x.1, p.extendFwd x.2)) := by
  have hl := first_states_load (h.serves.states _ le_rfl h.ordered)
  rw [C105_domain_across_the_date_line p hg hb hone io tag ht _ hl] at hs
  have hgrid := (DateLine.experiment_across p hg hb io tag ht run.tracking_start_date hl).2
  simp only [ofRat_zero] at hgrid
  obtain ⟨S, hS, hfiles, _⟩ := C99_no_boundary_losses_forward p run _ _ false (fun h => nomatch h) path path' D d (runnable_turn _ h)
    (physical_turn _ hp) (fun I => by
      show 0 < (experimentSource files { io with tracking_domain := none } tag run.tracking_start_date : Source M N K).grid.a I
      rw [hgrid]; exact ha I)
    hmask hd hstart hedge hs hloss
  exact ⟨S, hS, hfiles⟩

/-- **C105** (backward).  In the cells of a domain across the date line that are further from its edge than there have been time steps,
all results are those of the run without tracking domain on data that begin at the western end of the domain. -/
theorem C105_same_inside_backward (p : Place m n M N) {box : BoundingBox K} (hg : OneGrid files lat lon M N dy dx)
    (hb : AcrossDateLine p box lat lon l k) (hone : l ≠ 1) (run : RunConfig K) (io : IOConfig K) (tag : TaggingRegion K K)
    (ht : RegionOn tag lat lon) (inp : Input M N K) (path : ℤ → P) (path' : ℤ → P')
    (D : P → Option (BwdOutput (M + 2) (N + 2) K)) (d : P' → Option (BwdOutput (m + 2) (n + 2) K))
    (h : Runnable run (experimentSource files { io with tracking_domain := none } tag run.tracking_end_date) inp)
    (hd : run.restart = true → d (path' run.tracking_end_date) = (D (path run.tracking_end_date)).map p.cutBwd)
    {S} (hS : EndsIn (bwdRun run (turnSource (firstColumn N l)
      (experimentSource files { io with tracking_domain := none } tag run.tracking_end_date)) path D) S) :
    ∃ s, EndsIn (bwdRun { run with periodic_boundary := false }
        (experimentSource files { io with tracking_domain := some box } tag run.tracking_end_date) path' d) s ∧
      s.files.map Prod.fst = S.files.map Prod.fst ∧
      ∀ t o O, (t, o) ∈ s.files → (t, O) ∈ S.files → ∀ (q : ℕ) i j, run.tracking_end_date - q * run.dt ≤ t → Deep false q i j →
        SameCellBwd o i j O (p.r i) (p.c j) := by
  rw [C105_domain_across_the_date_line p hg hb hone io tag ht _ (first_states_load (h.serves.states _ h.ordered le_rfl))]
  exact C98_part_of_the_grid_backward p run _ _ false (fun h => nomatch h) path path' D d (runnable_turn _ h) hd hS

/-- **C105** (backward).  If the files of a run with a domain across the date line report no losses at the edge of the domain, and
nothing outside the domain is tagged, the run without tracking domain on data that begin at the western end of the domain gives the same
results, and no tracked water outside the domain. -/
theorem C105_large_enough_backward (p : Place m n M N) {box : BoundingBox K} (hg : OneGrid files lat lon M N dy dx)
    (hb : AcrossDateLine p box lat lon l k) (hone : l ≠ 1) (run : RunConfig K) (io : IOConfig K) (tag : TaggingRegion K K)
    (ht : RegionOn tag lat lon) (inp : Input M N K) (path : ℤ → P) (path' : ℤ → P')
    (D : P → Option (BwdOutput (M + 2) (N + 2) K)) (d : P' → Option (BwdOutput (m + 2) (n + 2) K))
    (h : Runnable run (experimentSource files { io with tracking_domain := none } tag run.tracking_end_date) inp)
    (hp : Physical inp run.tracking_start_date run.tracking_end_date)
    (ha : ∀ I, 0 < (getGridInfo (fun i : Fin (M + 2) => lat.getD i 0) fun j : Fin (N + 2) => lon.getD j 0).a I)
    (hmask : ∀ t, run.tracking_start_date ≤ t → t ≤ run.tracking_end_date → inWindow run t →
      ∀ I J, ¬ p.Covers I J → inp.region t I (J + firstColumn N l) = 0)
    (hd : run.restart = true → D (path run.tracking_end_date) = (d (path' run.tracking_end_date)).map p.extendBwd)
    (hstart : ∀ i j, 0 ≤ (startBwd run path' d).1 i j ∧ 0 ≤ (startBwd run path' d).2 i j)
    (hedge : ∀ i j, isBoundary false i j → (startBwd run path' d).1 i j = 0 ∧ (startBwd run path' d).2 i j = 0)
    {s} (hs : EndsIn (bwdRun { run with periodic_boundary := false }
        (experimentSource files { io with tracking_domain := some box } tag run.tracking_end_date) path' d) s)
    (hloss : ∀ x ∈ s.files, ∀ i j, isBoundary false i j → x.2.losses i j = 0) :
    ∃ S, EndsIn (bwdRun run (turnSource (firstColumn N l)
        (experimentSource files { io with tracking_domain := none } tag run.tracking_end_date)) path D) S ∧
      S.files = s.files.map (fun x => (x.1, p.extendBwd x.2)) := by
  have hl := first_states_load (h.serves.states _ h.ordered le_rfl)
  rw [C105_domain_across_the_date_line p hg hb hone io tag ht _ hl] at hs
  have hgrid := (DateLine.experiment_across p hg hb io tag ht run.tracking_end_date hl).2
  simp only [ofRat_zero] at hgrid
  obtain ⟨S, hS, hfiles, _⟩ := C99_no_boundary_losses_backward p run _ _ false (fun h => nomatch h) path path' D d (runnable_turn _ h)
    (physical_turn _ hp) (fun I => by
      show 0 < (experimentSource files { io with tracking_domain := none } tag run.tracking_end_date : Source M N K).grid.a I
      rw [hgrid]; exact ha I)
    hmask hd hstart hedge hs hloss
  exact ⟨S, hS, hfiles⟩

end

end Wam
