import Verif.Lemmas.Domain
import Verif.Props.Excerpt
import Verif.Props.Regional

/-!
# C100: the tracking domain
-/
set_option linter.unusedSectionVars false
set_option linter.unusedVariables false

namespace Wam
open Spec

section
variable {m n M N : ℕ} {K : Type} [Field K] [LinearOrder K] [IsStrictOrderedRing K] [NpTrig K] {P P' : Type}
  {files : List Char → Except Err (DataFile K K)} {lat lon : List K} {dy dx : K}

private theorem first_loads {io : IOConfig K} {tag : TaggingRegion K K} {first t : ℤ} {S}
    (h : (experimentSource files io tag first : Source M N K).states t = .ok S) : ∃ ds, loadData files io t .states = .ok ds := by
  have h : (loadData files io t .states).map Dataset.toStates = .ok S := h
  rcases hl : loadData files io t .states with e | ds
  · rw [hl] at h; exact nomatch h
  · exact ⟨ds, rfl⟩

/-- **C100** (reading).  With a tracking domain a run reads, at every time, exactly the rows and columns of the domain
out of what it reads without: data, grid information, tagging region and weights; and the same errors. -/
theorem C100_domain_is_a_part (p : Place m n M N) {box : BoundingBox K} (hg : OneGrid files lat lon M N dy dx)
    (hb : IsBox p box lat lon) (io : IOConfig K) (tag : TaggingRegion K K) (ht : RegionOn tag lat lon) (first : ℤ)
    (hfirst : ∃ ds, loadData files { io with tracking_domain := none } first .states = .ok ds) :
    (experimentSource files { io with tracking_domain := some box } tag first : Source m n K) =
      p.cutSource (experimentSource files { io with tracking_domain := none } tag first) :=
  Domain.experiment_cut p hg hb io tag ht first hfirst

/-- **C100** (forward).  Choosing a tracking domain changes nothing in the cells of the domain that are further from its edge than
there have been time steps. -/
theorem C100_same_inside_forward (p : Place m n M N) {box : BoundingBox K} (hg : OneGrid files lat lon M N dy dx)
    (hb : IsBox p box lat lon) (run : RunConfig K) (io : IOConfig K) (tag : TaggingRegion K K) (ht : RegionOn tag lat lon)
    (inp : Input M N K) (ps : Bool) (hf : p.Fits ps run.periodic_boundary) (path : ℤ → P) (path' : ℤ → P')
    (D : P → Option (FwdOutput (M + 2) (N + 2) K)) (d : P' → Option (FwdOutput (m + 2) (n + 2) K))
    (h : Runnable run (experimentSource files { io with tracking_domain := none } tag run.tracking_start_date) inp)
    (hd : run.restart = true → d (path' run.tracking_start_date) = (D (path run.tracking_start_date)).map p.cutFwd)
    {S} (hS : EndsIn (fwdRun run (experimentSource files { io with tracking_domain := none } tag run.tracking_start_date) path D) S) :
    ∃ s, EndsIn (fwdRun { run with periodic_boundary := ps }
        (experimentSource files { io with tracking_domain := some box } tag run.tracking_start_date) path' d) s ∧
      s.files.map Prod.fst = S.files.map Prod.fst ∧
      ∀ t o O, (t, o) ∈ s.files → (t, O) ∈ S.files → ∀ (k : ℕ) i j, t ≤ run.tracking_start_date + k * run.dt → Deep ps k i j →
        SameCellFwd o i j O (p.r i) (p.c j) := by
  rw [C100_domain_is_a_part p hg hb io tag ht _ (first_loads (h.serves.states _ le_rfl h.ordered))]
  exact C98_part_of_the_grid_forward p run _ inp ps hf path path' D d h hd hS

/-- **C100** (forward).  If the files of a run with a tracking domain report no losses at the edge of the domain, and nothing
outside the domain is tagged, the run without tracking domain gives the same results, and no tracked water outside the domain. -/
theorem C100_large_enough_forward (p : Place m n M N) {box : BoundingBox K} (hg : OneGrid files lat lon M N dy dx)
    (hb : IsBox p box lat lon) (run : RunConfig K) (io : IOConfig K) (tag : TaggingRegion K K) (ht : RegionOn tag lat lon)
    (inp : Input M N K) (ps : Bool) (hf : p.Fits ps run.periodic_boundary) (path : ℤ → P) (path' : ℤ → P')
    (D : P → Option (FwdOutput (M + 2) (N + 2) K)) (d : P' → Option (FwdOutput (m + 2) (n + 2) K))
    (h : Runnable run (experimentSource files { io with tracking_domain := none } tag run.tracking_start_date) inp)
    (hp : Physical inp run.tracking_start_date run.tracking_end_date)
    (ha : ∀ I, 0 < (getGridInfo (fun i : Fin (M + 2) => lat.getD i 0) fun j : Fin (N + 2) => lon.getD j 0).a I)
    (hmask : ∀ t, run.tracking_start_date ≤ t → t ≤ run.tracking_end_date → inWindow run t →
      ∀ I J, ¬ p.Covers I J → inp.region t I J = 0)
    (hd : run.restart = true → D (path run.tracking_start_date) = (d (path' run.tracking_start_date)).map p.extendFwd)
    (hstart : ∀ i j, 0 ≤ (startFwd run path' d).1 i j ∧ 0 ≤ (startFwd run path' d).2 i j)
    (hedge : ∀ i j, isBoundary ps i j → (startFwd run path' d).1 i j = 0 ∧ (startFwd run path' d).2 i j = 0)
    {s} (hs : EndsIn (fwdRun { run with periodic_boundary := ps }
        (experimentSource files { io with tracking_domain := some box } tag run.tracking_start_date) path' d) s)
    (hloss : ∀ x ∈ s.files, ∀ i j, isBoundary ps i j → x.2.losses i j = 0) :
    ∃ S, EndsIn (fwdRun run (experimentSource files { io with tracking_domain := none } tag run.tracking_start_date) path D) S ∧
      S.files = s.files.map (fun x => (x.1, p.extendFwd x.2)) := by
  have hl := first_loads (h.serves.states _ le_rfl h.ordered)
  rw [C100_domain_is_a_part p hg hb io tag ht _ hl] at hs
  have hgrid : (experimentSource files { io with tracking_domain := none } tag run.tracking_start_date : Source M N K).grid =
      getGridInfo (fun i : Fin (M + 2) => lat.getD i 0) fun j : Fin (N + 2) => lon.getD j 0 := by
    obtain ⟨ds, hds⟩ := hl
    obtain ⟨e1, e2⟩ := (Domain.loadData_domain p hg hb io _ .states).2 ds hds
    unfold experimentSource archiveSource
    simp only [hds, e1, e2, ofRat_zero]
  obtain ⟨S, hS, hfiles, _⟩ := C99_no_boundary_losses_forward p run _ inp ps hf path path' D d h hp (by rw [hgrid]; exact ha)
    hmask hd hstart hedge hs hloss
  exact ⟨S, hS, hfiles⟩

/-- **C100** (backward).  Choosing a tracking domain changes nothing in the cells of the domain that are further from its edge than
there have been time steps. -/
theorem C100_same_inside_backward (p : Place m n M N) {box : BoundingBox K} (hg : OneGrid files lat lon M N dy dx)
    (hb : IsBox p box lat lon) (run : RunConfig K) (io : IOConfig K) (tag : TaggingRegion K K) (ht : RegionOn tag lat lon)
    (inp : Input M N K) (ps : Bool) (hf : p.Fits ps run.periodic_boundary) (path : ℤ → P) (path' : ℤ → P')
    (D : P → Option (BwdOutput (M + 2) (N + 2) K)) (d : P' → Option (BwdOutput (m + 2) (n + 2) K))
    (h : Runnable run (experimentSource files { io with tracking_domain := none } tag run.tracking_end_date) inp)
    (hd : run.restart = true → d (path' run.tracking_end_date) = (D (path run.tracking_end_date)).map p.cutBwd)
    {S} (hS : EndsIn (bwdRun run (experimentSource files { io with tracking_domain := none } tag run.tracking_end_date) path D) S) :
    ∃ s, EndsIn (bwdRun { run with periodic_boundary := ps }
        (experimentSource files { io with tracking_domain := some box } tag run.tracking_end_date) path' d) s ∧
      s.files.map Prod.fst = S.files.map Prod.fst ∧
      ∀ t o O, (t, o) ∈ s.files → (t, O) ∈ S.files → ∀ (k : ℕ) i j, run.tracking_end_date - k * run.dt ≤ t → Deep ps k i j →
        SameCellBwd o i j O (p.r i) (p.c j) := by
  rw [C100_domain_is_a_part p hg hb io tag ht _ (first_loads (h.serves.states _ h.ordered le_rfl))]
  exact C98_part_of_the_grid_backward p run _ inp ps hf path path' D d h hd hS

/-- **C100** (backward).  If the files of a run with a tracking domain report no losses at the edge of the domain, and nothing
outside the domain is tagged, the run without tracking domain gives the same results, and no tracked water outside the domain. -/
theorem C100_large_enough_backward (p : Place m n M N) {box : BoundingBox K} (hg : OneGrid files lat lon M N dy dx)
    (hb : IsBox p box lat lon) (run : RunConfig K) (io : IOConfig K) (tag : TaggingRegion K K) (ht : RegionOn tag lat lon)
    (inp : Input M N K) (ps : Bool) (hf : p.Fits ps run.periodic_boundary) (path : ℤ → P) (path' : ℤ → P')
    (D : P → Option (BwdOutput (M + 2) (N + 2) K)) (d : P' → Option (BwdOutput (m + 2) (n + 2) K))
    (h : Runnable run (experimentSource files { io with tracking_domain := none } tag run.tracking_end_date) inp)
    (hp : Physical inp run.tracking_start_date run.tracking_end_date)
    (ha : ∀ I, 0 < (getGridInfo (fun i : Fin (M + 2) => lat.getD i 0) fun j : Fin (N + 2) => lon.getD j 0).a I)
    (hmask : ∀ t, run.tracking_start_date ≤ t → t ≤ run.tracking_end_date → inWindow run t →
      ∀ I J, ¬ p.Covers I J → inp.region t I J = 0)
    (hd : run.restart = true → D (path run.tracking_end_date) = (d (path' run.tracking_end_date)).map p.extendBwd)
    (hstart : ∀ i j, 0 ≤ (startBwd run path' d).1 i j ∧ 0 ≤ (startBwd run path' d).2 i j)
    (hedge : ∀ i j, isBoundary ps i j → (startBwd run path' d).1 i j = 0 ∧ (startBwd run path' d).2 i j = 0)
    {s} (hs : EndsIn (bwdRun { run with periodic_boundary := ps }
        (experimentSource files { io with tracking_domain := some box } tag run.tracking_end_date) path' d) s)
    (hloss : ∀ x ∈ s.files, ∀ i j, isBoundary ps i j → x.2.losses i j = 0) :
    ∃ S, EndsIn (bwdRun run (experimentSource files { io with tracking_domain := none } tag run.tracking_end_date) path D) S ∧
      S.files = s.files.map (fun x => (x.1, p.extendBwd x.2)) := by
  have hl := first_loads (h.serves.states _ h.ordered le_rfl)
  rw [C100_domain_is_a_part p hg hb io tag ht _ hl] at hs
  have hgrid : (experimentSource files { io with tracking_domain := none } tag run.tracking_end_date : Source M N K).grid =
      getGridInfo (fun i : Fin (M + 2) => lat.getD i 0) fun j : Fin (N + 2) => lon.getD j 0 := by
    obtain ⟨ds, hds⟩ := hl
    obtain ⟨e1, e2⟩ := (Domain.loadData_domain p hg hb io _ .states).2 ds hds
    unfold experimentSource archiveSource
    simp only [hds, e1, e2, ofRat_zero]
  obtain ⟨S, hS, hfiles, _⟩ := C99_no_boundary_losses_backward p run _ inp ps hf path path' D d h hp (by rw [hgrid]; exact ha)
    hmask hd hstart hedge hs hloss
  exact ⟨S, hS, hfiles⟩

end

end Wam
