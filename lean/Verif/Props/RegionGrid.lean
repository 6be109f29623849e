import Verif.Props.Pipeline
import Verif.Props.Complete

/-!
# C96: a tagging region on another grid than the data
-/

set_option linter.unusedSectionVars false
set_option linter.unusedVariables false

namespace Wam
open Spec

section
variable {m n : ℕ} {K : Type} {P : Type} [Field K] [LinearOrder K] [IsStrictOrderedRing K] [NpTrig K]

/-- loading a region that the tracking domain leaves with axes `lat`, `lon` -/
private theorem loadRegion_cut (r : TagFile K K) {dom : Option (BoundingBox K)} {lat lon : List K}
    (hcut : CutTo dom r.latitude r.longitude lat lon) :
    ∃ r', loadTaggingRegion (.ok r) dom none = .ok r' ∧ r'.latitude = lat ∧ r'.longitude = lon ∧ r'.time = r.time ∧
      ∀ t, loadTaggingRegion (.ok r) dom (some t) = Wam.regionAt r' t := by
  obtain ⟨F, -, hcut'⟩ := trim_cells hcut
  cases dom with
  | none =>
    obtain ⟨rfl, rfl⟩ := hcut
    exact ⟨r, rfl, rfl, rfl, rfl, fun t => rfl⟩
  | some box =>
    obtain ⟨ds', a, e1, e2, b⟩ := hcut' (⟨r.latitude, r.longitude, [], fun _ i j => (i, j)⟩ : Dataset K (ℕ × ℕ)) rfl rfl
    have a : selectSubdomain _ box = _ := a
    refine ⟨{ r with latitude := lat, longitude := lon, mask := fun t i j => r.mask t (F i j).1 (F i j).2 }, ?_, rfl, rfl, rfl, ?_⟩
    · simp only [loadTaggingRegion, selectRegion, bind, Except.bind, a, pure, Except.pure, e1, e2, b]
    · intro t
      simp only [loadTaggingRegion, selectRegion, bind, Except.bind, a, pure, Except.pure, e1, e2, b]

/-- a region on another grid cannot be used at any time -/
private theorem wrong_grid_unreadable (r : TagFile K K) {dom : Option (BoundingBox K)} {lat lon lat' lon' : List K}
    (hcut : CutTo dom r.latitude r.longitude lat lon) (hne : (lat, lon) ≠ (lat', lon')) :
    ∃ q : Region (m + 2) (n + 2) K, trackingRegion dom (.file (.ok r)) lat' lon' = .ok q ∧
      ∀ t, ¬ Readable (Spec.regionAt q t) := by
  obtain ⟨r', h1, h2, h3, h4, h5⟩ := loadRegion_cut r hcut
  have hoff : ∀ r'' : TagFile K K, r''.latitude = lat → r''.longitude = lon →
      regionOnGrid (m := m) (n := n) lat' lon' r'' = .error .valueError := by
    intro r'' a b
    unfold regionOnGrid
    rw [if_neg]
    rintro ⟨c, d⟩
    apply hne
    rw [← a, ← b, c, d]
  unfold trackingRegion
  simp only [h1]
  cases ht : r'.time with
  | none =>
    simp only [hoff r' h2 h3]
    exact ⟨_, rfl, fun t => by rintro ⟨v, hv⟩; cases hv⟩
  | some times =>
    refine ⟨_, rfl, fun t => ?_⟩
    rintro ⟨v, hv⟩
    simp only [Spec.regionAt, h5] at hv
    cases hk : Wam.regionAt r' t with
    | error e => rw [hk] at hv; cases hv
    | ok r'' =>
      rw [hk] at hv
      have hax : r''.latitude = r'.latitude ∧ r''.longitude = r'.longitude := by
        unfold Wam.regionAt at hk
        simp only [ht, bind, Except.bind] at hk
        cases hm : nearestMask (times.zip (List.range times.length)) t with
        | error e => rw [hm] at hk; cases hk
        | ok k =>
          rw [hm] at hk
          simp only [pure, Except.pure] at hk
          injection hk with hk
          subst hk
          exact ⟨rfl, rfl⟩
      have : regionOnGrid (m := m) (n := n) lat' lon' r'' = .ok v := hv
      rw [hoff r'' (by rw [hax.1, h2]) (by rw [hax.2, h3])] at this
      cases this

/-- the source of an experiment whose region is on another grid -/
private theorem wrong_grid_source {files : List Char → Except Err (DataFile K K)} {cfg : IOConfig K} {r : TagFile K K} {first : ℤ}
    {lat lon : List K} (hcut : CutTo cfg.tracking_domain r.latitude r.longitude lat lon)
    (hgrid : ∀ ds, loadData files cfg first .states = .ok ds → (lat, lon) ≠ (ds.latitude, ds.longitude))
    (q : Region (m + 2) (n + 2) K)
    (hq : (experimentSource (m := m) (n := n) files cfg (.file (.ok r)) first).region = .ok q)
    (hst : Readable ((experimentSource (m := m) (n := n) files cfg (.file (.ok r)) first).states first)) :
    ∀ t, ¬ Readable (Spec.regionAt q t) := by
  have hds : ∃ ds, loadData files cfg first .states = .ok ds := by
    obtain ⟨v, hv⟩ := hst
    have hv : (loadData files cfg first .states).map Dataset.toStates = .ok v := hv
    cases hl : loadData files cfg first .states with
    | error e => rw [hl] at hv; cases hv
    | ok ds => exact ⟨ds, rfl⟩
  obtain ⟨ds, hds⟩ := hds
  obtain ⟨q', h1, h2⟩ := wrong_grid_unreadable (m := m) (n := n) r hcut (hgrid ds hds)
  have : (experimentSource (m := m) (n := n) files cfg (.file (.ok r)) first).region =
      trackingRegion cfg.tracking_domain (.file (.ok r)) ds.latitude ds.longitude := by
    unfold experimentSource
    rw [hds]
    rfl
  rw [this, h1] at hq
  injection hq with hq
  subst hq
  exact h2

/-- **C96** (forward): a tagging region from a file whose axes (in the tracking domain) are not those of the data is never
applied to the wrong cells: a run with a step in the tagging window ends with an exception, and all files it
has written are of times before that step is done. -/
theorem C96_other_grid_forward {files : List Char → Except Err (DataFile K K)} {io : IOConfig K} {r : TagFile K K}
    {lat lon : List K} (hcut : CutTo io.tracking_domain r.latitude r.longitude lat lon)
    (run : RunConfig K) (hpos : 0 < run.timestep)
    (hgrid : ∀ ds, loadData files io run.tracking_start_date .states = .ok ds → (lat, lon) ≠ (ds.latitude, ds.longitude))
    (path : ℤ → P) (disk : P → Option (FwdOutput (m + 2) (n + 2) K)) (k : ℕ) (hk : k < runSteps run)
    (hw : inWindow run (timeFwd run k)) :
    ∃ e s, FailsWith (fwdRun run (experimentSource (m := m) (n := n) files io (.file (.ok r)) run.tracking_start_date) path disk) e s ∧
      ∀ x ∈ s.files, x.1 ≤ timeFwd run k := by
  set src := experimentSource (m := m) (n := n) files io (.file (.ok r)) run.tracking_start_date with hsrc
  have hnot : ∀ q, src.region = .ok q → ∀ t, Readable (src.states run.tracking_start_date) → ¬ Readable (Spec.regionAt q t) :=
    fun q hq t hst => wrong_grid_source hcut hgrid q hq hst t
  have hinc : ¬ CompleteFwd run src path disk := by
    rintro ⟨⟨hst, -⟩, q, hq, hsteps⟩
    exact hnot q hq _ hst ((hsteps k hk).region hw)
  obtain ⟨e, s, hf, hcase⟩ := C94_fails_forward run hpos src path disk hinc
  refine ⟨e, s, hf, ?_⟩
  rcases hcase with ⟨-, hnil⟩ | ⟨q, j, hq, hj, hbefore, hat, htimes⟩
  · intro x hx; rw [hnil] at hx; cases hx
  · have hjk : j ≤ k := by
      by_contra hlt
      have h0 := hbefore k (by omega)
      have hst : Readable (src.states run.tracking_start_date) := by
        have := (hbefore 0 (by omega)).states_start
        simpa [timeFwd] using this
      exact hnot q hq _ hst (h0.region hw)
    intro x hx
    have : x.1 ∈ outputTimes run (timeFwd run) j := by rw [← htimes]; exact List.mem_map_of_mem hx
    unfold outputTimes at this
    rw [List.mem_map] at this
    obtain ⟨i, hi, hxi⟩ := this
    have hij := List.mem_range.1 (List.mem_filter.1 hi).1
    rw [← hxi]
    unfold timeFwd
    have : ((i + 1 : ℕ) : ℤ) ≤ (k : ℤ) := by exact_mod_cast (by omega : i + 1 ≤ k)
    have := mul_le_mul_of_nonneg_right this (show (0 : ℤ) ≤ run.timestep * 1000000 by omega)
    linarith

/-- **C96** (backward) -/
theorem C96_other_grid_backward {files : List Char → Except Err (DataFile K K)} {io : IOConfig K} {r : TagFile K K}
    {lat lon : List K} (hcut : CutTo io.tracking_domain r.latitude r.longitude lat lon)
    (run : RunConfig K) (hpos : 0 < run.timestep)
    (hgrid : ∀ ds, loadData files io run.tracking_end_date .states = .ok ds → (lat, lon) ≠ (ds.latitude, ds.longitude))
    (path : ℤ → P) (disk : P → Option (BwdOutput (m + 2) (n + 2) K)) (k : ℕ) (hk : k < runSteps run)
    (hw : inWindow run (timeBwd run k)) :
    ∃ e s, FailsWith (bwdRun run (experimentSource (m := m) (n := n) files io (.file (.ok r)) run.tracking_end_date) path disk) e s ∧
      ∀ x ∈ s.files, timeBwd run k ≤ x.1 := by
  set src := experimentSource (m := m) (n := n) files io (.file (.ok r)) run.tracking_end_date with hsrc
  have hnot : ∀ q, src.region = .ok q → ∀ t, Readable (src.states run.tracking_end_date) → ¬ Readable (Spec.regionAt q t) :=
    fun q hq t hst => wrong_grid_source hcut hgrid q hq hst t
  have hinc : ¬ CompleteBwd run src path disk := by
    rintro ⟨⟨hst, -⟩, q, hq, hsteps⟩
    exact hnot q hq _ hst ((hsteps k hk).region hw)
  obtain ⟨e, s, hf, hcase⟩ := C94_fails_backward run hpos src path disk hinc
  refine ⟨e, s, hf, ?_⟩
  rcases hcase with ⟨-, hnil⟩ | ⟨q, j, hq, hj, hbefore, hat, htimes⟩
  · intro x hx; rw [hnil] at hx; cases hx
  · have hjk : j ≤ k := by
      by_contra hlt
      have h0 := hbefore k (by omega)
      have hst : Readable (src.states run.tracking_end_date) := by
        have := (hbefore 0 (by omega)).states_end
        simpa [timeBwd] using this
      exact hnot q hq _ hst (h0.region hw)
    intro x hx
    have : x.1 ∈ outputTimes run (timeBwd run) j := by rw [← htimes]; exact List.mem_map_of_mem hx
    unfold outputTimes at this
    rw [List.mem_map] at this
    obtain ⟨i, hi, hxi⟩ := this
    have hij := List.mem_range.1 (List.mem_filter.1 hi).1
    rw [← hxi]
    unfold timeBwd
    have : ((i + 1 : ℕ) : ℤ) ≤ (k : ℤ) := by exact_mod_cast (by omega : i + 1 ≤ k)
    have := mul_le_mul_of_nonneg_right this (show (0 : ℤ) ≤ run.timestep * 1000000 by omega)
    linarith

/-- **C96** (forward): outside the tagging window the grid of the region does not matter: if no step is in it and the region
can be loaded, the run ends when all other data can be read. -/
theorem C96_unused_forward {files : List Char → Except Err (DataFile K K)} {io : IOConfig K} {r : TagFile K K}
    {lat lon : List K} (hcut : CutTo io.tracking_domain r.latitude r.longitude lat lon)
    (run : RunConfig K) (hpos : 0 < run.timestep) (path : ℤ → P) (disk : P → Option (FwdOutput (m + 2) (n + 2) K))
    (hw : ∀ k < runSteps run, ¬ inWindow run (timeFwd run k))
    (hinit : (∃ ds, loadData files io run.tracking_start_date .states = .ok ds) ∧
      (run.restart = true → (disk (path run.tracking_start_date)).isSome))
    (hdata : ∀ k < runSteps run, (∃ ds, loadData files io (timeFwd run k) .states = .ok ds) ∧
      (∃ ds, loadData files io (timeFwd run (k + 1)) .states = .ok ds) ∧
      ∃ ds, loadData files io (timeFwd run k + run.timestep * 500000) .fluxes = .ok ds) :
    ∃ s, EndsIn (fwdRun run (experimentSource (m := m) (n := n) files io (.file (.ok r)) run.tracking_start_date) path disk) s ∧
      s.files.map Prod.fst = outputTimes run (timeFwd run) (runSteps run) := by
  have hst : ∀ t, (∃ ds, loadData files io t .states = .ok ds) →
      Readable ((experimentSource (m := m) (n := n) files io (.file (.ok r)) run.tracking_start_date).states t) := by
    rintro t ⟨ds, h⟩
    refine ⟨ds.toStates, ?_⟩
    show (loadData files io t .states).map Dataset.toStates = _
    rw [h]; rfl
  have hfl : ∀ t, (∃ ds, loadData files io t .fluxes = .ok ds) →
      Readable ((experimentSource (m := m) (n := n) files io (.file (.ok r)) run.tracking_start_date).fluxes t) := by
    rintro t ⟨ds, h⟩
    refine ⟨ds.toFluxes, ?_⟩
    show (loadData files io t .fluxes).map Dataset.toFluxes = _
    rw [h]; rfl
  have hreg : ∃ q, (experimentSource (m := m) (n := n) files io (.file (.ok r)) run.tracking_start_date).region = .ok q := by
    obtain ⟨r', h1, -⟩ := loadRegion_cut r hcut
    show ∃ q, trackingRegion io.tracking_domain (.file (.ok r)) _ _ = .ok q
    unfold trackingRegion
    simp only [h1]
    cases r'.time with
    | none =>
      simp only
      cases regionOnGrid (m := m) (n := n) _ _ r' with
      | ok a => exact ⟨_, rfl⟩
      | error e => exact ⟨_, rfl⟩
    | some _ => exact ⟨_, rfl⟩
  obtain ⟨q, hq⟩ := hreg
  refine C94_completes_forward run hpos _ path disk ⟨⟨hst _ hinit.1, hinit.2⟩, q, hq, fun k hk => ?_⟩
  obtain ⟨a, b, c⟩ := hdata k hk
  refine ⟨hst _ a, ?_, hfl _ c, fun hin => absurd hin (hw k hk)⟩
  have e : timeFwd run k + run.timestep * 1000000 = timeFwd run (k + 1) := by
    unfold timeFwd; push_cast; ring
  rw [e]
  exact hst _ b

/-- **C96** (backward) -/
theorem C96_unused_backward {files : List Char → Except Err (DataFile K K)} {io : IOConfig K} {r : TagFile K K}
    {lat lon : List K} (hcut : CutTo io.tracking_domain r.latitude r.longitude lat lon)
    (run : RunConfig K) (hpos : 0 < run.timestep) (path : ℤ → P) (disk : P → Option (BwdOutput (m + 2) (n + 2) K))
    (hw : ∀ k < runSteps run, ¬ inWindow run (timeBwd run k))
    (hinit : (∃ ds, loadData files io run.tracking_end_date .states = .ok ds) ∧
      (run.restart = true → (disk (path run.tracking_end_date)).isSome))
    (hdata : ∀ k < runSteps run, (∃ ds, loadData files io (timeBwd run k) .states = .ok ds) ∧
      (∃ ds, loadData files io (timeBwd run (k + 1)) .states = .ok ds) ∧
      ∃ ds, loadData files io (timeBwd run k - run.timestep * 500000) .fluxes = .ok ds) :
    ∃ s, EndsIn (bwdRun run (experimentSource (m := m) (n := n) files io (.file (.ok r)) run.tracking_end_date) path disk) s ∧
      s.files.map Prod.fst = outputTimes run (timeBwd run) (runSteps run) := by
  have hst : ∀ t, (∃ ds, loadData files io t .states = .ok ds) →
      Readable ((experimentSource (m := m) (n := n) files io (.file (.ok r)) run.tracking_end_date).states t) := by
    rintro t ⟨ds, h⟩
    refine ⟨ds.toStates, ?_⟩
    show (loadData files io t .states).map Dataset.toStates = _
    rw [h]; rfl
  have hfl : ∀ t, (∃ ds, loadData files io t .fluxes = .ok ds) →
      Readable ((experimentSource (m := m) (n := n) files io (.file (.ok r)) run.tracking_end_date).fluxes t) := by
    rintro t ⟨ds, h⟩
    refine ⟨ds.toFluxes, ?_⟩
    show (loadData files io t .fluxes).map Dataset.toFluxes = _
    rw [h]; rfl
  have hreg : ∃ q, (experimentSource (m := m) (n := n) files io (.file (.ok r)) run.tracking_end_date).region = .ok q := by
    obtain ⟨r', h1, -⟩ := loadRegion_cut r hcut
    show ∃ q, trackingRegion io.tracking_domain (.file (.ok r)) _ _ = .ok q
    unfold trackingRegion
    simp only [h1]
    cases r'.time with
    | none =>
      simp only
      cases regionOnGrid (m := m) (n := n) _ _ r' with
      | ok a => exact ⟨_, rfl⟩
      | error e => exact ⟨_, rfl⟩
    | some _ => exact ⟨_, rfl⟩
  obtain ⟨q, hq⟩ := hreg
  refine C94_completes_backward run hpos _ path disk ⟨⟨hst _ hinit.1, hinit.2⟩, q, hq, fun k hk => ?_⟩
  obtain ⟨a, b, c⟩ := hdata k hk
  refine ⟨hst _ a, ?_, hfl _ c, fun hin => absurd hin (hw k hk)⟩
  have e : timeBwd run k - run.timestep * 1000000 = timeBwd run (k + 1) := by
    unfold timeBwd; push_cast; ring
  rw [e]
  exact hst _ b

end

/-! ### A concrete case: two hours of data, and a region one column to the east -/

namespace RegionGridDemo

def data : Dataset ℚ ℚ := ⟨[51, 50, 49], [4, 5, 6], allVars, fun _ i j => 3 + i + j⟩

def files (_ : List Char) : Except Err (DataFile ℚ ℚ) := .ok ⟨.standard, [(0, data), (3600000000, data)]⟩

def io : IOConfig ℚ := ⟨.standard, "in".toList, none, 3600000000⟩

def region : TagFile ℚ ℚ := ⟨[51, 50, 49], [5, 6, 7], none, fun _ _ _ => 1⟩

/-- one hour in steps of half an hour; tagging from `a` to `b` -/
def run (a b : ℤ) : RunConfig ℚ :=
  { tracking_start_date := 0, tracking_end_date := 3600000000, tagging_start_date := a, tagging_end_date := b
    timestep := 1800, output_frequency := 3600000000, kvf := 3, periodic_boundary := false, restart := false }

theorem cut : CutTo io.tracking_domain region.latitude region.longitude [51, 50, 49] [5, 6, 7] := ⟨rfl, rfl⟩

theorem other {t : ℤ} (ht : t = 0 ∨ t = 3600000000) : ∀ ds, loadData files io t .states = .ok ds →
    (([51, 50, 49], [5, 6, 7]) : List ℚ × List ℚ) ≠ (ds.latitude, ds.longitude) := by
  intro ds h
  have h' : ds.longitude = [4, 5, 6] := by
    rcases ht with rfl | rfl
    · have e : (loadData files io 0 .states).map Dataset.longitude = .ok [4, 5, 6] := by decide +kernel
      rw [h] at e
      injection e
    · have e : (loadData files io 3600000000 .states).map Dataset.longitude = .ok [4, 5, 6] := by decide +kernel
      rw [h] at e
      injection e
  rw [h']
  intro hc
  have := (Prod.mk.inj hc).2
  revert this
  decide +kernel

/-- `C96_other_grid_forward` and `C96_other_grid_backward` apply -/
example [NpTrig ℚ] : ∃ e s, FailsWith (fwdRun (run 0 3600000000) (experimentSource (m := 1) (n := 1) files io (.file (.ok region)) 0)
    (fun t : ℤ => t) (fun _ => none)) e s ∧ ∀ x ∈ s.files, x.1 ≤ timeFwd (run 0 3600000000) 0 :=
  C96_other_grid_forward cut (run 0 3600000000) (by decide) (other (.inl rfl)) _ _ 0 (by decide +kernel) (by
    unfold inWindow; decide +kernel)

example [NpTrig ℚ] : ∃ e s, FailsWith (bwdRun (run 0 3600000000) (experimentSource (m := 1) (n := 1) files io (.file (.ok region))
    3600000000) (fun t : ℤ => t) (fun _ => none)) e s ∧ ∀ x ∈ s.files, timeBwd (run 0 3600000000) 0 ≤ x.1 :=
  C96_other_grid_backward cut (run 0 3600000000) (by decide) (other (.inr rfl)) _ _ 0 (by decide +kernel) (by
    unfold inWindow; decide +kernel)

theorem loads {t : ℤ} (sub : Subset) (ht : t ∈ ([0, 900000000, 1800000000, 2700000000, 3600000000] : List ℤ)) :
    ∃ ds, loadData files io t sub = .ok ds := by
  have : ∀ sub ∈ [Subset.states, .fluxes], ∀ t ∈ ([0, 900000000, 1800000000, 2700000000, 3600000000] : List ℤ),
      (loadData files io t sub).map Dataset.longitude = .ok [4, 5, 6] := by decide +kernel
  have e := this sub (by cases sub <;> simp) t ht
  cases h : loadData files io t sub with
  | error err => rw [h] at e; cases e
  | ok ds => exact ⟨ds, rfl⟩

/-- `C96_unused_forward` and `C96_unused_backward` apply: tagging after the end -/
example [NpTrig ℚ] : ∃ s, EndsIn (fwdRun (run 7200000000 7200000000) (experimentSource (m := 1) (n := 1) files io
    (.file (.ok region)) 0) (fun t : ℤ => t) (fun _ => none)) s ∧
    s.files.map Prod.fst = [3600000000] := by
  have hs : runSteps (run 7200000000 7200000000) = 2 := by decide +kernel
  have hf : outputTimes (run 7200000000 7200000000) (timeFwd (run 7200000000 7200000000)) (runSteps (run 7200000000 7200000000)) =
    [3600000000] := by decide +kernel
  rw [← hf]
  refine C96_unused_forward cut (run 7200000000 7200000000) (by decide) _ _ ?_ ⟨loads _ (by decide), fun h => by cases h⟩ ?_ <;>
    (rw [hs]; intro k hk)
  · unfold inWindow
    revert k
    decide +kernel
  · have : timeFwd (run 7200000000 7200000000) k ∈ ([0, 900000000, 1800000000, 2700000000, 3600000000] : List ℤ) ∧
      timeFwd (run 7200000000 7200000000) (k + 1) ∈ ([0, 900000000, 1800000000, 2700000000, 3600000000] : List ℤ) ∧
      timeFwd (run 7200000000 7200000000) k + (run 7200000000 7200000000).timestep * 500000 ∈
        ([0, 900000000, 1800000000, 2700000000, 3600000000] : List ℤ) := by
      revert k; decide +kernel
    exact ⟨loads _ this.1, loads _ this.2.1, loads _ this.2.2⟩

example [NpTrig ℚ] : ∃ s, EndsIn (bwdRun (run 7200000000 7200000000) (experimentSource (m := 1) (n := 1) files io
    (.file (.ok region)) 3600000000) (fun t : ℤ => t) (fun _ => none)) s ∧
    s.files.map Prod.fst = [0] := by
  have hs : runSteps (run 7200000000 7200000000) = 2 := by decide +kernel
  have hf : outputTimes (run 7200000000 7200000000) (timeBwd (run 7200000000 7200000000)) (runSteps (run 7200000000 7200000000)) =
    [0] := by decide +kernel
  rw [← hf]
  refine C96_unused_backward cut (run 7200000000 7200000000) (by decide) _ _ ?_ ⟨loads _ (by decide), fun h => by cases h⟩ ?_ <;>
    (rw [hs]; intro k hk)
  · unfold inWindow
    revert k
    decide +kernel
  · have : timeBwd (run 7200000000 7200000000) k ∈ ([0, 900000000, 1800000000, 2700000000, 3600000000] : List ℤ) ∧
      timeBwd (run 7200000000 7200000000) (k + 1) ∈ ([0, 900000000, 1800000000, 2700000000, 3600000000] : List ℤ) ∧
      timeBwd (run 7200000000 7200000000) k - (run 7200000000 7200000000).timestep * 500000 ∈
        ([0, 900000000, 1800000000, 2700000000, 3600000000] : List ℤ) := by
      revert k; decide +kernel
    exact ⟨loads _ this.1, loads _ this.2.1, loads _ this.2.2⟩

end RegionGridDemo

end Wam
