import Verif.Lemmas.Mirror
import Verif.Lemmas.Demo
import Verif.Lemmas.RunK
import Verif.Props.GridInfo

/-!
# C101: mirror images
-/
set_option linter.unusedSectionVars false
set_option linter.unusedVariables false

namespace Wam
open Spec

section
variable {m n : ℕ} {α : Type*} [Add α] [Sub α] [Mul α] [Div α] [Neg α] [NpOps α] [MirrorNum α] {P P' : Type*}

/-- **C101** (forward).  If all data of a run are replaced by their mirror image (east-west, north-south or both), then the
run does the same at the same times -- loads the same data, writes files for the same times, ends, fails or goes on in the same
way -- and all its output is the mirror image of the output of the other run: exactly, in exact as well as in rounded
arithmetic, whatever the data. -/
theorem C101_mirror_forward (μ : Mirror) (cfg : RunConfig α) (src : Source m n α) (path : ℤ → P) (path' : ℤ → P')
    (disk : P → Option (FwdOutput (m + 2) (n + 2) α)) (disk' : P' → Option (FwdOutput (m + 2) (n + 2) α))
    (hd : cfg.restart = true → disk' (path' cfg.tracking_start_date) = (disk (path cfg.tracking_start_date)).map μ.fwd) (fuel : ℕ) :
    Corresponds (ChangedBy μ.fwd) (fwdRun cfg src path disk fuel) (fwdRun cfg (μ.source src) path' disk' fuel) := by
  refine fwdRun_changed cfg cfg src (μ.source src) path path' disk disk' μ.fwd μ.region rfl rfl rfl rfl
    (fwdInitialize_changed cfg cfg src (μ.source src) path path' disk disk' μ.fwd μ.states (fun _ => rfl) rfl rfl rfl
      (fun _ => rfl) hd) rfl (fun _ => rfl) rfl (fun r _ => ?_) fuel
  refine fwdAdvance_changed cfg cfg src (μ.source src) μ.fwd μ.states μ.fluxes μ.field r (μ.region r) (fun _ => rfl) (fun _ => rfl)
    (taggingMask_changed cfg cfg μ.field r (μ.region r) rfl rfl rfl (by cases r <;> simp [Mirror.region]))
    (fun S0 F S1 mask o => ?_)
  show forwardtrack cfg.periodic_boundary (ofRat cfg.timestep) cfg.kvf (fun i => src.grid.a (μ.row i))
    (stabilizeFluxes (ofRat cfg.timestep) (fun i => src.grid.a (μ.row i)) (scaleFluxes (μ.grid src.grid) (μ.fluxes F)) (μ.states S0))
    (calculateFz (fun i => src.grid.a (μ.row i)) (stabilizeFluxes (ofRat cfg.timestep) (fun i => src.grid.a (μ.row i))
      (scaleFluxes (μ.grid src.grid) (μ.fluxes F)) (μ.states S0)) (μ.states S0) (μ.states S1) (ofRat cfg.timestep) cfg.kvf)
    (μ.states S1) (μ.states S0) (μ.field mask) (μ.fwd o) = _
  rw [Mir.scaleFluxes_mirror, Mir.stabilizeFluxes_mirror, Mir.calculateFz_mirror, Mir.forwardtrack_mirror]

/-- **C101** (backward) -/
theorem C101_mirror_backward (μ : Mirror) (cfg : RunConfig α) (src : Source m n α) (path : ℤ → P) (path' : ℤ → P')
    (disk : P → Option (BwdOutput (m + 2) (n + 2) α)) (disk' : P' → Option (BwdOutput (m + 2) (n + 2) α))
    (hd : cfg.restart = true → disk' (path' cfg.tracking_end_date) = (disk (path cfg.tracking_end_date)).map μ.bwd) (fuel : ℕ) :
    Corresponds (ChangedBy μ.bwd) (bwdRun cfg src path disk fuel) (bwdRun cfg (μ.source src) path' disk' fuel) := by
  refine bwdRun_changed cfg cfg src (μ.source src) path path' disk disk' μ.bwd μ.region rfl rfl rfl rfl
    (bwdInitialize_changed cfg cfg src (μ.source src) path path' disk disk' μ.bwd μ.states (fun _ => rfl) rfl rfl rfl
      (fun _ => rfl) hd) rfl (fun _ => rfl) rfl (fun r _ => ?_) fuel
  refine bwdAdvance_changed cfg cfg src (μ.source src) μ.bwd μ.states μ.fluxes μ.field r (μ.region r) (fun _ => rfl) (fun _ => rfl)
    (taggingMask_changed cfg cfg μ.field r (μ.region r) rfl rfl rfl (by cases r <;> simp [Mirror.region]))
    (fun S0 F S1 mask o => ?_)
  show backtrack cfg.periodic_boundary (ofRat cfg.timestep) cfg.kvf (fun i => src.grid.a (μ.row i))
    (stabilizeFluxes (ofRat cfg.timestep) (fun i => src.grid.a (μ.row i)) (scaleFluxes (μ.grid src.grid) (μ.fluxes F)) (μ.states S1))
    (calculateFz (fun i => src.grid.a (μ.row i)) (stabilizeFluxes (ofRat cfg.timestep) (fun i => src.grid.a (μ.row i))
      (scaleFluxes (μ.grid src.grid) (μ.fluxes F)) (μ.states S1)) (μ.states S0) (μ.states S1) (ofRat cfg.timestep) cfg.kvf)
    (μ.states S1) (μ.states S0) (μ.field mask) (μ.bwd o) = _
  rw [Mir.scaleFluxes_mirror, Mir.stabilizeFluxes_mirror, Mir.calculateFz_mirror, Mir.backtrack_mirror]

end

/-! ### Totals and percentages -/

section
variable {m n : ℕ} {K : Type*} [Field K] [LinearOrder K] [IsStrictOrderedRing K]

theorem Mir.sum_row (μ : Mirror) (f : Fin m → K) : ∑ i, f (μ.row i) = ∑ i, f i := by
  unfold Mirror.row
  by_cases h : μ.northSouth = true
  · simp only [h, if_true]
    exact Equiv.sum_comp Fin.revPerm f
  · simp only [h, Bool.false_eq_true, if_false]

theorem Mir.sum_col (μ : Mirror) (f : Fin m → K) : ∑ i, f (μ.col i) = ∑ i, f i := by
  unfold Mirror.col
  by_cases h : μ.eastWest = true
  · simp only [h, if_true]
    exact Equiv.sum_comp Fin.revPerm f
  · simp only [h, Bool.false_eq_true, if_false]

theorem Mir.weightedTotal (μ : Mirror) (w : Fin (m + 2) → K) (f : Arr (m + 2) (n + 2) K) :
    weightedTotal (fun i => w (μ.row i)) (μ.field f) = weightedTotal w f := by
  unfold Wam.weightedTotal
  rw [npSum_eq, npSum_eq]
  simp only [Mirror.field]
  rw [Mir.sum_row μ fun i => ∑ j, f i (μ.col j) * w i]
  exact Finset.sum_congr rfl fun i _ => Mir.sum_col μ fun j => f i j * w i

theorem Mir.row_inner (μ : Mirror) (i : Fin m) : (μ.row i.castSucc.succ : Fin (m + 2)) = (μ.row i).castSucc.succ := by
  unfold Mirror.row
  split_ifs
  · rw [Fin.rev_succ, Fin.rev_castSucc, Fin.succ_castSucc]
  · rfl

theorem Mir.col_inner (μ : Mirror) (i : Fin m) : (μ.col i.castSucc.succ : Fin (m + 2)) = (μ.col i).castSucc.succ := by
  unfold Mirror.col
  split_ifs
  · rw [Fin.rev_succ, Fin.rev_castSucc, Fin.succ_castSucc]
  · rfl

theorem Mir.interiorTotal (μ : Mirror) (periodic : Bool) (w : Fin (m + 2) → K) (f : Arr (m + 2) (n + 2) K) :
    interiorTotal periodic (fun i => w (μ.row i)) (μ.field f) = interiorTotal periodic w f := by
  unfold Wam.interiorTotal
  cases periodic
  · simp only [Bool.false_eq_true, if_false]
    rw [npSum_eq, npSum_eq]
    simp only [Mirror.field, Arr.rowsInner, Arr.colsInner, Mir.row_inner, Mir.col_inner]
    rw [Mir.sum_row μ fun i => ∑ j : Fin n, f i.castSucc.succ (μ.col j).castSucc.succ * w i.castSucc.succ]
    exact Finset.sum_congr rfl fun i _ => Mir.sum_col μ fun j : Fin n => f i.castSucc.succ j.castSucc.succ * w i.castSucc.succ
  · simp only [if_true]
    rw [npSum_eq, npSum_eq]
    simp only [Mirror.field, Arr.rowsInner, Mir.row_inner]
    rw [Mir.sum_row μ fun i => ∑ j : Fin (n + 2), f i.castSucc.succ (μ.col j) * w i.castSucc.succ]
    exact Finset.sum_congr rfl fun i _ => Mir.sum_col μ fun j : Fin (n + 2) => f i.castSucc.succ j * w i.castSucc.succ

/-- **C101** (progress report, forward): the totals and percentages of a mirrored output are the same (in exact
arithmetic; rounded sums depend on the order). -/
theorem C101_report_forward (μ : Mirror) (periodic : Bool) (w : Fin (m + 2) → K) (tr : Tracker K) (o : FwdOutput (m + 2) (n + 2) K) :
    tr.reportFwd periodic (fun i => w (μ.row i)) (μ.fwd o) = tr.reportFwd periodic w o ∧
    tr.storeFwd periodic (fun i => w (μ.row i)) (μ.fwd o) = tr.storeFwd periodic w o := by
  simp only [Tracker.reportFwd, Tracker.storeFwd, Mirror.fwd, Mir.weightedTotal, Mir.interiorTotal, and_self]

/-- **C101** (progress report, backward) -/
theorem C101_report_backward (μ : Mirror) (periodic : Bool) (w : Fin (m + 2) → K) (tr : Tracker K) (o : BwdOutput (m + 2) (n + 2) K) :
    tr.reportBwd periodic (fun i => w (μ.row i)) (μ.bwd o) = tr.reportBwd periodic w o ∧
    tr.storeBwd periodic (fun i => w (μ.row i)) (μ.bwd o) = tr.storeBwd periodic w o := by
  simp only [Tracker.reportBwd, Tracker.storeBwd, Mirror.bwd, Mir.weightedTotal, Mir.interiorTotal, and_self]

end

/-! ### The grid -/

/-- **C101** (grid): the areas and lengths of the cells of a grid that is mirrored at the equator are mirrored: the
latitudes change sign and order (so that they still decrease), the longitudes may have any values with the same first spacing.
The first and the last two rows must have the same distance. -/
theorem C101_grid {m n n' : ℕ} (ew : Bool) (lat : Fin (m + 2) → ℝ) (lon : Fin (n + 2) → ℝ) (lon' : Fin (n' + 2) → ℝ)
    (hlon : |lon' 1 - lon' 0| = |lon 1 - lon 0|)
    (hlat : |lat (Fin.last (m + 1)) - lat (Fin.last m).castSucc| = |lat 1 - lat 0|) :
    getGridInfo (fun i => -lat i.rev) lon' = (Mirror.mk ew true).grid (getGridInfo lat lon) := by
  have e1 : ∀ x : ℝ, absolute x = |x| := fun x => rfl
  unfold getGridInfo Mirror.grid
  simp only [e1, hlon]
  have hy : |-lat (Fin.rev (1 : Fin (m + 2))) - -lat (Fin.rev 0)| = |lat 1 - lat 0| := by
    rw [← hlat]
    have : Fin.rev (1 : Fin (m + 2)) = (Fin.last m).castSucc := by
      apply Fin.ext; rw [Fin.val_rev]; simp
    rw [this, Fin.rev_zero]
    congr 1; ring
  set δ := |lon 1 - lon 0|
  simp only [GridInfo.mk.injEq, hy, true_and, Mirror.row, if_true]
  refine ⟨?_, ?_⟩ <;> funext i
  · have h1 : minimum (ofRat 90 : ℝ) (-lat i.rev + ofRat (1 / 2) * δ) = -maximum (ofRat (-90) : ℝ) (lat i.rev - ofRat (1 / 2) * δ) := by
      show min ((90 : ℚ) : ℝ) _ = -max ((-90 : ℚ) : ℝ) _
      rw [← min_neg_neg]; congr 1
      · norm_num
      · ring
    have h2 : maximum (ofRat (-90) : ℝ) (-lat i.rev - ofRat (1 / 2) * δ) = -minimum (ofRat 90 : ℝ) (lat i.rev + ofRat (1 / 2) * δ) := by
      show max ((-90 : ℚ) : ℝ) _ = -min ((90 : ℚ) : ℝ) _
      rw [← max_neg_neg]; congr 1
      · norm_num
      · ring
    rw [h1, h2]
    have hs : ∀ x : ℝ, NpTrig.sin (-x * NpTrig.pi / ofRat 180) = -NpTrig.sin (x * NpTrig.pi / ofRat 180) := by
      intro x
      show Real.sin (-x * Real.pi / _) = -Real.sin (x * Real.pi / _)
      rw [← Real.sin_neg]; congr 1; ring
    rw [hs, hs]
    congr 2
    ring
  · have hc : ∀ x y : ℝ, x = -y → NpTrig.cos (x * NpTrig.pi / ofRat 180) = NpTrig.cos (y * NpTrig.pi / ofRat 180) := by
      intro x y h
      show Real.cos (x * Real.pi / _) = Real.cos (y * Real.pi / _)
      rw [← Real.cos_neg, h]; congr 1; ring
    rw [hc (-lat i.rev + δ / ofRat 2) (lat i.rev - δ / ofRat 2) (by ring),
      hc (-lat i.rev - δ / ofRat 2) (lat i.rev + δ / ofRat 2) (by ring)]
    ring

/-- three rows north of the equator -/
example : getGridInfo (m := 1) (n := 1) (fun i => -(fun i : Fin 3 => 60 - 10 * (i : ℝ)) i.rev) (fun j => 10 * (j : ℝ)) =
    (Mirror.mk true true).grid (getGridInfo (fun i => 60 - 10 * (i : ℝ)) (fun j : Fin 3 => 10 * (j : ℝ))) :=
  C101_grid true (m := 1) (n := 1) (fun i => 60 - 10 * (i : ℝ)) (fun j => 10 * (j : ℝ)) (fun j => 10 * (j : ℝ)) rfl
    (by simp; norm_num)

namespace MirrorDemo

/-- both mirrors -/
def both : Mirror := ⟨true, true⟩

/-- The demo run of `Lemmas/Demo` and its mirror image, with files at the same times. -/
example : ∃ s s', fwdRun Demo.cfg Demo.src Demo.path (fun _ => none) 4 = .finished s ∧
    fwdRun Demo.cfg (both.source Demo.src) Demo.path (fun _ => none) 4 = .finished s' ∧
    s'.files = s.files.map (fun x => (x.1, both.fwd x.2)) := by
  have h := C101_mirror_forward both Demo.cfg Demo.src Demo.path Demo.path (fun _ => none) (fun _ => none) (fun h => by cases h) 4
  obtain ⟨o, ho⟩ := fwd_init_ok Demo.cfg Demo.src Demo.inp Demo.path (fun _ => none) Demo.runnable (by decide)
  obtain ⟨r, _, _, hrun⟩ := fwd_run_eq Demo.cfg Demo.src Demo.inp Demo.path _ Demo.runnable o ho
  rw [hrun, if_neg (by decide)] at h ⊢
  generalize hq : fwdRun Demo.cfg (both.source Demo.src) Demo.path (fun _ => none) 4 = q at h ⊢
  cases h with
  | finished h => exact ⟨_, _, rfl, rfl, h.files⟩

/-- the mirror image is another field -/
example : both.field (Demo.inp.states 0).s_upper ≠ (Demo.inp.states 0).s_upper := by
  intro h
  have := congrFun (congrFun h 0) 0
  revert this
  decide +kernel

end MirrorDemo

end Wam
