import Verif.Lemmas.Units
import Verif.Lemmas.Demo
import Verif.Lemmas.RunK
import Verif.Lemmas.Unbounded
import Mathlib.Data.Rat.Floor

/-!
# C102: another unit for water
-/
set_option linter.unusedSectionVars false
set_option linter.unusedVariables false

namespace Wam
open Spec

section
variable {m n : ℕ} {α : Type*} [Add α] [Sub α] [Mul α] [Div α] [Neg α] [NpOps α] {P P' : Type*}

private theorem scale_zero {φ : α → α} (h : UnitChange φ) :
    scaleField φ (fun (_ : Fin m) (_ : Fin n) => (ofRat 0 : α)) = fun _ _ => ofRat 0 := by
  funext i j; exact h.zero

private theorem scale_flush {φ : α → α} (h : UnitChange φ) (f : Arr m n α) :
    (scaleField φ fun i j => f i j * ofRat 0) = fun i j => scaleField φ f i j * ofRat 0 := by
  funext i j; exact (h.mul_l _ _).symm

theorem unit_forward {φ : α → α} (h : UnitChange φ) (cfg : RunConfig α) (src : Source m n α) (path : ℤ → P) (path' : ℤ → P')
    (disk : P → Option (FwdOutput (m + 2) (n + 2) α)) (disk' : P' → Option (FwdOutput (m + 2) (n + 2) α))
    (hd : cfg.restart = true → disk' (path' cfg.tracking_start_date) = (disk (path cfg.tracking_start_date)).map (unitFwd φ))
    (fuel : ℕ) :
    Corresponds (ChangedBy (unitFwd φ)) (fwdRun cfg src path disk fuel) (fwdRun cfg (unitSource φ src) path' disk' fuel) := by
  have hz : unitFwd φ (FwdOutput.zeros : FwdOutput (m + 2) (n + 2) α) = FwdOutput.zeros := by
    simp only [unitFwd, FwdOutput.zeros, scale_zero h]
  refine fwdRun_changed cfg cfg src (unitSource φ src) path path' disk disk' (unitFwd φ) id rfl rfl rfl rfl
    (fwdInitialize_changed cfg cfg src (unitSource φ src) path path' disk disk' (unitFwd φ) (scaleStates φ) (fun _ => rfl) rfl rfl hz
      (fun ds => by simp only [unitFwd, FwdOutput.zeros, scale_zero h]) hd) hz
    (fun o => by simp only [unitFwd, FwdOutput.flush, scale_flush h]) ?_ (fun r _ => ?_) fuel
  · show src.region = _; cases src.region <;> rfl
  refine fwdAdvance_changed cfg cfg src (unitSource φ src) (unitFwd φ) (scaleStates φ) (unitFluxes φ) id r r (fun _ => rfl)
    (fun _ => rfl) (fun t => by cases taggingMask cfg r t <;> rfl) (fun S0 F S1 mask o => ?_)
  show forwardtrack cfg.periodic_boundary (ofRat cfg.timestep) cfg.kvf src.grid.a
    (stabilizeFluxes (ofRat cfg.timestep) src.grid.a (scaleFluxes src.grid (unitFluxes φ F)) (scaleStates φ S0))
    (calculateFz src.grid.a (stabilizeFluxes (ofRat cfg.timestep) src.grid.a
      (scaleFluxes src.grid (unitFluxes φ F)) (scaleStates φ S0)) (scaleStates φ S0) (scaleStates φ S1) (ofRat cfg.timestep) cfg.kvf)
    (scaleStates φ S1) (scaleStates φ S0) mask (unitFwd φ o) = _
  rw [h.scaleFluxes, h.stabilizeFluxes, h.calculateFz, h.forwardtrack]

theorem unit_backward {φ : α → α} (h : UnitChange φ) (cfg : RunConfig α) (src : Source m n α) (path : ℤ → P) (path' : ℤ → P')
    (disk : P → Option (BwdOutput (m + 2) (n + 2) α)) (disk' : P' → Option (BwdOutput (m + 2) (n + 2) α))
    (hd : cfg.restart = true → disk' (path' cfg.tracking_end_date) = (disk (path cfg.tracking_end_date)).map (unitBwd φ))
    (fuel : ℕ) :
    Corresponds (ChangedBy (unitBwd φ)) (bwdRun cfg src path disk fuel) (bwdRun cfg (unitSource φ src) path' disk' fuel) := by
  have hz : unitBwd φ (BwdOutput.zeros : BwdOutput (m + 2) (n + 2) α) = BwdOutput.zeros := by
    simp only [unitBwd, BwdOutput.zeros, scale_zero h]
  refine bwdRun_changed cfg cfg src (unitSource φ src) path path' disk disk' (unitBwd φ) id rfl rfl rfl rfl
    (bwdInitialize_changed cfg cfg src (unitSource φ src) path path' disk disk' (unitBwd φ) (scaleStates φ) (fun _ => rfl) rfl rfl hz
      (fun ds => by simp only [unitBwd, BwdOutput.zeros, scale_zero h]) hd) hz
    (fun o => by simp only [unitBwd, BwdOutput.flush, scale_flush h]) ?_ (fun r _ => ?_) fuel
  · show src.region = _; cases src.region <;> rfl
  refine bwdAdvance_changed cfg cfg src (unitSource φ src) (unitBwd φ) (scaleStates φ) (unitFluxes φ) id r r (fun _ => rfl)
    (fun _ => rfl) (fun t => by cases taggingMask cfg r t <;> rfl) (fun S0 F S1 mask o => ?_)
  show backtrack cfg.periodic_boundary (ofRat cfg.timestep) cfg.kvf src.grid.a
    (stabilizeFluxes (ofRat cfg.timestep) src.grid.a (scaleFluxes src.grid (unitFluxes φ F)) (scaleStates φ S1))
    (calculateFz src.grid.a (stabilizeFluxes (ofRat cfg.timestep) src.grid.a
      (scaleFluxes src.grid (unitFluxes φ F)) (scaleStates φ S1)) (scaleStates φ S0) (scaleStates φ S1) (ofRat cfg.timestep) cfg.kvf)
    (scaleStates φ S1) (scaleStates φ S0) mask (unitBwd φ o) = _
  rw [h.scaleFluxes, h.stabilizeFluxes, h.calculateFz, h.backtrack]

end

section
variable {m n : ℕ} {K : Type*} [Field K] [LinearOrder K] [IsStrictOrderedRing K] {P P' : Type*}

/-- **C102** (forward).  If all storages, fluxes, precipitation and evaporation are multiplied by a positive number (another
unit for water), then the run does the same at the same times and all fields of its output are multiplied by that number. -/
theorem C102_units_forward (c : K) (hc : 0 < c) (cfg : RunConfig K) (src : Source m n K) (path : ℤ → P) (path' : ℤ → P')
    (disk : P → Option (FwdOutput (m + 2) (n + 2) K)) (disk' : P' → Option (FwdOutput (m + 2) (n + 2) K))
    (hd : cfg.restart = true →
      disk' (path' cfg.tracking_start_date) = (disk (path cfg.tracking_start_date)).map (unitFwd fun x => c * x)) (fuel : ℕ) :
    Corresponds (ChangedBy (unitFwd fun x => c * x)) (fwdRun cfg src path disk fuel)
      (fwdRun cfg (unitSource (fun x => c * x) src) path' disk' fuel) :=
  unit_forward (unitChange_field c hc) cfg src path path' disk disk' hd fuel

/-- **C102** (backward) -/
theorem C102_units_backward (c : K) (hc : 0 < c) (cfg : RunConfig K) (src : Source m n K) (path : ℤ → P) (path' : ℤ → P')
    (disk : P → Option (BwdOutput (m + 2) (n + 2) K)) (disk' : P' → Option (BwdOutput (m + 2) (n + 2) K))
    (hd : cfg.restart = true →
      disk' (path' cfg.tracking_end_date) = (disk (path cfg.tracking_end_date)).map (unitBwd fun x => c * x)) (fuel : ℕ) :
    Corresponds (ChangedBy (unitBwd fun x => c * x)) (bwdRun cfg src path disk fuel)
      (bwdRun cfg (unitSource (fun x => c * x) src) path' disk' fuel) :=
  unit_backward (unitChange_field c hc) cfg src path path' disk disk' hd fuel

/-- **C102** (rounded numbers, forward): the same in rounded arithmetic, bit for bit, for a factor that commutes with rounding (a
power of two, if exponents are not limited: `unbounded_two_zpow`). -/
theorem C102_rounded_forward (R : Rounding K) (c : K) (hc : 0 < c) (hR : ∀ x, R.rnd (c * x) = c * R.rnd x) (cfg : RunConfig (Fl R))
    (src : Source m n (Fl R)) (path : ℤ → P) (path' : ℤ → P')
    (disk : P → Option (FwdOutput (m + 2) (n + 2) (Fl R))) (disk' : P' → Option (FwdOutput (m + 2) (n + 2) (Fl R)))
    (hd : cfg.restart = true →
      disk' (path' cfg.tracking_start_date) = (disk (path cfg.tracking_start_date)).map (unitFwd (Fl.times c hR))) (fuel : ℕ) :
    Corresponds (ChangedBy (unitFwd (Fl.times c hR))) (fwdRun cfg src path disk fuel)
      (fwdRun cfg (unitSource (Fl.times c hR) src) path' disk' fuel) :=
  unit_forward (unitChange_fl R c hc hR) cfg src path path' disk disk' hd fuel

/-- **C102** (rounded numbers, backward) -/
theorem C102_rounded_backward (R : Rounding K) (c : K) (hc : 0 < c) (hR : ∀ x, R.rnd (c * x) = c * R.rnd x) (cfg : RunConfig (Fl R))
    (src : Source m n (Fl R)) (path : ℤ → P) (path' : ℤ → P')
    (disk : P → Option (BwdOutput (m + 2) (n + 2) (Fl R))) (disk' : P' → Option (BwdOutput (m + 2) (n + 2) (Fl R)))
    (hd : cfg.restart = true →
      disk' (path' cfg.tracking_end_date) = (disk (path cfg.tracking_end_date)).map (unitBwd (Fl.times c hR))) (fuel : ℕ) :
    Corresponds (ChangedBy (unitBwd (Fl.times c hR))) (bwdRun cfg src path disk fuel)
      (bwdRun cfg (unitSource (Fl.times c hR) src) path' disk' fuel) :=
  unit_backward (unitChange_fl R c hc hR) cfg src path path' disk disk' hd fuel

/-- **C102** (progress report): the percentages do not depend on the unit. -/
theorem C102_percentages (c : K) (hc : 0 < c) (tracked total inAtmos lost gained boundary : K) :
    mkReport (c * tracked) (c * total) (c * inAtmos) (c * lost) (c * gained) (c * boundary) =
      mkReport tracked total inAtmos lost gained boundary := by
  simp only [mkReport, mul_div_mul_left _ _ hc.ne']

theorem weightedTotal_scaled (c : K) (w : Fin (m + 2) → K) (f : Arr (m + 2) (n + 2) K) :
    weightedTotal w (scaleField (fun x => c * x) f) = c * weightedTotal w f := by
  unfold weightedTotal scaleField
  rw [npSum_eq, npSum_eq, Finset.mul_sum]
  refine Finset.sum_congr rfl fun i _ => ?_
  rw [Finset.mul_sum]
  exact Finset.sum_congr rfl fun j _ => by ring

theorem interiorTotal_scaled (c : K) (periodic : Bool) (w : Fin (m + 2) → K) (f : Arr (m + 2) (n + 2) K) :
    interiorTotal periodic w (scaleField (fun x => c * x) f) = c * interiorTotal periodic w f := by
  unfold interiorTotal scaleField
  cases periodic <;> simp only [Bool.false_eq_true, if_false, if_true] <;>
    · rw [npSum_eq, npSum_eq, Finset.mul_sum]
      refine Finset.sum_congr rfl fun i _ => ?_
      rw [Finset.mul_sum]
      refine Finset.sum_congr rfl fun j _ => ?_
      simp only [Arr.rowsInner, Arr.colsInner]
      ring

/-- totals in another unit -/
def Spec.unitTracker (c : K) (tr : Tracker K) : Tracker K :=
  ⟨c * tr.total_tagged_moisture, c * tr.tracked, c * tr.lost_water, c * tr.gained_water, c * tr.boundary_transport⟩

/-- **C102** (progress report): the totals change like the output and the reported percentages stay the same. -/
theorem C102_report_forward (c : K) (hc : 0 < c) (periodic : Bool) (w : Fin (m + 2) → K) (tr : Tracker K)
    (o : FwdOutput (m + 2) (n + 2) K) :
    (unitTracker c tr).reportFwd periodic w (unitFwd (fun x => c * x) o) = tr.reportFwd periodic w o ∧
    (unitTracker c tr).storeFwd periodic w (unitFwd (fun x => c * x) o) = unitTracker c (tr.storeFwd periodic w o) := by
  constructor
  · simp only [Tracker.reportFwd, unitFwd, weightedTotal_scaled, interiorTotal_scaled, unitTracker, ← mul_add, ← mul_sub]
    exact C102_percentages c hc _ _ _ _ _ _
  · simp only [Tracker.storeFwd, unitFwd, weightedTotal_scaled, interiorTotal_scaled, unitTracker, ← mul_add, ← mul_sub]

/-- **C102** (progress report, backward) -/
theorem C102_report_backward (c : K) (hc : 0 < c) (periodic : Bool) (w : Fin (m + 2) → K) (tr : Tracker K)
    (o : BwdOutput (m + 2) (n + 2) K) :
    (unitTracker c tr).reportBwd periodic w (unitBwd (fun x => c * x) o) = tr.reportBwd periodic w o ∧
    (unitTracker c tr).storeBwd periodic w (unitBwd (fun x => c * x) o) = unitTracker c (tr.storeBwd periodic w o) := by
  constructor
  · simp only [Tracker.reportBwd, unitBwd, weightedTotal_scaled, interiorTotal_scaled, unitTracker, ← mul_add, ← mul_sub]
    exact C102_percentages c hc _ _ _ _ _ _
  · simp only [Tracker.storeBwd, unitBwd, weightedTotal_scaled, interiorTotal_scaled, unitTracker, ← mul_add, ← mul_sub]

end

namespace UnitsDemo

/-- the demo run of `Lemmas/Demo` with water in thousandths -/
example : ∃ s s', fwdRun Demo.cfg Demo.src Demo.path (fun _ => none) 4 = .finished s ∧
    fwdRun Demo.cfg (unitSource (fun x => 1000 * x) Demo.src) Demo.path (fun _ => none) 4 = .finished s' ∧
    s'.files = s.files.map (fun x => (x.1, unitFwd (fun x => 1000 * x) x.2)) := by
  have h := C102_units_forward 1000 (by norm_num) Demo.cfg Demo.src Demo.path Demo.path (fun _ => none) (fun _ => none)
    (fun h => by cases h) 4
  obtain ⟨o, ho⟩ := fwd_init_ok Demo.cfg Demo.src Demo.inp Demo.path (fun _ => none) Demo.runnable (by decide)
  obtain ⟨r, _, _, hrun⟩ := fwd_run_eq Demo.cfg Demo.src Demo.inp Demo.path _ Demo.runnable o ho
  rw [hrun, if_neg (by decide)] at h ⊢
  generalize hq : fwdRun Demo.cfg (unitSource (fun x => 1000 * x) Demo.src) Demo.path (fun _ => none) 4 = q at h ⊢
  cases h with
  | finished h => exact ⟨_, _, rfl, rfl, h.files⟩

/-- numbers with 53 bits and no limit on the exponent, litres instead of units of 1024 litres -/
example (cfg : RunConfig (Fl (unbounded 53 (by norm_num) : Rounding ℚ))) (src : Source 3 4 (Fl (unbounded 53 (by norm_num) : Rounding ℚ)))
    (path : ℤ → ℤ) (hr : cfg.restart = false) (fuel : ℕ) :
    Corresponds (ChangedBy (unitFwd (Fl.times (2 ^ (10 : ℤ)) (unbounded_two_zpow 53 (by norm_num) 10))))
      (fwdRun cfg src path (fun _ => none) fuel)
      (fwdRun cfg (unitSource (Fl.times (2 ^ (10 : ℤ)) (unbounded_two_zpow 53 (by norm_num) 10)) src) path (fun _ => none) fuel) :=
  C102_rounded_forward _ _ (by norm_num) (unbounded_two_zpow 53 (by norm_num) 10) cfg src path path _ _
    (fun h => by rw [hr] at h; cases h) fuel

end UnitsDemo

end Wam
