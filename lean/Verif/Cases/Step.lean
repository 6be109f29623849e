import Verif.Props.Advection
import Verif.Props.Stability
import Verif.Props.Vertical
import Verif.Props.Step
import Verif.Props.Rotation
import Verif.Props.NaN
import Verif.Props.Warnings

/-!
# Concrete cases: one time step

Every theorem of `Props/Advection`, `Stability`, `Vertical`, `Step`, `Rotation`, `NaN` and `Warnings` that has hypotheses, applied to
numbers that meet them: a grid of 3 x 3 cells.
-/

namespace Wam.Cases.Step
open Spec

/-- cell areas -/
def a : Fin 3 → ℚ := fun i => 2 + i
/-- fluxes on all faces, in all directions; rain and evaporation -/
def F : Fluxes 3 3 ℚ :=
  { fx_upper := fun i j => (1 + i + j) / 1000, fy_upper := fun i j => (j - i + 1 / 2) / 2000
    fx_lower := fun i j => (i - 1) / 1500 + j / 3000, fy_lower := fun _ j => (2 - j) / 1000 + 1 / 7000
    evap := fun i j => (1 + i + j) / 4000, precip := fun i j => (3 + i - j) / 5000 }
def S0 : States 3 3 ℚ := ⟨fun i j => 4 + i + j, fun i _ => 8 + i⟩
def S1 : States 3 3 ℚ := ⟨fun i j => 5 + i + j, fun i _ => 7 + i⟩
def mask : Arr 3 3 ℚ := fun i j => if i = 1 ∧ j = 1 then 1 else 0
def out : FwdOutput 3 3 ℚ :=
  { s_track_upper := fun i j => (1 + i + j) / 2, s_track_lower := fun _ j => 1 + j, p_track_upper := fun _ _ => 1
    p_track_lower := fun _ _ => 2, tagged_evap := fun _ _ => 3, losses := fun _ _ => 4, gains := fun _ _ => 5 }
def outB : BwdOutput 3 3 ℚ :=
  { s_track_upper := fun i j => (1 + i + j) / 2, s_track_lower := fun _ j => 1 + j, e_track := fun _ _ => 1
    tagged_precip := fun _ _ => 3, losses := fun _ _ => 4, gains := fun _ _ => 5 }
/-- vertical flux as computed by the program -/
def fz : Arr 3 3 ℚ := calculateFz (m := 1) (n := 1) a F S0 S1 100 3

theorem ha : ∀ i, 0 < a i := by decide +kernel
theorem wet0 : Spec.Wet S0 := by unfold Spec.Wet; decide +kernel
theorem wet1 : Spec.Wet S1 := by unfold Spec.Wet; decide +kernel
theorem nonneg0u : ∀ i j, 0 ≤ S0.s_upper i j := by decide +kernel
theorem nonneg0l : ∀ i j, 0 ≤ S0.s_lower i j := by decide +kernel
theorem flowsU : ∀ i j, F.fx_upper i j ≠ 0 ∨ F.fy_upper i j ≠ 0 := by decide +kernel
theorem flowsL : ∀ i j, F.fx_lower i j ≠ 0 ∨ F.fy_lower i j ≠ 0 := by decide +kernel

/-! ### Advection -/

example := C01_advection_conserves_periodic (m := 1) (n := 1) S0.s_upper (fun _ j => if j = 0 then 7 else if j = 3 then 7 else 2)
  (fun i _ => (3 : ℚ) - i) (by decide +kernel)

/-! ### Stability -/

example := C06_half_cell_bound 600 a F S0 (by norm_num) ha nonneg0u nonneg0l 1 1
example := C07_gentle_correction 600 a F S0 (by norm_num) ha nonneg0u nonneg0l
example := C07_no_amplification (600 : ℚ) 2 4 1 (-1) (-1) (by norm_num) (by norm_num) (by norm_num) (by norm_num)
example := C08_idempotent 600 a F S0 (by norm_num) ha 1 1
/-- the corrected fluxes of this case do differ from the fluxes when the time step is long -/
example : (stabilizeFluxes 6000 a F S0).fx_upper 2 2 ≠ F.fx_upper 2 2 := by decide +kernel
example := C10_outflow_bound_layer (m := 1) (n := 1) true 600 (12 : ℚ) (by norm_num) F.fx_upper F.fy_upper (by norm_num)
  (by decide +kernel) 1 1
example := C10_outflow_bound (m := 1) (n := 1) false 600 (100 : ℚ) a F S0 (by norm_num) ha nonneg0u nonneg0l flowsU flowsL
  (by decide +kernel) (by decide +kernel) 1 1
/-- the same amount of water in every cell -/
example := C10_no_overdraft_uniform (m := 1) (n := 1) false 600 a F ⟨fun i _ => 12 / a i, fun i _ => 12 / a i⟩ (12 : ℚ) (by norm_num)
  (by norm_num) ha flowsU flowsL (by decide +kernel) (by decide +kernel) 5 (by norm_num) 1 1

/-! ### Vertical exchange -/

example := C05_dispersion (-2 : ℚ) (1 / 3) (1 / 2) 3 (by norm_num)
example := C11_vertical_flux_bound (m := 1) (n := 1) a F S0 S1 600 3 (by norm_num) (by norm_num) 1 1 (by decide +kernel) (by decide +kernel)
  (by decide +kernel) (by decide +kernel)
example := C11_vertical_exchange_bound (m := 1) (n := 1) a F S0 S1 600 3 (by norm_num) (by norm_num) 1 1 (by decide +kernel)
  (by decide +kernel) (by decide +kernel) (by decide +kernel) (1 / 3) (1 / 2) (by norm_num) (by norm_num) (by norm_num) (by norm_num)
example := C12_closure (m := 1) (n := 1) a F S0 S1 600 3 (by norm_num) (by norm_num) 1 1 (by decide +kernel) (by decide +kernel)
  (by decide +kernel) (by decide +kernel) (by decide +kernel)
example := C71_divergence_matches_advection (m := 1) (n := 1) false F.fx_upper F.fy_upper 1 1 (by decide) (by decide) (by decide) (by decide)
example := C71_saturated_advection (m := 1) (n := 1) true true F.fx_upper F.fy_upper 1 1 (by decide) (by decide) (by decide) (by decide)

/-! ### A time step -/

example := C13_tracked_within_storage_forward (m := 1) (n := 1) false 600 3 a F fz S0 S1 mask out wet1 1 1
example := C13_tracked_within_storage_backward (m := 1) (n := 1) true 600 3 a F fz S0 S1 mask outB wet0 1 1
example := C20_forward_transport (m := 1) (n := 1) false 600 3 a F fz S0 mask out.s_track_lower out.s_track_upper wet0 ha 1 1
example := C20_backward_transport (m := 1) (n := 1) false 600 3 a F fz S1 mask out.s_track_lower out.s_track_upper wet1 ha 1 1
example := C20_backtrack_is_reversed_forward (m := 1) (n := 1) false 600 3 a F fz S0 S1 mask out outB rfl rfl rfl rfl
example := C14_boundary_forward (m := 1) (n := 1) true 600 3 a F fz S0 S1 mask out wet1 0 1 (by unfold isBoundary; decide)
example := C14_boundary_backward (m := 1) (n := 1) false 600 3 a F fz S0 S1 mask outB wet0 1 2 (by unfold isBoundary; decide)
example := C17_increments_forward (m := 1) (n := 1) false 600 3 a F fz S0 S1 mask out wet0 1 1
example := C17_increments_backward (m := 1) (n := 1) false 600 3 a F fz S0 S1 mask outB wet1 1 1
example := C17_tracked_precipitation_bounded (m := 1) (n := 1) false 600 3 a F fz S0 S1 mask out wet0 (by norm_num) 1 1
  (by decide +kernel) (by decide +kernel) (by decide +kernel)
example := C17_tracked_evaporation_bounded (m := 1) (n := 1) false 600 3 a F fz S0 S1 mask outB wet1 (by norm_num) 1 1
  (by decide +kernel) (by decide +kernel)
example := C15_cell_budget_forward (m := 1) (n := 1) false 600 3 a F fz S0 S1 mask out wet0 ha 1 1
example := C15_cell_budget_backward (m := 1) (n := 1) false 600 3 a F fz S0 S1 mask outB wet1 ha 1 1
example := C16_global_budget_forward (m := 1) (n := 1) false 600 3 a F fz S0 S1 mask out wet0 ha
example := C16_global_budget_backward (m := 1) (n := 1) true 600 3 a F fz S0 S1 mask outB wet1 ha
example := C18_losses_gains_forward (m := 1) (n := 1) false 600 3 a F fz S0 S1 mask out wet1 1 1
example := C18_losses_gains_backward (m := 1) (n := 1) false 600 3 a F fz S0 S1 mask outB wet0 1 1
example := C22_no_gains_forward (m := 1) (n := 1) false 100 3 a F fz S0 S1 mask out wet0 wet1 ha (by norm_num) (by norm_num)
  (by decide +kernel) (by decide +kernel) (by decide +kernel) 1 1 (by decide +kernel) (by decide +kernel)
example := C22_no_gains_backward (m := 1) (n := 1) false 100 3 a F fz S0 S1 mask outB wet0 wet1 ha (by norm_num) (by norm_num)
  (by decide +kernel) (by decide +kernel) (by decide +kernel) 1 1 (by decide +kernel) (by decide +kernel)
example := C19_nothing_from_nothing_forward (m := 1) (n := 1) false 600 3 a F fz S0 S1 (fun _ _ => 0)
  { out with s_track_lower := fun _ _ => 0, s_track_upper := fun _ _ => 0 } wet0 wet1 (fun _ _ => rfl) (fun _ _ => rfl) (fun _ _ => rfl)
example := C19_nothing_from_nothing_backward (m := 1) (n := 1) false 600 3 a F fz S0 S1 (fun _ _ => 0)
  { outB with s_track_lower := fun _ _ => 0, s_track_upper := fun _ _ => 0 } wet0 wet1 (fun _ _ => rfl) (fun _ _ => rfl) (fun _ _ => rfl)
/-- the step changes the tracked water, and there are losses at the boundary -/
example : (forwardtrack (m := 1) (n := 1) false 100 3 a F fz S1 S0 mask out).s_track_lower 1 1 ≠ out.s_track_lower 1 1 ∧
    out.losses 0 1 < (forwardtrack (m := 1) (n := 1) false 100 3 a F fz S1 S0 mask out).losses 0 1 ∧
    (backtrack (m := 1) (n := 1) false 100 3 a F fz S1 S0 mask outB).s_track_lower 1 1 ≠ outB.s_track_lower 1 1 ∧
    outB.losses 0 1 < (backtrack (m := 1) (n := 1) false 100 3 a F fz S1 S0 mask outB).losses 0 1 := by decide +kernel

/-! ### Rotation: four columns -/

example := C04_fz_rotation_interior (m := 0) (n := 2) (fun i => (2 : ℚ) + i) 1
  { fx_upper := fun i j => (1 + i + j), fy_upper := fun i j => i - j, fx_lower := fun _ j => j ^ 2, fy_lower := fun _ _ => 1
    evap := fun _ _ => 1, precip := fun _ j => j } ⟨fun _ j => 40 + j, fun i _ => 50 + i⟩ ⟨fun _ j => 41 + j, fun i _ => 49 - i⟩ 600 3 0 1
  (by decide) (by decide) (by decide) (by decide)

/-! ### Missing values -/

/-- one cell of the lower layer is missing -/
def outN : FwdOutput 3 3 (XF ℚ) :=
  { liftFwd out with s_track_lower := fun i j => if i = 1 ∧ j = 1 then XF.nan else XF.fin 1 }
def outNB : BwdOutput 3 3 (XF ℚ) :=
  { liftBwd outB with s_track_lower := fun i j => if i = 1 ∧ j = 1 then XF.nan else XF.fin 1 }
/-- no flux in the middle -/
def F0 : Fluxes 3 3 ℚ := { F with fx_lower := fun i j => if i = 1 ∧ j = 1 then 0 else 1, fy_lower := fun i j => if i = 1 ∧ j = 1 then 0 else 1 }

example := C09_nan_stays_forward (m := 1) (n := 1) false (XF.fin 600) (XF.fin 3) (fun i => XF.fin (a i)) (liftF F) (liftA fz) (liftS S1)
  (liftS S0) (liftA mask) outN 1 1 (by unfold isBoundary; decide) (.inl rfl)
example := C09_nan_stays_backward (m := 1) (n := 1) false (XF.fin 600) (XF.fin 3) (fun i => XF.fin (a i)) (liftF F) (liftA fz) (liftS S1)
  (liftS S0) (liftA mask) outNB 1 1 (by unfold isBoundary; decide) (.inl rfl)
example := C09_nan_spreads_forward (m := 1) (n := 1) true 600 (XF.fin 3) (fun i => XF.fin (a i)) (liftF F0) (liftA fz) (liftS S1)
  (liftS S0) (liftA mask) (liftFwd out) 1 1 1 2 (.inl ⟨rfl, rfl⟩) (by unfold faceNeighbour; decide) (by unfold isBoundary; decide)
example := C09_nan_spreads_backward (m := 1) (n := 1) true 600 (XF.fin 3) (fun i => XF.fin (a i)) (liftF F0) (liftA fz) (liftS S1)
  (liftS S0) (liftA mask) (liftBwd outB) 1 1 1 2 (.inl ⟨rfl, rfl⟩) (by unfold faceNeighbour; decide) (by unfold isBoundary; decide)
example := C09_no_nan_stabilize 600 (by norm_num) a F S0 flowsU flowsL
example := C09_no_nan_fz (m := 1) (n := 1) a F S0 S1 600 3 (by norm_num) (by norm_num) ha wet0 wet1
example := C09_no_nan_forward (m := 1) (n := 1) false 600 3 a F fz S1 S0 mask out ha wet0
example := C09_no_nan_backward (m := 1) (n := 1) false 600 3 a F fz S1 S0 mask outB ha wet1

/-! ### Warnings -/

def layer : Layer 3 3 ℚ := ⟨S0.s_upper, F.fx_upper, F.fy_upper⟩

example := C36_warning_iff 600 a layer ⟨0, 1⟩ (by norm_num) (by norm_num) (by norm_num)
example := C36_cut_is_applied (600 : ℚ) 2 4 (1 / 10) (1 / 20) (by norm_num) (by norm_num)
example := C36_thresholds_never_relax 600 a (by norm_num) (by decide +kernel) (by norm_num) (by norm_num) [layer] [layer, layer]
  (by
    intro l hl
    have : l = layer := by simpa using hl
    subst this
    unfold Wam.Wet
    decide +kernel)
example := C36_warnings_bounded 600 a (by norm_num) (by decide +kernel) (by norm_num) (by norm_num) [(F, S0), (F, S1)]
  (by
    intro p hp l hl
    simp only [List.mem_cons, List.not_mem_nil, or_false] at hp
    rcases hp with rfl | rfl <;> simp only [Spec.bothLayers, List.mem_cons, List.not_mem_nil, or_false] at hl <;>
      rcases hl with rfl | rfl <;> unfold Wam.Wet <;> decide +kernel)
example := C36_blind_to_zonal_cuts 600 a (by norm_num) (by norm_num) (by norm_num) ⟨0, 1⟩ (by norm_num)
  { layer with fy := fun _ _ => 0 } (fun _ _ => rfl)

end Wam.Cases.Step
