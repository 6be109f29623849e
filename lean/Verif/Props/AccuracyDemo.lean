import Verif.Lemmas.Ieee
import Verif.Props.AccuracyRun
import Verif.Lemmas.Demo
import Mathlib.Data.Rat.Floor

/-!
# C85, C92, C93 for float64

A concrete experiment in IEEE binary64 meets the hypotheses of the theorems about rounding.
-/
set_option linter.unusedSectionVars false
set_option linter.unusedVariables false

namespace Wam.FloatDemo
open Spec

/-- the weather, in numbers that floats represent exactly -/
def data : Input 1 1 ℚ :=
  { states := fun t => ⟨fun i j => if t ≤ 2 * Demo.step then 40 + i + j else 42 + i + j,
      fun i j => if t ≤ 2 * Demo.step then 80 + i else 76 + i⟩
    fluxes := fun _ =>
      { fx_upper := fun i j => if i = 1 ∧ j = 1 then 1 / 1024 else 0
        fy_upper := fun _ j => (j.val : ℚ) / 2048
        fx_lower := fun i j => - (i.val : ℚ) * j / 4096
        fy_lower := fun _ _ => 1 / 4096
        evap := fun i j => (1 + i + j) / 1024
        precip := fun i _ => (2 + i) / 2048 }
    region := fun _ i j => if i = 1 ∧ j = 1 then 1 else 0 }

/-- the float that stands for `x` -/
def r (x : ℚ) : Fl (binary64 : Rounding ℚ) := Fl.round _ x

/-- multiples of `2⁻¹²` are floats -/
theorem rep {x : ℚ} (h : (x * 4096).den = 1) (h' : |(x * 4096).num| ≤ 2 ^ 53) : (r x).val = x := by
  have e : x * 4096 = ((x * 4096).num : ℚ) := ((Rat.den_eq_one_iff _).1 h).symm
  have e2 : x = ((x * 4096).num : ℚ) * 2 ^ (-12 : ℤ) := by rw [← e]; norm_num [zpow_neg]; ring
  rw [abs_le] at h'
  change (binary64 : Rounding ℚ).rnd x = x
  rcases le_total 0 (x * 4096).num with h0 | h0
  · rw [e2]; exact rep64 h0 h'.2 (by norm_num)
  · have := rep64 (K := ℚ) (N := -(x * 4096).num) (j := -12) (by omega) (by omega) (by norm_num)
    have e3 : ((-(x * 4096).num : ℤ) : ℚ) * 2 ^ (-12 : ℤ) = -x := by
      push_cast
      rw [neg_mul, ← e2]
    rw [e3, Rounding.neg, neg_inj] at this
    exact this

def inp : Input 1 1 (Fl (binary64 : Rounding ℚ)) :=
  { states := fun t => ⟨fun i j => r ((data.states t).s_upper i j), fun i j => r ((data.states t).s_lower i j)⟩
    fluxes := fun t =>
      { fx_upper := fun i j => r ((data.fluxes t).fx_upper i j)
        fy_upper := fun i j => r ((data.fluxes t).fy_upper i j)
        fx_lower := fun i j => r ((data.fluxes t).fx_lower i j)
        fy_lower := fun i j => r ((data.fluxes t).fy_lower i j)
        evap := fun i j => r ((data.fluxes t).evap i j)
        precip := fun i j => r ((data.fluxes t).precip i j) }
    region := fun t i j => r (data.region t i j) }

/-- forward (`kvf = 3`) and backward (`kvf = 1`) configurations -/
def cfg (kvf : ℚ) : RunConfig (Fl (binary64 : Rounding ℚ)) :=
  { tracking_start_date := 0, tracking_end_date := 4 * Demo.step, tagging_start_date := Demo.step,
    tagging_end_date := 2 * Demo.step, timestep := 600, output_frequency := 2 * Demo.step, kvf := r kvf,
    periodic_boundary := false, restart := false }

def src : Source 1 1 (Fl (binary64 : Rounding ℚ)) :=
  { states := fun t => if 0 ≤ t ∧ t ≤ 4 * Demo.step then .ok (inp.states t) else .error .keyError
    fluxes := fun t => if 0 ≤ t ∧ t ≤ 4 * Demo.step then .ok (inp.fluxes t) else .error .keyError
    grid := ⟨fun i => r (2 + i), r 1, fun _ => r 1⟩
    region := .ok (.stationary (inp.region 0))
    weight := fun i => r (2 + i) }

/-- the same in exact numbers -/
def cfgQ (kvf : ℚ) : RunConfig ℚ :=
  { tracking_start_date := 0, tracking_end_date := 4 * Demo.step, tagging_start_date := Demo.step,
    tagging_end_date := 2 * Demo.step, timestep := 600, output_frequency := 2 * Demo.step, kvf := kvf,
    periodic_boundary := false, restart := false }
def gridQ : GridInfo 3 ℚ := ⟨fun i => 2 + i, 1, fun _ => 1⟩
def srcQ : Source 1 1 ℚ :=
  { states := fun t => if 0 ≤ t ∧ t ≤ 4 * Demo.step then .ok (data.states t) else .error .keyError
    fluxes := fun t => if 0 ≤ t ∧ t ≤ 4 * Demo.step then .ok (data.fluxes t) else .error .keyError
    grid := gridQ
    region := .ok (.stationary (data.region 0))
    weight := fun i => 2 + i }

theorem runnable (kvf) : Runnable (cfg kvf) src inp where
  timestep_pos := by change (0 : ℤ) < 600; decide
  ordered := by change (0 : ℤ) ≤ 4 * Demo.step; decide
  serves :=
    { states := fun t h0 h1 => if_pos ⟨h0, h1⟩
      fluxes := fun t h0 h1 => if_pos ⟨h0, h1⟩
      region := ⟨_, rfl, fun t _ _ => rfl⟩ }

theorem runnableQ (kvf) : Runnable (cfgQ kvf) srcQ data where
  timestep_pos := by change (0 : ℤ) < 600; decide
  ordered := by change (0 : ℤ) ≤ 4 * Demo.step; decide
  serves :=
    { states := fun t h0 h1 => if_pos ⟨h0, h1⟩
      fluxes := fun t h0 h1 => if_pos ⟨h0, h1⟩
      region := ⟨_, rfl, fun t _ _ => rfl⟩ }

/-- the floats are exact -/
theorem exact_inp : exactI inp = data := by
  have up : ∀ i j : Fin 3, (r (40 + i + j)).val = 40 + i + j ∧ (r (42 + i + j)).val = 42 + i + j := by
    have : ∀ i j : Fin 3, (((40 + i + j : ℚ) * 4096).den = 1 ∧ |((40 + i + j : ℚ) * 4096).num| ≤ 2 ^ 53) ∧
      (((42 + i + j : ℚ) * 4096).den = 1 ∧ |((42 + i + j : ℚ) * 4096).num| ≤ 2 ^ 53) := by decide +kernel
    exact fun i j => ⟨rep (this i j).1.1 (this i j).1.2, rep (this i j).2.1 (this i j).2.2⟩
  have lo : ∀ i : Fin 3, (r (80 + i)).val = 80 + i ∧ (r (76 + i)).val = 76 + i := by
    have : ∀ i : Fin 3, (((80 + i : ℚ) * 4096).den = 1 ∧ |((80 + i : ℚ) * 4096).num| ≤ 2 ^ 53) ∧
      (((76 + i : ℚ) * 4096).den = 1 ∧ |((76 + i : ℚ) * 4096).num| ≤ 2 ^ 53) := by decide +kernel
    exact fun i => ⟨rep (this i).1.1 (this i).1.2, rep (this i).2.1 (this i).2.2⟩
  have d : ∀ i j : Fin 3,
      (((data.fluxes 0).fx_upper i j * 4096).den = 1 ∧ |((data.fluxes 0).fx_upper i j * 4096).num| ≤ 2 ^ 53) ∧
      (((data.fluxes 0).fy_upper i j * 4096).den = 1 ∧ |((data.fluxes 0).fy_upper i j * 4096).num| ≤ 2 ^ 53) ∧
      (((data.fluxes 0).fx_lower i j * 4096).den = 1 ∧ |((data.fluxes 0).fx_lower i j * 4096).num| ≤ 2 ^ 53) ∧
      (((data.fluxes 0).fy_lower i j * 4096).den = 1 ∧ |((data.fluxes 0).fy_lower i j * 4096).num| ≤ 2 ^ 53) ∧
      (((data.fluxes 0).evap i j * 4096).den = 1 ∧ |((data.fluxes 0).evap i j * 4096).num| ≤ 2 ^ 53) ∧
      (((data.fluxes 0).precip i j * 4096).den = 1 ∧ |((data.fluxes 0).precip i j * 4096).num| ≤ 2 ^ 53) ∧
      ((data.region 0 i j * 4096).den = 1 ∧ |(data.region 0 i j * 4096).num| ≤ 2 ^ 53) := by decide +kernel
  have s : (exactI inp).states = data.states := by
    funext t
    by_cases h : t ≤ 2 * Demo.step
    · simp only [exactI, exactS, inp, data, if_pos h]
      congr 1 <;> funext i j
      · exact (up i j).1
      · exact (lo i).1
    · simp only [exactI, exactS, inp, data, if_neg h]
      congr 1 <;> funext i j
      · exact (up i j).2
      · exact (lo i).2
  have f : (exactI inp).fluxes = data.fluxes := by
    funext t
    change Fluxes.mk _ _ _ _ _ _ = Fluxes.mk _ _ _ _ _ _
    congr 1 <;> funext i j
    · exact rep (d i j).1.1 (d i j).1.2
    · exact rep (d i j).2.1.1 (d i j).2.1.2
    · exact rep (d i j).2.2.1.1 (d i j).2.2.1.2
    · exact rep (d i j).2.2.2.1.1 (d i j).2.2.2.1.2
    · exact rep (d i j).2.2.2.2.1.1 (d i j).2.2.2.2.1.2
    · exact rep (d i j).2.2.2.2.2.1.1 (d i j).2.2.2.2.2.1.2
  have g : (exactI inp).region = data.region := by
    funext t i j
    exact rep (d i j).2.2.2.2.2.2.1 (d i j).2.2.2.2.2.2.2
  calc exactI inp = ⟨(exactI inp).states, (exactI inp).fluxes, (exactI inp).region⟩ := rfl
    _ = data := by rw [s, f, g]

theorem exact_grid : exactG src.grid = gridQ := by
  have d : ∀ i : Fin 3, (((2 + i : ℚ)) * 4096).den = 1 ∧ |((2 + i : ℚ) * 4096).num| ≤ 2 ^ 53 := by decide +kernel
  have o : (r 1).val = 1 := rep (by decide +kernel) (by decide +kernel)
  simp only [exactG, src, gridQ]
  congr 1
  · funext i; exact rep (d i).1 (d i).2
  · funext i; exact o

theorem exact_cfg {kvf : ℚ} (h : (r kvf).val = kvf) : exactC (cfg kvf) = cfgQ kvf := by
  simp only [exactC, cfg, cfgQ, h]

theorem r3 : (r 3).val = 3 := rep (by decide +kernel) (by decide +kernel)
theorem r1 : (r 1).val = 1 := rep (by decide +kernel) (by decide +kernel)

theorem dt_rep (kvf) : (binary64 : Rounding ℚ).rnd (((cfg kvf).timestep : ℤ) : ℚ) = (((cfg kvf).timestep : ℤ) : ℚ) :=
  rep (x := 600) (by decide +kernel) (by decide +kernel)

theorem upper_bounds : ∀ (b : Bool) (i j : Fin 3), let x : ℚ := if b then 40 + i + j else 42 + i + j
    1 ≤ x ∧ x * (2 + i) ≤ 512 := by decide +kernel
theorem lower_bounds : ∀ (b : Bool) (i j : Fin 3), let x : ℚ := if b then 80 + i else 76 + i
    1 ≤ x ∧ x * (2 + i) ≤ 512 := by decide +kernel

theorem states_eq (t : ℤ) : data.states t =
    ⟨fun i j => if decide (t ≤ 2 * Demo.step) then 40 + i + j else 42 + i + j,
      fun i j => if decide (t ≤ 2 * Demo.step) then 80 + i else 76 + i⟩ := by
  simp [data]

theorem physicalQ : Physical data 0 (4 * Demo.step) where
  wet := by
    intro t _ _ i j
    rw [states_eq]
    exact ⟨one_pos.trans_le (upper_bounds _ i j).1, one_pos.trans_le (lower_bounds _ i j).1⟩
  precip := fun t _ _ => by
    have : ∀ i j : Fin 3, 0 ≤ (data.fluxes 0).precip i j := by decide +kernel
    exact this
  evap := fun t _ _ => by
    have : ∀ i j : Fin 3, 0 ≤ (data.fluxes 0).evap i j := by decide +kernel
    exact this
  region := fun t _ _ => by
    have : ∀ i j : Fin 3, 0 ≤ data.region 0 i j := by decide +kernel
    exact this

/-- sizes: at most 512 kg of water in a layer of a cell, at least 1 kg per square metre -/
theorem sized {kvf : ℚ} (h0 : 0 ≤ kvf) (h : kvf ≤ 3) :
    SizedRun (1 / 2 ^ 53) (1 / 2 ^ 1075) 512 1 (cfgQ kvf) gridQ.a data where
  kvf_nonneg := h0
  area := by
    have : ∀ i : Fin 3, (1 : ℚ) ≤ gridQ.a i := by decide +kernel
    exact this
  σ_pos := one_pos
  σ_le := le_rfl
  wet := by
    intro t _ _ i j
    rw [states_eq]
    exact ⟨(upper_bounds _ i j).1, (lower_bounds _ i j).1⟩
  storage := by
    intro t _ _ i j
    rw [states_eq]
    exact ⟨(upper_bounds _ i j).2, (lower_bounds _ i j).2⟩
  rain := fun t _ _ => by
    have : ∀ i j : Fin 3, |(data.fluxes 0).precip i j| * (gridQ.a i * (600 : ℤ)) ≤ 512 := by decide +kernel
    exact this
  evap := fun t _ _ => by
    have : ∀ i j : Fin 3, |(data.fluxes 0).evap i j| * (gridQ.a i * (600 : ℤ)) ≤ 512 := by decide +kernel
    exact this
  region := fun t _ _ => by
    have : ∀ i j : Fin 3, |data.region 0 i j| ≤ 1 := by decide +kernel
    exact this
  tiny := by
    have : 4 * (1 + kvf) ≤ 16 := by linarith
    calc 4 * (1 + kvf) * (1 / 2 ^ 1075) ≤ 16 * (1 / 2 ^ 1075) :=
          mul_le_mul_of_nonneg_right this (by positivity)
      _ ≤ 1 / 2 ^ 53 * 1 := by decide +kernel
  tiny' := by
    intro i
    have : ∀ i : Fin 3, gridQ.a i ≤ 4 ∧ 0 ≤ gridQ.a i := by decide +kernel
    have h1 : (1 + kvf) * gridQ.a i ≤ 4 * 4 :=
      mul_le_mul (by linarith) (this i).1 (this i).2 (by norm_num)
    have h2 : 4 * (((cfgQ kvf).timestep : ℤ) + 1 : ℚ) * (1 + kvf) * gridQ.a i ≤ 4 * 601 * 16 := by
      have : (((cfgQ kvf).timestep : ℤ) : ℚ) = 600 := by simp [cfgQ]
      rw [this]; nlinarith
    calc _ ≤ 4 * 601 * 16 * (1 / 2 ^ 1075 : ℚ) := mul_le_mul_of_nonneg_right h2 (by positivity)
      _ ≤ _ := by decide +kernel

theorem few {kvf : ℚ} {k : ℕ} (h : (cfgQ kvf).tracking_start_date + (k + 1) * ((cfgQ kvf).timestep * 1000000) ≤
    (cfgQ kvf).tracking_end_date) : k < 4 := by
  simp only [cfgQ, Demo.step] at h; omega

theorem steps_eq : stepCount (cfg 3).tracking_start_date (cfg 3).tracking_end_date ((cfg 3).timestep * 1000000) = 4 := by
  decide +kernel

/-- the states of a forward step -/
abbrev fS (k : ℕ) : States 3 3 ℚ := data.states (0 + k * (600 * 1000000))
/-- the fluxes of a forward step -/
abbrev fF (k : ℕ) : Fluxes 3 3 ℚ := stabilizeFluxes ((600 : ℤ) : ℚ) gridQ.a
  (scaleFluxes gridQ (data.fluxes (0 + k * (600 * 1000000) + 600 * 500000))) (fS k)
/-- the vertical flux of a forward step -/
abbrev fz (k : ℕ) : Arr 3 3 ℚ := calculateFz (m := 1) (n := 1) gridQ.a (fF k) (fS k)
  (data.states (0 + k * (600 * 1000000) + 600 * 1000000)) ((600 : ℤ) : ℚ) 3

theorem calm_fwd : CalmFwd (cfgQ 3) gridQ data := by
  intro k hk
  have hk4 := few hk
  constructor
  · have : ∀ k : Fin 4, ∀ (i j : Fin 3), ((600 : ℤ) : ℚ) *
        (outflow false (fF k).fx_lower (fF k).fy_lower i j / gridQ.a i + max (-fz k i j) 0
        + 3 * |fz k i j| + share ((fF k).precip i j) ((fS k).s_lower i j) ((fS k).s_upper i j))
        ≤ (fS k).s_lower i j := by decide +kernel
    exact this ⟨k, hk4⟩
  · have : ∀ k : Fin 4, ∀ (i j : Fin 3), ((600 : ℤ) : ℚ) *
        (outflow false (fF k).fx_upper (fF k).fy_upper i j / gridQ.a i + max (fz k i j) 0
        + 3 * |fz k i j| + share ((fF k).precip i j) ((fS k).s_upper i j) ((fS k).s_lower i j))
        ≤ (fS k).s_upper i j := by decide +kernel
    exact this ⟨k, hk4⟩

/-- the states of a backward step -/
abbrev bS (k : ℕ) : States 3 3 ℚ := data.states (4 * Demo.step - k * (600 * 1000000))
/-- the fluxes of a backward step -/
abbrev bF (k : ℕ) : Fluxes 3 3 ℚ := stabilizeFluxes ((600 : ℤ) : ℚ) gridQ.a
  (scaleFluxes gridQ (data.fluxes (4 * Demo.step - k * (600 * 1000000) - 600 * 500000))) (bS k)
/-- the vertical flux of a backward step -/
abbrev bz (k : ℕ) : Arr 3 3 ℚ := calculateFz (m := 1) (n := 1) gridQ.a (bF k)
  (data.states (4 * Demo.step - k * (600 * 1000000) - 600 * 1000000)) (bS k) ((600 : ℤ) : ℚ) 1

theorem calm_bwd : CalmBwd (cfgQ 1) gridQ data := by
  intro k hk
  have hk4 := few hk
  constructor
  · have : ∀ k : Fin 4, ∀ (i j : Fin 3), ((600 : ℤ) : ℚ) *
        (outflow false (fun i j => -(bF k).fx_lower i j) (fun i j => -(bF k).fy_lower i j) i j
        / gridQ.a i + max (bz k i j) 0
        + 1 * |bz k i j| + (bF k).evap i j) ≤ (bS k).s_lower i j := by decide +kernel
    exact this ⟨k, hk4⟩
  · have : ∀ k : Fin 4, ∀ (i j : Fin 3), ((600 : ℤ) : ℚ) *
        (outflow false (fun i j => -(bF k).fx_upper i j) (fun i j => -(bF k).fy_upper i j) i j
        / gridQ.a i + max (-bz k i j) 0
        + 1 * |bz k i j|) ≤ (bS k).s_upper i j := by decide +kernel
    exact this ⟨k, hk4⟩

theorem fwd_ends : ∃ s, EndsIn (fwdRun (cfg 3) src Demo.path fun _ => none) s ∧
    s.files.map Prod.fst = [2 * Demo.step, 4 * Demo.step] := by
  obtain ⟨o, ho⟩ := fwd_init_ok (cfg 3) src inp Demo.path (fun _ => none) (runnable 3) (fun h => by cases h)
  obtain ⟨r, _, _, hrun⟩ := fwd_run_eq (cfg 3) src inp Demo.path _ (runnable 3) o ho
  refine ⟨_, ⟨(cfg 3).steps, fun fuel hf => (hrun fuel).trans (if_neg (not_lt.mpr hf))⟩, ?_⟩
  rfl
theorem bwd_ends : ∃ s, EndsIn (bwdRun (cfg 1) src Demo.path fun _ => none) s ∧
    s.files.map Prod.fst = [2 * Demo.step, 0] := by
  obtain ⟨o, ho⟩ := bwd_init_ok (cfg 1) src inp Demo.path (fun _ => none) (runnable 1) (fun h => by cases h)
  obtain ⟨r, _, _, hrun⟩ := bwd_run_eq (cfg 1) src inp Demo.path _ (runnable 1) o ho
  refine ⟨_, ⟨(cfg 1).steps, fun fuel hf => (hrun fuel).trans (if_neg (not_lt.mpr hf))⟩, ?_⟩
  rfl
theorem fwd_endsQ (kvf) : ∃ s, EndsIn (fwdRun (cfgQ kvf) srcQ Demo.path fun _ => none) s := by
  obtain ⟨o, ho⟩ := fwd_init_ok (cfgQ kvf) srcQ data Demo.path (fun _ => none) (runnableQ kvf) (fun h => by cases h)
  obtain ⟨r, _, _, hrun⟩ := fwd_run_eq (cfgQ kvf) srcQ data Demo.path _ (runnableQ kvf) o ho
  exact ⟨_, ⟨(cfgQ kvf).steps, fun fuel hf => (hrun fuel).trans (if_neg (not_lt.mpr hf))⟩⟩
theorem bwd_endsQ (kvf) : ∃ s, EndsIn (bwdRun (cfgQ kvf) srcQ Demo.path fun _ => none) s := by
  obtain ⟨o, ho⟩ := bwd_init_ok (cfgQ kvf) srcQ data Demo.path (fun _ => none) (runnableQ kvf) (fun h => by cases h)
  obtain ⟨r, _, _, hrun⟩ := bwd_run_eq (cfgQ kvf) srcQ data Demo.path _ (runnableQ kvf) o ho
  exact ⟨_, ⟨(cfgQ kvf).steps, fun fuel hf => (hrun fuel).trans (if_neg (not_lt.mpr hf))⟩⟩

theorem within_fwd (kvf) : WritesWithinFwd (cfg kvf) 2 := by
  intro k hk
  have hN : stepCount (cfg kvf).tracking_start_date (cfg kvf).tracking_end_date ((cfg kvf).timestep * 1000000) = 4 := steps_eq
  have : ∀ k : Fin 3, ∃ i : Fin 5, k.val < i.val ∧ i.val ≤ k.val + 2 ∧
      writes (fun k => (cfg 3).tracking_start_date + k * ((cfg 3).timestep * 1000000)) (cfg 3).output_frequency 4 i.val := by
    decide +kernel
  obtain ⟨i, h1, h2, h3⟩ := this ⟨k, by omega⟩
  exact ⟨i, h1, h2, by rw [hN]; exact h3⟩
theorem within_bwd (kvf) : WritesWithinBwd (cfg kvf) 2 := by
  intro k hk
  have hN : stepCount (cfg kvf).tracking_start_date (cfg kvf).tracking_end_date ((cfg kvf).timestep * 1000000) = 4 := steps_eq
  have : ∀ k : Fin 3, ∃ i : Fin 5, k.val < i.val ∧ i.val ≤ k.val + 2 ∧
      writes (fun k => (cfg 3).tracking_end_date - k * ((cfg 3).timestep * 1000000)) (cfg 3).output_frequency 4 i.val := by
    decide +kernel
  obtain ⟨i, h1, h2, h3⟩ := this ⟨k, by omega⟩
  exact ⟨i, h1, h2, by rw [hN]; exact h3⟩

/-- C92, one step: the hypotheses of `C92_step_forward` hold for a step in float64 -/
example : Sized (1 / 2 ^ 53) (1 / 2 ^ 1075) 512 1 (r 600).val (r 3).val (exactG src.grid).a (exactF (inp.fluxes 0))
      (exactS (inp.states 0)) (exactS (inp.states Demo.step)) (exactA (inp.region 0)) ∧
    BoundedFwd 512 0 (exactG src.grid).a (exactFwd (R := (binary64 : Rounding ℚ)) (FwdOutput.zeros (m := 1) (n := 1))) ∧
    BoundedBwd 512 0 (exactG src.grid).a (exactBwd (R := (binary64 : Rounding ℚ)) (BwdOutput.zeros (m := 1) (n := 1))) := by
  have r600 : (r 600).val = 600 := rep (by decide +kernel) (by decide +kernel)
  have H := SizedRun.at (sized (kvf := 3) (by norm_num) le_rfl) (by decide) (t := 0) (t' := Demo.step) (th := 0)
    (tm := Demo.step) (by decide) (by decide) (by decide) (by decide) (by decide) (by decide) (by decide) (by decide)
  have e1 : exactF (inp.fluxes 0) = data.fluxes 0 := congrFun (congrArg Input.fluxes exact_inp) 0
  have e2 : exactS (inp.states 0) = data.states 0 := congrFun (congrArg Input.states exact_inp) 0
  have e3 : exactS (inp.states Demo.step) = data.states Demo.step := congrFun (congrArg Input.states exact_inp) _
  have e4 : exactA (inp.region 0) = data.region 0 := congrFun (congrArg Input.region exact_inp) 0
  have e5 : maskAt (cfgQ 3) data Demo.step = data.region 0 := by
    unfold maskAt; rw [if_pos (by decide)]; rfl
  rw [e5] at H
  refine ⟨?_, fun i j => by simp [exactFwd, exactA, FwdOutput.zeros],
    fun i j => by simp [exactBwd, exactA, BwdOutput.zeros]⟩
  rw [e1, e2, e3, e4, exact_grid, r600, r3]
  exact H

/-- C92 for a run in float64: the budget of this run closes within half a milligram -/
example : ∃ s, EndsIn (fwdRun (cfg 3) src Demo.path fun _ => none) s ∧ s.files.length = 2 ∧
    let tot := fun f : Arr 3 3 (Fl (binary64 : Rounding ℚ)) => total (fun i => (src.grid.a i).val) (fun i j => (f i j).val)
    |sumFiles s.files (fun f => tot f.tagged_evap) + sumFiles s.files (fun f => tot f.gains)
        - (sumFiles s.files (fun f => tot f.p_track_lower + tot f.p_track_upper)
          + sumFiles s.files (fun f => tot f.losses)
          + tot s.output.s_track_lower + tot s.output.s_track_upper)| ≤ 1 / 2000000 := by
  obtain ⟨s, hs, hf⟩ := fwd_ends
  refine ⟨s, hs, by simpa using congrArg List.length hf, ?_⟩
  have key := C92_run_budget_forward (path := Demo.path) accurate64 (fun _ => none) (dt_rep 3) (runnable 3)
    (by rw [exact_cfg r3, exact_grid, exact_inp]; exact sized (by norm_num) le_rfl) 2 (within_fwd 3) (by norm_num)
    (fun i j => ⟨⟨le_rfl, by simp [startFwd, cfg]⟩, ⟨le_rfl, by simp [startFwd, cfg]⟩⟩) hs
  refine le_trans (le_of_eq ?_) (key.trans ?_)
  · have z : total (fun i => (src.grid.a i).val) (fun i j => ((startFwd (cfg 3) Demo.path
        fun _ => (none : Option (FwdOutput 3 3 (Fl (binary64 : Rounding ℚ))))).1 i j).val) = 0 := by
      simp [total, startFwd, cfg]
    have z' : total (fun i => (src.grid.a i).val) (fun i j => ((startFwd (cfg 3) Demo.path
        fun _ => (none : Option (FwdOutput 3 3 (Fl (binary64 : Rounding ℚ))))).2 i j).val) = 0 := by
      simp [total, startFwd, cfg]
    dsimp only
    rw [z, z', zero_add, zero_add]
  · rw [steps_eq]
    have : (cfg 3).kvf.val = 3 := r3
    rw [this]
    norm_num

example : ∃ s, EndsIn (bwdRun (cfg 1) src Demo.path fun _ => none) s ∧ s.files.length = 2 ∧
    let tot := fun f : Arr 3 3 (Fl (binary64 : Rounding ℚ)) => total (fun i => (src.grid.a i).val) (fun i j => (f i j).val)
    |sumFiles s.files (fun f => tot f.tagged_precip) + sumFiles s.files (fun f => tot f.gains)
        - (sumFiles s.files (fun f => tot f.e_track)
          + sumFiles s.files (fun f => tot f.losses)
          + tot s.output.s_track_lower + tot s.output.s_track_upper)| ≤ 1 / 2000000 := by
  obtain ⟨s, hs, hf⟩ := bwd_ends
  refine ⟨s, hs, by simpa using congrArg List.length hf, ?_⟩
  have key := C92_run_budget_backward (path := Demo.path) accurate64 (fun _ => none) (dt_rep 1) (runnable 1)
    (by rw [exact_cfg r1, exact_grid, exact_inp]; exact sized (by norm_num) (by norm_num)) 2 (within_bwd 1) (by norm_num)
    (fun i j => ⟨⟨le_rfl, by simp [startBwd, cfg]⟩, ⟨le_rfl, by simp [startBwd, cfg]⟩⟩) hs
  refine le_trans (le_of_eq ?_) (key.trans ?_)
  · have z : total (fun i => (src.grid.a i).val) (fun i j => ((startBwd (cfg 1) Demo.path
        fun _ => (none : Option (BwdOutput 3 3 (Fl (binary64 : Rounding ℚ))))).1 i j).val) = 0 := by
      simp [total, startBwd, cfg]
    have z' : total (fun i => (src.grid.a i).val) (fun i j => ((startBwd (cfg 1) Demo.path
        fun _ => (none : Option (BwdOutput 3 3 (Fl (binary64 : Rounding ℚ))))).2 i j).val) = 0 := by
      simp [total, startBwd, cfg]
    dsimp only
    rw [z, z', zero_add, zero_add]
  · have e : stepCount (cfg 1).tracking_start_date (cfg 1).tracking_end_date ((cfg 1).timestep * 1000000) = 4 := steps_eq
    rw [e]
    have : (cfg 1).kvf.val = 1 := r1
    rw [this]
    norm_num

/-- C93: the tracked water of the run in float64 and of the run in exact arithmetic differ by at most half a
milligram in all cells together -/
example : ∃ s s', EndsIn (fwdRun (cfg 3) src Demo.path fun _ => none) s ∧
    EndsIn (fwdRun (cfgQ 3) srcQ Demo.path fun _ => none) s' ∧ s.files.length = 2 ∧
    fwdStorageGap gridQ.a (exactFwd s.output) s'.output +
      sumPairs (s.files.map fun x => (x.1, exactFwd x.2)) s'.files (fwdRecordGap gridQ.a) ≤ 1 / 2000000 := by
  obtain ⟨s, hs, hf⟩ := fwd_ends
  obtain ⟨s', hs'⟩ := fwd_endsQ 3
  refine ⟨s, s', hs, hs', by simpa using congrArg List.length hf, ?_⟩
  have key := (C93_run_error_forward (path := Demo.path) accurate64 (fun _ => none) (dt_rep 3) (runnable 3) srcQ
    (by rw [exact_cfg r3, exact_inp]; exact runnableQ 3) exact_grid.symm
    (by rw [exact_inp]; exact physicalQ) (by rw [exact_cfg r3, exact_grid, exact_inp]; exact calm_fwd)
    (by rw [exact_cfg r3, exact_grid, exact_inp]; exact sized (by norm_num) le_rfl) 2 (within_fwd 3) (by norm_num)
    (fun i j => ⟨⟨le_rfl, by simp [startFwd, cfg]⟩, ⟨le_rfl, by simp [startFwd, cfg]⟩⟩) hs
    (by rw [exact_cfg r3]; exact hs')).2.1
  have g : (fun i => (src.grid.a i).val) = gridQ.a := congrArg GridInfo.a exact_grid
  rw [g, steps_eq] at key
  refine key.trans ?_
  have : (cfg 3).kvf.val = 3 := r3
  rw [this]
  norm_num

example : ∃ s s', EndsIn (bwdRun (cfg 1) src Demo.path fun _ => none) s ∧
    EndsIn (bwdRun (cfgQ 1) srcQ Demo.path fun _ => none) s' ∧ s.files.length = 2 ∧
    bwdStorageGap gridQ.a (exactBwd s.output) s'.output +
      sumPairs (s.files.map fun x => (x.1, exactBwd x.2)) s'.files (bwdRecordGap gridQ.a) ≤ 1 / 2000000 := by
  obtain ⟨s, hs, hf⟩ := bwd_ends
  obtain ⟨s', hs'⟩ := bwd_endsQ 1
  refine ⟨s, s', hs, hs', by simpa using congrArg List.length hf, ?_⟩
  have key := (C93_run_error_backward (path := Demo.path) accurate64 (fun _ => none) (dt_rep 1) (runnable 1) srcQ
    (by rw [exact_cfg r1, exact_inp]; exact runnableQ 1) exact_grid.symm
    (by rw [exact_inp]; exact physicalQ) (by rw [exact_cfg r1, exact_grid, exact_inp]; exact calm_bwd)
    (by rw [exact_cfg r1, exact_grid, exact_inp]; exact sized (by norm_num) (by norm_num)) 2 (within_bwd 1) (by norm_num)
    (fun i j => ⟨⟨le_rfl, by simp [startBwd, cfg]⟩, ⟨le_rfl, by simp [startBwd, cfg]⟩⟩) hs
    (by rw [exact_cfg r1]; exact hs')).2.1
  have e : stepCount (cfg 1).tracking_start_date (cfg 1).tracking_end_date ((cfg 1).timestep * 1000000) = 4 := steps_eq
  have g : (fun i => (src.grid.a i).val) = gridQ.a := congrArg GridInfo.a exact_grid
  rw [g, e] at key
  refine key.trans ?_
  have : (cfg 1).kvf.val = 1 := r1
  rw [this]
  norm_num

/-- exact tracked water is there to be compared with -/
example : 0 < ((fwdProc (cfgQ 3) gridQ data).out FwdOutput.zeros 4).s_track_lower 1 1 ∧
    0 < ((bwdProc (cfgQ 1) gridQ data).out BwdOutput.zeros 4).s_track_lower 1 1 := by decide +kernel

end Wam.FloatDemo
