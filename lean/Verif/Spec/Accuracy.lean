import Verif.Model.Rounded
import Verif.Spec.Contract

/-! # Specification: accuracy of rounded arithmetic -/

namespace Wam.Spec

variable {K : Type*} [Field K] [LinearOrder K]

/-- The standard model of floating-point arithmetic: a result is rounded with a relative error of at most `u`
(unit roundoff, `2⁻²⁴` for float32 and `2⁻⁵³` for float64) and, for tiny results, an absolute error of at most
`η` (underflow: gradual or flush to zero). -/
structure Accurate (R : Rounding K) (u η : K) : Prop where
  u_pos : 0 < u
  u_small : u ≤ 1 / 10000000
  η_nonneg : 0 ≤ η
  err : ∀ x, |R.rnd x - x| ≤ u * |x| + η

variable {R : Rounding K} {m n : ℕ}

/-- the numbers that floats stand for -/
def exactA (f : Arr m n (Fl R)) : Arr m n K := fun i j => (f i j).val
/-- the same for fluxes -/
def exactF (F : Fluxes m n (Fl R)) : Fluxes m n K :=
  ⟨exactA F.fx_upper, exactA F.fy_upper, exactA F.fx_lower, exactA F.fy_lower, exactA F.evap, exactA F.precip⟩
/-- the same for storages -/
def exactS (S : States m n (Fl R)) : States m n K := ⟨exactA S.s_upper, exactA S.s_lower⟩
/-- the same for the grid -/
def exactG (g : GridInfo m (Fl R)) : GridInfo m K := ⟨fun i => (g.a i).val, g.dy.val, fun i => (g.dx i).val⟩
/-- the same for the output -/
def exactFwd (o : FwdOutput m n (Fl R)) : FwdOutput m n K :=
  ⟨exactA o.s_track_upper, exactA o.s_track_lower, exactA o.p_track_upper, exactA o.p_track_lower,
    exactA o.tagged_evap, exactA o.losses, exactA o.gains⟩
/-- the same for the output -/
def exactBwd (o : BwdOutput m n (Fl R)) : BwdOutput m n K :=
  ⟨exactA o.s_track_upper, exactA o.s_track_lower, exactA o.e_track, exactA o.tagged_precip,
    exactA o.losses, exactA o.gains⟩
/-- the same for the weather and the region -/
def exactI (inp : Input m n (Fl R)) : Input m n K :=
  ⟨fun t => exactS (inp.states t), fun t => exactF (inp.fluxes t), fun t => exactA (inp.region t)⟩
/-- the same for the configuration -/
def exactC (cfg : RunConfig (Fl R)) : RunConfig K := { cfg with kvf := cfg.kvf.val }

/-- Sizes in one time step: no cell holds, rains or evaporates more than `V` kilograms in a time step, no
layer holds less than `σ` kg per square metre, cells have at least one square metre, the mask is at most 1.
There is no condition on the horizontal fluxes.  The last two: `η` (underflow) is far below all of this. -/
structure Sized (u η V σ dt kvf : K) (a : Fin (m + 2) → K) (F : Fluxes (m + 2) (n + 2) K)
    (S0 S1 : States (m + 2) (n + 2) K) (mask : Arr (m + 2) (n + 2) K) : Prop where
  dt_pos : 0 < dt
  kvf_nonneg : 0 ≤ kvf
  area : ∀ i, 1 ≤ a i
  σ_pos : 0 < σ
  σ_le : σ ≤ 1
  wet : ∀ i j, σ ≤ S0.s_upper i j ∧ σ ≤ S0.s_lower i j ∧ σ ≤ S1.s_upper i j ∧ σ ≤ S1.s_lower i j
  storage : ∀ i j, S0.s_upper i j * a i ≤ V ∧ S0.s_lower i j * a i ≤ V ∧ S1.s_upper i j * a i ≤ V ∧
    S1.s_lower i j * a i ≤ V
  rain : ∀ i j, |F.precip i j| * (a i * dt) ≤ V
  evap : ∀ i j, |F.evap i j| * (a i * dt) ≤ V
  mask : ∀ i j, |mask i j| ≤ 1
  tiny : 4 * (1 + kvf) * η ≤ u * σ
  tiny' : ∀ i, 4 * (dt + 1) * (1 + kvf) * a i * η ≤ u * (u * (V * σ))

/-- in every cell there are at most `V` kilograms of tracked water in a layer and no accumulated field holds
more than `P` kilograms -/
def BoundedFwd (V P : K) (a : Fin (m + 2) → K) (o : FwdOutput (m + 2) (n + 2) K) : Prop :=
  ∀ i j, |o.s_track_lower i j| * a i ≤ V ∧ |o.s_track_upper i j| * a i ≤ V ∧ |o.tagged_evap i j| * a i ≤ P ∧
    |o.p_track_lower i j| * a i ≤ P ∧ |o.p_track_upper i j| * a i ≤ P ∧ |o.losses i j| * a i ≤ P ∧
    |o.gains i j| * a i ≤ P
/-- the same for a backward run -/
def BoundedBwd (V P : K) (a : Fin (m + 2) → K) (o : BwdOutput (m + 2) (n + 2) K) : Prop :=
  ∀ i j, |o.s_track_lower i j| * a i ≤ V ∧ |o.s_track_upper i j| * a i ≤ V ∧ |o.tagged_precip i j| * a i ≤ P ∧
    |o.e_track i j| * a i ≤ P ∧ |o.losses i j| * a i ≤ P ∧ |o.gains i j| * a i ≤ P

/-- In every cell, tracked storages differ by at most `ε₁`, tagged and tracked fluxes by at most `ε₂` and
losses and gains by at most `ε₃` (kilograms). -/
def CloseFwd (ε₁ ε₂ ε₃ : K) (a : Fin (m + 2) → K) (x y : FwdOutput (m + 2) (n + 2) K) : Prop :=
  ∀ i j, (a i * |x.s_track_lower i j - y.s_track_lower i j| ≤ ε₁ ∧
      a i * |x.s_track_upper i j - y.s_track_upper i j| ≤ ε₁) ∧
    (a i * |x.tagged_evap i j - y.tagged_evap i j| ≤ ε₂ ∧
      a i * |x.p_track_lower i j - y.p_track_lower i j| ≤ ε₂ ∧
      a i * |x.p_track_upper i j - y.p_track_upper i j| ≤ ε₂) ∧
    (a i * |x.losses i j - y.losses i j| ≤ ε₃ ∧ a i * |x.gains i j - y.gains i j| ≤ ε₃)
/-- the same for a backward run -/
def CloseBwd (ε₁ ε₂ ε₃ : K) (a : Fin (m + 2) → K) (x y : BwdOutput (m + 2) (n + 2) K) : Prop :=
  ∀ i j, (a i * |x.s_track_lower i j - y.s_track_lower i j| ≤ ε₁ ∧
      a i * |x.s_track_upper i j - y.s_track_upper i j| ≤ ε₁) ∧
    (a i * |x.tagged_precip i j - y.tagged_precip i j| ≤ ε₂ ∧ a i * |x.e_track i j - y.e_track i j| ≤ ε₂) ∧
    (a i * |x.losses i j - y.losses i j| ≤ ε₃ ∧ a i * |x.gains i j - y.gains i j| ≤ ε₃)

/-- `Sized` at all times of a run: no layer of a cell holds, and no cell rains or evaporates within a time
step, more than `V` kilograms, at any time of the tracking period, and so on -/
structure SizedRun (u η V σ : K) (cfg : RunConfig K) (a : Fin (m + 2) → K) (inp : Input m n K) : Prop where
  kvf_nonneg : 0 ≤ cfg.kvf
  area : ∀ i, 1 ≤ a i
  σ_pos : 0 < σ
  σ_le : σ ≤ 1
  wet : ∀ t, cfg.tracking_start_date ≤ t → t ≤ cfg.tracking_end_date →
    ∀ i j, σ ≤ (inp.states t).s_upper i j ∧ σ ≤ (inp.states t).s_lower i j
  storage : ∀ t, cfg.tracking_start_date ≤ t → t ≤ cfg.tracking_end_date →
    ∀ i j, (inp.states t).s_upper i j * a i ≤ V ∧ (inp.states t).s_lower i j * a i ≤ V
  rain : ∀ t, cfg.tracking_start_date ≤ t → t ≤ cfg.tracking_end_date →
    ∀ i j, |(inp.fluxes t).precip i j| * (a i * (cfg.timestep : K)) ≤ V
  evap : ∀ t, cfg.tracking_start_date ≤ t → t ≤ cfg.tracking_end_date →
    ∀ i j, |(inp.fluxes t).evap i j| * (a i * (cfg.timestep : K)) ≤ V
  region : ∀ t, cfg.tracking_start_date ≤ t → t ≤ cfg.tracking_end_date → ∀ i j, |inp.region t i j| ≤ 1
  tiny : 4 * (1 + cfg.kvf) * η ≤ u * σ
  tiny' : ∀ i, 4 * ((cfg.timestep : K) + 1) * (1 + cfg.kvf) * a i * η ≤ u * (u * (V * σ))

/-- at most `M` time steps pass between two outputs of a forward run -/
def WritesWithinFwd {α : Type*} (cfg : RunConfig α) (M : ℕ) : Prop :=
  let N := stepCount cfg.tracking_start_date cfg.tracking_end_date (cfg.timestep * 1000000)
  ∀ k, k + M ≤ N → ∃ i, k < i ∧ i ≤ k + M ∧
    writes (fun k => cfg.tracking_start_date + k * (cfg.timestep * 1000000)) cfg.output_frequency N i
/-- at most `M` time steps pass between two outputs of a backward run -/
def WritesWithinBwd {α : Type*} (cfg : RunConfig α) (M : ℕ) : Prop :=
  let N := stepCount cfg.tracking_start_date cfg.tracking_end_date (cfg.timestep * 1000000)
  ∀ k, k + M ≤ N → ∃ i, k < i ∧ i ≤ k + M ∧
    writes (fun k => cfg.tracking_end_date - k * (cfg.timestep * 1000000)) cfg.output_frequency N i

/-- amount of water by which the accumulated fields (tracked precipitation, losses, tagged evaporation and
gains) of two outputs differ -/
def fwdRecordGap (a : Fin (m + 2) → K) (x y : FwdOutput (m + 2) (n + 2) K) : K :=
  fwdFateGap a x y + gap a x.tagged_evap y.tagged_evap + gap a x.gains y.gains
/-- amount of water by which the accumulated fields (tracked evaporation, losses, tagged precipitation and
gains) of two outputs differ -/
def bwdRecordGap (a : Fin (m + 2) → K) (x y : BwdOutput (m + 2) (n + 2) K) : K :=
  bwdFateGap a x y + gap a x.tagged_precip y.tagged_precip + gap a x.gains y.gains

end Wam.Spec
