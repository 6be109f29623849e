import Verif.Spec.Compare

/-! # Specification: how much two runs differ

Amounts of water: area-weighted totals of absolute differences. -/

namespace Wam.Spec

variable {K : Type*} [Field K] [LinearOrder K] {m n : ℕ}

/-- amount of water by which two fields differ -/
def gap (a : Fin (m + 2) → K) (f f' : Arr (m + 2) (n + 2) K) : K :=
  total a fun i j => |f i j - f' i j|

/-- difference of the tracked storages -/
def fwdStorageGap (a : Fin (m + 2) → K) (o o' : FwdOutput (m + 2) (n + 2) K) : K :=
  gap a o.s_track_lower o'.s_track_lower + gap a o.s_track_upper o'.s_track_upper

/-- difference of tracked precipitation and losses -/
def fwdFateGap (a : Fin (m + 2) → K) (o o' : FwdOutput (m + 2) (n + 2) K) : K :=
  gap a o.p_track_lower o'.p_track_lower + gap a o.p_track_upper o'.p_track_upper +
    gap a o.losses o'.losses

/-- difference of the tracked storages -/
def bwdStorageGap (a : Fin (m + 2) → K) (o o' : BwdOutput (m + 2) (n + 2) K) : K :=
  gap a o.s_track_lower o'.s_track_lower + gap a o.s_track_upper o'.s_track_upper

/-- difference of tracked evaporation and losses -/
def bwdFateGap (a : Fin (m + 2) → K) (o o' : BwdOutput (m + 2) (n + 2) K) : K :=
  gap a o.e_track o'.e_track + gap a o.losses o'.losses

/-- sum of a difference over the files of two runs, taken pairwise -/
def sumPairs {ω : Type*} (files files' : List (ℤ × ω)) (q : ω → ω → K) : K :=
  ((files.zip files').map fun x => q x.1.2 x.2.2).sum

/-- mask in use at time `t`: the region within the tagging window, nothing outside -/
def activeMask (cfg : RunConfig K) (inp : Input m n K) (t : ℤ) : Arr (m + 2) (n + 2) K :=
  if inWindow cfg t then inp.region t else fun _ _ => 0

/-- amount of water that is tagged differently in forward runs with the regions of `inp` and `inp'` -/
def tagGapFwd (cfg : RunConfig K) (a : Fin (m + 2) → K) (inp inp' : Input m n K) : K :=
  ∑ k ∈ Finset.range (stepCount cfg.tracking_start_date cfg.tracking_end_date
      (cfg.timestep * 1000000)),
    let t := cfg.tracking_start_date + k * (cfg.timestep * 1000000)
    total a fun i j => (cfg.timestep : K) * (|activeMask cfg inp t i j - activeMask cfg inp' t i j| *
      (inp.fluxes (t + cfg.timestep * 500000)).evap i j)

/-- amount of water that is tagged differently in backward runs with the regions of `inp` and `inp'` -/
def tagGapBwd (cfg : RunConfig K) (a : Fin (m + 2) → K) (inp inp' : Input m n K) : K :=
  ∑ k ∈ Finset.range (stepCount cfg.tracking_start_date cfg.tracking_end_date
      (cfg.timestep * 1000000)),
    let t := cfg.tracking_end_date - k * (cfg.timestep * 1000000)
    total a fun i j => (cfg.timestep : K) * (|activeMask cfg inp t i j - activeMask cfg inp' t i j| *
      (inp.fluxes (t - cfg.timestep * 500000)).precip i j)

end Wam.Spec
