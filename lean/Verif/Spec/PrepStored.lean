import Verif.Spec.PrepAccuracy

/-! # Specification: what preprocessing stores -/

namespace Wam.Spec

variable {K : Type} [Field K] [LinearOrder K]

/-- `F` is `X` up to `ε` times the size `S` plus `e` for the two storages and plus `e'` for the four fluxes -/
abbrev StoredWithin {R : Rounding K} (ε e e' : K) (S : LayerSums K) (F : LayerSums (Fl R)) (X : LayerSums K) : Prop :=
  LayersWithin ε e ε e' S F X

end Wam.Spec
