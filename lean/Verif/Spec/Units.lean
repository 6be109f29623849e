import Verif.Spec.Mirror

/-! # Specification: another unit for amounts of water -/

namespace Wam.Spec

variable {m n : ℕ} {α : Type*}

/-- change of every value of a field -/
def scaleField (φ : α → α) (f : Arr m n α) : Arr m n α := fun i j => φ (f i j)

/-- storages in another unit -/
def scaleStates (φ : α → α) (S : States m n α) : States m n α := ⟨scaleField φ S.s_upper, scaleField φ S.s_lower⟩

/-- all fluxes in another unit -/
def unitFluxes (φ : α → α) (F : Fluxes m n α) : Fluxes m n α :=
  ⟨scaleField φ F.fx_upper, scaleField φ F.fy_upper, scaleField φ F.fx_lower, scaleField φ F.fy_lower, scaleField φ F.evap,
    scaleField φ F.precip⟩

/-- all data of a run with water in another unit; areas, lengths and the tagging region stay the same -/
def unitSource (φ : α → α) (src : Source m n α) : Source m n α :=
  { src with
    states := fun t => (src.states t).map (scaleStates φ)
    fluxes := fun t => (src.fluxes t).map (unitFluxes φ) }

/-- an output file in another unit -/
def unitFwd (φ : α → α) (o : FwdOutput m n α) : FwdOutput m n α :=
  ⟨scaleField φ o.s_track_upper, scaleField φ o.s_track_lower, scaleField φ o.p_track_upper, scaleField φ o.p_track_lower,
    scaleField φ o.tagged_evap, scaleField φ o.losses, scaleField φ o.gains⟩

/-- an output file in another unit -/
def unitBwd (φ : α → α) (o : BwdOutput m n α) : BwdOutput m n α :=
  ⟨scaleField φ o.s_track_upper, scaleField φ o.s_track_lower, scaleField φ o.e_track, scaleField φ o.tagged_precip,
    scaleField φ o.losses, scaleField φ o.gains⟩

end Wam.Spec
