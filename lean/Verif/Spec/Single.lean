import Verif.Spec.Accuracy
import Verif.Spec.Contract

/-! # Specification: numbers in files -/

namespace Wam.Spec

variable {K : Type*} [Field K] [LinearOrder K] {m n : ℕ}

/-- `y` is what a file holds for `x`: equal up to the relative error `u` (and `η` for tiny numbers), never of the
opposite sign, and zero for zero -/
structure StoredAs (u η x y : K) : Prop where
  err : |y - x| ≤ u * |x| + η
  nonneg : 0 ≤ x → 0 ≤ y
  nonpos : x ≤ 0 → y ≤ 0

/-- every number of a forward file -/
structure FileOfFwd (u η : K) (f d : FwdOutput (m + 2) (n + 2) K) : Prop where
  s_track_upper : ∀ i j, StoredAs u η (f.s_track_upper i j) (d.s_track_upper i j)
  s_track_lower : ∀ i j, StoredAs u η (f.s_track_lower i j) (d.s_track_lower i j)
  p_track_upper : ∀ i j, StoredAs u η (f.p_track_upper i j) (d.p_track_upper i j)
  p_track_lower : ∀ i j, StoredAs u η (f.p_track_lower i j) (d.p_track_lower i j)
  tagged_evap : ∀ i j, StoredAs u η (f.tagged_evap i j) (d.tagged_evap i j)
  losses : ∀ i j, StoredAs u η (f.losses i j) (d.losses i j)
  gains : ∀ i j, StoredAs u η (f.gains i j) (d.gains i j)

/-- every number of a backward file -/
structure FileOfBwd (u η : K) (f d : BwdOutput (m + 2) (n + 2) K) : Prop where
  s_track_upper : ∀ i j, StoredAs u η (f.s_track_upper i j) (d.s_track_upper i j)
  s_track_lower : ∀ i j, StoredAs u η (f.s_track_lower i j) (d.s_track_lower i j)
  e_track : ∀ i j, StoredAs u η (f.e_track i j) (d.e_track i j)
  tagged_precip : ∀ i j, StoredAs u η (f.tagged_precip i j) (d.tagged_precip i j)
  losses : ∀ i j, StoredAs u η (f.losses i j) (d.losses i j)
  gains : ∀ i j, StoredAs u η (f.gains i j) (d.gains i j)

end Wam.Spec
