import Verif.Model.Prep
import Verif.Spec.IO

/-! # Specification of the preprocessing run -/

namespace Wam.Spec

/-- the same meridian: the longitudes differ by a multiple of 360 degrees -/
def SameMeridian {K : Type} [Field K] (x y : K) : Prop := ∃ k : ℤ, x = y + 360 * k

/-- `ds'` consists of the columns of `ds` in the order `order` (each exactly once), each with its data and on
its meridian -/
structure Rearranged {K α : Type} [Field K] (ds ds' : Dataset K α) (order : List ℕ) : Prop where
  perm : order.Perm (List.range ds.longitude.length)
  latitude : ds'.latitude = ds.latitude
  vars : ds'.vars = ds.vars
  length : ds'.longitude.length = ds.longitude.length
  meridian : ∀ (j : ℕ) (x : K), ds'.longitude[j]? = some x →
    ∃ (j0 : ℕ) (x0 : K), order[j]? = some j0 ∧ ds.longitude[j0]? = some x0 ∧ SameMeridian x x0
  data : ∀ (v : Var) (i j j0 : ℕ), i < ds.latitude.length → order[j]? = some j0 →
    ds'.data v i j = ds.data v i j0

/-- cell `i, j` of the preprocessed data is made of the layer sums `s` and of this precipitation and
evaporation -/
structure CellIs {K α : Type} (ds : Dataset K α) (i j : ℕ) (s : LayerSums α) (precip evap : α) :
    Prop where
  s_upper : ds.data .s_upper i j = s.s_upper
  s_lower : ds.data .s_lower i j = s.s_lower
  fx_upper : ds.data .fx_upper i j = s.fx_upper
  fx_lower : ds.data .fx_lower i j = s.fx_lower
  fy_upper : ds.data .fy_upper i j = s.fy_upper
  fy_lower : ds.data .fy_lower i j = s.fy_lower
  precip : ds.data .precip i j = precip
  evap : ds.data .evap i j = evap

end Wam.Spec

namespace Wam

/-- the folder as the tracking code sees it -/
def PrepDisk.files {κ α : Type} (disk : PrepDisk κ α) : List Char → Except Err (DataFile κ α) := fun p =>
  match disk p with
  | some (.data f) => .ok f
  | some .broken => .error (.other "OSError: not a valid netCDF file")
  | none => .error .fileNotFound

end Wam
