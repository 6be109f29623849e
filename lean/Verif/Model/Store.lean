import Verif.Model.Rounded
import Verif.Model.Column

/-!
# Storing the results of preprocessing in single precision

preprocessing/shared.py:199-216.
-/

namespace Wam

variable {K : Type} [Field K] [LinearOrder K]

/-- a float converted to another format, `astype("float32")` of preprocessing/shared.py:215; the formats' range is
not modelled (`Model/Rounded`) -/
def Fl.convert {R : Rounding K} (R' : Rounding K) (x : Fl R) : Fl R' := Fl.round R' x.val

/-- The storages and fluxes of a column as they are put into the dataset that is written,
preprocessing/shared.py:202-216; the shift of longitudes, the bounds and the attributes that follow
(preprocessing/shared.py:218-225) leave the values as they are. -/
def storedLayers {R : Rounding K} (R' : Rounding K) (F : LayerSums (Fl R)) : LayerSums (Fl R') :=
  { s_lower := F.s_lower.convert R', s_upper := F.s_upper.convert R',
    fx_lower := F.fx_lower.convert R', fy_lower := F.fy_lower.convert R',
    fx_upper := F.fx_upper.convert R', fy_upper := F.fy_upper.convert R' }

end Wam
