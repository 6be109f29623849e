import Verif.Model.PrepInput
import Verif.Spec.InputMore
import Verif.Spec.Column
import Verif.Spec.ModelLevels
import Verif.Model.Era5Table
import Verif.Spec.Prep

/-! # Specification: preprocessed data in terms of the raw data -/

namespace Wam.Spec

variable {κ K : Type}

/-- a level of a column at pressure `l` (Pa) whose humidity and wind come from where `P` says -/
structure LevelFrom [Field K] (P : String → Option ℚ → κ → κ → K → Prop) (lat lon : κ) (l : ℚ) (L : Level K) :
    Prop where
  p : L.p = (l : K)
  q : P "q" (some l) lat lon L.q
  u : P "u" (some l) lat lon L.u
  v : P "v" (some l) lat lon L.v

/-- the surface level of a column comes from where `P` says -/
structure SurfaceFrom (P : String → Option ℚ → κ → κ → K → Prop) (lat lon : κ) (S : Level K) : Prop where
  p : P "ps" none lat lon S.p
  q : P "qs" none lat lon S.q
  u : P "us" none lat lon S.u
  v : P "vs" none lat lon S.v

/-- The layer sums `r` belong to the raw data at latitude `lat` and longitude `lon`: the column with the levels `ls` is
completed as in C52 and integrated over the two layers; with total column water `w` everything is scaled by the
ratio of `w` to the integral. -/
def LayersFrom [Field K] [LinearOrder K] (P : String → Option ℚ → κ → κ → K → Prop) (ls : List ℚ)
    (lay : LayerConfig K) (lat lon : κ) (hasTcw : Bool) (r : LayerSums K) : Prop :=
  ∃ levels S E, List.Forall₂ (LevelFrom P lat lon) ls levels ∧ SurfaceFrom P lat lon S ∧
    IsExtended levels S (lay.factor * S.p + lay.offset) E ∧
    (hasTcw = false → r = layerIntegrals S.p (lay.factor * S.p + lay.offset) E) ∧
    (hasTcw = true → ∃ w, P "tcw" none lat lon w ∧
      r = scale (w / pairSum water (between 0 S.p E)) (layerIntegrals S.p (lay.factor * S.p + lay.offset) E))

/-- The layer sums `r` belong to the ERA5 data on model levels at latitude `lat` and longitude `lon`: humidity and wind of every
listed level and the surface pressure are in the files, the thicknesses are the differences between the edges from the table
of ERA5, and the column is integrated over the two layers; with total column water `w` everything is scaled by
the ratio of `w` to the integral. -/
def ModelLayersFrom [Field K] [LinearOrder K] (cfg : InputConfig) (disk : List Char → Except Err (RawFile κ K)) (t : ℤ)
    (levels : List ℤ) (boundary : ℤ) (lat lon : κ) (hasTcw : Bool) (r : LayerSums K) : Prop :=
  ∃ (ls : List (ModelLevel K)) (sp : K) (edges : List K), ls.map ModelLevel.number = levels ∧
    OnDisk cfg disk "sp" t none lat lon sp ∧
    (∀ l ∈ ls, OnDisk cfg disk "q" t (some (l.number : ℚ)) lat lon l.q ∧
      OnDisk cfg disk "u" t (some (l.number : ℚ)) lat lon l.u ∧ OnDisk cfg disk "v" t (some (l.number : ℚ)) lat lon l.v) ∧
    LevelEdges (era5A K) (era5B K) sp levels edges ∧ ThicknessOf edges (ls.map ModelLevel.dp) ∧
    (hasTcw = false → r = modelIntegrals boundary ls) ∧
    (hasTcw = true → ∃ w, OnDisk cfg disk "tcw" t none lat lon w ∧
      r = scale (w / (ls.map ModelLevel.water).sum) (modelIntegrals boundary ls))

/-- The preprocessed data `ds` belong to raw data on the grid `g`: the same latitudes, the same meridians, each once
(`order`), and in each cell layer sums, precipitation and evaporation that satisfy `R` at the latitude and longitude of that cell. -/
def GridFrom [Field κ] (g : List κ × List κ) (R : κ → κ → LayerSums K → K → K → Prop) (ds : Dataset κ K) : Prop :=
  ds.latitude = g.1 ∧ ds.longitude.length = g.2.length ∧ (∀ v, v ∈ ds.vars) ∧
  ∃ order : List ℕ, order.Perm (List.range g.2.length) ∧
    ∀ i lat j j0, g.1[i]? = some lat → order[j]? = some j0 →
      ∃ x lon, ds.longitude[j]? = some x ∧ g.2[j0]? = some lon ∧ SameMeridian x lon ∧
        ∃ r precip evap, R lat lon r precip evap ∧ CellIs ds i j r precip evap

/-- The numbers of the ERA5 files that a variable of the preprocessing on pressure levels may be made of.  Levels are in Pa in the
preprocessing and in hPa in the files. -/
def Era5Origin [Add K] [Sub K] [Mul K] [Div K] [NpOps K] [NpExp K] (cfg : InputConfig)
    (disk : List Char → Except Err (RawFile κ K)) (t : ℤ) (name : String) (pascal : Option ℚ) (lat lon : κ)
    (x : K) : Prop :=
  let hpa := pascal.map fun p => p / 100
  let dt : K := NpOps.ofRat cfg.nseconds
  match name with
  | "q" => OnDisk cfg disk "q" t hpa lat lon x
  | "u" => OnDisk cfg disk "u" t hpa lat lon x
  | "v" => OnDisk cfg disk "v" t hpa lat lon x
  | "ps" => OnDisk cfg disk "sp" t hpa lat lon x
  | "us" => OnDisk cfg disk "u10" t hpa lat lon x
  | "vs" => OnDisk cfg disk "v10" t hpa lat lon x
  | "tcw" => OnDisk cfg disk "tcw" t hpa lat lon x
  | "qs" => ∃ dewpoint ps, OnDisk cfg disk "d2m" t hpa lat lon dewpoint ∧
      OnDisk cfg disk "sp" t hpa lat lon ps ∧ x = calculateHumidity dewpoint ps
  | "precip" => ∃ tp e, OnDisk cfg disk "tp" t hpa lat lon tp ∧ OnDisk cfg disk "e" t hpa lat lon e ∧
      x = (precipEvapEra5 tp e dt).1
  | "evap" => ∃ e, OnDisk cfg disk "e" t hpa lat lon e ∧ ∀ tp, x = (precipEvapEra5 tp e dt).2
  | _ => False

/-- the numbers of ERA5 files are physical: positive humidity and surface pressure, a dew point below saturation, and a layer
boundary above the surface -/
structure PhysicalEra5 [Add K] [Sub K] [Mul K] [Div K] [NpOps K] [NpExp K] [Zero K] [LE K] [LT K]
    (cfg : InputConfig) (disk : List Char → Except Err (RawFile κ K)) (t : ℤ) (lay : LayerConfig K)
    (levels : List ℤ) (g : List κ × List κ) : Prop where
  ps : ∀ lat ∈ g.1, ∀ lon ∈ g.2, ∀ x, OnDisk cfg disk "sp" t none lat lon x →
    0 < x ∧ 0 ≤ lay.factor * x + lay.offset ∧ lay.factor * x + lay.offset ≤ x
  q : ∀ lat ∈ g.1, ∀ lon ∈ g.2, ∀ l ∈ levels, ∀ x, OnDisk cfg disk "q" t (some (l : ℚ)) lat lon x → 0 < x
  dewpoint : ∀ lat ∈ g.1, ∀ lon ∈ g.2, ∀ T p, OnDisk cfg disk "d2m" t none lat lon T → OnDisk cfg disk "sp" t none lat lon p →
    saturationPressure T < p

end Wam.Spec
