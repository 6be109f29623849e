import Verif.Model.Validate

/-! # Specification of the input checks -/

namespace Wam.Spec

/-- the data has a variable of this name with exactly these dimensions -/
def HasVar {α : Type} (data : XDataset α) (name : String) (dims : List String) : Prop :=
  ∃ x, data.get name = some x ∧ ∀ d, d ∈ x.dims ↔ d ∈ dims

/-- What the preprocessing needs (documentation of `get_input_data`, shared.py:43-66): the three
dimensions; humidity and wind on levels; surface pressure, precipitation and evaporation; for
pressure levels also humidity and wind at the surface, for model levels the thickness of the
levels; no missing values in any variable. -/
structure ValidInput {α : Type} [NpOps α] (data : XDataset α) (lt : LevelType) : Prop where
  dims : "latitude" ∈ data.dims ∧ "longitude" ∈ data.dims ∧ "level" ∈ data.dims
  q : HasVar data "q" ["latitude", "longitude", "level"]
  u : HasVar data "u" ["latitude", "longitude", "level"]
  v : HasVar data "v" ["latitude", "longitude", "level"]
  ps : HasVar data "ps" ["latitude", "longitude"]
  precip : HasVar data "precip" ["latitude", "longitude"]
  evap : HasVar data "evap" ["latitude", "longitude"]
  surface : lt = .pressure_levels → HasVar data "qs" ["latitude", "longitude"] ∧
    HasVar data "us" ["latitude", "longitude"] ∧ HasVar data "vs" ["latitude", "longitude"]
  thickness : lt = .model_levels → HasVar data "dp" ["latitude", "longitude", "level"]
  complete : ∀ e ∈ data.dataVars, ∀ y ∈ e.2.values, NpOps.isnan y = false

/-- the neighbouring cells `i` and `i+1` with these bounds share an edge -/
def SharedEdges {K : Type} (bounds : List (K × K)) : Prop :=
  ∀ i b b', bounds[i]? = some b → bounds[i + 1]? = some b' → b.2 = b'.1

/-- an axis with constant spacing `d` -/
def UniformAxis {K : Type} [Field K] (xs : List K) (d : K) : Prop :=
  ∀ i x y, xs[i]? = some x → xs[i + 1]? = some y → y - x = d

/-- a uniform axis of at least two values with this name that increases (or, with `down`, decreases) weakly -/
def GoodAxis {K : Type} [Field K] [LinearOrder K] (x : CheckedArray K) (name : String) (down : Bool) :
    Prop :=
  ∃ xs d, x.coords.lookup name = some xs ∧ 2 ≤ xs.length ∧ UniformAxis xs d ∧
    if down then d ≤ 0 else 0 ≤ d

/-- Data for which `check_input` says nothing.  Note `range`: a value above the upper limit silences the
warning. -/
structure Quiet {K : Type} [Field K] [LinearOrder K] (x : CheckedArray K) (units : List String)
    (lo hi : K) (positive : Bool) : Prop where
  units : ∃ u ∈ units, x.units = some u
  ndim : x.ndim = 3
  time : GoodAxis x "time" false
  latitude : GoodAxis x "latitude" true
  longitude : GoodAxis x "longitude" false
  range : (∀ y ∈ x.first :: x.rest, lo ≤ y) ∨ ∃ y ∈ x.first :: x.rest, hi < y
  sign : positive = true → ∀ y ∈ x.first :: x.rest, 0 ≤ y

end Wam.Spec
