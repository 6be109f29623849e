import Verif.Model.Run
import Verif.Model.Calendar
import Mathlib.Data.List.Dedup

/-!
# Surface fluxes and surface humidity during preprocessing

`/repo/src/wam2layers/preprocessing/era5.py:125-142`, `arco.py:82-95`, `cmip.py:32,55-59,106-107,117-144` and
`utils.py:156-201`, all element-wise: the model is the computation for one grid cell and one time.
-/

namespace Wam

variable {α : Type}

section
variable [Add α] [Sub α] [Mul α] [Div α] [NpOps α]

/-- `accumulation_to_flux(data, input_frequency)`, preprocessing/utils.py:180-201; `nseconds` is the
length of the input time step in seconds (parsing the frequency string is pandas' work) -/
def accumulationToFlux (data nseconds : α) : α := ofRat 1000 * data / nseconds

/-- `preprocess_precip_and_evap`, preprocessing/era5.py:125-142, and the same statements in
preprocessing/arco.py:82-95.  `tp` and `e` in m per time step, `e` negative for evaporation.
Returns precipitation and evaporation. -/
def precipEvapEra5 (tp e nseconds : α) : α × α :=
  -- precip = np.maximum(precip, 0) + np.maximum(evap, 0)
  let precip := maximum tp (ofRat 0) + maximum e (ofRat 0)
  -- evap = np.abs(np.minimum(evap, 0))
  let evap := absolute (minimum e (ofRat 0))
  (accumulationToFlux precip nseconds, accumulationToFlux evap nseconds)

/-- The statements of `get_input_data`, preprocessing/cmip.py:55-59, with `load_cmip_var` dividing the latent
heat flux by `LATENT_HEAT` (cmip.py:32,106-107).  `pr` in kg m-2 s-1, `hfls` (W m-2) positive for
evaporation. -/
def precipEvapCmip (pr hfls : α) : α × α :=
  let evap0 := hfls / ofRat 2450000
  -- data["precip"] = np.maximum(data["precip"], 0) + np.minimum(data["evap"], 0)
  let precip := maximum pr (ofRat 0) + minimum evap0 (ofRat 0)
  -- data["evap"] = np.abs(np.maximum(data["evap"], 0))
  let evap := absolute (maximum evap0 (ofRat 0))
  (precip, evap)

/-- `np.exp`, preprocessing/utils.py:172 -/
class NpExp (α : Type) where
  exp : α → α

/-- saturation vapour pressure by Teten's formula, `svp` in preprocessing/utils.py:172 -/
def saturationPressure [NpExp α] (dewpoint : α) : α :=
  let a1 : α := ofRat (61121 / 100)
  let a3 : α := ofRat (17502 / 1000)
  let a4 : α := ofRat (3219 / 100)
  let t0 : α := ofRat (27315 / 100)
  a1 * NpExp.exp (a3 * (dewpoint - t0) / (dewpoint - a4))

/-- `calculate_humidity(dewpoint, pressure)`, preprocessing/utils.py:156-177 -/
def calculateHumidity [NpExp α] (dewpoint pressure : α) : α :=
  let Rd : α := ofRat (2870597 / 10000)
  let Rv : α := ofRat (4615250 / 10000)
  let svp := saturationPressure dewpoint
  (Rd / Rv) * svp / (pressure - ((ofRat 1 - Rd / Rv) * svp))

end

/-! ### CMIP time axis -/

/-- pairwise mean of consecutive samples:
`(data.isel(time=slice(0, None, 2)) + data.isel(time=slice(1, None, 2))) / 2`, cmip.py:126.  xarray
aligns the two operands on the new labels; both have the labels of the even samples. -/
def pairMeans [Add α] [Div α] [NpOps α] : List α → List α
  | x :: y :: l => ((x + y) / ofRat 2) :: pairMeans l
  | _ => []

/-- every second element, `isel(time=slice(None, None, 2))`, cmip.py:123 -/
def everySecond {β : Type} : List β → List β
  | x :: _ :: l => x :: everySecond l
  | [x] => [x]
  | [] => []

/-- `resample_3hr_var(data)`, cmip.py:117-126, with `assert_correct_starttime` (cmip.py:129-135).
`times` in microseconds since 1970 in calendar `c`.  The new
time axis `np.repeat(times[::2] + 4h30m, 2)` must have the length of the old one: an odd number of
samples is an error (`ValueError: conflicting sizes`).  Returns time and value of each sample. -/
def resample3hr [Add α] [Div α] [NpOps α] (c : Calendar) (times : List ℤ)
    (values : List α) : Except Err (List (ℤ × α)) :=
  match times with
  | [] => .error .indexError
  | t0 :: _ =>
    if ((dateTimeOf c t0).hour, (dateTimeOf c t0).minute) ≠ (1, 30) then .error .valueError
    else
      let labels := (everySecond times).map fun t => t + (4 * 60 + 30) * 60 * 1000000
      let repeated := labels.flatMap fun t => [t, t]
      if repeated.length ≠ times.length then .error .valueError
      else .ok ((everySecond repeated).zip (pairMeans values))

/-- `load_cmip_var` for the 3-hourly flux variables, cmip.py:105,112-114: resample, then
`data.sel(time=datetime)`, which raises `KeyError` for a label that does not exist.  The division
of `hfls` by the latent heat is in `precipEvapCmip`. -/
def loadCmipFlux [Add α] [Div α] [NpOps α] (c : Calendar) (times : List ℤ) (values : List α)
    (t : ℤ) : Except Err α := do
  let data ← resample3hr c times values
  match data.find? (fun x => x.1 == t) with
  | some x => .ok x.2
  | none => .error .keyError

/-- `common_levels(*levels)`, cmip.py:138-144: the levels that occur in every variable.  The order of
`list(set)` is arbitrary: `order` is any function that lists the elements of a finite set; here the
set is represented by the list without duplicates. -/
def commonLevels [DecidableEq α] (order : List α → List α) (l : List α) (ls : List (List α)) :
    List α :=
  order (ls.foldl (fun common lv => common.filter fun x => x ∈ lv) l.dedup)

end Wam
