import Verif.Model.IO
import Verif.Model.Column
import Mathlib.Data.List.Sort
import Mathlib.Data.List.Dedup
import Mathlib.Algebra.Order.Floor.Defs

/-!
# The preprocessing run

`/repo/src/wam2layers/preprocessing/shared.py:25-34,88-283` and `xarray_append.py:31-44`: the list of times,
their grouping by day, the files written and appended to, the parallel run, and
`shift_longitude`.
-/

namespace Wam

/-! ### Longitudes -/

/-- `a % b` for floats (`np.mod`: the result has the sign of the divisor),
preprocessing/shared.py:281 -/
class NpMod (α : Type) where
  mod : α → α → α

/-- exact modulo of an ordered field with a floor function (used at preprocessing/shared.py:281) -/
instance {K : Type} [Field K] [LinearOrder K] [FloorRing K] : NpMod K where
  mod a b := a - b * (⌊a / b⌋ : ℤ)

section
variable {κ α : Type} [Add κ] [Sub κ] [NpOps κ] [NpMod κ]

/-- `(ds.coords["longitude"] + 180) % 360 - 180`, preprocessing/shared.py:281 -/
def wrapLongitude (x : κ) : κ := NpMod.mod (x + ofRat 180) (ofRat 360) - ofRat 180

/-- positions of the elements of `xs` in increasing order, elements that compare equal keep their order
(`ds.sortby`, which uses `np.lexsort`, preprocessing/shared.py:282) -/
def sortedPositions (xs : List κ) : List ℕ :=
  (List.range xs.length).insertionSort fun i j =>
    NpOps.le (xs.getD i (ofRat 0)) (xs.getD j (ofRat 0)) = true

/-- `shift_longitude(ds)`, preprocessing/shared.py:275-283 -/
def shiftLongitude (ds : Dataset κ α) : Dataset κ α :=
  if ds.longitude.any (fun x => NpOps.lt (ofRat 180) x) ||
      ds.longitude.any (fun x => NpOps.lt x (ofRat 0)) then
    let ds : Dataset κ α := { ds with longitude := ds.longitude.map wrapLongitude }
    ds.isel (List.range ds.latitude.length) (sortedPositions ds.longitude)
  else ds

end

/-! ### Times -/

/-- `get_input_dates(config)`, preprocessing/shared.py:25-34: `xr.cftime_range` from the start date in steps of the
input frequency up to and including the end date, rounded to minutes.  Times in microseconds. -/
def inputDates (start stop freq : ℤ) : List ℤ :=
  ((List.range ((stop - start) / freq + 1).toNat).map fun k : ℕ => start + k * freq).map
    fun t => roundTime t 60000000

/-- the grouping key, preprocessing/shared.py:254 -/
def dayKey (c : Calendar) (t : ℤ) : ℤ :=
  let d := (dateTimeOf c t).date
  d.year * 10000 + d.month * 100 + d.day

/-- `group_timestamps_by_day(daterange)`, preprocessing/shared.py:243-255: `pandas.Index.groupby` gives the sorted
distinct keys, each with the elements of that key in their original order -/
def groupByDay (c : Calendar) (ts : List ℤ) : List (ℤ × List ℤ) :=
  ((ts.map (dayKey c)).dedup.insertionSort (· ≤ ·)).map fun k =>
    (k, ts.filter fun t => dayKey c t = k)

/-! ### Files -/

/-- What a path of the preprocessed data folder can hold: something that cannot be opened (a file that
is being written, or whose writing was interrupted), or a file of preprocessed data.
(preprocessing/shared.py:226-240) -/
inductive PrepFile (κ α : Type) where
  | broken
  | data (f : DataFile κ α)

/-- the folder of preprocessed data: the file at each path, if there is one,
preprocessing/shared.py:226-240 -/
abbrev PrepDisk (κ α : Type) := List Char → Option (PrepFile κ α)

section
variable {κ α : Type}

/-- change one file, preprocessing/shared.py:226-240 -/
def PrepDisk.put (disk : PrepDisk κ α) (path : List Char) (f : Option (PrepFile κ α)) :
    PrepDisk κ α := fun p => if p = path then f else disk p

/-- what `ds.to_netcdf(output_path, mode="w")` leaves at the path, preprocessing/shared.py:230-237 -/
def newFile (c : Calendar) (t : ℤ) (ds : Dataset κ α) : DataFile κ α :=
  { calendar := c, entries := [(t, ds)] }

/-- `append_to_netcdf(filename, ds, "time")`, xarray_append.py:31-44: variables with a time dimension are
extended by one step, everything else (latitude, longitude and their bounds) is assumed to be the
same as in the file and is not compared (`Model/Netcdf` has the arrays and slices; C121 shows that it comes to the same).  SIMPLIFICATION: data of another shape is a
`ValueError`. -/
def appendToFile (f : DataFile κ α) (t : ℤ) (ds : Dataset κ α) : Except Err (DataFile κ α) :=
  match f.entries with
  | [] => .error .indexError
  | (_, d0) :: _ =>
    if ds.vars.all (fun v => decide (v ∈ d0.vars)) = false then .error .indexError
    else if ds.latitude.length ≠ d0.latitude.length ∨ ds.longitude.length ≠ d0.longitude.length then
      .error .valueError
    else .ok { f with entries :=
      f.entries ++ [(t, { ds with latitude := d0.latitude, longitude := d0.longitude })] }

/-- The new content of the file for one time: the body of the loop of `preprocess`, preprocessing/shared.py:146-240,
given the content of the file at `output_path`.  `compute t` stands for lines 149-224
(loading, vertical integration, `shift_longitude`); it does not depend on the preprocessed
files. -/
def prepContent (compute : ℤ → Except Err (Dataset κ α)) (c : Calendar) (isNew : Bool) (t : ℤ)
    (old : Option (PrepFile κ α)) : Except Err (PrepFile κ α) := do
  let ds ← compute t
  if isNew then return .data (newFile c t ds)
  else
    match old with
    | none => .error .fileNotFound
    | some .broken => .error (.other "OSError: not a valid netCDF file")
    | some (.data f) =>
      let f ← appendToFile f t ds
      return .data f

/-- the loop of `preprocess`, preprocessing/shared.py:145-240, from a certain time on; the files stay as they are when
an exception is raised -/
def prepLoop (compute : ℤ → Except Err (Dataset κ α)) (c : Calendar) (dir : List Char) :
    (isNew : Bool) → List ℤ → PrepDisk κ α → Option Err × PrepDisk κ α
  | _, [], disk => (none, disk)
  | isNew, t :: ts, disk =>
    let path := inputPath c t dir
    match prepContent compute c isNew t (disk path) with
    | .error e => (some e, disk)
    | .ok f => prepLoop compute c dir false ts (disk.put path (some f))

/-- `preprocess(datetimes, data_source, config)`, preprocessing/shared.py:135-240: the first time of the day makes a new
file (`is_new_day = i == 0`) -/
def preprocessDay (compute : ℤ → Except Err (Dataset κ α)) (c : Calendar) (dir : List Char)
    (ts : List ℤ) (disk : PrepDisk κ α) : Option Err × PrepDisk κ α :=
  prepLoop compute c dir true ts disk

/-- the sequential loop over the days, preprocessing/shared.py:131-132 -/
def prepDays (compute : ℤ → Except Err (Dataset κ α)) (c : Calendar) (dir : List Char) :
    List (List ℤ) → PrepDisk κ α → Option Err × PrepDisk κ α
  | [], disk => (none, disk)
  | ts :: days, disk =>
    match preprocessDay compute c dir ts disk with
    | (some e, disk) => (some e, disk)
    | (none, disk) => prepDays compute c dir days disk

/-- `prep_experiment` with `parallel_preprocess: false`, preprocessing/shared.py:88-132 -/
def prepExperiment (compute : ℤ → Except Err (Dataset κ α)) (c : Calendar) (dir : List Char)
    (start stop freq : ℤ) (disk : PrepDisk κ α) : Option Err × PrepDisk κ α :=
  prepDays compute c dir ((groupByDay c (inputDates start stop freq)).map Prod.snd) disk

/-! ### The parallel run

`parallel_preprocess`, preprocessing/shared.py:258-272: a pool of processes, each working on one day at a time.  The
model allows every interleaving of the processes (a pool of any size gives some of them).  Writing
a file takes two steps: first the file is unreadable, then it has its new content. -/

/-- one process: is the next time the first of its day, what is left to do, and the file being
written (its new content), preprocessing/shared.py:258-272 -/
structure Worker (κ α : Type) where
  isNew : Bool
  todo : List ℤ
  pending : Option (PrepFile κ α)
  failed : Option Err

/-- a worker before `preprocess(datetimes)`, preprocessing/shared.py:135-146 -/
def Worker.start (ts : List ℤ) : Worker κ α := ⟨true, ts, none, none⟩

/-- one step of a worker, preprocessing/shared.py:145-240 -/
def Worker.step (compute : ℤ → Except Err (Dataset κ α)) (c : Calendar) (dir : List Char)
    (w : Worker κ α) (disk : PrepDisk κ α) : Worker κ α × PrepDisk κ α :=
  match w.failed, w.todo with
  | none, t :: ts =>
    let path := inputPath c t dir
    match w.pending with
    | some f => (⟨false, ts, none, none⟩, disk.put path (some f))
    | none =>
      match prepContent compute c w.isNew t (disk path) with
      | .error e => ({ w with failed := some e }, disk)
      | .ok f => ({ w with pending := some f }, disk.put path (some .broken))
  | _, _ => (w, disk)

/-- the pool: a schedule says which worker makes the next step, preprocessing/shared.py:258-272 -/
def poolRun (compute : ℤ → Except Err (Dataset κ α)) (c : Calendar) (dir : List Char) :
    List ℕ → List (Worker κ α) × PrepDisk κ α → List (Worker κ α) × PrepDisk κ α
  | [], s => s
  | i :: schedule, (ws, disk) =>
    match ws[i]? with
    | none => poolRun compute c dir schedule (ws, disk)
    | some w =>
      let (w, disk) := w.step compute c dir disk
      poolRun compute c dir schedule (ws.set i w, disk)

/-- `parallel_preprocess(day_groups, ...)` under a schedule, preprocessing/shared.py:258-272 -/
def parallelPrep (compute : ℤ → Except Err (Dataset κ α)) (c : Calendar) (dir : List Char)
    (start stop freq : ℤ) (schedule : List ℕ) (disk : PrepDisk κ α) :
    List (Worker κ α) × PrepDisk κ α :=
  poolRun compute c dir schedule
    (((groupByDay c (inputDates start stop freq)).map Prod.snd).map Worker.start, disk)

end

/-! ### One time step on the whole grid -/

/-- the input of one time, `get_input_data`, preprocessing/shared.py:37-85, as described in its documentation;
`column i j` and `surface i j` are the profiles and surface values at grid cell `i, j` -/
structure RawInput (κ α : Type) where
  latitude : List κ
  longitude : List κ
  column : ℕ → ℕ → Column α
  surface : ℕ → ℕ → Surface α
  tcw : Option (ℕ → ℕ → α)
  precip : ℕ → ℕ → α
  evap : ℕ → ℕ → α

/-- the variables of one grid cell, preprocessing/shared.py:201-213 -/
def cellVar {α : Type} (s : LayerSums α) (precip evap : α) : Var → α
  | .fx_upper => s.fx_upper
  | .fy_upper => s.fy_upper
  | .fx_lower => s.fx_lower
  | .fy_lower => s.fy_lower
  | .s_upper => s.s_upper
  | .s_lower => s.s_lower
  | .evap => evap
  | .precip => precip

/-- all variables of a preprocessed file, preprocessing/shared.py:201-213 -/
def allVars : List Var :=
  [.fx_upper, .fy_upper, .fx_lower, .fy_lower, .s_upper, .s_lower, .evap, .precip]

/-- the body of `preprocess` between loading and writing, preprocessing/shared.py:149-218; `cell` is the column
computation (`preprocessPressure` or `preprocessModel`) at a grid cell.  Not modelled: the
conversion to float32 and the attributes. -/
def prepTime {κ α : Type} [Add κ] [Sub κ] [NpOps κ] [NpMod κ] [NpOps α]
    (cell : RawInput κ α → ℕ → ℕ → Except Err (LayerSums α)) (raw : RawInput κ α) :
    Except Err (Dataset κ α) := do
  let rows ← (List.range raw.latitude.length).mapM fun i =>
    (List.range raw.longitude.length).mapM fun j => cell raw i j
  let zero : LayerSums α := ⟨ofRat 0, ofRat 0, ofRat 0, ofRat 0, ofRat 0, ofRat 0⟩
  let ds : Dataset κ α :=
    { latitude := raw.latitude
      longitude := raw.longitude
      vars := allVars
      data := fun v i j => cellVar ((rows.getD i []).getD j zero) (raw.precip i j) (raw.evap i j) v }
  return shiftLongitude ds

end Wam
