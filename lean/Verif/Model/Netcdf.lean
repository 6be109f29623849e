import Verif.Model.Prep

/-!
# netCDF files with an unlimited dimension

`/repo/src/wam2layers/preprocessing/xarray_append.py:10-44` and the writing of a new file, `preprocessing/shared.py:229-237`: arrays with named
dimensions, encoding of dates, writing of slices.  `Model/Prep` describes the same files as a list of times with data; `Props/Netcdf` shows
that it is the same.
-/

namespace Wam

/-- what is stored in a file: nothing (the fill value), a number, or a whole number of seconds since the reference date;
encoding as in preprocessing/shared.py:232 -/
inductive Raw (α : Type) where
  | fill
  | num (x : α)
  | secs (n : ℤ)
  deriving DecidableEq

/-- a value in memory: a number or a date (microseconds since 1970 in the calendar of the data), xarray_append.py:20 -/
inductive Value (α : Type) where
  | num (x : α)
  | date (t : ℤ)
  deriving DecidableEq

/-- a variable of a file, `netCDF4.Variable`; `units` is the reference date of a variable with attributes `units` and `calendar`,
xarray_append.py:15-19; `data` is meaningful at positions within the lengths of the dimensions -/
structure NcVar (α : Type) where
  dims : List String
  units : Option ℤ
  data : List ℕ → Raw α

/-- a file, `netCDF4.Dataset`, xarray_append.py:32 -/
structure NcFile (α : Type) where
  length : String → ℕ
  vars : String → Option (NcVar α)

/-- a variable in memory, `xr.Variable`, xarray_append.py:38 -/
structure XrVar (α : Type) where
  dims : List String
  data : List ℕ → Value α

/-- a dataset in memory, `xr.Dataset`: variables (coordinates included) in some order, xarray_append.py:36 -/
structure XrDataset (α : Type) where
  size : String → ℕ
  vars : List (String × XrVar α)

section
variable {α : Type}

/-- `xr.conventions.encode_cf_variable(data)` with the units of the variable in the file, xarray_append.py:15-20.
SIMPLIFICATION: dates are whole seconds after or before the reference date (others are cut), and dates are only written to
variables with units. -/
def encodeValue (units : Option ℤ) : Value α → Raw α
  | .num x => .num x
  | .date t =>
    match units with
    | some epoch => .secs ((t - epoch) / 1000000)
    | none => .fill

/-- what is read back (`decode_cf`, when a file is opened with `xr.open_dataset`, io.py:79) -/
def decodeValue (units : Option ℤ) : Raw α → Option (Value α)
  | .fill => none
  | .num x => some (.num x)
  | .secs n =>
    match units with
    | some epoch => some (.date (epoch + n * 1000000))
    | none => none

/-- `nc_variable[nc_slice] = data`, xarray_append.py:21-28: along dimension number `left` the positions from `nc_shape` to
`nc_shape + added_size`, along the others all -/
def NcVar.setSlice (v : NcVar α) (left nc_shape added_size : ℕ) (new : List ℕ → Raw α) : NcVar α :=
  { v with data := fun idx =>
      let k := idx.getD left 0
      if nc_shape ≤ k ∧ k < nc_shape + added_size then new (idx.set left (k - nc_shape)) else v.data idx }

/-- `_expand_variable(nc[name], data, expanding_dim, nc_shape, added_size)`, xarray_append.py:10-28, 43-44: an unknown name is an
`IndexError`; writing beyond the end of the unlimited dimension makes it longer, for all variables.
SIMPLIFICATION: data with other dimensions or another shape than the variable in the file are a `ValueError` (netCDF4 looks only at
the shape, and repeats data of length 1). -/
def expandVariable (file : NcFile α) (name : String) (size : String → ℕ) (data : XrVar α) (expanding_dim : String)
    (nc_shape added_size : ℕ) : Except Err (NcFile α) :=
  match file.vars name with
  | none => .error .indexError
  | some v =>
    if data.dims = v.dims ∧ ∀ d ∈ data.dims, d ≠ expanding_dim → size d = file.length d then
      .ok { length := fun d => if d = expanding_dim then max (file.length d) (nc_shape + added_size) else file.length d
            vars := Function.update file.vars name (some (v.setSlice (data.dims.idxOf expanding_dim) nc_shape added_size
              fun idx => encodeValue v.units (data.data idx))) }
    else .error .valueError

/-- the loop over the variables, xarray_append.py:38-44; an exception leaves the file with what was written before -/
def appendLoop (size : String → ℕ) (expanding_dim : String) (nc_shape added_size : ℕ) :
    List (String × XrVar α) → NcFile α → Option Err × NcFile α
  | [], file => (none, file)
  | (name, data) :: rest, file =>
    if expanding_dim ∈ data.dims then
      match expandVariable file name size data expanding_dim nc_shape added_size with
      | .error e => (some e, file)
      | .ok file => appendLoop size expanding_dim nc_shape added_size rest file
    else appendLoop size expanding_dim nc_shape added_size rest file

/-- `append_to_netcdf(filename, ds_to_append, expanding_dim)`, xarray_append.py:31-44 -/
def appendToNetcdf (file : NcFile α) (ds : XrDataset α) (expanding_dim : String) : Option Err × NcFile α :=
  let nc_shape := file.length expanding_dim
  let added_size := ds.size expanding_dim
  appendLoop ds.size expanding_dim nc_shape added_size ds.vars file

/-- `ds.to_netcdf(output_path, unlimited_dims=["time"], mode="w", encoding=encoding)`, preprocessing/shared.py:229-237: the variable `time`
gets the reference date `epoch` -/
def toNetcdf (epoch : ℤ) (ds : XrDataset α) : NcFile α :=
  { length := ds.size
    vars := fun name =>
      match ds.vars.find? (fun x => x.1 = name) with
      | none => none
      | some (_, x) =>
        let units := if name = "time" then some epoch else none
        some { dims := x.dims, units := units, data := fun idx => encodeValue units (x.data idx) } }

/-- names of the variables, preprocessing/shared.py:203-213 -/
def Var.name : Var → String
  | .fx_upper => "fx_upper"
  | .fx_lower => "fx_lower"
  | .fy_upper => "fy_upper"
  | .fy_lower => "fy_lower"
  | .evap => "evap"
  | .precip => "precip"
  | .s_upper => "s_upper"
  | .s_lower => "s_lower"

/-- the dataset that is written for time `t`, preprocessing/shared.py:200-216: `expand_dims("time")` puts the time first.
SIMPLIFICATION: without the bounds of the coordinates (`add_bounds`, preprocessing/shared.py:218), which have no time dimension. -/
def timeSlice (t : ℤ) (ds : Dataset α α) (fallback : α) : XrDataset α :=
  { size := fun d => if d = "time" then 1 else if d = "latitude" then ds.latitude.length
      else if d = "longitude" then ds.longitude.length else 0
    vars := ("time", ⟨["time"], fun _ => .date t⟩) ::
      ("latitude", ⟨["latitude"], fun idx => .num (ds.latitude.getD (idx.getD 0 0) fallback)⟩) ::
      ("longitude", ⟨["longitude"], fun idx => .num (ds.longitude.getD (idx.getD 0 0) fallback)⟩) ::
      ds.vars.map fun v => (v.name, ⟨["time", "latitude", "longitude"], fun idx => .num (ds.data v (idx.getD 1 0) (idx.getD 2 0))⟩) }

/-- the loop over the later times of a day, preprocessing/shared.py:145-240, as far as the file is concerned; it ends with the first
exception -/
def appendAll : List (XrDataset α) → NcFile α → Option Err × NcFile α
  | [], file => (none, file)
  | ds :: rest, file =>
    match appendToNetcdf file ds "time" with
    | (some e, file) => (some e, file)
    | (none, file) => appendAll rest file

/-- the reference date of `"seconds since 1900-01-01"`, preprocessing/shared.py:232, io.py:211 -/
def epoch1900 (c : Calendar) : ℤ := timeOf c ⟨⟨1900, 1, 1⟩, 0, 0, 0, 0⟩

end

end Wam
