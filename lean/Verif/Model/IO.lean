import Verif.Model.Num
import Verif.Model.Run
import Verif.Model.Calendar
import Mathlib.Data.List.Rotate

/-!
# Reading input and naming files

`/repo/src/wam2layers/tracking/io.py:24-155` and `/repo/src/wam2layers/tracking/shared.py:30-38`.

Coordinates have an ordered type `κ` (SIMPLIFICATION: no NaN among coordinates), data a numeric
carrier `α`.  A `Dataset` is a labelled 2-d dataset: values are attached to positions, positions
to coordinates, as in xarray.
-/

namespace Wam

/-! ### File names -/

/-- `input_path(date, input_dir)`, io.py:24-25 -/
def inputPath (c : Calendar) (t : ℤ) (dir : List Char) : List Char :=
  dir ++ '/' :: (dayString (dateTimeOf c t).date ++ "_fluxes_storages.nc".toList)

/-- `mode` of `output_path`, io.py:30 -/
def modeString (backward : Bool) : List Char :=
  if backward then "backtrack".toList else "forwardtrack".toList

/-- `output_path(date, config)`, io.py:28-31 -/
def outputPath (c : Calendar) (t : ℤ) (dir : List Char) (backward : Bool) : List Char :=
  dir ++ '/' :: (modeString backward ++ '_' :: (minuteString (dateTimeOf c t) ++ ".nc".toList))

/-! ### Datasets -/

/-- the variables of the preprocessed files, io.py:97-100 -/
inductive Var where
  | fx_upper | fx_lower | fy_upper | fy_lower | evap | precip | s_upper | s_lower
  deriving DecidableEq, Repr

/-- argument `subset` of `load_data`, io.py:97-100 -/
inductive Subset where
  | fluxes
  | states
  deriving DecidableEq, Repr

/-- the dictionary `variables`, io.py:97-100 -/
def Subset.variables : Subset → List Var
  | .fluxes => [.fx_upper, .fx_lower, .fy_upper, .fy_lower, .evap, .precip]
  | .states => [.s_upper, .s_lower]

/-- an `xr.Dataset` with dimensions latitude and longitude, as returned by
`_load_slice_with_cache`, io.py:95-111.  `data v i j` is meaningful for `v ∈ vars`,
`i < latitude.length`, `j < longitude.length`. -/
structure Dataset (κ α : Type*) where
  latitude : List κ
  longitude : List κ
  vars : List Var
  data : Var → ℕ → ℕ → α

namespace Dataset
variable {κ α : Type*}

/-- positional selection (`ds.isel`): row `i` of the result is row `rows[i]`, with its coordinate; used
for `.sel` and `.roll`, io.py:50-63 -/
def isel (ds : Dataset κ α) (rows cols : List ℕ) : Dataset κ α :=
  { latitude := rows.filterMap fun i => ds.latitude[i]?
    longitude := cols.filterMap fun j => ds.longitude[j]?
    vars := ds.vars
    data := fun v i j => ds.data v (rows.getD i 0) (cols.getD j 0) }

/-- `ds[variables]`, io.py:106 -/
def getVars (ds : Dataset κ α) (vs : List Var) : Except Err (Dataset κ α) :=
  if vs.all fun v => decide (v ∈ ds.vars) then .ok { ds with vars := vs } else .error .keyError

/-- `da0 + w * (da1 - da0)`, io.py:134.  SIMPLIFICATION: both slices are on the same grid and have the
same variables (xarray would take the intersection). -/
def lerp [Add α] [Sub α] [Mul α] (w : α) (da0 da1 : Dataset κ α) : Dataset κ α :=
  { da0 with data := fun v i j => da0.data v i j + w * (da1.data v i j - da0.data v i j) }

end Dataset

/-! ### `select_subdomain` -/

/-- a bounding box, config.py:41-48 -/
structure BoundingBox (κ : Type*) where
  west : κ
  south : κ
  east : κ
  north : κ
  deriving DecidableEq

section Select
variable {κ α : Type} [LinearOrder κ]

/-- positions selected by the label slice `slice(start, stop)` on an axis (pandas
`Index.slice_indexer`, used at io.py:50-53 and io.py:63).  On a monotonic axis both ends are found
with `searchsorted`: the number of labels before `start` and the number up to and including `stop`,
in the order of the axis.  SIMPLIFICATION: an axis that is not monotonic is an error (pandas
accepts it if both labels occur exactly once). -/
def labelSlice (xs : List κ) (start stop : κ) : Except Err (List ℕ) :=
  if xs.Pairwise (· ≤ ·) then
    let l := xs.countP (· < start)
    let r := xs.countP (· ≤ stop)
    .ok (List.range' l (r - l))
  else if xs.Pairwise (· ≥ ·) then
    let l := xs.countP (start < ·)
    let r := xs.countP (stop ≤ ·)
    .ok (List.range' l (r - l))
  else .error .keyError

/-- `in_bbox = (ds.longitude < east) | (ds.longitude > west)`, io.py:59,62 -/
def inBox (west east x : κ) : Bool := decide (x < east) || decide (west < x)

/-- `in_bbox.argmin().item()`: position of the first `False`, 0 if there is none, io.py:60 -/
def argminBool (bs : List Bool) : ℕ := if false ∈ bs then bs.idxOf false else 0

/-- `select_subdomain(ds, bbox)`, io.py:46-63 -/
def selectSubdomain (ds : Dataset κ α) (bbox : BoundingBox κ) : Except Err (Dataset κ α) := do
  if bbox.west < bbox.east then
    let cols ← labelSlice ds.longitude bbox.west bbox.east
    let rows ← labelSlice ds.latitude bbox.north bbox.south
    return ds.isel rows cols
  else
    let in_bbox := ds.longitude.map (inBox bbox.west bbox.east)
    let n_roll := argminBool in_bbox
    let ds_rolled := ds.isel (List.range ds.latitude.length)
      ((List.range ds.longitude.length).rotate n_roll)
    let in_bbox := ds_rolled.longitude.map (inBox bbox.west bbox.east)
    let cols := (List.range in_bbox.length).filter fun j => in_bbox.getD j false
    let rows ← labelSlice ds_rolled.latitude bbox.north bbox.south
    return ds_rolled.isel rows cols

/-- `initialize_tagging_region(bbox, lat, lon)` at one cell, tracking/shared.py:30-38 -/
def taggingBoxAt (bbox : BoundingBox κ) (lat lon : κ) : ℕ :=
  let lat_in_bbox := decide (bbox.south ≤ lat) && decide (lat ≤ bbox.north)
  let unrolled_lon_in_bbox := decide (bbox.west ≤ lon) && decide (lon ≤ bbox.east)
  let rolled_lon_in_bbox := decide (bbox.west ≤ lon) || decide (lon ≤ bbox.east)
  let rolled_domain := decide (bbox.east < bbox.west)
  let lon_in_bbox := if rolled_domain then rolled_lon_in_bbox else unrolled_lon_in_bbox
  if lat_in_bbox && lon_in_bbox then 1 else 0

/-- `initialize_tagging_region(bbox, lat, lon)`, tracking/shared.py:30-38 -/
def initializeTaggingRegion (bbox : BoundingBox κ) (lat lon : List κ) : List (List ℕ) :=
  lat.map fun y => lon.map fun x => taggingBoxAt bbox y x

end Select

/-! ### `read_or_retry` -/

/-- `max_retries`, io.py:73 -/
def maxRetries : ℕ := 8

/-- `initial_delay` in milliseconds, io.py:74 -/
def initialDelay : ℕ := 500

/-- the loop of `read_or_retry` from attempt `n` on, `left = max_retries + 1 - n` attempts being
left; `attempt n` is the outcome of the `n`-th `xr.open_dataset`, `rand n` the result of the `n`-th
`np.random.randint(base_delay)`.  Returns the result, the number of attempts made and the delays in
milliseconds.  io.py:76-91 -/
def retryFrom {β : Type*} (attempt : ℕ → Except Err β) (rand : ℕ → ℕ) :
    (left n : ℕ) → Except Err β × ℕ × List ℕ
  | 0, n => (.error (.other "returns None"), n, [])
  | left + 1, n =>
    match attempt n with
    | .ok ds => (.ok ds, n + 1, [])
    | .error .indexError =>
      if n = maxRetries then (.error .indexError, n + 1, [])
      else
        let base_delay := initialDelay * 2 ^ n
        let next_delay := base_delay + rand n
        let r := retryFrom attempt rand left (n + 1)
        (r.1, r.2.1, next_delay :: r.2.2)
    | .error e => (.error e, n + 1, [])

/-- `read_or_retry(filename)`, io.py:66-91 -/
def readOrRetry {β : Type*} (attempt : ℕ → Except Err β) (rand : ℕ → ℕ) :
    Except Err β × ℕ × List ℕ :=
  retryFrom attempt rand (maxRetries + 1) 0

/-! ### Loading slices -/

/-- a preprocessed file: its calendar and, for each time on its axis, the data of that time,
io.py:95-111 -/
structure DataFile (κ α : Type*) where
  calendar : Calendar
  entries : List (ℤ × Dataset κ α)

/-- the arguments of `_load_slice_with_cache`, io.py:95 (the box is passed as a string of four
floats, which determines it, io.py:117, config.py:47-48) -/
structure SliceKey (κ : Type*) where
  filename : List Char
  time : List Char
  subset : Subset
  bbox : Option (BoundingBox κ)
  deriving DecidableEq

/-- the settings `load_data` uses, io.py:114-126; `input_frequency` in microseconds -/
structure IOConfig (κ : Type*) where
  calendar : Calendar
  preprocessed_data_folder : List Char
  tracking_domain : Option (BoundingBox κ)
  input_frequency : ℤ

section Load
variable {κ α : Type} [LinearOrder κ]

/-- `ds.sel(time=time).drop("time").squeeze()`, io.py:105: the label is a date-time with a resolution
of seconds, which selects all times of the file within that second (xarray partial datetime string
indexing).  SIMPLIFICATION: no or several such times are an error here; in the code a time
outside the range of the file is a `KeyError` and otherwise the dataset keeps a time dimension of
size other than 1, which fails at the in-place update of the tracked storage
(forwardtrack.py:62, backtrack.py:61). -/
def selectTime (file : DataFile κ α) (time : List Char) : Except Err (Dataset κ α) :=
  match file.entries.filter fun e => isoSecondString (dateTimeOf file.calendar e.1) = time with
  | [e] => .ok e.2
  | _ => .error .keyError

/-- `_load_slice_with_cache` without the cache, io.py:95-111; `files` is what `read_or_retry`
returns for each file name -/
def readSlice (files : List Char → Except Err (DataFile κ α)) (k : SliceKey κ) :
    Except Err (Dataset κ α) := do
  let file ← files k.filename
  let ds ← selectTime file k.time
  let ds ← ds.getVars k.subset.variables
  match k.bbox with
  | some bbox => selectSubdomain ds bbox
  | none => return ds

/-- the key `load_slice(t, subset, config)` computes, io.py:115-117 -/
def sliceKey (cfg : IOConfig κ) (t : ℤ) (subset : Subset) : SliceKey κ :=
  { filename := inputPath cfg.calendar t cfg.preprocessed_data_folder
    time := isoSecondString (dateTimeOf cfg.calendar t)
    subset := subset
    bbox := cfg.tracking_domain }

/-- `load_data(t, config, subset)` given `load_slice`, io.py:124-134 -/
def loadDataWith [Add α] [Sub α] [Mul α] [NpOps α]
    (loadSlice : ℤ → Except Err (Dataset κ α)) (freq t : ℤ) : Except Err (Dataset κ α) := do
  let t0 := floorTime t freq
  let t1 := ceilTime t freq
  if t = t0 ∨ t = t1 then loadSlice t
  else
    let da0 ← loadSlice t0
    let da1 ← loadSlice t1
    return Dataset.lerp (ofRat ((t - t0 : ℤ) / (t1 - t0 : ℤ))) da0 da1

/-- `load_data(t, config, subset)` without the cache, io.py:114-134 -/
def loadData [Add α] [Sub α] [Mul α] [NpOps α]
    (files : List Char → Except Err (DataFile κ α)) (cfg : IOConfig κ) (t : ℤ) (subset : Subset) :
    Except Err (Dataset κ α) :=
  loadDataWith (fun s => readSlice files (sliceKey cfg s subset)) cfg.input_frequency t

end Load

/-- the arrays `S["s_upper"].values`, `S["s_lower"].values` of a loaded dataset on an
`(m+2) x (n+2)` grid, forwardtrack.py:48-49 -/
def Dataset.toStates {κ α : Type} {m n : ℕ} (ds : Dataset κ α) : States (m + 2) (n + 2) α :=
  { s_upper := fun i j => ds.data .s_upper i j
    s_lower := fun i j => ds.data .s_lower i j }

/-- the arrays of the fluxes of a loaded dataset, forwardtrack.py:41-46 -/
def Dataset.toFluxes {κ α : Type} {m n : ℕ} (ds : Dataset κ α) : Fluxes (m + 2) (n + 2) α :=
  { fx_upper := fun i j => ds.data .fx_upper i j
    fy_upper := fun i j => ds.data .fy_upper i j
    fx_lower := fun i j => ds.data .fx_lower i j
    fy_lower := fun i j => ds.data .fy_lower i j
    evap := fun i j => ds.data .evap i j
    precip := fun i j => ds.data .precip i j }

/-- what a run reads when its data come from preprocessed files: `load_data(t, config, "states")` and
`load_data(t, config, "fluxes")`, forwardtrack.py:178-180, backtrack.py:175-177 -/
def archiveSource {κ α : Type} {m n : ℕ} [LinearOrder κ] [Add α] [Sub α] [Mul α] [NpOps α]
    (files : List Char → Except Err (DataFile κ α)) (cfg : IOConfig κ) (grid : GridInfo (m + 2) α)
    (region : Except Err (Region (m + 2) (n + 2) α)) (weight : Fin (m + 2) → α) : Source m n α :=
  { states := fun t => (loadData files cfg t .states).map Dataset.toStates
    fluxes := fun t => (loadData files cfg t .fluxes).map Dataset.toFluxes
    grid := grid
    region := region
    weight := weight }

/-! ### The cache

`functools.lru_cache(maxsize=6)`, io.py:94, and `deepcopy`, io.py:121.  Datasets are mutable
objects: the heap holds them, references are positions in the heap. -/

/-- `maxsize`, io.py:94 -/
def cacheSize : ℕ := 6

/-- The memory of the process: all datasets ever created, and the cache (most recently used first),
io.py:94-121 -/
structure Mem (Key D : Type*) where
  heap : List D
  cache : List (Key × ℕ)

namespace Mem
variable {Key D : Type*} [DecidableEq Key]

/-- create an object, io.py:119-121 -/
def alloc (mem : Mem Key D) (d : D) : ℕ × Mem Key D :=
  (mem.heap.length, { mem with heap := mem.heap ++ [d] })

/-- `_load_slice_with_cache(key)`, io.py:94-111: the cached object, or a new one -/
def cached (read : Key → Except Err D) (mem : Mem Key D) (k : Key) :
    Except Err ℕ × Mem Key D :=
  match mem.cache.find? fun e => e.1 = k with
  | some e => (.ok e.2, { mem with cache := e :: mem.cache.eraseP fun e => e.1 = k })
  | none =>
    match read k with
    | .error e => (.error e, mem)
    | .ok d =>
      let (r, mem) := mem.alloc d
      (.ok r, { mem with cache := ((k, r) :: mem.cache).take cacheSize })

/-- `load_slice`, io.py:119-121: `deepcopy` of the cached object -/
def loadSlice (read : Key → Except Err D) (mem : Mem Key D) (k : Key) :
    Except Err ℕ × Mem Key D :=
  match mem.cached read k with
  | (.error e, mem) => (.error e, mem)
  | (.ok r, mem) =>
    match mem.heap[r]? with
    | none => (.error (.other "dangling reference"), mem)
    | some d =>
      let (r', mem) := mem.alloc d
      (.ok r', mem)

/-- `load_data`, io.py:124-134, for one or two slices and the interpolation `combine` -/
def loadTwo (read : Key → Except Err D) (combine : D → D → D) (mem : Mem Key D) (k0 k1 : Key) :
    Except Err ℕ × Mem Key D :=
  match mem.loadSlice read k0 with
  | (.error e, mem) => (.error e, mem)
  | (.ok r0, mem) =>
    match mem.loadSlice read k1 with
    | (.error e, mem) => (.error e, mem)
    | (.ok r1, mem) =>
      match mem.heap[r0]?, mem.heap[r1]? with
      | some d0, some d1 =>
        let (r, mem) := mem.alloc (combine d0 d1)
        (.ok r, mem)
      | _, _ => (.error (.other "dangling reference"), mem)

end Mem

/-- What the rest of the program does with the data: load a slice, load an interpolation of two
slices, modify (in place) the `i`-th dataset it was given (e.g. forwardtrack.py:186-187,205) -/
inductive IOAction (Key D : Type*) where
  | load (k : Key)
  | loadTwo (k0 k1 : Key) (combine : D → D → D)
  | modify (i : ℕ) (f : D → D)

/-- one action with the cache: `refs` are the references handed out so far, io.py:94-134 -/
def ioStep {Key D : Type*} [DecidableEq Key] (read : Key → Except Err D)
    (s : List ℕ × Mem Key D) : IOAction Key D → Option Err × (List ℕ × Mem Key D)
  | .load k =>
    match s.2.loadSlice read k with
    | (.error e, mem) => (some e, (s.1, mem))
    | (.ok r, mem) => (none, (s.1 ++ [r], mem))
  | .loadTwo k0 k1 combine =>
    match s.2.loadTwo read combine k0 k1 with
    | (.error e, mem) => (some e, (s.1, mem))
    | (.ok r, mem) => (none, (s.1 ++ [r], mem))
  | .modify i f =>
    match s.1[i]? with
    | none => (some (.other "no such dataset"), s)
    | some r => (none, (s.1, { s.2 with heap := s.2.heap.modify r f }))

/-- a sequence of actions; the errors of the single actions are returned (the program may catch them),
io.py:94-134 -/
def ioRun {Key D : Type*} [DecidableEq Key] (read : Key → Except Err D)
    (s : List ℕ × Mem Key D) : List (IOAction Key D) → List (Option Err) × (List ℕ × Mem Key D)
  | [] => ([], s)
  | a :: as =>
    let r := ioStep read s a
    let r' := ioRun read r.2 as
    (r.1 :: r'.1, r'.2)

/-! ### Nearest time -/

/-- position of the label nearest to `t` on an increasing time axis (pandas
`Index._get_nearest_indexer`, used at io.py:154); `pad` is the last label `≤ t`, `backfill` the
first `≥ t`; position -1 means "none" and, as in Python, indexes the last element -/
def nearestIndex (times : List ℤ) (t : ℤ) : ℤ :=
  let pad : ℤ := (times.countP (· ≤ t) : ℤ) - 1
  let backfill : ℤ := if times.countP (· < t) = times.length then -1 else times.countP (· < t)
  let own (i : ℤ) : ℤ := if i < 0 then times.getLastD 0 else times.getD i.toNat 0
  let left_distance := |own pad - t|
  let right_distance := |own backfill - t|
  if left_distance < right_distance ∨ backfill = -1 then pad else backfill

/-- `tagging_region.sel(time=t, method="nearest")`, io.py:153-154; an empty axis is a `KeyError` -/
def nearestMask {β : Type*} (entries : List (ℤ × β)) (t : ℤ) : Except Err β :=
  match nearestIndex (entries.map Prod.fst) t with
  | .negSucc _ => .error .keyError
  | .ofNat i =>
    match entries[i]? with
    | some e => .ok e.2
    | none => .error .keyError

end Wam
