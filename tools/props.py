#!/usr/bin/env python3
"""Source of /verif/properties.jsonl (one entry per property)."""
import json
P = []
def C(id, title, statement, quantifier, why, *anchors):
    P.append(dict(id=id, title=title, statement=statement, quantifier=quantifier,
                  why_tests_cant=why, anchors=list(anchors)))
core = "/repo/src/wam2layers/tracking/core.py"
fwd = "/repo/src/wam2layers/tracking/forwardtrack.py"
bwd = "/repo/src/wam2layers/tracking/backtrack.py"
io = "/repo/src/wam2layers/tracking/io.py"
tsh = "/repo/src/wam2layers/tracking/shared.py"
grid = "/repo/src/wam2layers/utils/grid.py"
prof = "/repo/src/wam2layers/utils/profiling.py"
cal = "/repo/src/wam2layers/utils/calendar.py"
cfg = "/repo/src/wam2layers/config.py"
psh = "/repo/src/wam2layers/preprocessing/shared.py"
put = "/repo/src/wam2layers/preprocessing/utils.py"
ppl = "/repo/src/wam2layers/preprocessing/pressure_levels.py"
era = "/repo/src/wam2layers/preprocessing/era5.py"
arco = "/repo/src/wam2layers/preprocessing/arco.py"
cmip = "/repo/src/wam2layers/preprocessing/cmip.py"
val = "/repo/src/wam2layers/preprocessing/input_validation.py"
app = "/repo/src/wam2layers/preprocessing/xarray_append.py"
tag = "/repo/src/wam2layers/utils/tagging_region.py"
shp = "/repo/src/wam2layers/utils/shapefile_mask.py"
chk = "/repo/src/wam2layers/analysis/checks.py"
dl = "/repo/src/wam2layers/download.py"
cli = "/repo/src/wam2layers/cli.py"

ALLGRID = "Every grid size and every real-valued field; tests run on one or two fixed grids with fixed numbers."

# ---------------------------------------------------------------- advection
C("C01", "Horizontal advection conserves water",
  "The sum over all grid cells of horizontal_advection(s, u, v, periodic_x) is exactly zero: what one cell loses another one gains, with closed boundaries for arbitrary u, v, and with periodic boundaries whenever the west-most and east-most interface carry the same flux (which stagger_x guarantees).",
  "all grid shapes, all scalar fields s, all interface fluxes u, v, both boundary modes", ALLGRID,
  f"{core}:horizontal_advection", f"{grid}:stagger_x")
C("C02", "Advection is the donor-cell (upwind) scheme with the documented orientation",
  "For every cell the tendency equals inflow minus outflow through its four faces, each face flux carrying the value of the cell the flux comes from (west cell for an eastward flux, south cell for a northward flux; row index increases southward), and no flux through the outer faces (closed) or through the north and south edges (periodic).",
  "all grid shapes, fields, fluxes, both boundary modes, all cells", ALLGRID,
  f"{core}:horizontal_advection")
C("C03", "Advection of a constant field is the flux convergence times the constant",
  "If the relative tracked storage is the same constant c everywhere, the advection tendency is c times the net inflow of water into the cell, so a fully tagged column stays consistent with the total water transport.",
  "all grid shapes, constants, fluxes, both boundary modes", ALLGRID, f"{core}:horizontal_advection")
C("C04", "Periodic advection has no seam",
  "With periodic_boundary, rotating all input fields by any number of columns rotates the staggered fluxes, the advection tendency and the whole tracking step (given the vertical flux) by the same number of columns: the position of the date line does not matter.  The vertical flux from calculate_fz is the exception: it is not seam free because np.gradient is one-sided at the first and last column.",
  "all grid shapes, fields, rotations", "Needs all rotations on all grids.",
  f"{grid}:stagger_x", f"{grid}:stagger_y", f"{core}:horizontal_advection", f"{core}:calculate_fz", f"{fwd}:forwardtrack", f"{bwd}:backtrack")
C("C05", "Vertical exchange moves water between the layers and is upwind",
  "What vertical advection and dispersion add to the lower layer they remove from the upper layer; a downward flux carries upper-layer water, an upward flux lower-layer water; dispersion moves water from the relatively fuller to the relatively emptier layer and vanishes for equal fractions.",
  "all fluxes, fractions and kvf >= 0", "Real-valued inputs.", f"{core}:vertical_advection", f"{core}:vertical_dispersion", f"{fwd}:forwardtrack", f"{bwd}:backtrack")
# ---------------------------------------------------------------- stabilisation
C("C06", "Stabilised fluxes satisfy the half-cell CFL bound",
  "After stabilize_fluxes, in every cell and layer with a non-zero horizontal flux, (|fx|+|fy|)*timestep <= 1/2 * storage * area.",
  "all fluxes, non-negative storages, positive areas and time steps", ALLGRID, f"{core}:stabilize_fluxes")
C("C07", "Stabilisation only ever shrinks fluxes, keeps their direction, and leaves compliant fluxes alone",
  "In every cell and layer with a non-zero horizontal flux (the others give NaN, C09), every corrected component has the sign of the original and at most its magnitude; both components of a cell are multiplied by one common factor in [0,1]; the factor is 1 exactly when the cell already satisfied the bound; evaporation and precipitation are untouched.",
  "all fluxes, storages, areas, time steps", ALLGRID, f"{core}:stabilize_fluxes")
C("C08", "Stabilisation is idempotent", "Applying stabilize_fluxes twice with the same storages gives the same fluxes as applying it once, in every cell and layer that holds water and has a horizontal flux (cells without flux give NaN, C09).",
  "all fluxes, storages, areas, time steps", ALLGRID, f"{core}:stabilize_fluxes")
C("C09", "Cells without horizontal flux do not stay usable: NaN is produced and never removed",
  "Intended ('Get rid of any nan values'): a cell whose fx and fy are both zero keeps zero flux.  Actual: stabilize_fluxes turns both components into NaN (0/0; the result of fillna is discarded), the tracking step then turns the tracked storage and losses of that cell and of its face neighbours into NaN (so zero flux in one cell at the middle of one time step leaves NaN there in every file from that step to the end of the run), NaN tracked storage never becomes a number again (in a run all later files are NaN in that cell, and so is a run restarted from such a file), and the flush *= 0 does not clear accumulators.",
  "all grids, all other cell values, IEEE special-value arithmetic", "The existing tests use data in which no cell has exactly zero flux.",
  f"{core}:stabilize_fluxes", f"{fwd}:forwardtrack", f"{bwd}:backtrack", f"{fwd}:run_experiment")
C("C10", "After stabilisation, horizontal outflow in one step never exceeds the largest neighbouring storage",
  "For every cell (on grids where every cell has a horizontal flux, otherwise C09 applies), the water leaving it through its faces in one step (after stabilize_fluxes and staggering) is at most the largest value of storage*area among all cells; hence for uniform storage*area a cell can never lose more than it holds by horizontal transport alone.",
  "all grids, fluxes, storages", ALLGRID, f"{core}:stabilize_fluxes", f"{grid}:stagger_x", f"{core}:horizontal_advection")
# ---------------------------------------------------------------- vertical flux
C("C11", "The vertical flux is bounded by the storages",
  "|calculate_fz| * dt * (1+kvf) <= the smaller of the two layers' mean storages, so advection plus dispersion in one step never moves more than the smaller layer holds on average.",
  "all fluxes, storages >= 0, dt > 0, kvf >= 0", ALLGRID, f"{core}:calculate_fz")
C("C12", "The vertical flux closes the two-layer balance proportionally",
  "Before limiting, the residuals of the two layer balances left by the vertical flux are proportional to the layer storages at the new time (err_lower/s_lower = err_upper/s_upper), the unique flux with that property; the limiter keeps the sign and returns the closure flux whenever it is within the limit.",
  "all inputs with non-zero column storage", "Real-valued inputs; the code itself has a TODO asking to verify this.", f"{core}:calculate_fz")
# ---------------------------------------------------------------- tracking step
C("C13", "Tracked water never exceeds the water that is there and is never negative",
  "After every forwardtrack/backtrack step, in every cell and layer 0 <= s_track <= storage of that layer at the new time, whatever the previous tracked state, fluxes and mask were.",
  "all grids, all previous states, fluxes, masks, non-negative storages", ALLGRID, f"{fwd}:forwardtrack", f"{bwd}:backtrack")
C("C14", "Boundary cells hold no tracked water; everything that reaches them is booked as loss",
  "After every step s_track is zero in all boundary cells (first/last row, and first/last column when not periodic) and the losses of such a cell increase by exactly the tracked water transported into it.",
  "all grids, states, fluxes, masks", ALLGRID, f"{grid}:get_boundary", f"{fwd}:forwardtrack", f"{bwd}:backtrack")
C("C15", "Cell budget of one step",
  "For every cell: change of tracked storage (both layers) = dt*(horizontal advection/area) + tagged source - tracked sink - losses + gains; vertical exchange cancels.",
  "all grids, states, fluxes, masks; column storage non-zero", ALLGRID, f"{fwd}:forwardtrack", f"{bwd}:backtrack")
C("C16", "Area-weighted global water budget of one step",
  "Summed over the grid with the cell areas as weights: change of tracked storage = tagged source - tracked sink - losses + gains; horizontal and vertical transport cancel.",
  "all grids, states, fluxes, masks, both directions and boundary modes", ALLGRID, f"{fwd}:forwardtrack", f"{bwd}:backtrack", f"{core}:horizontal_advection")
C("C17", "Tracked precipitation / evaporation is part of the actual precipitation / evaporation",
  "In a forward step the two p_track fields increase by between 0 and the precipitation amount of the step (sum of both layers), in a backward step e_track increases by between 0 and the evaporation amount, provided tracked storages, storages, precipitation and evaporation are non-negative.",
  "all grids, states, fluxes", ALLGRID, f"{fwd}:forwardtrack", f"{bwd}:backtrack")
C("C18", "Losses and gains are never negative in the interior; boundary losses are non-negative when nothing overdraws",
  "The gains booked by a step are >= 0 everywhere and the internal losses of interior cells are >= 0; gains only occur where the transported storage of a layer was negative.",
  "all grids, states, fluxes", ALLGRID, f"{fwd}:forwardtrack", f"{bwd}:backtrack")
C("C19", "No tagging, no tracked water",
  "With an all-zero mask and zero tracked storage a step leaves tracked storage, tracked sink, losses and gains unchanged (all zero), and so does any number of steps.",
  "all grids, fluxes, storages, histories", ALLGRID, f"{fwd}:forwardtrack", f"{bwd}:backtrack", f"{fwd}:run_experiment")
C("C20", "Backtracking transports along the reversed flow",
  "The transport in backtrack is the transport of forwardtrack for fluxes and vertical flux of opposite sign: same advection, vertical exchange and bookkeeping with source = tagged precipitation split over the layers by storage and sink = evaporation from the lower layer.",
  "all grids, states, fluxes", ALLGRID, f"{fwd}:forwardtrack", f"{bwd}:backtrack")
C("C21", "Precipitation is split over the layers in proportion to their water",
  "The parts of the tagged (backward) or tracked (forward, fully tagged) precipitation attributed to the upper and lower layer are non-negative, add up to the total precipitation and have the ratio of the storages.",
  "all cells with positive column storage", "Real-valued inputs.", f"{fwd}:forwardtrack", f"{bwd}:backtrack")
C("C22", "No numerical gains when the outflow of every cell stays below its storage",
  "If in every cell and layer the water leaving in one step (faces, vertical advection and dispersion, precipitation/evaporation) is at most the storage, the masks are non-negative and 0 <= s_track <= storage, then transport leaves s_track non-negative, gains are zero and losses are non-negative everywhere.",
  "all grids, states, fluxes satisfying the CFL condition", ALLGRID, f"{fwd}:forwardtrack", f"{bwd}:backtrack")
# ---------------------------------------------------------------- runs
C("C23", "A run makes exactly floor((end-start)/timestep) steps, visits t0 = start + k*timestep, and stops",
  "For timestep > 0, run_experiment terminates after exactly that many steps (both directions), loading states at t0, t0+dt and fluxes at t0+dt/2.",
  "all configurations with positive time step, all input data", "Unbounded run lengths.", f"{fwd}:run_experiment", f"{bwd}:run_experiment", f"{tsh}:initialize_time")
C("C24", "A non-positive timestep makes a run spin forever",
  "Intended: every accepted configuration yields a terminating run.  Actual: Config accepts timestep <= 0 (at construction and on assignment) and then the loop guard never becomes false: with data at all times the run goes on forever; whatever the data, it never ends normally; with data from (forward) or up to (backward) some date only and a negative step it ends with an exception.",
  "all timesteps <= 0, all step counts, all data sources and file systems", "A test cannot observe non-termination.", f"{cfg}:Config", f"{fwd}:run_experiment", f"{bwd}:run_experiment")
C("C25", "Output is written exactly at the multiples of output_frequency and at the end",
  "The sequence of output times is strictly monotone (increasing forward, decreasing backward), contains every step time that is a multiple of output_frequency and the final step time, and nothing else; a run that makes at least one step always writes its final state, exactly once.",
  "all configurations, runs of any length", "Unbounded run lengths and all frequency/time step combinations.", f"{fwd}:run_experiment", f"{bwd}:run_experiment", f"{cal}:round_cftime")
C("C26", "Invariants of a whole run",
  "In every output file of every run, tracked storage is within [0, storage], zero on the boundary, and all accumulated fields (tagged, tracked, gains) are non-negative.",
  "all runs, all lengths, all data", "Unbounded histories.", f"{fwd}:run_experiment", f"{bwd}:run_experiment")
C("C27", "Water budget of a whole run from its output files",
  "Area-weighted and summed over all files written by a run: initial tracked storage + tagged + gains = tracked + losses + final tracked storage.",
  "all runs, all lengths, all data, both directions", "Unbounded histories.", f"{fwd}:run_experiment", f"{bwd}:run_experiment", f"{io}:write_output")
C("C28", "output_frequency does not change the physics",
  "Two runs that differ only in output_frequency end with the same tracked storages, and the accumulated fields summed over the files are identical.",
  "all configurations and data", "All pairs of output frequencies, unbounded runs.", f"{fwd}:run_experiment", f"{bwd}:run_experiment")
C("C29", "Restart reproduces the uninterrupted run",
  "A run over [A, C] and a run over [A, B] followed by a restart run over [B, C] (B a written output time) give the same tracked storage and, for output times after B, the same files; likewise for backtracking.",
  "all configurations, data, split points", "All split points of unbounded runs.", f"{fwd}:initialize", f"{bwd}:initialize", f"{io}:output_path")
C("C30", "A crashed run can be resumed from its last output file",
  "However far a run got before it was killed, the files on disk are exactly the files of the uninterrupted run up to the last output time, and restarting from that time completes them to the files of the uninterrupted run.",
  "all crash points", "All crash points of unbounded runs.", f"{fwd}:run_experiment", f"{bwd}:run_experiment", f"{io}:write_output")
C("C31", "Tagging happens exactly within the tagging window",
  "A step contributes to tagging iff its start time t0 (forward) or end time t1 (backward) lies in the closed interval [tagging_start_date, tagging_end_date]; since both ends are inclusive, a window of length n*dt aligned with the steps tags n+1 steps.",
  "all windows, runs, alignments", "All windows and alignments.", f"{fwd}:run_experiment", f"{bwd}:run_experiment")
C("C32", "Total tagged moisture equals mask times flux over the window",
  "Summed over all output files, tagged_evap (tagged_precip) of each cell is the sum over the steps in the window of mask*evap*dt (mask*precip*dt), independent of the transport.",
  "all runs", "Unbounded histories.", f"{fwd}:run_experiment", f"{bwd}:run_experiment")
C("C33", "time_bnds describe the accumulation period only for aligned full periods",
  "Intended: time_bnds is the interval over which the fields were accumulated.  Actual: it is always one output_frequency wide, ending at the output time; it equals the true accumulation interval iff the previous flush (or start) was exactly one output_frequency earlier; consecutive aligned outputs tile time without gap or overlap.",
  "all configurations, all output files of a run", "All alignments.", f"{io}:add_time_bounds", f"{fwd}:run_experiment", f"{bwd}:run_experiment")
C("C34", "Progress totals are the totals of all files written so far plus the current accumulation",
  "The tagged, tracked, lost, gained and boundary-transport totals reported at any output equal the weighted sums over all previous files and the current fields; losses split exactly into interior and boundary.",
  "all runs, all prefixes", "Unbounded histories.", f"{prof}:ProgressTracker")
C("C35", "The reported 'Tagging closure' is 100% only up to gains and restart storage",
  "Intended: closure is 100%.  Actual (weights proportional to area): closure = 100*(tagged + initial storage + 2*gains)/tagged, because gains are added instead of subtracted.",
  "all runs with non-zero tagged moisture", "Unbounded histories.", f"{prof}:ProgressTracker.print_progress")
C("C36", "Stability warnings",
  "A warning is issued (and a debug file written) iff the strongest correction factor fell more than 10% below the last warned factor, or else more than 5% of the cells and 10% more than at the last such warning are corrected; the stored thresholds never relax, and the number of warnings of the second kind is bounded; corrections in cells with zero fy are not seen at all.",
  "all sequences of correction fields", "All histories.", f"{prof}:ProgressTracker.track_stability_correction", f"{core}:stabilize_fluxes")
# ---------------------------------------------------------------- io
C("C37", "load_data interpolates linearly in time between the two enclosing input times",
  "At an input time load_data returns that slice; between two input times it returns the linear interpolation, hence a value between the two slices, exact for data linear in time; only the two enclosing slices are read and both lie within one input_frequency of t.",
  "all times, frequencies, calendars, data", "All times and frequencies.", f"{io}:load_data", f"{cal}:round_cftime")
C("C38", "Caching of slices is invisible", "With unchanged input files, any sequence of load_data calls returns what it would return without the cache, and modifying a returned dataset never changes what later calls return; the cache never holds more than 6 entries.",
  "all call sequences, all interleaved mutations of returned datasets", "All call sequences.", f"{io}:_load_slice_with_cache", f"{io}:load_slice")
C("C39", "Retrying reads", "read_or_retry returns the first successful result, tries at most 9 times, retries only after IndexError, raises any other error immediately, re-raises after 9 IndexErrors, and waits between 127.5 and 255 seconds in total before giving up.",
  "all failure sequences and random delays", "All failure sequences and random draws.", f"{io}:read_or_retry")
C("C40", "Sub-domain selection keeps exactly the columns and rows inside the box",
  "For west < east exactly the longitudes in [west, east] are kept in order; otherwise exactly those < east or > west (strictly), rotated so that they are contiguous and eastward continuous; rows with south <= latitude <= north are kept; data stay attached to their coordinates.",
  "all increasing longitude axes, all decreasing latitude axes, all boxes", "All grids and boxes.", f"{io}:select_subdomain")
C("C41", "Tagging box mask", "The mask from a bounding box is 1 exactly in the cells with south <= lat <= north and west <= lon <= east (or, across the date line, lon >= west or lon <= east) and 0 elsewhere.",
  "all axes and boxes", "All grids and boxes.", f"{tsh}:initialize_tagging_region")
C("C42", "Output file names identify direction and minute",
  "Two outputs get the same path iff direction, folder and calendar date-time agree to the minute; different output times of a run with whole-minute steps therefore never overwrite each other, while sub-minute steps can collide.",
  "all times and configurations", "All pairs of times.", f"{io}:output_path", f"{io}:input_path")
C("C43", "Moving tagging regions use the nearest time", "load_tagging_region(config, t) returns the mask whose time is nearest to t.",
  "all time axes and times", "All axes.", f"{io}:load_tagging_region")
# ---------------------------------------------------------------- config
C("C44", "Accepted regions are valid", "A bounding box is accepted iff -180<=west,east<=180, -80<=south<north<=80; west > east is allowed (date line).",
  "all boxes", "All boxes.", f"{cfg}:BoundingBox", f"{cfg}:validate_region")
C("C45", "Accepted configurations are ordered in time and stay so under assignment",
  "In every accepted Config, and after any sequence of successful attribute assignments, start <= end for tracking, tagging and preprocessing; a rejected assignment is reported.",
  "all configurations, all assignment sequences", "All assignment sequences.", f"{cfg}:Config.check_date_order")
C("C46", "Configuration dates survive a write/read round trip only to the minute",
  "Intended: Config.from_yaml(to_file(c)) equals c.  Actual: dates with zero seconds survive exactly; others are truncated to the minute.",
  "all dates in all calendars", "All dates.", f"{cfg}:Config.to_string", f"{cal}:cftime_from_iso")
C("C47", "Deprecated frequency strings are modernised without changing their meaning",
  "fix_deprecated_frequency maps digits+{CBH,BH,H,T,S,L,U,N} in any case to digits+{cbh,bh,h,min,s,ms,us,ns}, leaves every other string unchanged, keeps the digits, and is idempotent.",
  "all strings", "All strings.", f"{cal}:fix_deprecated_frequency")
C("C48", "Rounding of times", "round_cftime floor/ceil/nearest return a multiple of the frequency; floor <= t <= ceil, both within one unit, equal iff t is a multiple; nearest is within half a unit.",
  "all times, frequencies", "All times.", f"{cal}:round_cftime")
# ---------------------------------------------------------------- preprocessing
C("C49", "interpolate is linear interpolation between the enclosing samples",
  "For monotonically non-decreasing xp and xp[0] <= x <= xp[-1], interpolate returns the piecewise-linear interpolant: exact at the nodes, between the neighbouring sample values elsewhere, errors out of range; descending=True gives the same result on reversed input.",
  "all strictly monotone axes of any length, all samples, all x", "All axes.", f"{put}:interpolate")
C("C50", "Preprocessed precipitation and evaporation are non-negative and preserve the net flux (ERA5/ARCO)",
  "precip >= 0, evap >= 0, and precip - evap = (max(tp,0) + e)*1000/seconds with e the downward-positive ERA5 evaporation.  For CMIP evap >= 0 but precip is max(pr,0)+min(evap,0), which can be negative and subtracts dew instead of adding it.",
  "all input values and frequencies", "All real inputs.", f"{era}:preprocess_precip_and_evap", f"{arco}:get_input_data", f"{cmip}:get_input_data", f"{put}:accumulation_to_flux")
C("C51", "The two layers partition the column",
  "s_lower + s_upper equals the vertically integrated column water (tcw when available), fx_lower+fx_upper and fy_lower+fy_upper equal the integrated fluxes; for non-negative humidity both storages are non-negative.",
  "all columns with any number of levels, both level types", "All columns.", f"{psh}:preprocess")
C("C52", "Pressure-level columns are extended correctly",
  "After extend_pressurelevels and interp_dp_midpoints the pressures are sorted, start at 0, contain the surface and the boundary pressure; the thicknesses are non-negative; the layers below the boundary pressure and above the surface add up to ps - pb and the layers above to pb.",
  "all columns with any number of levels", "All columns.", f"{ppl}:extend_pressurelevels", f"{ppl}:interp_dp_midpoints", f"{ppl}:mask_below_surface_data", f"{psh}:preprocess")
C("C53", "Level order and multiplicity do not matter", "extend_pressurelevels gives the same column for any permutation of the input levels.",
  "all permutations", "All permutations.", f"{ppl}:extend_pressurelevels", f"{put}:sortby_ndarray", f"{cmip}:common_levels")
C("C54", "Model-level thicknesses add up to the surface pressure",
  "For every subset of model levels, the pressure thicknesses of get_dp_modellevels add up to (a_last-a_first) + (b_last-b_first)*ps, i.e. ps for the ERA5 table.",
  "all level subsets, surface pressures", "All subsets.", f"{era}:get_edges", f"{era}:get_dp_modellevels")
C("C55", "shift_longitude moves every longitude into [-180,180), sorted, data attached, idempotent",
  "When any longitude is above 180 or below 0, the result has all longitudes in [-180,180), increasing, each congruent mod 360 to the original with its data; otherwise nothing changes; applying it twice equals once.",
  "all axes", "All axes.", f"{psh}:shift_longitude")
C("C56", "Timestamps are grouped by calendar day without loss",
  "group_timestamps_by_day partitions the requested timestamps: each appears exactly once, in order, in the group of its day, and two timestamps share a group iff they share a day (and hence an output file).",
  "all timestamp lists", "All lists.", f"{psh}:group_timestamps_by_day", f"{psh}:get_input_dates")
C("C57", "Preprocessed files contain exactly the requested times",
  "After a successful sequential run each day file holds exactly the requested timestamps of that day, in order, with the data computed for them; files of other days are untouched.",
  "all date ranges and prior file systems", "All ranges and prior disk contents.", f"{psh}:preprocess", f"{psh}:prep_experiment", f"{app}:append_to_netcdf")
C("C58", "Preprocessing can be rerun after success or crash",
  "Running the preprocessor again, or after a crash at any point of a previous run, gives the same files as a single clean run.",
  "all crash points", "All crash points.", f"{psh}:preprocess")
C("C59", "Parallel preprocessing gives the files of the sequential run, whatever the schedule",
  "For every interleaving of the per-day workers the final files equal those of the sequential run.",
  "all schedules, any number of workers", "All interleavings.", f"{psh}:parallel_preprocess")
C("C60", "Input validation accepts exactly complete, NaN-free datasets",
  "validate_input succeeds iff the dimensions latitude, longitude, level exist, the variables required for the level type exist with exactly the right dimensions, and no variable contains NaN; when it fails, the error names a problem that is really there.",
  "all datasets", "All datasets.", f"{val}:validate_input")
C("C61", "Cell bounds",
  "add_bounds gives each coordinate bounds centred on it with the median spacing as width; neighbouring cells share their bound exactly if the axis is uniform, and then the cells tile the axis. A minority of irregular spacings does not influence the bounds.",
  "all axes", "All axes.", f"{put}:add_bounds")
C("C62", "Grid cell areas",
  "get_grid_info gives each cell the exact area on the sphere of the cell that reaches half a longitude spacing north and south of its latitude, cut at the poles: positive, and adding up to the surface of the sphere for global grids. It is the area of the real cell exactly if both spacings are equal. The zonal side vanishes exactly at the poles.",
  "all latitude/longitude axes", "All grids, real trigonometry.", f"{grid}:get_grid_info", f"{prof}:ProgressTracker")
# ---------------------------------------------------------------- utilities
C("C63", "When the input checks warn",
  "Intended: check_range warns iff some value is outside the range. Actual: it warns iff some value is below the lower bound and none is above the upper one, so the documented meaning fails exactly for data with a value above the range. The sign and monotonicity checks warn exactly on the documented data, check_uniform raises on every non-uniform axis, and check_input completes silently exactly on data that passes every check.",
  "all data and ranges", "All data.", f"{chk}:check_range", f"{chk}:check_order_of_magnitude")
C("C64", "Multi-region masks are averages", "Intended: 1 inside any selected region.  Actual: the exported mask is the mean of the selected masks, so a cell in k of n regions has value k/n; it is 1 everywhere inside iff the regions coincide or n=1; values are within [0,1].",
  "all masks, any number of regions", "All masks.", f"{tag}:mask_with_regionmask", f"{tag}:mask_with_shapefile")
C("C65", "mask_around_point / mask_around_track mark exactly the square", "Value 1 iff |lat-clat|<=radius and |lon-clon|<=radius (no wrap at the date line); the track mask at time k is the point mask of centre k.",
  "all axes, centres, radii", "All inputs.", f"{tag}:mask_around_point", f"{tag}:mask_around_track")
C("C66", "Shapefile masks are covered area fractions",
  "create_mask keeps the axes of the grid it is given, and each cell's value is the fraction of the cell that the polygon covers: within [0,1], and 0 for cells that do not meet its bounding box. It succeeds exactly if the polygon is within one cell of the grid.",
  "all grids, polygons", "All polygons.", f"{shp}:create_mask")
C("C67", "DOI parsing", "parse_doi succeeds iff the string contains 10.<4-9 digits>/<suffix> with an allowed suffix up to the end, prefix and suffix re-assemble to that tail of the string, and get_4tu_id strips the version.",
  "all strings", "All strings.", f"{dl}:parse_doi", f"{dl}:get_4tu_id")
C("C68", "Downloads never overwrite an existing directory", "create_target_directory succeeds only if the target did not exist, and then it exists and is empty; otherwise it fails and nothing changed. A complete download leaves exactly the offered files in the new directory and changes nothing else; DOIs of repositories other than 4TU are refused before anything is touched.",
  "all file systems and names", "All file system states.", f"{dl}:create_target_directory", f"{dl}:download_from_doi")
C("C69", "CLI dispatch", "track runs the forward or backward experiment according to tracking_direction; preprocess dispatches on the data source.",
  "all configurations", "All configurations.", f"{cli}:track")
C("C70", "CMIP 3-hourly variables are averaged pairwise onto the 6-hourly axis", "resample_3hr_var averages samples 2k and 2k+1 and labels the result with time(2k)+4h30m, i.e. 06:00, 12:00, ... for data starting at 01:30; rejects other start times.",
  "all even-length series", "All lengths.", f"{cmip}:resample_3hr_var")
C("C71", "Vertical flux and horizontal transport agree on the water balance",
  "In the interior of the grid the divergence that calculate_fz uses for the column balance is exactly minus the net inflow through the cell faces that horizontal_advection uses for the same cell-centred fluxes.",
  "all grids, fluxes, interior cells, both boundary modes", ALLGRID, f"{core}:divergence", f"{core}:calculate_fz", f"{grid}:stagger_x", f"{grid}:stagger_y")
C("C72", "Missing input never leads to silently different output",
  "Remove any part of the input (some times, fluxes, region masks) of a run that completes: the run either completes with exactly the same files, or stops with an error after having written a prefix of them.",
  "all configurations, inputs, sets of missing data, both directions", "All subsets of missing input.", f"{fwd}:run_experiment", f"{bwd}:run_experiment", f"{io}:load_data")
C("C73", "Surface humidity from the dew point",
  "calculate_humidity returns the specific humidity of moist air whose vapour pressure is the saturation pressure at the dew point; it lies strictly between 0 and 1 exactly when that vapour pressure is below the air pressure, increases with the dew point and decreases with the pressure.",
  "all real dew points above 32.19 K and all pressures", "Real-valued, transcendental.", f"{put}:calculate_humidity")
C("C74", "What preprocessing leaves is what tracking reads",
  "After a successful preprocessing run whose start is on a multiple of the input frequency, the folder of preprocessed data is an archive in the sense that reading data for tracking needs: every time of the range is found in the file of its day, with the data that preprocessing computed for it, on one grid.",
  "all ranges of dates, frequencies, calendars, data and previous folder contents", "All ranges and histories of the folder.", f"{psh}:prep_experiment", f"{io}:load_data")
C("C75", "A preprocessed time step on the whole grid",
  "The preprocessed file of a time step has the latitudes of the input, and its columns are those of the input, each exactly once and on the same meridian. Every cell holds the layer sums computed for the input cell it comes from; with pressure-level data and total column water the two storages of every cell add up to that total.",
  "all grids, input data and column computations", ALLGRID, f"{psh}:preprocess", f"{psh}:shift_longitude")
C("C76", "The tagging region stays aligned with the data",
  "If the tagging region is given on the grid of the preprocessed data then after selecting the tracking domain from both, region and data have the same axes and each cell's region value and data come from the same original cell. A moving region uses the mask of the nearest time, of two equally near times the later.",
  "all grids, tracking domains (also across the date line), region files and times", ALLGRID, f"{io}:load_tagging_region", f"{io}:select_subdomain")
C("C77", "A larger tagging region tracks at least as much",
  "Take two tracking runs with the same settings and the same weather, where the second has at every time and cell at least the tagging weight of the first and starts with at least as much tracked water. If in no step a layer of a cell loses more water than it holds, then file by file and cell by cell the second run reports at least as much tracked storage, tracked precipitation (or evaporation), tagged water and losses. The same holds step by step for forward and backward tracking.",
  "all grids, settings, weather, pairs of regions and pairs of initial states", "Relates two whole runs, of every length.", f"{fwd}:forwardtrack", f"{bwd}:backtrack", f"{core}:calculate_fz")
C("C78", "Tracked water of two regions adds up",
  "Take three runs with the same settings and weather, where the tagging region and the starting tracked water of the first are the sums of those of the other two. If in no step a layer of a cell loses more water than it holds and the first run never fills a layer of a cell with tracked water completely, then in every output file every variable of the first run is the sum of the other two, cell by cell; and multiplying region and start by a factor between 0 and 1 multiplies every output by that factor.",
  "all grids, settings, weather, regions, initial states and factors", "Relates whole runs, of every length.", f"{fwd}:forwardtrack", f"{bwd}:backtrack")
C("C79","ERA5 input: every number comes from its own file and place",
"get_input_data for ERA5 followed by validate_input either fails or returns data in which the number used for a grid cell, a level and a time is the one that the file named by the filename template stores for that variable at that time, level, latitude and longitude -- whatever the order of the levels, latitudes and longitudes in each file and whatever extra rows they contain. The grid is that of the humidity file, the levels are those of the configuration in the order of the configuration (in Pa for pressure levels). A missing file, time, level or grid point is an error and never replaced by another value, and no number that is used is missing. Only total column water may be absent: it is used exactly if its file exists.",
"all file contents, axis orders, grids, level lists, both level types, times, templates",
"Tests have one set of files, all with the same order of the axes; alignment by label must hold for every combination of orders and extra rows",
f"{era}:get_input_data", f"{era}:load_data", f"{era}:open_da", f"{psh}:preprocess", f"{val}:validate_input")
C("C80","File name templates: one file per variable and day",
"Formatting the filename template copies the text outside braces and replaces {year}, {month:02}, {day:02}, {hour:02}, {minute:02}, {levtype} and {variable} by four-digit year, two-digit numbers, the marker of the type of levels and the name of the variable. A template with {variable} never gives two different ERA5 variables the same file, and a template that writes its date fields with fixed width gives two times the same file only if they agree in every date field that it uses; with year, month and day each day has its own files. A doubled brace stands for one brace, a single closing brace is a ValueError and a field with another name a KeyError.",
"all templates, calendars, times and variables",
"Whether two of infinitely many dates collide under an arbitrary template cannot be sampled",
f"{era}:load_data", f"{cfg}:Config.filename_template")
C("C81","CMIP input: every number from its file, at its time, level, latitude and longitude",
"When CMIP data are preprocessed for a time, every number used for a grid cell (humidity, wind, surface pressure, surface humidity and wind) is the one that a file of the corresponding CMIP variable (hus, ua, va, ps, huss, uas, vas) holds for that time, level, latitude and longitude; precipitation and evaporation are computed from the mean of the two three-hourly samples of pr and hfls in the six hours before, provided each file holds an even number of samples without gaps. The pressure levels are exactly those that humidity and wind have in common; no number is missing; total column water is not used. The result does not depend on the order in which the file system lists the files, on the order of the axes in the files or on the order in which a set lists its elements. Files that are complete in this sense are accepted.",
"all configurations and file templates, all sets of files in any listing order with any order of axes, all times, all orders in which sets and outer joins list labels, any carrier of numbers (NaN included)",
"glob returns files in an order that depends on the file system, and list(set) in an order that depends on hashing; a test sees one of them; misaligned labels only show for particular files",
f"{cmip}:get_input_data", f"{cmip}:load_cmip_var", f"{cmip}:open_var", f"{cmip}:resample_3hr_var", f"{cmip}:common_levels", f"{cal}:template_to_files")
C("C82","ARCO-ERA5 input: every number from the store at its label",
"Input from ARCO-ERA5 is refused unless pressure levels and the proleptic Gregorian calendar are configured, levels are a list, and the time is within the valid times of the store. Otherwise every number used for a grid cell is the one the store holds for that time, level, latitude and longitude (humidity at the surface from dewpoint and pressure, precipitation and evaporation from the accumulations), levels are those of the configuration times 100 (Pa), total column water is always used and no number is missing. A store that has the time and the levels once is accepted.",
"all configurations, stores, times, levels, any carrier of numbers",
"the store is remote and huge; a test can look at a handful of times and levels",
f"{arco}:get_input_data", f"{arco}:open_arco_pl", f"{val}:validate_input")
C("C83","From raw files to preprocessed data",
 "When the raw files are complete, all levels and times that are needed are there, the surface pressure is positive and the layer boundary lies between the top of the atmosphere and the surface, preprocessing a time succeeds. Every cell of the result is on a latitude of the raw grid and on one of its meridians (each exactly once), and holds the integrals over the two layers of exactly the column that the raw files hold for that place, scaled to total column water if a file of it exists, and the precipitation and evaporation of that place. With total column water and positive humidity the two storages add up to the number in that file. This holds for ERA5 on pressure levels and on model levels, for ARCO-ERA5 and for CMIP.",
 "for all configurations, all contents of the raw files, any order of their axes and levels, all grids, times, level lists and layer boundaries",
 "The chain goes through a dozen functions (file names, selection by label, unit changes, alignment, extension of the column, interpolation, integration, shift and sort of longitudes); a test with one set of files fixes one order of axes, one grid and one level list.",
 f"{psh}:preprocess", f"{era}:get_input_data", f"{arco}:get_input_data", f"{cmip}:get_input_data", f"{era}:get_dp_modellevels")
C("C84","Preprocessed data do not depend on the layout of the raw files",
 "Two sets of raw files that hold the same numbers at the same variables, levels, latitudes and longitudes give preprocessed data with the same numbers at the same latitude and meridian: the order of the axes, the order of the levels in the files and in the configuration, the order in which files are found, the order in which libraries list labels and the way a sorting routine treats equal values do not matter.",
 "for all pairs of complete sets of files with the same numbers, all permutations of axes, levels and files, and all sorting routines",
 "A test can compare two layouts; it cannot compare all permutations of axes, levels and files.",
 f"{psh}:preprocess", f"{era}:load_data", f"{cmip}:load_cmip_var", f"{ppl}:extend_pressurelevels")
C("C85","Guarantees of a tracking run survive rounding","With every addition, subtraction, multiplication and division of a tracking run rounded (any precision, any monotone and symmetric rounding mode) and with non-negative input, each output file still has tracked storage between zero and the layer storage, zero tracked storage at the boundary, and non-negative tagged, tracked, gained (and interior lost) water; tracked precipitation and evaporation never grow by more than the precipitation of the layer or the evaporation; a run without tagging gives exact zeros; the output frequency does not change one bit of the tracked storage; and a restart from a file in the same precision reproduces the uninterrupted run bit by bit.","every monotone symmetric rounding, every grid, every input, mask, time step, run length and restart point; forward and backward","Tests run with one precision, one rounding mode and a few inputs; rounding errors depend on all values.",f"{fwd}:forwardtrack",f"{bwd}:backtrack",f"{fwd}:run_experiment",f"{core}:horizontal_advection")
C("C86","What `visualize output` shows of a run","For every completed run whose tracking period starts at a multiple of the output frequency, the map drawn by `visualize output` is in every cell the sum of the tracked precipitation (forward, lower plus upper layer) or tracked evaporation (backward) over all output files of the run except one: the last file (the end of the tracking period) of a forward run, the first file written (the one closest to the end of the tracking period) of a backward run. If the period does not start at a multiple of the output frequency and is longer than one (backward: two) output periods, the command fails because a file it asks for was never written.","all experiments, configurations, grids, input and numbers of output files","a test compares a figure of one experiment; the relation between the files asked for and the files written must hold for every combination of dates, time step and output frequency","/repo/src/wam2layers/analysis/visualization.py:_plot_output",f"{io}:output_path",f"{io}:write_output",f"{fwd}:run_experiment",f"{bwd}:run_experiment")
C("C87","The calendar check before CMIP preprocessing","If the calendar check gives no warning, the configured calendar is that of the first file found (or the configuration says `standard` and the file is proleptic Gregorian with recent dates). A mismatch of calendars is always reported, apart from that case, and the usual name of the calendar gives no warning. The accepted synonyms `gregorian`, `365_day` and `366_day` always give the warning. Only the first file that is found is looked at.","all lists of files with any calendar and any accepted calendar name","the check decides over pairs of calendars and names; a test that tries one pair shows neither soundness nor completeness",f"{cal}:validate_calendar_type",f"{cal}:get_calendar_type",f"{cal}:has_cftime",f"{psh}:prep_experiment")
C("C88","From raw files to tracking output","Take complete raw files without unphysical numbers (positive humidity, a dew point below saturation, positive surface pressure with the layer boundary strictly above it, positive total column water where it is given), a preprocessing period that starts at a multiple of the input frequency, a tracking period inside it, an optional tracking domain (a box, also one across the date line), and a tagging region (a box, a file on the grid of the preprocessed data, or such a file with a time axis). Then preprocessing ends without an error, and a forward or backward run on the folder it leaves finds at every time step the preprocessed data of that time (exactly at input times, interpolated linearly in between) in the cells of the tracking domain, and for each of these cells the value of the tagging region at the same latitude and longitude; both layers hold water at all times; the run ends; and in every output file tracked water is between zero and the water there is, and all fluxes, gains and interior losses are non-negative. This holds for ERA5 on pressure levels, ERA5 on model levels (listed downwards, some in each layer, with surface pressure of at least 303.31 hPa), ARCO-ERA5 and CMIP (with latent heat that is not negative).","all raw files that are complete and physical, all grids, periods, input frequencies in whole minutes, time steps, level lists, layer boundaries, tracking domains, boxes and masks, with or without restart, whatever was in the folder before","the statement joins all parts of the program; a test of the whole chain covers one data set, one period and one region",f"{psh}:prep_experiment",f"{era}:get_input_data",f"{io}:load_data",f"{io}:load_tagging_region",f"{fwd}:run_experiment",f"{bwd}:run_experiment")
C("C89","Data that are read can be traced to one place in the files","Whatever is in the folder of preprocessed data: if load_data returns data for a time, then each input time they stem from (the time itself, or the two multiples of the input frequency around it) occurs exactly once in the file of its day, with all requested variables, and the result consists of those data (interpolated linearly); duplicates, other days or other times are never used. A run that completes has read, in this sense, the storages at both ends and the fluxes in the middle of every time step of the tracking period.","all folders of preprocessed data (well-formed or not), calendars, frequencies, times, domains, completed runs in both directions","All folder contents, including gaps and duplicates, and all completed runs.", f"{io}:load_data", f"{io}:_load_slice_with_cache", f"{fwd}:run_experiment", f"{bwd}:run_experiment")
C("C90","Differences between two runs never grow","Compare two runs over the same period and the same weather that start from different tracked water (for example from two different restart files) or use different tagging regions. As long as no cell loses more water than it holds within a step, the total amount of water by which the two runs differ - in the tracked storages at the end, plus the tracked precipitation (forward) or tracked evaporation (backward) and the losses in all output files together - is at most the amount by which their starting storages differed plus the amount of water that was tagged in one run but not in the other. So an error in a restart file or in a mask is never amplified.","every pair of runs (forward and backward), every weather in which no layer of a cell is overdrawn, every pair of nonnegative starting storages, every pair of nonnegative (possibly time dependent) regions, every grid size, run length and output frequency","An example run shows one pair of inputs; stability says that no pair of inputs, no weather and no run length amplifies a difference, which combines monotonicity and the budget of every single step.",f"{fwd}:run_experiment",f"{bwd}:run_experiment",f"{fwd}:forwardtrack",f"{bwd}:backtrack")
C("C91","Water balance of every cell from the input data","Take two output files of one run that are one time step apart, and any cell of the grid. The tracked column in the second file equals that in the first plus the time step times (tracked water carried in minus out over the four sides by the input fluxes times the side lengths, divided by the cell area, plus the tagged source, minus what rained out or evaporated as tracked water in proportion to the tracked fraction) minus the written losses plus the written gains. The fluxes are used as they are in the input unless they move more than half of a cell in a time step; then both components of that cell are reduced by one factor to exactly one half. In inner cells where no layer ends empty or full the same holds for each layer separately, with an exchange between the layers that is the one which makes the relative residuals of both layers equal, limited to the smaller layer's storage over 1+kvf. The interval's tagged and tracked fluxes in the file are those same terms.","any configuration, grid with positive areas, weather with positive storages, any region and any restart state; every pair of files one step apart; forward and backward","the terms of the balance come from six arrays read at three times and pass through eight functions; a test on one field cannot tell a swapped side length or half step from the right one", f"{fwd}:forwardtrack", f"{bwd}:backtrack", f"{core}:horizontal_advection", f"{core}:stabilize_fluxes", f"{core}:calculate_fz", f"{core}:divergence")
C("C92","The water budget of a run closes up to rounding","With every addition, subtraction, multiplication and division rounded to floats of unit roundoff u (IEEE float64: 2^-53, float32: 2^-24, or any rounding with that relative error and a tiny underflow error), one tracking step differs from the same step in exact arithmetic by at most 7280 u (1+kvf) V kg in the tracked storage of a layer of a cell, where V is the largest amount of water in a layer of a cell (or of rain or evaporation within a time step); the horizontal fluxes may be arbitrarily large. Over a whole run, what was in the atmosphere at the start plus everything written as tagged and gained equals everything written as tracked and lost plus what is in the atmosphere at the end, up to (55000 + 720 M) u (1+kvf) V per cell and time step, if at most M steps pass between two outputs.","every rounding with unit roundoff u <= 1e-7, every grid, weather (with at least sigma kg/m2 in each layer), mask, number of steps, output frequency, with or without restart; forward and backward","Rounding errors depend on every number of a run; a test shows the residual of one run, not a bound for all weather, grids and run lengths.", f"{fwd}:forwardtrack", f"{bwd}:backtrack", f"{fwd}:run_experiment", f"{bwd}:run_experiment", f"{core}:stabilize_fluxes", f"{core}:calculate_fz")
C("C93","Rounding errors of a run grow at most linearly","Compare the run in floats with the run in exact arithmetic from the same data, in weather in which no cell loses more water than it holds within a step. Both write files for the same times; the tracked storages, summed over all cells, differ at the end and in every file by at most N (number of steps) times (number of cells) times (55000 + 720 M) u (1+kvf) V, and so does the sum over all files of the differences in tracked, tagged, lost and gained water. Errors of single steps add up but are never amplified.","every rounding with unit roundoff u <= 1e-7, every grid, every calm weather, mask, number of steps, output frequency, with or without restart; forward and backward","A test can only compare two precisions on one example; that errors are not amplified must hold for all weather and all run lengths.", f"{fwd}:run_experiment", f"{bwd}:run_experiment", f"{fwd}:forwardtrack", f"{bwd}:backtrack")
C("C94","A run completes exactly if the data it needs are there","For a positive time step, a run ends normally if and only if (i) the states at its first date (start date forward, end date backward) can be read, (ii) when it is a restart, the output file of that date exists, (iii) the tagging region can be read, and (iv) for each of its whole time steps the states at both ends of the step, the fluxes half-way and - if the region has a time axis and the reference time of the step lies in the tagging window - the region at that time can be read. No other data are needed (no data outside the tracking period, no region outside the tagging window). A complete run has written the files of all output times in order. An incomplete run stops with an exception and has written nothing (i-iii), or exactly the files of the output times before the first step with missing data (iv). A restart whose file is missing never starts from zero instead; files in the output folder other than the restart file have no influence on a run.","all configurations with a positive time step, all data sources (any set of readable times), all output folders, both directions, all number types","there are infinitely many patterns of available data and configurations; tests run one complete data set", f"{fwd}:run_experiment", f"{fwd}:initialize", f"{bwd}:run_experiment", f"{bwd}:initialize", f"{io}:load_data", f"{io}:load_tagging_region")
C("C95","A restart from single-precision files changes a run by at most what was rounded","Output files hold every variable as float32. (i) Each number in a file differs from the number in memory by at most the unit roundoff of the format (2^-24 for float32, plus the underflow threshold for tiny numbers), keeps its sign, and is zero if that number is zero. (ii) A run over [A, C], and for any of its output times B the run up to B followed by a restart from the rounded file of B: the first part writes the same files, the restarted run completes and writes files for the same times, and - in weather in which no cell loses more water in a step than it holds - all its later tracked precipitation/evaporation, losses and final storages together differ from those of the uninterrupted run by at most 2^-24 of the tracked storage at B.","all experiments, grids, data, output times B, every rounding to nearest-like format (monotone, odd, accurate to u), both directions","the bound must hold for every state at the restart; tests compare one restart with a tolerance", f"{io}:write_output", f"{fwd}:initialize", f"{bwd}:initialize", f"{fwd}:run_experiment", f"{bwd}:run_experiment")
C("C96","A tagging region on another grid is never applied to the wrong cells","If the latitudes and longitudes of a tagging region file (within the tracking domain) are not exactly those of the data, a run that has a time step in the tagging window stops with an exception, and no file it has written is of a time after the start of that step; the mask is never used by position. A run without any time step in the tagging window is not affected by the grid of the region.","all region files (with or without time axis), data, domains, runs and tagging windows, forward and backward","there are infinitely many ways in which two grids can differ; a test shows one", f"{io}:load_tagging_region", f"{fwd}:forwardtrack", f"{bwd}:backtrack", f"{fwd}:run_experiment", f"{bwd}:run_experiment")
C("C97","No history of crashes, errors and restarts loses or changes a file","A run that is interrupted any number of times and restarted each time from its last output file: each session may be killed after any number of steps, or stop because some of its input cannot be read at that moment, and may leave garbage in place of a later output file. After any such history the files that count (those completed by the sessions) are the first files of the uninterrupted run, in order, without a gap or a repetition, and the folder holds them unchanged. From there one undisturbed session completes, writes exactly the missing files, leaves exactly the folder that the uninterrupted run leaves, and ends with the same tracked storages and the same sums.","all experiments, grids and data, all histories (any number of sessions, any crash points, any pattern of missing data and any garbage), both directions","the histories are infinitely many; a test can replay one interruption", f"{fwd}:run_experiment", f"{fwd}:initialize", f"{bwd}:run_experiment", f"{bwd}:initialize", f"{io}:write_output")
C("C98","A smaller grid gives the same results away from its edge","Cut a rectangular part out of the grid of an experiment (same data in these cells, same grid information, same tagging region in these cells) and run the experiment on it, with closed or (if it has all columns) periodic boundaries. This run ends too, writes files at the same times, and after k steps all fields of its files are exactly those of the run on the whole grid in every cell at least k cells from the edge of the part (with any arithmetic, including floating point with NaN).","all grids and parts of grids, data, configurations, restart files, number types, numbers of steps","a test runs a few grids; what is outside the part, the number of steps and the data are arbitrary", f"{fwd}:forwardtrack", f"{bwd}:backtrack", f"{core}:horizontal_advection", f"{grid}:get_boundary", f"{core}:calculate_fz", f"{io}:select_subdomain")
C("C99","Zero boundary losses mean that the domain was large enough","If all files of a run on a part of the grid report zero losses in the edge cells (and the run is not restarted from a file with tracked water in edge cells), and nothing outside the part is tagged, then the run on the whole grid has exactly the same files: the same fields in the part and zero everywhere else.","all grids, parts, physical input data, configurations, numbers of steps; exact arithmetic","the statement concerns a run on data the user never loaded; no test can try all data outside the domain", f"{fwd}:forwardtrack", f"{bwd}:backtrack", f"{grid}:get_boundary", f"{io}:select_subdomain")
C("C100","The tracking domain cuts a window out of the experiment","On preprocessed data with one equally spaced grid, a run with a tracking domain (a box that does not cross the date line) reads at every time exactly the rows and columns in the box of what the run without domain reads: data, grid information, tagging region, weights, and the same errors. So its results are those of the run without domain in all cells further from the edge of the box than there have been steps; and if its files report no losses at the edge of the box and nothing is tagged outside, the run without domain gives the same files, with zeros outside.","all archives on one grid, boxes, tagging boxes and region files on that grid, configurations, numbers of steps; exact arithmetic","compares with a run on data the user chose not to load, for all data, boxes and numbers of steps", f"{io}:select_subdomain", f"{io}:load_data", f"{io}:load_tagging_region", f"{grid}:get_grid_info", f"{fwd}:run_experiment", f"{bwd}:run_experiment")
C("C101","Mirror images","Swapping east and west in all data (fields reversed in longitude, eastward flux negated), or north and south (fields reversed in latitude, northward flux negated), or both, gives a run that does the same at the same times: it loads the same times, raises the same errors, and writes files for the same times, which are the mirror images of the files of the original run, bit for bit also in rounded arithmetic; the progress report is the same. The grid information for mirrored latitudes is the mirrored grid information.","all data, including data for which a run fails, configurations, closed and periodic boundaries, restarts and numbers of steps; exact and rounded arithmetic (the report in exact arithmetic)","a comparison of two runs for all data and numbers of steps; a bias of the scheme to one side may be invisible on symmetric test data", f"{core}:horizontal_advection", f"{core}:calculate_fz", f"{core}:stabilize_fluxes", f"{core}:vertical_advection", f"{fwd}:forwardtrack", f"{fwd}:run_experiment", f"{bwd}:backtrack", f"{bwd}:run_experiment", f"{grid}:get_grid_info")
C("C102","The unit of water does not matter","Multiplying all storages, fluxes, precipitation and evaporation by one positive number (another unit, or denser water) gives a run that does the same at the same times, raises the same errors and writes files for the same times, in which every field is multiplied by that number; all percentages in the progress report are the same. There is no absolute threshold. In rounded arithmetic the same holds bit for bit for factors that commute with rounding (powers of two, as long as nothing underflows).","all data, including data for which a run fails, positive factors, configurations, restarts and numbers of steps; exact and rounded arithmetic (the report in exact arithmetic)","a comparison of two runs for all data, factors and numbers of steps", f"{core}:horizontal_advection", f"{core}:calculate_fz", f"{core}:stabilize_fluxes", f"{core}:vertical_dispersion", f"{fwd}:forwardtrack", f"{fwd}:run_experiment", f"{bwd}:backtrack", f"{bwd}:run_experiment", f"{prof}:ProgressTracker.print_progress")
C("C103","Only differences of dates matter","Moving all dates of a configuration and all times of the data by the same amount of time gives the same run with all times moved: it loads the same items, fails with the same errors, writes the same files and progress reports, each dated later by that amount, provided the amount is a multiple of the output frequency. On a folder of preprocessed files the same holds if it is a multiple of the input frequency too, whatever the calendar, year and folder of the two archives: month lengths, leap days and year boundaries within a run have no influence on the results.","for all configurations, data (complete or not), tagging regions (box, constant or moving file), restarts, calendars and amounts of time, forward and backward","a test runs one period; an error at a year boundary or leap day, or in a calendar, shows for particular dates only",f"{fwd}:run_experiment", f"{bwd}:run_experiment", f"{io}:load_data", f"{io}:input_path", f"{io}:load_tagging_region", f"{io}:output_path")
C("C104","No influence of data outside the period, of the future (forward) or of the past (backward)","The result of a run depends only on the data between its start and end date: other data before or after that period change nothing. The output files of a forward run up to a time T depend only on data, tagging window and tagging region up to T, not on anything later, nor on the end date as long as it is at least a time step after T (the last step of a run always writes a file); the output files of a backward run from T on depend only on data from T on. Hence a run that fails for lack of data has written exactly the files that the complete run writes up to there, and a longer run gives the same first files, except for the file of the last time of the shorter run. On preprocessed files: only the files of the days concerned matter.","for all configurations, pairs of data sources that agree on the period (also where both fail), times T, restarts, forward and backward","a test compares two particular pairs of inputs; an accidental look-ahead shows only if the data differ at just the right time",f"{fwd}:run_experiment", f"{bwd}:run_experiment", f"{io}:load_data", f"{io}:load_tagging_region")
C("C105","A tracking domain across the date line","On preprocessed data with one equally spaced grid, a run with a tracking domain that crosses the date line (east not east of west, at least one column of the data outside) reads at every time exactly the rows and columns of the box, in the order from its western to its eastern end, of what the run without domain reads: data, tagging region, weights, errors. If none or at least two columns lie west of the date line, the grid information is right too; then all results in cells further from the edge of the domain than there were time steps are those of the run without domain on data that begin at the western end of the box, and all results everywhere if no losses at the edge are reported. (Finding: with exactly one column west of the date line, areas and lengths of all cells are computed as if the columns were N+1 times as far apart as they are.)","for all grids, boxes across the date line, data, tagging regions (box, or constant or moving file on the grid of the data), configurations, restarts, forward and backward","positions of the box edges relative to the grid and the date line are unlimited; a single column on one side is an easily missed case",f"{io}:select_subdomain", f"{io}:load_data", f"{io}:load_tagging_region", f"{grid}:get_grid_info", f"{fwd}:run_experiment", f"{bwd}:run_experiment")
C("C106","What the commands change on disk",
"At every moment of `wam2layers track`, `preprocess` and `visualize` - complete, failed, or interrupted anywhere, also in the middle of writing a file - the file system differs from the one at the start only by: folders on the way to preprocessed_data_folder and output_folder that were missing; the subfolders debug/figures; and, in the folder of the command (output_folder, for preprocess preprocessed_data_folder), the log file, the copy of the configuration file, and the files named after direction and minute (forwardtrack_/backtrack_), day (_fluxes_storages.nc), correction time, mask or figure. Nothing is deleted, no other file is overwritten; raw input, configuration and everything outside the output folder stay as they are during tracking. The copy of the configuration is complete before the experiment writes anything and stays equal to the file. A command that ends without exception has everything the experiment wrote, complete, in place. Reading a configuration again changes nothing. (Findings: the folders are made even if the configuration is rejected for the order of its dates; `~` is not replaced by the home directory; an existing file is accepted as output folder, and the command then stops before changing anything.)",
"every file system, current directory, configuration file, experiment (any list of files written, any exception) and every moment of the command",
"Tests look at one file system after one complete run; that nothing else is touched at any crash point is a statement about all file systems and all prefixes of the run.",
f"{cfg}:Config.from_yaml", f"{cfg}:Config._expanduser", f"{cfg}:Config._make_dir", f"{cli}:setup_logging", f"{cli}:_copy_config_yaml", f"{cli}:track", f"{io}:output_path", f"{io}:load_tagging_region")
C("C107","Forward and backward tracking give the same answer",
"The precipitation over a region B that a forward run traces to evaporation over a region A, and the evaporation over A that a backward run over the same period and data traces to precipitation over B, are the same amount of water (area-weighted, added up over all output files), up to five times what is not closed in the data: per time step and cell inside the boundary, the imbalance of the two layers (old storage + net inflow + vertical flux + evaporation - precipitation share - new storage) and the change of the layers' precipitation shares.  With balanced data the two amounts are equal.  Behind it: the transport of backtracking is the transpose of that of forward tracking up to the convergence of the flow.",
"all grids, boundary modes, data, regions with weights in [0,1], numbers of steps and output frequencies; runs that start empty, tag during the whole period (a whole number of time steps) and whose time step is small enough that neither the stability correction nor emptied layers interfere",
"relates every pair of regions and every pair of a forward and a backward run; one comparison of two runs shows only that two numbers are close",
f"{fwd}:forwardtrack", f"{bwd}:backtrack", f"{core}:horizontal_advection", f"{core}:vertical_advection", f"{core}:vertical_dispersion", f"{core}:calculate_fz")
C("C108","An interrupted command can be given again",
"If `wam2layers track` or `preprocess` would end normally when given on some file system, then it also ends normally on what any number of interrupted attempts have left there - each of them killed at any moment, also while making folders or in the middle of writing a file - and the files are then the same as if there had been no attempts, apart from the log files of the attempts: no half-written file remains and none keeps the command from running. Condition: the input and the configuration file are not in the folder the command writes to, and no folder has the name of a file it writes (a restarted run reads its first state from the output folder, see C97 for that).",
"every file system, current directory, configuration, experiment that reads only files outside the folder it writes to, number of attempts, crash point of each attempt and time stamps",
"Crash points and numbers of attempts are unbounded; a test interrupts at chosen places on one file system.",
f"{cli}:track", f"{cli}:setup_logging", f"{cli}:_copy_config_yaml", f"{cfg}:Config._make_dir", f"{io}:write_output", f"{prof}:ProgressTracker.track_stability_correction")
C("C109","The output folder holds exactly the run of the input folder",
"When `wam2layers track` has ended normally, the tracking run defined by the files that were there at the beginning is finished, and each of its outputs is in the output folder under the name of its time (unless a later output has the same name to the minute). If the run stops with an exception, the command writes the output files the run has written before, and raises the same exception. Tracking looks at no other files than: the preprocessed files of the days, the file of the tagging region (for a shapefile also one .nc file of the preprocessed folder) and, for a restart, the output file of the time at which it starts; files elsewhere, or others in these folders, never change the result.",
"every file system, configuration (both directions, box, file or shapefile region, restart or not), content of the files and netCDF encoding",
"Quantifies over all file systems with the same input files; a test can only add some files and see that nothing changes.",
f"{fwd}:run_experiment", f"{bwd}:run_experiment", f"{fwd}:initialize", f"{io}:load_data", f"{io}:load_tagging_region", f"{io}:write_output", f"{cli}:track")
C("C110","Results depend continuously on the data","If the storages, fluxes, precipitation, evaporation, region masks, kvf and the initial tracked storages of a family of runs on the same grid, with the same dates and settings, tend to those of one run in which both layers hold water everywhere and the water of each layer moves in every cell, then all runs write files with the same time stamps, and every field of every file tends in every cell to that of the limit run. Equivalently: for every tolerance on the results there is a tolerance on the data, one for the whole run, that guarantees it. No threshold in the code (donor cell choice by the sign of the flux, sign of the vertical flux, stability limit, clipping to the storage, gains and losses) makes results jump.","all grid sizes, run lengths, periodic or not, all families of inputs and all notions of limit (filters), all runs with positive storages and moving water, all tolerances; forward and backward","a test compares two nearby inputs; whether some other threshold crossing makes the result jump is a statement about all inputs near all inputs",f"{core}:horizontal_advection",f"{core}:vertical_advection",f"{core}:stabilize_fluxes",f"{core}:calculate_fz",f"{fwd}:forwardtrack",f"{bwd}:backtrack",f"{fwd}:run_experiment",f"{bwd}:run_experiment")
C("C111","What `preprocess` leaves on disk is what `track` reads, from raw data to output files","When `preprocess` has ended normally, the folder of preprocessed data holds for every input time of the period the file of its day, with all input times of that day in order and what was computed for them. When `track` is then given with the same folder, calendar and input frequency, and ends normally, its run was fed at every moment with exactly that data (interpolated in between, cut to the tracking domain), and for every moment at which it writes there is a file with that time in its name whose tracked water is non-negative and no more than there is.","every file system, configuration, calendar, period, raw data that make sense, tracking domain, tagging region, direction","two commands with a file system in between, for all configurations and data", f"{psh}:prep_experiment", f"{psh}:preprocess", f"{cli}:preprocess", f"{cli}:track", f"{fwd}:run_experiment", f"{bwd}:run_experiment", f"{io}:load_data")
C("C112","Commands succeed: nothing fails but the experiment itself","If no file is where a command wants a folder, no folder where it wants a file, and its configuration file is not in the folder it writes to, a command ends exactly as its experiment does on the files there were when it was given: normally, or with the same exception. So `preprocess` on complete and physical raw data, followed by `track` with a tracking period within the preprocessed one, both end normally and leave all output files, without any further assumption.","every file system, configuration, experiment, raw data, period, direction","every file system state and configuration", f"{cli}:track", f"{cli}:preprocess", f"{cli}:_copy_config_yaml", f"{cli}:setup_logging", f"{cfg}:Config.from_yaml", f"{psh}:prep_experiment", f"{fwd}:run_experiment", f"{bwd}:run_experiment")
C("C113","Commands that run at the same time do not disturb each other",
 "Several commands (track, preprocess, visualize) are running at the same time on one file system, in separate processes whose calls of the operating system come in any order. If none of them writes to what another one writes to or needs (the configuration file, the folders its configuration names, the input data), and no two of them have to create the same missing folder, then every command that has ended has the same result and left the same files as if it had run alone; at every moment its files are as at some moment of its running alone; all other files are as before; no command waits for another; and when all have ended the whole file system is as if they had been given one after the other, in any order. Two commands that find the same folder missing can fail, although each of them succeeds alone.",
 "every family of commands, configuration, experiment and initial file system, and every schedule (interleaving) of their calls, of any length",
 "a test sees a few interleavings out of exponentially many, and can force none of them; the property is about all",
 f"{cli}:track", f"{cli}:era5", f"{cli}:input", f"{cli}:setup_logging", f"{cli}:_copy_config_yaml", f"{cfg}:Config.from_yaml", f"{cfg}:Config._make_dir", f"{io}:write_output", f"{psh}:prep_experiment")
C("C114","Water moves with the winds of the data, and which time steps need no correction","(i) After preprocessing - pressure levels or model levels, with or without scaling to total column water - in each layer of each column the eastward (northward) flux is the storage times a wind that lies between the smallest and the largest eastward (northward) wind of that column, surface included; in particular a layer without water has no flux, and a uniform wind gives flux = wind times storage. This holds from the ERA5 files to the preprocessed file. (ii) It also holds at all times between input times, for the interpolated states and fluxes. (iii) Hence a rule for the time step: if the winds are at most U and V, the storage halfway a step is at most c times the storage at its beginning, and c (U dy + V dx) dt is at most half of the area of each cell, then no flux is changed by the stability correction.","all columns, levels, boundaries and surface pressures (at least 303.31 hPa on the ERA5 model levels), winds and non-negative humidities, with the layer boundary above the surface; all files, times and grids","Tests use a few columns and winds; the bounds must hold for every column and every time step, and the rule is about all grids and winds at once.",f"{psh}:preprocess", f"{ppl}:extend_pressurelevels", f"{ppl}:interp_dp_midpoints", f"{era}:get_dp_modellevels", f"{put}:interpolate", f"{core}:stabilize_fluxes", f"{io}:load_data")
C("C115","Tracking in two commands, with a restart in between, leaves the output files of one command","Let a configuration track over [A, C] and let B be one of its output times. Running `wam2layers track` on the part before B and then, in the files it leaves, `wam2layers track` with `restart: true` on the part after B leaves at every output time of the whole period a file with the same fields as one command over the whole period (attributes, which record the configuration and the moment of writing, aside). If for each of the three commands its configuration file is in place and nothing is in the way of the files it writes, and the input data are there, all three commands end without an error. Holds forward, and backward (where the first command tracks from C back to B).","all grids, data, configurations, folders and file systems (input outside the output folder), all output times B and all time stamps of the commands, forward and backward; numbers exact, and the output file of B can be read back unchanged (C95 bounds what rounding to float32 does)","A test can compare one restart at one time. The claim is that nothing at all is lost between the two commands - whichever output time, file system, tagging period, boundary or calendar - and that the restart reads exactly what was written before.",f"{fwd}:initialize", f"{bwd}:initialize", f"{fwd}:run_experiment", f"{bwd}:run_experiment", f"{io}:write_output", f"{io}:output_path", f"{cli}:track")
C("C116","Preprocessing bit by bit","(i) After any sequence of `wam2layers preprocess` commands that ended without an error, the raw data and the files of all other days are as before, and the file of each preprocessed day holds exactly what the last command with input times on that day computes from the raw data for those times. (ii) Hence a period can be preprocessed by several commands, in any order, each for whole days: if one command for the whole period would succeed, all of them succeed and leave the same files; cutting a period once between two days is such a case. (iii) A cut within a day loses data: the second command replaces the file of the day, and the times of that day that only the first one preprocessed are gone.","all lists of commands, configurations, raw data, file systems with room for the files, periods, frequencies and cuts","A test runs one split. That nothing is lost, duplicated or overwritten must hold for every number and order of commands, every calendar, frequency and cut.",f"{psh}:prep_experiment", f"{psh}:preprocess", f"{psh}:group_timestamps_by_day", f"{psh}:get_input_dates", f"{cli}:era5", f"{cli}:cmip", f"{cli}:arco_era5")
C("C117","Continuing from a single-precision file costs at most its rounding","The output files are single precision. Suppose forward tracking (backward tracking likewise) is done with two `track` commands, the second restarting from the file of an output time B, and reading that file back gives its numbers rounded, with relative error at most u. Then, when everything is ready for the commands, all succeed; up to B the folder holds the same output as after the one command over the whole period; and, in weather in which no cell loses more water than it holds in a time step, at every later output time E the tracked storage, plus the tracked precipitation (evaporation) and losses in any of the files from B to E, differ in total over the grid by at most u times the tracked storage at B (plus an underflow term).","every data set, configuration, file system, rounding function, output time at which the run is cut, later output time and set of files in between","the number of steps over which rounding could build up is unbounded, and tests only try some weather and some values",f"{fwd}:initialize",f"{bwd}:initialize",f"{io}:write_output",f"{io}:load_data",f"{cli}:track")
C("C118","Tracking can be divided among any number of commands","A tracking run over a period, forward or backward, can be divided at any of its output times among any number of `track` commands with restart: true, each of which continues from the last file of the one before it. When the input is there for the whole period, the data lie outside of the output folder, and there is room for what is written, then all commands succeed, and after them the folder holds, for every output time they have reached, the same file as after the one command over the whole period.","every data set, configuration, file system, and every division of the run into commands","the number of commands and of steps in each is unbounded; each command's result depends on what all earlier ones have left on disk",f"{fwd}:run_experiment",f"{bwd}:run_experiment",f"{fwd}:initialize",f"{bwd}:initialize",f"{io}:write_output",f"{cli}:track")
C("C119","A download on disk, at every moment",
"`wam2layers download`: at every moment of a download - killed, ended by an exception, or complete - all that is different on disk is the new target folder and new files in it, each with a name and an address that the data set offers and holding a beginning of what that address sends; nothing that was there before is touched. If the record, the catalogue and all files can be had, the command ends normally and every offered file is there with all its content (of several with one name, the last), and nothing else. A download that was interrupted (or is complete) cannot be taken up again: the next one fails with FileExistsError and changes nothing. The status codes of the answers for files are not looked at, so an error page is saved as data. Without a data link in the record the command ends with an UnboundLocalError and leaves an empty folder. All this is for names without slashes: the names of additional files are not checked, and one like ../k or /k replaces a file outside of the folder.",
"all file systems, working directories, DOIs, names, answers of the servers (records, catalogues, contents, status codes, broken connections) and all crash points",
"The answers of the servers, the names they offer and the moment of an interruption are unbounded; a test can use a few fake servers.",
f"{dl}:download_from_4tu", f"{dl}:download", f"{dl}:get_4tu_catalog", f"{dl}:get_4tu_files", f"{dl}:create_target_directory", f"{cli}:download")
C("C120","A run can be repeated from its exported configuration","Config.to_file writes one file and changes nothing else; loading that file, from any working directory, gives the same configuration with its dates cut to the minute - so the very same configuration exactly if all dates are whole minutes. Export the configuration of a finished track command (with dates in whole minutes), in the same or in another file system with the same input files, and call track with the exported file: it ends normally, and every output file holds the same data as that of the first run. The same holds for any two track commands whose files load as the same configuration, whatever their names, working directories and times. An output file alone is enough for this: its attribute WAM2Layers_config is the text that to_file writes. Its history is a single entry and its source is 'UNKNOWN', whatever the input files say.","all configurations that load (years 0-9999), working directories without '..', file systems with the same input, positions of the exported file, finished runs in both directions, all number types","The exported text passes through date formatting, JSON, YAML, path resolution and validation, and the claim is about all files of all runs.", f"{cfg}:to_file", f"{io}:get_main_attrs", f"{cfg}:to_string", f"{cfg}:from_yaml", f"{cfg}:_expanduser", f"{cli}:track", f"{fwd}:run_experiment", f"{bwd}:run_experiment")
C("C121","Appending to a file of preprocessed data keeps what is there and adds exactly the new time","append_to_netcdf never changes what can be read at existing times, nor variables without time, nor the length of other dimensions - also if it stops with an exception after some variables. It ends normally exactly if all variables with a time are in the file with the same dimensions and shape; then the time axis is longer by what was appended, and at the new positions every variable, in whatever order they come, reads as it was in memory; dates are stored as seconds since 1900-01-01 in the calendar of the file and read back as the same dates. A day of preprocessing leaves a file with exactly the times and data of that day.","all files, datasets, dimensions, positions of the time dimension, orders of variables, calendars, dates that are whole seconds, numbers of appended times","Slices and lengths interact over all variables and the order of writing; tests append to one file.", f"{app}:append_to_netcdf", f"{app}:_expand_variable", f"{psh}:preprocess")
C("C122","Rounding in the vertical integration is bounded","Preprocessing in floating point gives, for every column, storages and fluxes that differ from those of exact arithmetic by at most a stated multiple of the unit roundoff: about (n + 4) roundoffs of the integral for n levels plus the effect of rounded layer thicknesses (at most 106 roundoffs of the surface pressure each, for ERA5 model levels and any choice of levels). With total column water in the input the two layers add up to it up to about 2.2 n roundoffs and the same effect. Storages are never negative when humidities and thicknesses are not, whatever the rounding. Both computations end alike.","every rounding with unit roundoff at most 1e-7 (float32, float64, any direction), every column, number of levels up to 100000, surface pressure from 303 hPa on","Tests compare with tolerances on a few columns; the bound has to hold for every column, precision and number of levels.",f"{psh}:preprocess", f"{era}:get_edges", f"{era}:get_dp_modellevels", f"{era}:load_era5_ab")
C("C123","Which regions a source names","mask_with_regionmask makes a mask exactly when the source names a set of regions of the package (names with 'ar6' by what follows the only dot, other names directly), the name has neither 'land' nor 'ocean' in it and the regions are given as a list; the numbers count from one for names with srex, giorgi or prudence and from zero otherwise. Region k of a published source is the region the package lists under this number. A single number is always refused; unknown names, refused names and single numbers are KeyErrors, a name with 'ar6' and not exactly one dot is a ValueError; what precedes the dot does not matter.","every text as source, every argument, every library of regions, every grid","The number of texts is unbounded and tests need the package and its data; they use one or two names.",f"{tag}:mask_with_regionmask")
C("C124","Correction fields of a run","A tracking run writes a correction field exactly for those checks (upper layer, then lower layer of every time step, with the storages of that time and the fluxes half a step later resp. earlier) that give a warning, in this order and with the time of the step; a run that ends normally has checked all its steps, one that fails has written the fields of the completed steps. There are at most 32 fields because of the affected area plus as many as the cut becomes stronger by a factor 10/11; a run in which no cell loses more than half of its water in a step writes none; if the first checked layer has to be cut below 10/11 it gets one. Two fields go to the same file exactly if their times agree up to the second (so the lower layer replaces the upper one).","every configuration, file system, library of file contents, number of time steps, both directions, any end of the run","A property of the whole sequence of time steps and of the thresholds kept between them.",f"{prof}:ProgressTracker.track_stability_correction",f"{core}:stabilize_fluxes",f"{fwd}:run_experiment",f"{bwd}:run_experiment")
C("C125","Helpers for pressure levels","interpolate_old, on samples in any order and with the same values masked in coordinate and variable, gives what interpolate gives on the unmasked samples in increasing order (with descending=True for a decreasing axis), and the same error outside. get_new_target_levels gives the n equally spaced pressures from the surface to 200 hPa with the boundary pressure in its place and a zero at the end: n + 2 values that fall; a boundary at or below the surface is left out. join_levels gives all levels and the surface in falling order; repeat_upper_level adds a level at 100 hPa with the last or the given value.","every column, number of samples, target, surface and boundary pressure, number of levels","Equality of two interpolation routines on all inputs, and a result for every number of levels, cannot be settled by examples.",f"{put}:interpolate_old",f"{put}:get_new_target_levels",f"{put}:join_levels",f"{put}:repeat_upper_level",f"{put}:interpolate")
C("C126","What preprocessing stores is accurate to single precision","The storages and fluxes in a preprocessed file (computed in one precision, stored in single precision) are those of exact arithmetic up to one roundoff of the file's format times the integral of the absolute values, plus the error of the computation. For ERA5 model levels, any choice of levels and any surface pressure from 303.31 hPa on: up to 6e-8 of the integral plus 4e-12 (fluxes: 5e-12 times the largest wind) times the largest water content. With total column water the two stored storages add up to it, up to such an error; no stored storage is negative.","every column, humidity, wind, surface pressure, choice of levels and layer boundary; every pair of floating-point formats","tests compare with saved results and cannot bound the error over all inputs; float32 conversion after a float64 sum needs an error analysis",f"{psh}:preprocess")
C("C127","Preprocessing pressure-level data is accurate to rounding","For pressure-level data preprocessing in floating-point arithmetic succeeds exactly when exact arithmetic (with the same layer boundary) does, and fails with the same error otherwise. In double precision, for pressures up to 1200 hPa that are at least 1e-9 Pa apart, humidities up to 1 and winds up to 200 m/s, the storages differ by at most 2e-11 (N+8) kg/m2 and the fluxes by at most 4e-9 (N+10) kg/m/s for N levels. The layer boundary itself is off by at most three roundoffs. What is stored is off by one more roundoff of the file's format.","every column of pressure-level data with its surface values, in any order of the levels; every factor and offset of the layer boundary; every floating-point format with bounded relative error","tests compare with saved results and cannot bound the error over all inputs; sorting, comparisons and interpolation could amplify a rounding error",f"{ppl}:extend_pressurelevels",f"{ppl}:interp_dp_midpoints")
C("C128","Tracking divided among any number of commands, with single-precision files","Divide a tracking run, at times at which output is written, among any number of commands, each of which continues from the last file of the one before it, and let the files hold rounded numbers (single precision). All commands succeed. Until the first command ends the output equals that of one command over the whole period. From then on, in calm weather, the difference in tracked storage at an output time plus the differences in tracked rain (or evaporation) and losses summed over any set of output files up to that time are at most the sum of the rounding of the files that were read back: the errors of the restarts add up and are not amplified.","every configuration, division into commands, reader that rounds, direction of time, output time and set of output files","A test restarts once and compares with a tolerance; how the errors of many restarts combine must hold for every division and every weather.",f"{fwd}:initialize",f"{fwd}:run_experiment",f"{bwd}:initialize",f"{bwd}:run_experiment",f"{io}:write_output")
C("C129","A run is the sum of its parts","Divide a tracking run, forward or backward, into any number of runs over the same weather: parts of the tagging region, parts of the tagging period (single days, for example), the water that was already tracked at the restart, or any mixture, so that in every time step the parts together tag what the whole run tags. As long as no layer of the whole run is ever filled completely with tracked water, every part writes files at the times at which the whole run does, and every number in a file of the whole run (tracked storage, tracked precipitation or evaporation, tagged moisture, losses, gains) is the sum of the numbers in the files of the parts.","every weather without overdraft, region, finite family of parts, number of steps, grid, starting storages, both directions","The number of ways to divide a region and a period is unbounded, and the sum has to hold in every cell of every file; a test adds up a few runs.",f"{fwd}:forwardtrack",f"{bwd}:backtrack",f"{fwd}:run_experiment",f"{bwd}:run_experiment",f"{tsh}:initialize_tagging_region",f"{io}:load_tagging_region")
C("C130","How far the influence of a value reaches","Change the data of an experiment at some times and cells (a damaged sample, a patch of missing data, NaN included), or its restart file in some cells. Output files have the same times as before, and the output file of a time t has exactly the same values in every cell that is too far away: a change at time u reaches, in the direction of the run, at most one cell more than the number of time steps between u and t, where cells are neighbours if they share a side (across the date line if boundaries are periodic); a change in the restart file reaches one cell per time step. Nothing else in the code (stabilisation, vertical flux, boundary treatment, bookkeeping) carries information between cells.","all grids, settings, number types (floating point with NaN included), data and changes of any size at any times and cells, forward and backward","Locality has to hold for every pattern of changes and every cell at every time; a test changes one value and compares a few cells.",f"{fwd}:forwardtrack",f"{bwd}:backtrack",f"{core}:horizontal_advection",f"{core}:calculate_fz",f"{core}:divergence",f"{grid}:stagger_x",f"{grid}:stagger_y")
C("C131","Where all water is tagged, all water stays tagged","Restart an experiment from a file in which, in some set of cells, all water is tagged (tracked storage equals storage in both layers), and tag all evaporation there (backward: all precipitation). As long as no more than half of the water of a cell moves in a time step and the balance of every column (what there was, net horizontal inflow, evaporation minus precipitation) supplies at least the water that the data say is there, then in every output file all water is still tagged, exactly and in both layers, in every cell that water from outside the set cannot have reached (the set shrinks by one cell per time step), not in cells at the edge of the grid. In the cells that remain to the end, the tracked precipitation over all files is all precipitation (backward: tracked evaporation is all evaporation), gains are zero, and losses are exactly what the balance supplies in excess, so zero where the data balance. The vertical flux does not matter.","every grid, data, set of cells, time step, number of steps, vertical dispersion and output frequency, in exact arithmetic; forward and backward","The identity holds for every field of winds and storages and any number of steps, through the splitting over layers, the vertical exchange and the redistribution between layers; a test checks one atmosphere for a few steps and has rounding in it.",f"{fwd}:forwardtrack",f"{bwd}:backtrack",f"{core}:horizontal_advection",f"{core}:vertical_advection",f"{core}:vertical_dispersion",f"{core}:stabilize_fluxes",f"{core}:calculate_fz")

with open("/verif/properties.jsonl", "w") as f:
    for p in P:
        f.write(json.dumps(p, ensure_ascii=False) + "\n")
print(len(P))
