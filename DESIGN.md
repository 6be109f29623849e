# Formal model of WAM2layers in Lean 4 -- design

The subject is the Python package in `/repo/src/wam2layers` (pinned commit).  The model lives in
`/verif/lean/Verif/Model`, small independent specifications in `/verif/lean/Verif/Spec`, helper
lemmas in `/verif/lean/Verif/Lemmas`, and the property theorems (one file per topic, theorem names
start with the property id, e.g. `C06_...`) in `/verif/lean/Verif/Props`.  `/verif/lean/Verif/Cases` applies every
theorem that has hypotheses to concrete, non-trivial data (in addition to the examples beside the theorems), so that
no hypothesis is unsatisfiable.  The list of properties
is `/verif/properties.jsonl` (generated by `tools/props.py`), the map property -> theorems is
`/verif/MANIFEST.json` (generated by `tools/manifest.py`).

## 1. Modelling decisions

* **Numbers.** All numeric routines are written once, polymorphic in a carrier with `+ - * /`, unary
  minus and a class `NpOps` (comparison, `minimum`, `maximum`, `abs`, `sign`, literals) -- the numpy
  vocabulary.  They are instantiated at
  - an arbitrary linearly ordered field `K` (exact arithmetic) for the quantitative theorems, and
  - `XF K` = `K` + {NaN, +inf, -inf} with IEEE-754 rules for the NaN theorems.  A homomorphism theorem
    connects the two: on inputs without special values whose divisors are non-zero both agree;
  - `ℝ` for trigonometry (grid areas) and the exponential (humidity).
  - `Fl R` = numbers rounded after every operation, for an arbitrary rounding `R` (monotone, idempotent, odd) and for the concrete
    binary64 and binary32 formats of `Model/Ieee.lean`, for the rounding theorems (C85, C90--C95).
  In `K`, `x/0 = 0`; every theorem whose code path
  divides states the non-zero hypothesis explicitly, and the zero case is covered by `XF`.
* **Arrays** have static shapes (`Fin m → Fin n → α`); slices, `np.pad`, `np.where` are modelled
  literally, index by index.  Row index increases southward as in the code.
* **Time** is an integer number of microseconds (cftime/pandas resolution); calendars are a
  finite list (`Model/Calendar.lean`) with concrete conversions between numbers of microseconds and dates; the laws of these
  conversions (they are inverse to each other and monotone) are proved, not assumed.
* **Loops** (`while`) are modelled as an iteration with fuel; theorems state that enough
  fuel exists (termination) or that no fuel suffices (non-termination) and are
  independent of the fuel.
* **Exceptions** are values (`Except`).
* **Files** are finite maps from paths to contents; a crash truncates the sequence of file operations;
  parallel workers are arbitrary interleavings of their operation sequences.
* **External data** (netCDF input files, region masks, shapefiles) are parameters.

## 2. Plan per property

Each row: what is modelled and how the theorems (named `C##_...`, in `Props/`) are proved.  `K` is any
linearly ordered field, `XF K` is `K` with NaN and infinities.

| id | modelled code (model file) | proof |
|---|---|---|
| C01 | `stagger_x/y`, `horizontal_advection`, both boundary modes (`Grid`, `Core`) | telescoping sums over `Fin`; the boundary terms are the fluxes through the outer faces |
| C02 | the same | index-wise equality with an independently stated donor-cell scheme (`Spec/Advection`), case split on the sign of the flux |
| C03 | the same | algebra from C02 |
| C04 | the same, `stabilize_fluxes`, `forwardtrack`, `backtrack`, `calculate_fz` | equivariance under cyclic shifts of the columns; for `calculate_fz` equivariance in interior columns, the exact size of the error at the seam, and a counterexample there |
| C05 | `vertical_advection`, `vertical_dispersion` | case analysis |
| C06-C08 | `stabilize_fluxes` | ordered-field algebra on one component, `sign`/`abs`/`min` case analysis |
| C09 | the same and both tracking steps and runs over `XF K` | propagation of NaN through each operation; when NaN is absent, a homomorphism `K -> XF K` (`Lemmas/Lift`) transfers the computation |
| C10 | stabilisation + staggering | convexity of the outflow in the face fluxes |
| C11, C12 | `calculate_fz` | algebra |
| C13-C18 | `forwardtrack`, `backtrack` (`Track`) | cell-wise algebra of the bookkeeping (`settle`), sums with C01 |
| C19 | the same + whole runs | induction over the run |
| C20 | the same | equality of the transport with that for the negated fluxes |
| C21, C22 | the same | algebra; outflow bounds |
| C23-C28 | `run_experiment` of both directions (`Run`, `Time`): loop with fuel, loading, tagging, stabilising, tracking, writing, flushing | refinement of the loop to a fold over the list of step times; induction over the number of iterations |
| C29, C30 | restart files, crash after any number of file writes | both runs refine the same fold; equality from the state at the restart time |
| C31-C33 | tagging window, accumulated tagging, `add_time_bounds` | characterisation of the list of step times |
| C34, C35 | `ProgressTracker` (`Run`) | induction over the run; the closure formula by algebra |
| C36 | `track_stability_correction` (`Warnings`) | induction over the sequence of calls |
| C37 | `load_data` on an archive of daily files (`IO`, `Calendar`) | interpolation weights by integer arithmetic, file names by C42 |
| C38 | LRU cache with `deepcopy`, client may mutate what it got (`IO`) | simulation: the heap invariant "cached objects are not shared" |
| C39 | `read_or_retry` | induction over the attempts |
| C40 | `select_subdomain` incl. rolling (`IO`) | list lemmas; exact set of kept rows/columns, order, data |
| C41, C43 | `initialize_tagging_region`, nearest time | case analysis; argmin lemmas |
| C42 | file names (`Calendar`: strftime; all six calendars) | injectivity of zero-padded digits; calendar arithmetic correct for all years |
| C44-C46 | `Config` validators, export/import (`Config`) | decision logic; parser/printer inverses |
| C47 | `fix_deprecated_frequency` | string induction |
| C48 | `round_cftime` (`Time`) | integer division |
| C49 | `interpolate` (`Column`) | position of the enclosing samples in a sorted list |
| C50 | sign conventions of precipitation/evaporation (`Surface`) | algebra |
| C51-C53 | `extend_pressurelevels`, `interp_dp_midpoints`, masking, integration (`Column`) | permutations and sorting, sums over adjacent pairs; `argsort` is any function that sorts (ties arbitrary) |
| C54 | `get_edges`, `get_dp_modellevels` with the table of the repository (`Era5Table`) | telescoping; the table is checked by kernel computation |
| C55 | `shift_longitude` (`Prep`) | floor arithmetic, insertion sort |
| C56-C58 | dates, grouping, daily files, crashes (`Prep`) | induction over times and days; a crash is a prefix of the file operations |
| C59 | process pool as arbitrary interleaving of two-step writes | commutation of operations on different files |
| C60 | `validate_input` (`Validate`) | decision logic |
| C61 | `add_bounds` | median of a list with a majority value, tiling by induction |
| C62 | `get_grid_info` over the reals (`Grid`) | integral of cos for the area of a spherical cell, telescoping sums of sines |
| C63 | `analysis/checks.py` (`Validate`) | decision logic |
| C64, C65 | `utils/tagging_region.py` (`Regions`) | counting, case analysis |
| C66 | `utils/shapefile_mask.py` (`Regions`) | sorted axes, nearest-neighbour interpolation hits the cell itself; the polygon is an abstract area function (`Spec/Regions.IsPolygon`) |
| C67-C69 | `download.py`, `cli.py` (`Cli`) | regular expression as a recogniser, file system as a map |
| C70 | `cmip.py` time axis and levels (`Surface`) | list induction |
| C71 | `divergence` vs. face fluxes (`Core`) | algebra |
| C72 | runs over a source with missing items | simulation between the two runs |
| C73 | `calculate_humidity` over the reals | monotonicity of exp |
| C74 | C57 + `load_data` | composition |
| C75 | the grid-level body of `preprocess` (`Prep`) | `mapM` over rows and columns, C51, C55 |
| C76 | `load_tagging_region` (`Regions`) | naturality of `select_subdomain` in the data |
| C77 | two runs over the same weather (`Track`, `Run`; `Spec/Compare`) | monotonicity of one step in the tracked storage under no-overdraw, lifted through the run by induction |
| C78 | two or three runs over the same weather | the step is linear while the full-layer clip is inactive; lifted through the run |
| C79 | `Model/Input.lean`: `open_da`, `load_data`, `get_input_data` of era5.py with xarray's assignment (alignment by label to the grid of the dataset), then `validate_input` | provenance invariant: every number in every variable of the dataset satisfies "stored at this label in that file"; preserved by each assignment |
| C80 | `Model/Template.lean`: `str.format` with the fields used here | induction over the pieces: fixed-width renderings are injective; letter counts separate the variable names |
| C81 | `Model/InputMore.lean`: `load_cmip_var`, `open_var` (concatenation with outer join), `resample_3hr_var` on whole files, `get_input_data` of cmip.py; file listing order and order of sets are parameters | provenance invariant as in C79; pairing of samples by induction over the list of files; success from completeness of the files; the resampling agrees per cell with C70 |
| C82 | `Model/InputMore.lean`: `get_input_data` of arco.py on a store | provenance invariant; success from completeness |
| C83 | `Model/PrepInput.lean`: the body of the loop of `preprocess` from the raw files to the preprocessed data (composition of the models of C49–C54, C70–C75, C79–C82) | composition of the property theorems of the parts: provenance of every number, layer integrals of the column, rearrangement of the longitudes; positivity of column water by induction over the column |
| C84 | the same | uniqueness: the completed column is unique for given numbers and independent of the order of levels (C53), the grid rearrangement is determined by the meridians |
| C85 | the same model of a run (`Model/Track`, `Model/Run`), on the carrier `Fl R` of `Model/Rounded.lean`: every operation rounds its exact result with an arbitrary monotone, symmetric rounding `R` | monotonicity only: `rnd 0 = 0`, `rnd` monotone; induction over the steps as in C26, C19, C28; C29 and C30 are generic in the carrier |
| C86 | `Model/Visualize.lean`: the choice, opening and summing of output files in `_plot_output` | the times of the files of a run (C25) against the list of asked times: two increasing lists with the same members are equal; the files are found by C33's file names |
| C87 | `Model/CalendarCheck.lean`: `validate_calendar_type` | case distinction over calendars and names |
| C88 | `Model/Pipeline.lean`: everything a run reads (`load_data`, `get_grid_info`, the tagging region), on top of `Model/PrepInput.lean`, `Model/Prep.lean`, `Model/IO.lean`, `Model/Run.lean`; specification in `Spec/Pipeline.lean` | composition of C83 (raw files to data), C57/C74 (data to folder), C37 (folder to input), C40 (domain), C43 and C76 (region), C26 (run); positivity of both layers from strictly positive humidity |
| C89 | `Model/IO.lean` (`load_data`) and `Model/Run.lean`; specification in `Spec/Load.lean` | converse of C37, no assumption on the folder: case analysis of a successful read, injectivity of printed dates, induction over the time loop |
| C90 | gap of two runs = area-weighted L1 norm of the differences (`Spec/Contract.lean`); one step is monotone (C77) and closes its budget, so by the Crandall–Tartar argument (compare both with the run from the cellwise maximum) it is a contraction; induction over the steps and files of both runs (`Props/Contract.lean`) |
| C91 | `BalanceFwd/Bwd` (`Spec/Balance.lean`) states the balance of a cell with nothing but the input arrays, side lengths, areas and the two files; one-step lemma from C01–C14 (`fwd_balance`, `bwd_balance`), then the two files are located in the run (`Proc.next_file`) (`Props/Balance.lean`) |
| C92 | carrier `Fl R` of `Model/Rounded.lean`, with `Accurate R u η` (`Spec/Accuracy.lean`: the standard model of floating-point arithmetic); IEEE binary64/32 as instances in `Model/Ieee.lean`, `Lemmas/Ieee.lean` | forward error analysis of every function of a step (`Lemmas/Approx*.lean`; the stabilised flux of a cell is at most half of its storage, so large fluxes do not enter the bound), then the drift of the budget is summed over the steps; accumulated fields are bounded by induction over the steps since the last output (`Props/Accuracy.lean`, demo in `Props/AccuracyDemo.lean`) |
| C93 | the same | triangle inequality with the exact step from the float state: rounding of one step (C92) plus contraction of the exact step (C90), induction over the steps and files (`Props/AccuracyRun.lean`) |
| C94 | `fwdRun`/`bwdRun` with any partial data source, any output folder, any number type | the fate of a loop whose `k`-th iteration succeeds exactly if its data are readable, by induction on the remaining iterations (`whileLoop_fate`); needed data listed from the configuration alone in `Spec/Complete.lean`; proofs in `Props/Complete.lean` |
| C95 | `FwdOutput.cast`, `saveFwd` (`Model/Files.lean`): the conversion to float32 in `write_output` | C29 (exact restart) plus C90 (contraction) applied to the exact and the rounded restart file; `binary32` (ties to even, subnormals) is an instance (`Props/Single.lean`) |
| C96 | `regionOnGrid`, `trackingRegion`, `experimentSource` (`Model/Pipeline.lean`) | the region of another grid is unreadable at every time, then C94; the positive half (same place, same value) is part of C88 (`Props/RegionGrid.lean`) |
| C97 | `fwdRun`/`bwdRun` with any fuel, restart configuration, `writeFiles` | inductive `HistoryFwd/Bwd` in `Props/History.lean`; induction on the history: files so far are a prefix of those of the uninterrupted run, using C12 (restart) and C72 (damaged data) for each session |
| C98 | `fwdRun`/`bwdRun` on two grids; `Place` of a small grid in a large one (`Spec/Excerpt.lean`); the same data, cut | locality of every formula (advection uses neighbours only, everything else one cell), for every number type; induction over the steps: after `k` steps the two runs agree in all cells `k` cells away from the edge of the small grid. |
| C99 | the same, exact arithmetic | if the files of the run on the small grid report no losses at its edge, then (nonnegativity) no tracked water ever reaches an edge cell in any step, and the step on the large grid is the step on the small grid extended by zero; induction over the steps. |
| C100 | `loadData`, `selectSubdomain`, `loadTaggingRegion`, `getGridInfo`, `experimentSource` (`Model/IO`, `Regions`, `Grid`, `Pipeline`) with and without `tracking_domain` | on an equally spaced grid a box selects a range of rows and of columns (`Lemmas/Domain.lean`), so what is read with the domain is the cut of what is read without (`Spec/Domain.lean`); then C98 and C99 |
| C101 | `fwdRun`/`bwdRun` on mirrored data (`Spec/Mirror.lean`: east and west swapped with eastward flux negated, north and south likewise); `getGridInfo` at -lat | each formula commutes with the mirror, for every number type with symmetric negation and commutative sum of two (exact numbers and `Fl R`); induction over the steps with a generic relation between two runs (`Lemmas/Equivariant.lean`), also for runs that fail |
| C102 | `fwdRun`/`bwdRun` on data in another unit (`Spec/Units.lean`) | each formula is homogeneous in the amounts of water; exact numbers with any positive factor, rounded numbers with a factor that rounding commutes with (`Lemmas/Unbounded.lean`: powers of two without underflow); induction over the steps |
| C103 | Whole runs (`Model/Run`, `Model/Pipeline`, `Model/IO`) of two experiments whose dates and data differ by a fixed time `δ`; separate spec `Spec/Shift` (`shiftConfig`, `shiftSource`, `MovedArchive`, `ShiftedBy`) | `floorTime`, the tagging window and nearest-time selection commute with a shift by a multiple of the output (input) interval; induction over the loop with the correspondence `ShiftedBy`; for archives: day files are found and read by label in any calendar, C42 gives the injectivity of file names |
| C104 | Two whole runs on data that agree on a period only (`Spec/Causal`: `AgreeOn`, `SameSettingsOn`, `upTo`, `since`) | loop invariant: all loads of a step lie between its two times; lock-step induction until the first step beyond `T`, then files and reports dated later only; `C104_archive` gives `AgreeOn` from the files of the days concerned |
| C105 | `selectSubdomain` for boxes with east ≤ west (roll, mask, slice), `loadData`, `trackingRegion`, `getGridInfo`, whole runs; separate spec `Spec/DateLine` (`AcrossDateLine`, `turnSource`) | position of the first column outside the box = number of columns east of the date line; the mask of the rolled axis selects its last `n + 2` columns; then C98/C99 on the data counted from the western end of the box |
| C106 | `Model/Disk`: `from_yaml` with `_expanduser`, `_make_dir`, `pathlib`'s `mkdir(parents, exist_ok)`, log file, copy of the configuration, every place that writes a file; actions return their changes one by one, so a crash can come after any of them (also in the middle of writing a file) | every change of an action is a new folder of a given set or a write to a file of a given set (`Legal`, closed under sequencing); from this, at every moment of `track`, `preprocess`, `visualize`, what can differ from the start; configuration copy complete before the experiment begins; reading twice is reading once; findings: folders of rejected configurations, `~` |
| C107 | `advect` (both directions), vertical exchange, `forwardtrack`/`backtrack` and both whole runs on the same data; `Spec/Dual` defines the imbalance of each layer (storage + inflow + vertical flux + evaporation − share of precipitation − new storage), the drift of the precipitation shares and their total `misfit` | face-wise transposition identity summed by telescoping; complement trick (untracked water is also transported) bounds what the bookkeeping can change by the imbalance; pairing Σ a·s_fwd·s_bwd/S telescopes over the run because it vanishes at both ends |
| C108 | `command` of `Model/Disk` with any experiment; `Spec/Again.Attempts`: any number of attempts one after the other, each ended at any moment, so with half-written files, half-made folders | invariant over attempts: the file system stays well-formed and differs from the original one only by folders and files that the complete command would make as well (`Lemmas/Again`); a complete run from any such state overwrites all of them; corollaries for `track` and `preprocess`, and for the modelled `trackExperiment` |
| C109 | `Model/Command`: `run_experiment` as an experiment of `Model/Disk`: input read from the file system (preprocessed files by day, region file or shapefile, restart file), output, correction fields and the mask in the order in which they are written; netCDF encoding is a parameter | congruence of all reading functions in the named files (`C109_reads`); simulation of the loop with notes by the loop of `Model/Run` (`Corresponds`); composition with C106 gives the end-to-end statement |
| C110 | families of whole runs indexed by anything, converging along any filter; limits taken in any ordered field with its order topology | every formula of a step is rewritten without sign, case distinction or clipping by a discontinuous function (donor cell and vertical advection by max/min, the stability correction as a product, the vertical limit as a clamp), limits are propagated through a step and by induction through the run; the version with a tolerance by contradiction with a sequence |
| C111 | `Model/PrepCommand`: `prep_experiment` as the experiment of the command `preprocess` on the file system of `Model/Disk`; `track` as in C109 | the writes of `preprocess` build up the folder of C57 (induction over times and days); C106_all_written for what is on disk; then C88 (pipeline) at the folder `track` reads, C26 and C109 for the output files |
| C112 | the same, and `command` for any experiment | an invariant along the actions of a command (`Clear`: no file where a folder is wanted and no folder where a file is wanted), so that every `mkdir`, `open`, copy succeeds and the command ends as its experiment; with C111: from raw data to output files without an assumption that any command succeeds |
| C113 | `Model/Concurrent`: the commands as sequences of single calls of the operating system (`look`, `mkdir`, `open`, `write`), several of them on one file system in the order of any schedule; proved to refine the commands of `Model/Disk` | a process is `Local` if it looks only at what it needs and changes only what is its own (closed under sequencing, proved for every part of a command); by induction over the schedule each process has done exactly what it does alone; the order of calls is arbitrary, its length unbounded |
| C114 | Spec `WindRange` (range of winds; fluxes that carry water with a wind in it) over the modelled integration of C52/C54, the files of C83, the interpolation of C88 and the correction of C07 | layer integrals compared term by term (the fluxes of a pair of levels are its water times the mean wind, interpolation keeps ranges); linear interpolation in time applied to flux minus bound times storage; the criterion of C07 with factor one |
| C115 | Spec/Split.lean states "the same configuration, ending / starting at B, with restart" and what the files of the output times are; the command of C109 is run on disk (Model/Command, Model/Disk): first over [A,B], then in the resulting file system over [B,C] with `restart: true` | C106 (every written file is there, nothing else changed), C112 (the commands work), and the restart of C38 (`fwd_restart`): the second command reads the file of B written by the first and nothing else the first command changed, so its files equal those of one command over [A,C] |
| C116 | Spec/PrepParts.lean: a list of `preprocess` commands (any configurations with the same folder and calendar) on the file system of Model/Disk, one after the other; "whole days" | induction over the list: C106 (what a command changes), C111 (what it leaves), readiness is kept; the last command that has times on a day decides its file; a part of whole days succeeds if the whole does (C112, day by day) |
| C117 | as C115, but reading back the file of `B` gives its numbers rounded (any rounding with unit roundoff `u` and underflow threshold `η`) | the run that restarts from the rounded file, cut at the output time `E`, is compared with the one from the exact file by C90's contraction (as in C95); disk part as C115 |
| C118 | Spec/SplitMany.lean: the run over the whole period divided at any of its output times among any number of `track` commands | induction over the list of commands, C115's lemmas in each step: the input is unchanged, the files so far are those of the whole run, the next command is ready |
| C119 | the download command on disk (`Model/Download.lean`: record, data link, catalogue, file names, streaming, the loops, the example cases); the answers of the servers, the JSON parser and the THREDDS crawler are inputs; contents arrive piece by piece | an invariant kept by every change (for all moments); the sequence of writes in closed form (for a complete download); the two webs run side by side (status codes); `.html`/`.xml` by a relational specification that is shown to be total and functional |
| C120 | `Config.to_file`, `to_string` as a change of the file system (Model/Export), with the YAML parser and the JSON writer as parameters | loading is C46 plus: absolute folders do not depend on the working directory; the second run by C109 (what a run reads) and C112 (it ends) |
| C121 | `append_to_netcdf`, `_expand_variable`, `to_netcdf` on arrays with named dimensions, slices and encoded dates (Model/Netcdf) | induction over the variables of the dataset (any outcome; any order), then refinement: the list of times of Model/Prep is what the arrays represent |
| C122 | `integrate_layers` part of `preprocess` (shared.py:160-198), `get_edges`, `get_dp_modellevels` and the ERA5 table in rounded arithmetic (`Fl R`), against the same functions in exact arithmetic | forward error analysis: a relation "near" (relative and absolute error) is kept by products and quotients and by a sum over any number of levels (induction over the levels with the factor `1 + 2 n u`); the thicknesses with the error calculus of C92; the factor for total column water as a perturbed quotient; float64 demo |
| C123 | `mask_with_regionmask` with the name of the source and the argument `regions` (tagging_region.py:43-110; texts as lists of characters, the package's sets of regions as parameters) | the splitting of a text at its dots characterised by induction; then case analysis against a relation "the source names the set of regions" of the specification, for every library of regions |
| C124 | the correction fields of `run_experiment` (`stabilize_fluxes`, `track_stability_correction`, `Model/Command`): which are written, in which order and to which file | induction over the iterations of the loop with the thresholds and the list of fields as invariant, for any outcome of the loop; with C36 the number of fields, none for a calm run and one at the first strong cut (on floats with NaN for 0/0); file names by injectivity of the printed second |
| C125 | the unused functions of `preprocessing/utils.py:11-93` (`join_levels`, `repeat_upper_level`, `get_new_target_levels`, `interpolate_old`) for one column | induction over the samples (sorting gives the only increasing arrangement; the line from the last sample not above `x`), compared with `interpolate` (C49); induction over the levels for the insertion of the boundary |
| C126 | `astype("float32")` of the dataset that preprocessing writes (preprocessing/shared.py:199-216): a second rounding of the results of C122 | the error of the conversion is at most `v` times the result, which is at most the integral of absolute values plus the error of the computation; a triangle inequality; for ERA5 in float64 stored as float32 the constants are evaluated (`6e-8`) |
| C127 | preprocessing on pressure levels in rounded arithmetic (preprocessing/pressure_levels.py: extension of the levels, interpolation to midpoints, mask below the surface; two layers, gravity), against the same computation in exact arithmetic with the layer boundary that the program used | sorting and the comparisons of the extension agree because different pressures are at least `8 u P` apart (`SpacedBy`); the interpolated humidity and winds are near (`mid_near`), masks at midpoints agree (`mid_mask`), then C122 for the sums and a perturbation bound for the exact sums; for double precision the constants are evaluated (`C127_binary64`); the boundary's own rounding is `C127_boundary` |
| C128 | tracking divided among any number of commands (C118) whose files hold single-precision numbers: each command's last file reads back rounded (`ForwardReadsRounded`, checked on the file system as it is when that command has ended) | induction over the commands; each adds the rounding of the file that it reads to the L1 distance from the run in one command (C90: the step does not increase the distance of nonnegative tracked storages; C107: the distance between a field and its rounding), and the fates of the files are summed piece by piece. Bound: the sum of the roundings of the files read, over `2^24` for `binary32` (example) |
| C129 | a run and any finite family of runs over the same weather, each with its own region, tagging dates, restart flag and folder (`DividedFwd`, `DividedBwd`: the tagged fractions at the beginning of every step and the initial tracked storages add up) | every run is rewritten as a run that tags all the time with the tagged fraction as its region; induction over sets of parts with the linear combination of C78, the full-layer clip being inactive for every subset by the monotony of C77; `Proc.mem_files` for the files. Corollary for tagging periods of which every step in the tagging period belongs to exactly one |
| C130 | the whole run at any number type (`Model/Core`, `Model/Track`, `Model/Run`), two sets of data and restart files that differ at given times and cells | locality of `np.pad`, staggering, donor cell and `np.gradient` by congruence at one cell (also at the edge and over the periodic seam); induction over the steps with the light cone as invariant (triangle inequality of cell steps) |
| C131 | whole runs (`Model/Track`, `Model/Run`) with exact arithmetic, restarted from a file in which tracked storage equals storage in a set of cells | one step: relative storages 1 make the tracked transport the convergence of the fluxes (C03), dispersion vanish and the balance close, and settling moves and loses exactly the excess; induction over the steps for a set of cells that shrinks by one cell per step; files and sums through the closed form of the run |

Nothing in the list is considered inexpressible; properties that hold only up to a runtime effect
(rounding, non-atomic netCDF writes, wall-clock time) say so in their statement.

## 3. Trusted base

* Lean 4.33.0 kernel; Mathlib definitions.  Axioms used by the theorems: at most `propext`,
  `Classical.choice`, `Quot.sound` (checked by `vcheck`).  No axioms of our own.
* The reading of the Python code: every definition in `Model/` cites the lines it models.
* The assumed behaviour of libraries: numpy element-wise operations and slicing, xarray label
  selection/rolling/interpolation, cftime arithmetic, functools.lru_cache, netCDF append, as described
  in the comments of the definitions.

## 4. Not modelled

Overflow, signed zeros and mixed precision (C85, C92, C93 cover rounding in one precision, C95 the conversion of output files to
float32; the conversion of preprocessed files to float32 is C126; elsewhere the arithmetic of the code mixes float32 and float64); rounding errors (tracking: C92, C93; vertical integration and model-level thicknesses: C122; pressure levels: C127, for pressures that are apart and without total column water) of the surface humidity and the unit conversions; plotting
(`analysis/visualization.py` except which files `_plot_output` reads and what it sums, C86; plotting parts of
`utils/tagging_region.py`); what servers answer, the JSON parser and `threddsclient` (they are inputs of the download model); log texts,
memory and time profiling; netCDF attributes (except the global ones of output files, C120), encoding and compression; the opening of the remote ARCO store (`arco.py:110-124`, it is a parameter); the geometry inside `regionmask` and `shapely` (a mask per region, the area of an
intersection).

Main simplifications (each also stated at its definition): columns are computed one at a time, so an
exception caused by another column shows up there; a selected time that does not exist is one error
(xarray has two ways to fail); files are written in one step except in the parallel run (two steps: unreadable,
then complete), in C58 (a crash leaves an unreadable file) and in C106, C108, C109 (first empty, then the content); `np.argsort`, the order of `set`, and the
schedule of processes are arbitrary parameters, so the theorems hold for every choice.

## 5. Findings: places where the code deviates from what a user would expect

1. `core.py:157-158`: the result of `fillna(0)` is discarded, so cells with `fx = fy = 0` get NaN fluxes,
   which spread to the tracked storage of the cell and its neighbours and never disappear (C09).
2. `core.py:229-235`: precipitation and evaporation (per m2) are divided by the cell area in `calculate_fz`.
3. `core.py:167`: `np.gradient` is one-sided at the first/last column also when the domain is periodic (C04).
4. `profiling.py:105-111`: gains are added to the closure instead of subtracted (C35); totals are not carried
   over a restart; sums skip NaN, so the report hides NaN cells.
5. `config.py`: a non-positive `timestep` is accepted; the run then never ends normally, and with the data it needs it never ends at all (C24).
6. `config.py:607`: dates lose their seconds on export (C46); unquoted YAML time stamps fail.
7. `cmip.py:58`: dew is subtracted from precipitation, which can become negative (C50).
8. `era5.py:158`: `levels: "All"` is what Config accepts, `"all"` is what `get_edges` tests; model level 0 is silently
   level 137; listing all 137 levels does not reproduce the thicknesses of the table (C54).
9. `grid.py:50,54-55,67-68`: the latitudinal extent of cells is computed from the longitude spacing, and the spacing
   from the first two longitudes, which is 360 degrees minus the spacing if they straddle the date line (C105); pole
   rows have side 0 (C62).
10. `io.py:49-63`: boxes crossing the date line exclude their end points, other boxes (and tagging boxes) include them;
    `west == east` keeps everything but that meridian (C40, C41).
11. `io.py:158-164`: `time_bnds` is wrong for the last (unaligned) and first period (C33).
12. The tagging window is inclusive at both ends (C31).
13. `checks.py:67,87`: operator precedence makes the range checks blind to values that are too large; `check_uniform`
    raises `NameError` instead of warning (C63).
14. `tagging_region.py:97,203`: several regions are averaged; region number 0 of a source that counts from one is
    the last region; an empty list of regions gives NaN (C64); squares do not wrap at the date line (C65).
15. `preprocessing/shared.py:230-240`: starting in the middle of a day overwrites the earlier part of that day's
    file (C58, C116); `append_to_netcdf` never compares the axes (C57).
16. `profiling.py:143-158`: the stability diagnostics look at `fy` only, so cells with `fy = 0` are invisible (C36); the
    debug files of the two layers share one name.
17. `io.py:94`: the cache does not notice files that change during a run (C38).
18. `cli.py:64-66`: copying the configuration onto itself fails (C69).
19. `config.py`: an assignment that is rejected leaves the object changed (C45).
20. `download.py:34`: the dot in the DOI pattern is not escaped (C67); names of downloaded files are not sanitised (C68).
21. `preprocessing/shared.py:164-167`: a dry column with positive total column water loses that water (C51).
22. `pressure_levels.py`: a level exactly at the surface pressure makes the result depend on how ties are sorted (C53).
23. `preprocessing/shared.py:281-282`: a closed longitude axis -180..180 gives -180 twice (C55).
24. `input_validation.py`: the dimensions of `tcw` are not checked (C60).
25. `preprocessing/utils.py:204-218`: an axis with one value gets NaN bounds; bounds of pole rows lie beyond the poles (C61).
26. `shapefile_mask.py:65-79`: a polygon outside the grid fails (C66).
27. Moving tagging regions in a standard calendar are decoded to `datetime64`, and `.sel(time=<cftime>)` is then likely to
    fail (library behaviour, not modelled).
28. `cmip.py:120-126` with `calendar.py:83`: `glob` lists files in any order and samples are paired by position, so files with
    an odd number of three-hourly samples can silently give means over samples that do not belong together
    (example in `Props/InputComplete.lean`, C81).
29. `era5.py`: whether total column water is used depends on whether its file exists for each time separately, so a
    missing file changes the vertical closure of single times; the message is logged only once per run (C79).
30. `forwardtrack.py:131-137`, `backtrack.py:129-134`, `io.py:217`: tracked storages and accumulators are float32 and the
    tendencies are added to them in place, so small increments to large sums are lost, and a restart goes
    through float32 as well (C85 gives what holds nevertheless).
31. `visualization.py:134-155`: the figure of a forward run leaves out the last output file, that of a backward run the first
    file written; a start date that is not a multiple of the output frequency gives `FileNotFoundError` (C86).
32. `visualization.py:83-88`: `visualize input` passes `cftime` dates to `pd.date_range`, which is likely to fail (library
    behaviour, not modelled).
33. `io.py:167-187`: the output dataset is created without attributes, so its `source` is always "UNKNOWN" and its history never
    contains that of the input (C120_attributes).
34. `calendar.py:68-78`: the accepted synonyms `gregorian`, `365_day`, `366_day` always give the calendar warning, also
    `proleptic_gregorian` for recent dates; only the first file is checked (C87).
35. A tagging region file on another grid than the data is only noticed in the first step inside the tagging window (C96).
36. `config.py:523-530`: `_expanduser` does not expand `~` (it calls `absolute()`), although the examples in the documentation
    use it: `~/x` becomes a folder called `~` in the current directory, and it is created (C106).
37. `config.py:532-539`: folders are created while the fields are validated, so a configuration that is rejected (dates in the wrong
    order, another field wrong) has created them; an existing file is accepted as a folder (C106).
38. `config.py:532-539`: a missing folder is looked for first and then made with `mkdir(parents=True)` without `exist_ok`, so two commands
    that start at the same time with the same missing output folder can end with `FileExistsError` (C113: `C113_folder_race`).
39. `download.py:71-73`: the status of the answer is not checked, so an error page (404, 500) is saved under the name of the data file and the
    command ends normally (C119_status_ignored). `download.py:103-107`: a record without a "Data Link" is an `UnboundLocalError` that leaves an
    empty folder, and any folder left behind by an interrupted download makes every further attempt fail (C119_no_link, C119_not_resumed).
    `download.py:68`: names given by the server are joined to the folder unchecked, so `../k` or `/k` replaces a file outside of it
    (C119_names_not_checked).
40. `config.py:523`: only the two folders are made absolute; a relative `tagging_region` is exported as it is, so a configuration exported
    with `to_file` gives the same run from another directory only if that path was absolute (assumption of C120, Model/Export).
41. `xarray_append.py:38-44`: the variables are written one after the other; if one of them raises, the file has a time for which some variables
    are missing (C121_old_kept: what was there before stays; demo in Props/Netcdf).
42. `tagging_region.py:50-58`: of a source with "ar6" in its name only what follows the dot is used, so `"not ar6.all"` is read as
    `"ar6.all"` (C123_before_the_dot), and a name with "ar6" and no dot (`"ar6"`) ends with a `ValueError` (unpacking) instead of the
    documented `KeyError` (C123_errors).
43. `profiling.py:164-170`: the name of a correction field has the time but not the layer, so if both layers of a time step give a
    warning the field of the upper layer is replaced by that of the lower one although its warning names the file (C124_file and demo).
44. `preprocessing/utils.py:62-65`: the comment shows the result with a zero at the bottom; it is at the top, and a boundary pressure at or
    below the surface is silently left out (C125_boundary_below_surface). `preprocessing/utils.py:87-88`: coordinate and variable are
    compressed by their own masks, so different masks pair values with the wrong levels (example in Props/Legacy). None of these functions is called.
