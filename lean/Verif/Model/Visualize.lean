import Verif.Model.Run

/-!
# What `wam2layers visualize output` shows

`/repo/src/wam2layers/analysis/visualization.py:112-170`: which files are opened, and the field that is plotted.

SIMPLIFICATIONS: the outline of the tagging region, the map and the file of the figure are left out; `sum`
skips NaN in the code.  (`_plot_input`, lines 61-109, hands `cftime` dates to `pd.date_range`, which does not
accept them; it is not modelled.)
-/

namespace Wam

variable {m n : ℕ} {α : Type} {P ω : Type}

/-- `xr.cftime_range(start=A, end=B, freq=f, inclusive="left")` for a positive fixed frequency `f`:
`A, A + f, A + 2 f, ...` before `B`, visualization.py:134-139 -/
def cftimeRangeLeft (A B f : ℤ) : List ℤ :=
  (List.range ((B - A + f - 1) / f).toNat).map fun k : ℕ => A + k * f

/-- the files that are opened: all must exist and there must be at least one, visualization.py:146-151 -/
def openOutputs (path : ℤ → P) (disk : P → Option ω) (dates : List ℤ) : Except Err (List ω) :=
  if (dates.all fun t => (disk (path t)).isSome) = false then .error .fileNotFound
  else if dates.length = 0 then .error .valueError
  else .ok (dates.filterMap fun t => disk (path t))

variable [Add α] [NpOps α]

/-- `.sum("time")`, visualization.py:153-155 (one cell) -/
def sumTime (l : List α) : α := l.foldl (· + ·) (ofRat 0)

/-- the field plotted for a forward run: files `dates[1:]`, visualization.py:141-155 -/
def plotOutputFwd (cfg : RunConfig α) (path : ℤ → P) (disk : P → Option (FwdOutput (m + 2) (n + 2) α)) :
    Except Err (Arr (m + 2) (n + 2) α) :=
  let dates := cftimeRangeLeft cfg.tracking_start_date cfg.tracking_end_date cfg.output_frequency
  match openOutputs path disk dates.tail with
  | .error e => .error e
  | .ok ds => .ok fun i j =>
      sumTime (ds.map fun o => o.p_track_lower i j) + sumTime (ds.map fun o => o.p_track_upper i j)

/-- the field plotted for a backward run: files `dates[:-1]`, visualization.py:141-153 -/
def plotOutputBwd (cfg : RunConfig α) (path : ℤ → P) (disk : P → Option (BwdOutput (m + 2) (n + 2) α)) :
    Except Err (Arr (m + 2) (n + 2) α) :=
  let dates := cftimeRangeLeft cfg.tracking_start_date cfg.tracking_end_date cfg.output_frequency
  match openOutputs path disk dates.dropLast with
  | .error e => .error e
  | .ok ds => .ok fun i j => sumTime (ds.map fun o => o.e_track i j)

end Wam
