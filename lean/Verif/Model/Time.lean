import Mathlib.Data.Int.Basic

/-!
# Times and their rounding

A time is an integer number of microseconds since a fixed midnight of the calendar (cftime
resolution; xarray counts from 1970-01-01T00:00); a frequency (`1h`, `6h`, `1d`, ...) is a positive integer number of microseconds.
xarray's `CFTimeIndex.floor/ceil/round` convert the dates to exactly these integers
(`_cftimeindex... _total_microseconds`), round them and convert back, see
`xarray/coding/cftimeindex.py` (`_round_via_method`).
-/

namespace Wam

/-- microseconds per second, tracking/shared.py:14 -/
def usPerSecond : ℤ := 1000000

/-- `round_cftime(t, freq, "floor")`, `/repo/src/wam2layers/utils/calendar.py:121-122`
(xarray `_floor_int`: `values - np.remainder(values, unit)`) -/
def floorTime (t unit : ℤ) : ℤ := t - t % unit

/-- `round_cftime(t, freq, "ceil")`, `/repo/src/wam2layers/utils/calendar.py:119-120`
(xarray `_ceil_int`: `values + np.remainder(-values, unit)`) -/
def ceilTime (t unit : ℤ) : ℤ := t + (-t) % unit

/-- `round_cftime(t, freq, "nearest")`, `/repo/src/wam2layers/utils/calendar.py:117-118`
(xarray `_round_to_nearest_half_even`) -/
def roundTime (t unit : ℤ) : ℤ :=
  if unit % 2 = 1 then ceilTime (t - unit / 2) unit
  else
    let quotient := t / unit
    let remainder := t % unit
    if remainder > unit / 2 ∨ (remainder = unit / 2 ∧ quotient % 2 = 1)
    then (quotient + 1) * unit else quotient * unit

end Wam
