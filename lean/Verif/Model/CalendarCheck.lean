import Verif.Model.Config

/-!
# The check of the calendar before CMIP data are preprocessed

`/repo/src/wam2layers/utils/calendar.py:55-83` and `preprocessing/shared.py:113-114`.

The time axis of a file is reduced to its calendar and to whether its dates fit into `datetime64[ns]` (roughly the
years 1678 to 2262).  Library behaviour assumed: `xr.open_dataset` decodes the standard (Gregorian) and
proleptic Gregorian calendars to `datetime64` when the dates fit, everything else to `cftime` objects, whose `calendar`
attribute is one fixed name per class.
-/

namespace Wam

/-- the time axis of a file as far as calendar.py:55-65 looks at it -/
structure TimeAxis where
  calendar : Calendar
  fitsDatetime64 : Bool
  deriving DecidableEq, Repr

/-- the attribute `calendar` of a `cftime` object of each class, calendar.py:63 -/
def cftimeName : Calendar → List Char
  | .standard => "standard".toList
  | .prolepticGregorian => "proleptic_gregorian".toList
  | .noleap => "noleap".toList
  | .allLeap => "all_leap".toList
  | .day360 => "360_day".toList
  | .julian => "julian".toList

/-- `has_cftime(ds)`, calendar.py:55-57, for a dataset opened with `xr.open_dataset` (calendar.py:70) -/
def hasCftime (t : TimeAxis) : Bool :=
  match t.calendar with
  | .standard => !t.fitsDatetime64
  | .prolepticGregorian => !t.fitsDatetime64
  | _ => true

/-- `get_calendar_type(ds)`, calendar.py:60-65 -/
def getCalendarType (t : TimeAxis) : List Char :=
  if hasCftime t then cftimeName t.calendar else "standard".toList

/-- `validate_calendar_type(config)`, calendar.py:68-78: `files` are the files found for the template with
`variable="ua"` (calendar.py:81-83), in the order in which `glob` lists them; the result says whether a
warning is issued -/
def validateCalendarType (files : List TimeAxis) (calendar : List Char) : Except Err Bool :=
  match files with
  | [] => .error .indexError
  | file :: _ => .ok (decide (getCalendarType file ≠ calendar))

end Wam
