import Verif.Model.Time
import Mathlib.Data.List.Basic

/-!
# Calendars and date-times

`/repo/src/wam2layers/config.py:28-38` (`CALENDAR_TYPES`) and
`/repo/src/wam2layers/utils/calendar.py:16-52` (`CfDateTime`, `subclass_cftime`).  The calendar
arithmetic itself is that of the `cftime` library; it is modelled by closed formulas:

* a day is numbered from 0000-01-01 of its calendar (proleptic Gregorian numbering for `standard`),
* `Calendar.decode` gives year, month, day of a day number and `Calendar.encode` the number of a date,
* a time is, as in `Model/Time`, the number of microseconds since 1970-01-01T00:00 of its calendar.

SIMPLIFICATION: years before 0 use astronomical numbering in every calendar (cftime has no year 0
in the julian and standard calendars by default); such dates do not occur in weather data.
-/

namespace Wam

/-- The calendars of `CALENDAR_TYPES`, config.py:28-38, up to synonyms (`gregorian` is `standard`,
`365_day` is `noleap`, `366_day` is `all_leap`; calendar.py:34-46) -/
inductive Calendar where
  | standard
  | prolepticGregorian
  | noleap
  | allLeap
  | day360
  | julian
  deriving DecidableEq, Repr

/-- year, month, day, the date part of a `CfDateTime`, calendar.py:16-23 -/
structure Date where
  year : ℤ
  month : ℕ
  day : ℕ
  deriving DecidableEq, Repr

/-- the date comes before the other (comparison of cftime objects, config.py:567-573) -/
def Date.before (a b : Date) : Prop :=
  a.year < b.year ∨ (a.year = b.year ∧ (a.month < b.month ∨ (a.month = b.month ∧ a.day < b.day)))

/-- comparison of dates is computable, config.py:567-573 -/
instance (a b : Date) : Decidable (a.before b) := by unfold Date.before; infer_instance

namespace Calendar

/-- Is `y` a leap year?, cftime, used through calendar.py:34-50 -/
def isLeap : Calendar → ℤ → Bool
  | .noleap, _ => false
  | .allLeap, _ => true
  | .day360, _ => false
  | .julian, y => decide (y % 4 = 0)
  | .prolepticGregorian, y => decide (y % 4 = 0 ∧ (y % 100 ≠ 0 ∨ y % 400 = 0))
  | .standard, y =>
    if y ≤ 1582 then decide (y % 4 = 0) else decide (y % 4 = 0 ∧ (y % 100 ≠ 0 ∨ y % 400 = 0))

/-- lengths of the months of a year, cftime, used through calendar.py:34-50 -/
def monthLengths : Calendar → Bool → List ℕ
  | .day360, _ => List.replicate 12 30
  | _, leap => [31, if leap then 29 else 28, 31, 30, 31, 30, 31, 31, 30, 31, 30, 31]

/-- number of the first day of a year (for `standard`: as in the Gregorian calendar),
cftime, used through calendar.py:34-50 -/
def yearStart : Calendar → ℤ → ℤ
  | .noleap, y => 365 * y
  | .allLeap, y => 366 * y
  | .day360, y => 360 * y
  | .julian, y => 365 * y + (y + 3) / 4
  | _, y => 365 * y + (y + 3) / 4 - (y + 99) / 100 + (y + 399) / 400

/-- mean length of a year as a fraction, to guess the year of a day,
helper of the cftime arithmetic behind calendar.py:34-50 -/
def meanYear : Calendar → ℤ × ℤ
  | .noleap => (365, 1)
  | .allLeap => (366, 1)
  | .day360 => (360, 1)
  | .julian => (1461, 4)
  | _ => (146097, 400)

/-- year of day number `n`: a guess, corrected by at most one,
cftime `fromordinal`, calendar.py:36-49 -/
def yearOf (c : Calendar) (n : ℤ) : ℤ :=
  let y := n * c.meanYear.2 / c.meanYear.1
  if n < c.yearStart y then y - 1 else if c.yearStart (y + 1) ≤ n then y + 1 else y

/-- month index and day index of the `d`-th day (from 0) of a year with the given month lengths,
cftime `fromordinal`, calendar.py:36-49 -/
def splitDoy : List ℕ → ℕ → ℕ × ℕ
  | [], d => (0, d)
  | l :: ls, d => if d < l then (0, d) else ((splitDoy ls (d - l)).1 + 1, (splitDoy ls (d - l)).2)

/-- inverse of `splitDoy`, cftime `toordinal`, calendar.py:34 -/
def joinDoy (ls : List ℕ) (m d : ℕ) : ℕ := (ls.take m).sum + d

/-- decode a day number in a calendar without a reform, cftime `fromordinal`, calendar.py:36-49 -/
def decodePure (c : Calendar) (n : ℤ) : Date :=
  let y := c.yearOf n
  let md := splitDoy (c.monthLengths (c.isLeap y)) (n - c.yearStart y).toNat
  ⟨y, md.1 + 1, md.2 + 1⟩

/-- number of a date in a calendar without a reform, cftime `toordinal`, calendar.py:34 -/
def encodePure (c : Calendar) (d : Date) : ℤ :=
  c.yearStart d.year + joinDoy (c.monthLengths (c.isLeap d.year)) (d.month - 1) (d.day - 1)

/-- first Gregorian day of the standard calendar, cftime, calendar.py:41-44 -/
def reform : Date := ⟨1582, 10, 15⟩

/-- date of a day number; `standard` is Julian up to 1582-10-04 and Gregorian from 1582-10-15
(Julian day numbers are larger by 2), cftime `fromordinal`, calendar.py:36-49 -/
def decode : Calendar → ℤ → Date
  | .standard, n =>
    if n < prolepticGregorian.encodePure reform then julian.decodePure (n + 2)
    else prolepticGregorian.decodePure n
  | c, n => c.decodePure n

/-- number of the day of a date, cftime `toordinal`, calendar.py:34 -/
def encode : Calendar → Date → ℤ
  | .standard, d =>
    if d.before reform then julian.encodePure d - 2 else prolepticGregorian.encodePure d
  | c, d => c.encodePure d

/-- a date that exists in the calendar,
what `cftime.datetime.strptime` accepts, calendar.py:125-130 -/
def Valid (c : Calendar) (d : Date) : Prop :=
  1 ≤ d.month ∧ d.month ≤ 12 ∧ 1 ≤ d.day ∧
    d.day ≤ (c.monthLengths (c.isLeap d.year)).getD (d.month - 1) 0 ∧
    (c = .standard → ¬ ((⟨1582, 10, 4⟩ : Date).before d ∧ d.before reform))

end Calendar

/-- The fields of a `CfDateTime`, calendar.py:16-23 -/
structure DateTime where
  date : Date
  hour : ℕ
  minute : ℕ
  second : ℕ
  microsecond : ℕ
  deriving DecidableEq, Repr

/-- microseconds per day, resolution of cftime, calendar.py:34 -/
def usPerDay : ℤ := 86400000000

/-- 1970-01-01, origin of the time axis of the model (any other would do), calendar.py:34 -/
def epochDate : Date := ⟨1970, 1, 1⟩

/-- The fields of time `t` (microseconds since 1970-01-01T00:00) in a calendar,
cftime `fromordinal`, calendar.py:36-49 -/
def dateTimeOf (c : Calendar) (t : ℤ) : DateTime :=
  let s := t % usPerDay
  { date := c.decode (t / usPerDay + c.encode epochDate)
    hour := (s / 3600000000).toNat
    minute := (s / 60000000 % 60).toNat
    second := (s / 1000000 % 60).toNat
    microsecond := (s % 1000000).toNat }

/-- The time with the given fields, cftime `toordinal`, calendar.py:34 -/
def timeOf (c : Calendar) (d : DateTime) : ℤ :=
  (c.encode d.date - c.encode epochDate) * usPerDay + d.hour * 3600000000 + d.minute * 60000000 +
    d.second * 1000000 + d.microsecond

/-! ### `strftime` -/

/-- a decimal digit, helper of `strftime`, io.py:25,31 -/
def digit (n : ℕ) : Char := Char.ofNat (48 + n % 10)

/-- `%02d` of a number below 100, `strftime`, io.py:25,31 -/
def pad2 (n : ℕ) : List Char := [digit (n / 10), digit n]

/-- `%04d` of a year from 0 to 9999, `strftime`, io.py:25,31 -/
def pad4 (n : ℕ) : List Char := [digit (n / 1000), digit (n / 100), digit (n / 10), digit n]

/-- `strftime('%Y-%m-%d')`, io.py:25.  SIMPLIFICATION: years 0 to 9999. -/
def dayString (d : Date) : List Char :=
  pad4 d.year.toNat ++ '-' :: (pad2 d.month ++ '-' :: pad2 d.day)

/-- `strftime('%Y-%m-%dT%H-%M')`, io.py:31 -/
def minuteString (d : DateTime) : List Char :=
  dayString d.date ++ 'T' :: (pad2 d.hour ++ '-' :: pad2 d.minute)

/-- `strftime('%Y-%m-%dT%H:%M')`, config.py:608 -/
def isoMinuteString (d : DateTime) : List Char :=
  dayString d.date ++ 'T' :: (pad2 d.hour ++ ':' :: pad2 d.minute)

/-- `strftime('%Y-%m-%dT%H:%M:%S')`, io.py:116; also `isoformat()` of a date without microseconds,
calendar.py:134 -/
def isoSecondString (d : DateTime) : List Char :=
  isoMinuteString d ++ ':' :: pad2 d.second

/-- `strftime("%Y%m%d-%H%M%S")`, profiling.py:166 -/
def stampString (d : DateTime) : List Char :=
  pad4 d.date.year.toNat ++ pad2 d.date.month ++ pad2 d.date.day ++ '-' ::
    (pad2 d.hour ++ pad2 d.minute ++ pad2 d.second)

end Wam
