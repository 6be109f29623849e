import Verif.Model.IO

/-!
# Configuration: `/repo/src/wam2layers/config.py` and the string helpers of
`/repo/src/wam2layers/utils/calendar.py:86-134`

Strings are `List Char`.  SIMPLIFICATIONS: digits and letters are ASCII (Python's `\d` and
case-insensitive matching also know other Unicode digits and the letter `ſ`); settings without a
validator of their own are one opaque value `ρ`.
-/

namespace Wam

/-! ### Regions -/

section Box
variable {α : Type} [NpOps α]

/-- pydantic's `Field(ge=lo, le=hi)`, config.py:42-45: an error if `x < lo` or `x > hi` (so NaN
passes) -/
def fieldInRange (lo hi : ℚ) (x : α) : Bool := !NpOps.lt x (ofRat lo) && !NpOps.lt (ofRat hi) x

/-- `lo <= x <= hi` of the assertions of `validate_region`, config.py:56-59 -/
def assertInRange (lo hi : ℚ) (x : α) : Bool := NpOps.le (ofRat lo) x && NpOps.le x (ofRat hi)

/-- Validation of a bounding box: the fields of `BoundingBox` (config.py:41-45), then
`validate_region` (config.py:51-63).  A failed check is reported as `ValidationError`, a subclass of
`ValueError`. -/
def acceptBox (b : BoundingBox α) : Except Err (BoundingBox α) :=
  if !(fieldInRange (-180) 180 b.west && fieldInRange (-80) 80 b.south &&
      fieldInRange (-180) 180 b.east && fieldInRange (-80) 80 b.north) then .error .valueError
  else if !assertInRange (-180) 180 b.west then .error .valueError
  else if !assertInRange (-180) 180 b.east then .error .valueError
  else if !assertInRange (-80) 80 b.north then .error .valueError
  else if !assertInRange (-80) 80 b.south then .error .valueError
  else if !NpOps.lt b.south b.north then .error .valueError
  else .ok b

end Box

/-! ### Frequencies -/

/-- the dictionary `deprecated_map`, calendar.py:96-105: the letters of the pattern and their
replacement -/
def deprecatedMap : List (List Char × List Char) :=
  [("CBH".toList, "cbh".toList), ("BH".toList, "bh".toList), ("H".toList, "h".toList),
   ("T".toList, "min".toList), ("S".toList, "s".toList), ("L".toList, "ms".toList),
   ("U".toList, "us".toList), ("N".toList, "ns".toList)]

/-- `re.fullmatch(r"(?i)^(\d*)<letters>$", freq)`: the captured digits, calendar.py:107-108 -/
def matchFrequency (letters freq : List Char) : Option (List Char) :=
  if (freq.dropWhile Char.isDigit).map Char.toUpper = letters
  then some (freq.takeWhile Char.isDigit) else none

/-- `fix_deprecated_frequency(freq)`, calendar.py:86-110 -/
def fixDeprecatedFrequency (freq : List Char) : List Char :=
  match deprecatedMap.findSome? fun e => (matchFrequency e.1 freq).map (· ++ e.2) with
  | some s => s
  | none => freq

/-! ### Reading dates -/

/-- value of a digit, `strptime`, calendar.py:125-130 -/
def digitVal (c : Char) : Option ℕ := if c.isDigit then some (c.toNat - 48) else none

/-- the field `%Y` of `strptime`: exactly four digits, calendar.py:125-130 -/
def parse4 : List Char → Option (ℕ × List Char)
  | a :: b :: c :: d :: rest =>
    match digitVal a, digitVal b, digitVal c, digitVal d with
    | some a, some b, some c, some d => some (a * 1000 + b * 100 + c * 10 + d, rest)
    | _, _, _, _ => none
  | _ => none

/-- one or two digits, as many as there are, `strptime`, calendar.py:125-130 -/
def digits12 : List Char → Option (ℕ × List Char)
  | [] => none
  | [a] => (digitVal a).map fun x => (x, [])
  | a :: b :: rest =>
    match digitVal a, digitVal b with
    | some x, some y => some (x * 10 + y, rest)
    | some x, none => some (x, b :: rest)
    | none, _ => none

/-- a field `%m`, `%d`, `%H`, `%M`, `%S` of `strptime`: one or two digits with a value from `lo` to
`hi`, calendar.py:125-130 -/
def parse2 (lo hi : ℕ) (s : List Char) : Option (ℕ × List Char) :=
  (digits12 s).filter fun r => decide (lo ≤ r.1 ∧ r.1 ≤ hi)

/-- a literal character of the format, calendar.py:125-130 -/
def parseLit (c : Char) : List Char → Option (List Char)
  | a :: rest => if a.toUpper = c then some rest else none
  | [] => none

/-- the end of the format: `":%S"` with `seconds`, otherwise nothing, calendar.py:125-130 -/
def parseSeconds (seconds : Bool) (s : List Char) : Option (ℕ × List Char) :=
  if seconds then (parseLit ':' s).bind (parse2 0 59) else some (0, s)

/-- `strptime(timestamp, "%Y-%m-%dT%H:%M")` or, with `seconds`, `"%Y-%m-%dT%H:%M:%S"`: the fields
before the calendar is consulted, calendar.py:125-130.  The whole string must be used up. -/
def parseIso (seconds : Bool) (s : List Char) : Option DateTime := do
  let (year, s) ← parse4 s
  let s ← parseLit '-' s
  let (month, s) ← parse2 1 12 s
  let s ← parseLit '-' s
  let (day, s) ← parse2 1 31 s
  let s ← parseLit 'T' s
  let (hour, s) ← parse2 0 23 s
  let s ← parseLit ':' s
  let (minute, s) ← parse2 0 59 s
  let (second, s) ← parseSeconds seconds s
  if s = [] then some ⟨⟨year, month, day⟩, hour, minute, second, 0⟩ else none

/-- validity of a date is computable, calendar.py:125-130 -/
instance (c : Calendar) (d : Date) : Decidable (c.Valid d) := by
  unfold Calendar.Valid; infer_instance

/-- `cftime_from_iso(timestamp, calendar)`, calendar.py:125-130: a string that does not fit the
format, or a date that the calendar does not have, is a `ValueError`.  The conversion by
`subclass_cftime` (calendar.py:26-52) keeps the time.  SIMPLIFICATION: the fractional ordinal
used there is exact. -/
def cftimeFromIso (c : Calendar) (timestamp : List Char) : Except Err ℤ :=
  match parseIso (timestamp.count ':' != 1) timestamp with
  | none => .error .valueError
  | some d => if c.Valid d.date then .ok (timeOf c d) else .error .valueError

/-- `isoformat()` of a date: microseconds are printed if there are any, calendar.py:133-134.
(six digits) -/
def isoFormat (d : DateTime) : List Char :=
  if d.microsecond = 0 then isoSecondString d
  else isoSecondString d ++ '.' :: (pad2 (d.microsecond / 10000) ++ pad4 d.microsecond)

/-- `cftime_from_timestamp(timestamp, calendar)`, calendar.py:133-134, for the date with time `t` -/
def cftimeFromTimestamp (c : Calendar) (t : ℤ) : Except Err ℤ :=
  cftimeFromIso c (isoFormat (dateTimeOf c t))

/-! ### The configuration object -/

/-- the six dates, in the order in which `convert_dates` visits them, config.py:552-559 -/
inductive DateField where
  | tracking_start_date
  | tracking_end_date
  | tagging_start_date
  | tagging_end_date
  | preprocess_start_date
  | preprocess_end_date
  deriving DecidableEq, Repr

/-- `CALENDAR_TYPES`, config.py:28-38, with the class `subclass_cftime` uses, calendar.py:35-52 -/
def calendarNames : List (List Char × Calendar) :=
  [("standard".toList, .standard), ("gregorian".toList, .standard),
   ("proleptic_gregorian".toList, .prolepticGregorian), ("noleap".toList, .noleap),
   ("365_day".toList, .noleap), ("360_day".toList, .day360), ("julian".toList, .julian),
   ("all_leap".toList, .allLeap), ("366_day".toList, .allLeap)]

/-- the calendar with a given name, config.py:28-38 -/
def calendarOfName (name : List Char) : Option Calendar :=
  (calendarNames.find? fun e => e.1 = name).map Prod.snd

/-- the value of a date setting before validation: text or already a date of the calendar,
config.py:560-562 -/
inductive RawDate where
  | text (s : List Char)
  | date (t : ℤ)
  deriving DecidableEq, Repr

/-- the keyword arguments of `Config(**settings)`, config.py:506-522; `rest` is the outcome of
validating all other settings (config.py:66-503) -/
structure Settings (ρ : Type) where
  calendar : Option (List Char)
  dates : DateField → Option RawDate
  rest : Except Err ρ

/-- a `Config` object, config.py:66-503 -/
structure Config (ρ : Type) where
  calendar : List Char
  dates : DateField → ℤ
  rest : ρ

/-- the conversion of one date in `convert_dates`, config.py:560-562 -/
def convertDate (c : Calendar) : Option RawDate → Except Err ℤ
  | none => .error .keyError
  | some (.date t) => .ok t
  | some (.text s) => cftimeFromIso c s

/-- `convert_dates`, config.py:541-563 -/
def convertDates {ρ : Type} (s : Settings ρ) : Except Err (List Char × (DateField → ℤ)) := do
  let name := s.calendar.getD "standard".toList
  match calendarOfName name with
  | none => .error .valueError
  | some c =>
    let t1 ← convertDate c (s.dates .tracking_start_date)
    let t2 ← convertDate c (s.dates .tracking_end_date)
    let t3 ← convertDate c (s.dates .tagging_start_date)
    let t4 ← convertDate c (s.dates .tagging_end_date)
    let t5 ← convertDate c (s.dates .preprocess_start_date)
    let t6 ← convertDate c (s.dates .preprocess_end_date)
    return (name, fun
      | .tracking_start_date => t1
      | .tracking_end_date => t2
      | .tagging_start_date => t3
      | .tagging_end_date => t4
      | .preprocess_start_date => t5
      | .preprocess_end_date => t6)

/-- `check_date_order`, config.py:565-583: `true` means that it returns -/
def checkDateOrder {ρ : Type} (cfg : Config ρ) : Bool :=
  if cfg.dates .tracking_end_date < cfg.dates .tracking_start_date then false
  else if cfg.dates .tagging_end_date < cfg.dates .tagging_start_date then false
  else if cfg.dates .preprocess_end_date < cfg.dates .preprocess_start_date then false
  else true

/-- `Config(**settings)`: before-validator, fields, after-validator, config.py:541-583 -/
def makeConfig {ρ : Type} (s : Settings ρ) : Except Err (Config ρ) := do
  let (name, dates) ← convertDates s
  let rest ← s.rest
  let cfg : Config ρ := ⟨name, dates, rest⟩
  if checkDateOrder cfg then return cfg else .error .valueError

/-- an attribute assignment `config.<name> = value`; `rest` is the outcome of validating a new value
of one of the other settings, config.py:68-71 -/
inductive Assign (ρ : Type) where
  | date (f : DateField) (v : RawDate)
  | calendar (name : List Char)
  | rest (v : Except Err ρ)

/-- Assignment with `validate_assignment=True`, config.py:68-71.  pydantic validates the new value
(text is not a date here: `convert_dates` sees the dictionary without the new value), puts it
into the object and then runs `check_date_order`; if that raises, the object keeps the new value.
Returns the exception, if any, and the object. -/
def assign {ρ : Type} (cfg : Config ρ) (a : Assign ρ) : Option Err × Config ρ :=
  let after (cfg : Config ρ) : Option Err × Config ρ :=
    (if checkDateOrder cfg then none else some .valueError, cfg)
  match a with
  | .date _ (.text _) => (some .valueError, cfg)
  | .date f (.date t) => after { cfg with dates := Function.update cfg.dates f t }
  | .calendar name =>
    match calendarOfName name with
    | none => (some .valueError, cfg)
    | some _ => after { cfg with calendar := name }
  | .rest (.error e) => (some e, cfg)
  | .rest (.ok r) => after { cfg with rest := r }

/-- a sequence of assignments, the exceptions being caught, config.py:68-71 -/
def assignAll {ρ : Type} (cfg : Config ρ) : List (Assign ρ) → List (Option Err) × Config ρ
  | [] => ([], cfg)
  | a :: as =>
    let r := assign cfg a
    let r' := assignAll r.2 as
    (r.1 :: r'.1, r'.2)

/-- `to_string`, config.py:594-609, as the settings a later `from_yaml` (config.py:506-522) reads
from the file: dates are printed to the minute.  `dump` and `load` stand for `model_dump_json` and
the validation of the other settings. -/
def toSettings {ρ : Type} (c : Calendar) (cfg : Config ρ) : Settings ρ :=
  { calendar := some cfg.calendar
    dates := fun f => some (.text (isoMinuteString (dateTimeOf c (cfg.dates f))))
    rest := .ok cfg.rest }

end Wam
