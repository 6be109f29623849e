import Verif.Model.Config
import Verif.Spec.IO

/-!
# What a configuration promises
-/

namespace Wam.Spec

/-- a bounding box the documentation allows (config.py:185-187): finite numbers, longitudes within
±180, latitudes within ±80, south below north -/
structure GoodBox {K : Type} [Field K] [LinearOrder K] (w s e n : K) : Prop where
  west : -180 ≤ w ∧ w ≤ 180
  east : -180 ≤ e ∧ e ≤ 180
  south : -80 ≤ s
  north : n ≤ 80
  order : s < n

/-- the units of time of a frequency string -/
inductive TimeUnit where
  | customBusinessHour | businessHour | hour | minute | second | milli | micro | nano
  deriving DecidableEq, Repr

/-- current unit names -/
def TimeUnit.name : TimeUnit → List Char
  | .customBusinessHour => "cbh".toList
  | .businessHour => "bh".toList
  | .hour => "h".toList
  | .minute => "min".toList
  | .second => "s".toList
  | .milli => "ms".toList
  | .micro => "us".toList
  | .nano => "ns".toList

/-- deprecated unit names (any case) -/
def TimeUnit.oldName : TimeUnit → List Char
  | .customBusinessHour => "CBH".toList
  | .businessHour => "BH".toList
  | .hour => "H".toList
  | .minute => "T".toList
  | .second => "S".toList
  | .milli => "L".toList
  | .micro => "U".toList
  | .nano => "N".toList

/-- `freq` is a number (possibly empty) followed by a current unit name -/
def Means (freq num : List Char) (u : TimeUnit) : Prop :=
  (∀ c ∈ num, c.isDigit = true) ∧ freq = num ++ u.name

/-- `freq` is a number (possibly empty) followed by a deprecated unit name in any case -/
def MeansOld (freq num : List Char) (u : TimeUnit) : Prop :=
  (∀ c ∈ num, c.isDigit = true) ∧ ∃ letters, freq = num ++ letters ∧ letters.map Char.toUpper = u.oldName

/-- The calendars and their names: the mixed Julian/Gregorian one, the proleptic Gregorian one, the one without
leap days, the one with twelve months of thirty days, the Julian one and the one in which every year is a leap
year. -/
inductive NamedCalendar : String → Calendar → Prop
  | standard : NamedCalendar "standard" .standard
  | gregorian : NamedCalendar "gregorian" .standard
  | proleptic_gregorian : NamedCalendar "proleptic_gregorian" .prolepticGregorian
  | noleap : NamedCalendar "noleap" .noleap
  | days365 : NamedCalendar "365_day" .noleap
  | days360 : NamedCalendar "360_day" .day360
  | julian : NamedCalendar "julian" .julian
  | all_leap : NamedCalendar "all_leap" .allLeap
  | days366 : NamedCalendar "366_day" .allLeap

/-- the three periods of a configuration are ordered -/
structure Ordered {ρ : Type} (cfg : Config ρ) : Prop where
  tracking : cfg.dates .tracking_start_date ≤ cfg.dates .tracking_end_date
  tagging : cfg.dates .tagging_start_date ≤ cfg.dates .tagging_end_date
  preprocess : cfg.dates .preprocess_start_date ≤ cfg.dates .preprocess_end_date

end Wam.Spec
