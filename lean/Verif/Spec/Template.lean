import Verif.Model.Template
import Verif.Spec.IO

/-! # Specification of the templates for file names -/

namespace Wam.Spec

/-- the template contains the replacement field `{name}` or `{name:spec}` -/
def UsesField (template : List Char) (name : String) : Prop :=
  ∃ pieces spec, parseTemplate .text template = .ok pieces ∧ .field name.toList spec ∈ pieces

/-- Month, day, hour and minute are written with two digits (`{month:02}` or `{month:02d}`), the year plainly or with
four digits. -/
def FixedWidth (template : List Char) : Prop :=
  ∀ pieces name spec, parseTemplate .text template = .ok pieces → .field name spec ∈ pieces →
    (name ∈ ["month".toList, "day".toList, "hour".toList, "minute".toList] →
      spec = "02".toList ∨ spec = "02d".toList) ∧
    (name = "year".toList → spec = [] ∨ spec = "04".toList ∨ spec = "04d".toList)

/-- the variables that are read from ERA5 files -/
def era5Variables : List String := ["q", "u", "v", "sp", "d2m", "u10", "v10", "e", "tp", "tcw"]

end Wam.Spec
