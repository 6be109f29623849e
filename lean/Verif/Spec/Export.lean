import Verif.Model.Export
import Verif.Spec.Split

/-!
# A configuration that was exported
-/

namespace Wam.Spec

/-- the configuration with all dates cut to the minute -/
def toTheMinute {ρ : Type} (cfg : Loaded ρ) : Loaded ρ :=
  { cfg with config := { cfg.config with dates := fun f => cfg.config.dates f / 60000000 * 60000000 } }

/-- all dates are whole minutes -/
def WholeMinutes {ρ : Type} (cfg : Loaded ρ) : Prop := ∀ f, (60000000 : ℤ) ∣ cfg.config.dates f

/-- all dates have a year of four digits -/
def FourDigitYears {ρ : Type} (cfg : Loaded ρ) : Prop :=
  ∀ f, 0 ≤ (dateTimeOf cfg.calendar (cfg.config.dates f)).date.year ∧
    (dateTimeOf cfg.calendar (cfg.config.dates f)).date.year < 10000

end Wam.Spec
