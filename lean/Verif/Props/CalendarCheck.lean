import Verif.Model.CalendarCheck
import Mathlib.Tactic.FinCases

/-!
# C87: the calendar check
-/

namespace Wam

/-- **C87**: no warning means that the configured calendar is the calendar of the (first) file - or that the
configuration says "standard" and the file is proleptic Gregorian with dates in which both agree. -/
theorem C87_no_warning_means_same_calendar (file : TimeAxis) (rest : List TimeAxis) (name : List Char)
    (c : Calendar) (hc : calendarOfName name = some c)
    (h : validateCalendarType (file :: rest) name = .ok false) :
    c = file.calendar ∨
      (name = "standard".toList ∧ file.calendar = .prolepticGregorian ∧ file.fitsDatetime64 = true) := by
  have h := Except.ok.inj h
  have hn : getCalendarType file = name := by simpa using h
  subst hn
  obtain ⟨cal, fits⟩ := file
  cases cal <;> cases fits <;> revert c <;> decide

/-- **C87**: with the data's calendar configured under its usual name there is no warning, except for proleptic
Gregorian data with recent dates, which are taken to be "standard". -/
theorem C87_usual_name_no_warning (file : TimeAxis) (rest : List TimeAxis)
    (h : ¬ (file.calendar = .prolepticGregorian ∧ file.fitsDatetime64 = true)) :
    validateCalendarType (file :: rest) (cftimeName file.calendar) = .ok false := by
  obtain ⟨cal, fits⟩ := file
  cases cal <;> cases fits <;> first | rfl | (exact absurd ⟨rfl, rfl⟩ h)

/-- **C87**: a mismatch of calendars is reported, for every valid configured name, unless the data are
proleptic Gregorian with recent dates. -/
theorem C87_mismatch_is_reported (file : TimeAxis) (rest : List TimeAxis) (name : List Char)
    (c : Calendar) (hc : calendarOfName name = some c) (hne : c ≠ file.calendar)
    (h : ¬ (file.calendar = .prolepticGregorian ∧ file.fitsDatetime64 = true)) :
    validateCalendarType (file :: rest) name = .ok true := by
  rcases hv : validateCalendarType (file :: rest) name with e | b
  · simp [validateCalendarType] at hv
  · cases b
    · rcases C87_no_warning_means_same_calendar file rest name c hc hv with h1 | h1
      · exact absurd h1 hne
      · exact absurd h1.2 h
    · rfl

/-- **C87**: the synonyms that the configuration accepts always lead to the warning, also if the data use
exactly that calendar; so does "proleptic_gregorian" for proleptic Gregorian data with recent dates. -/
theorem C87_synonyms_always_warn (file : TimeAxis) (rest : List TimeAxis) (name : List Char)
    (hn : name = "gregorian".toList ∨ name = "365_day".toList ∨ name = "366_day".toList ∨
      (name = "proleptic_gregorian".toList ∧ file.fitsDatetime64 = true)) :
    (calendarOfName name).isSome ∧ validateCalendarType (file :: rest) name = .ok true := by
  obtain ⟨cal, fits⟩ := file
  rcases hn with rfl | rfl | rfl | ⟨rfl, hf⟩
  · refine ⟨by decide, ?_⟩; cases cal <;> cases fits <;> rfl
  · refine ⟨by decide, ?_⟩; cases cal <;> cases fits <;> rfl
  · refine ⟨by decide, ?_⟩; cases cal <;> cases fits <;> rfl
  · simp only at hf; subst hf
    refine ⟨by decide, ?_⟩; cases cal <;> rfl

/-- **C87**: only the first listed file counts, and without any file the check fails with an `IndexError`. -/
theorem C87_first_file_only (file : TimeAxis) (rest rest' : List TimeAxis) (name : List Char) :
    validateCalendarType (file :: rest) name = validateCalendarType (file :: rest') name ∧
    validateCalendarType [] name = .error .indexError := ⟨rfl, rfl⟩

example : validateCalendarType [⟨.noleap, true⟩] "standard".toList = .ok true ∧
    validateCalendarType [⟨.noleap, true⟩] "noleap".toList = .ok false ∧
    calendarOfName "365_day".toList = some .noleap ∧
    validateCalendarType [⟨.noleap, true⟩] "365_day".toList = .ok true := by decide

end Wam
