import Verif.Lemmas.Calendar
import Verif.Spec.IO

/-! # Equality of printed dates -/

set_option linter.unusedSectionVars false

namespace Wam
open Spec

theorem dateTimeOf_hour (c : Calendar) (t : ℤ) :
    ((dateTimeOf c t).hour : ℤ) = t % 86400000000 / 3600000000 := by
  unfold dateTimeOf usPerDay; simp only; omega

theorem dateTimeOf_minute (c : Calendar) (t : ℤ) :
    ((dateTimeOf c t).minute : ℤ) = t % 86400000000 / 60000000 % 60 := by
  unfold dateTimeOf usPerDay; simp only; omega

theorem dateTimeOf_second (c : Calendar) (t : ℤ) :
    ((dateTimeOf c t).second : ℤ) = t % 86400000000 / 1000000 % 60 := by
  unfold dateTimeOf usPerDay; simp only; omega

theorem monthDay_lt (c : Calendar) (d : Date) (h : c.Valid d) : d.month < 100 ∧ d.day < 100 := by
  obtain ⟨h1, h2, h3, h4, _⟩ := h
  refine ⟨by omega, ?_⟩
  have hb : ∀ l : Bool, ∀ m : ℕ, (c.monthLengths l).getD m 0 ≤ 31 := by
    intro l m
    by_cases hm : m < 12
    · cases c <;> cases l <;> interval_cases m <;> decide
    · have : (c.monthLengths l).length ≤ m := by rw [Calendar.monthLengths_length]; omega
      rw [List.getD_eq_getElem?_getD, List.getElem?_eq_none this]
      simp
  have := hb (c.isLeap d.year) (d.month - 1)
  omega

theorem dayString_length (d : Date) : (dayString d).length = 10 := rfl

theorem dayString_inj (d d' : Date) (hm : d.month < 100) (hd : d.day < 100) (hm' : d'.month < 100)
    (hd' : d'.day < 100) (hy : 0 ≤ d.year ∧ d.year < 10000) (hy' : 0 ≤ d'.year ∧ d'.year < 10000)
    (h : dayString d = dayString d') : d = d' := by
  unfold dayString at h
  obtain ⟨h1, h2⟩ := List.append_inj h rfl
  rw [List.cons.injEq] at h2
  obtain ⟨h3, h4⟩ := List.append_inj h2.2 rfl
  rw [List.cons.injEq] at h4
  rw [pad4_inj (by omega) (by omega)] at h1
  rw [pad2_inj hm hm'] at h3
  rw [pad2_inj hd hd'] at h4
  cases d; cases d'
  simp only [Date.mk.injEq] at *
  omega

theorem dayString_iff (c : Calendar) (t t' : ℤ) (h : FourDigitYear c t) (h' : FourDigitYear c t') :
    dayString (dateTimeOf c t).date = dayString (dateTimeOf c t').date ↔ SameDay t t' := by
  unfold SameDay
  rw [show (t / 86400000000 = t' / 86400000000) = (t / usPerDay = t' / usPerDay) from rfl,
    ← date_eq_iff c]
  constructor
  · obtain ⟨a, b⟩ := monthDay_lt c _ (dateTimeOf_valid c t).1
    obtain ⟨a', b'⟩ := monthDay_lt c _ (dateTimeOf_valid c t').1
    exact dayString_inj _ _ a b a' b' h h'
  · intro e; rw [e]

theorem hourMinute_lt (c : Calendar) (t : ℤ) : (dateTimeOf c t).hour < 100 ∧
    (dateTimeOf c t).minute < 100 ∧ (dateTimeOf c t).second < 100 := by
  obtain ⟨_, h1, h2, h3, _⟩ := dateTimeOf_valid c t
  omega

theorem sameMinute_iff (c : Calendar) (t t' : ℤ) : SameMinute t t' ↔
    SameDay t t' ∧ (dateTimeOf c t).hour = (dateTimeOf c t').hour ∧
      (dateTimeOf c t).minute = (dateTimeOf c t').minute := by
  have := dateTimeOf_hour c t
  have := dateTimeOf_hour c t'
  have := dateTimeOf_minute c t
  have := dateTimeOf_minute c t'
  unfold SameMinute SameDay
  omega

theorem sameSecond_iff (c : Calendar) (t t' : ℤ) : SameSecond t t' ↔
    SameMinute t t' ∧ (dateTimeOf c t).second = (dateTimeOf c t').second := by
  have := dateTimeOf_second c t
  have := dateTimeOf_second c t'
  unfold SameMinute SameSecond
  omega

theorem minuteString_iff (c : Calendar) (t t' : ℤ) (h : FourDigitYear c t)
    (h' : FourDigitYear c t') :
    minuteString (dateTimeOf c t) = minuteString (dateTimeOf c t') ↔ SameMinute t t' := by
  obtain ⟨a, b, _⟩ := hourMinute_lt c t
  obtain ⟨a', b', _⟩ := hourMinute_lt c t'
  rw [sameMinute_iff c, ← dayString_iff c t t' h h', ← pad2_inj a a', ← pad2_inj b b']
  unfold minuteString
  constructor
  · intro e
    obtain ⟨e1, e2⟩ := List.append_inj e rfl
    rw [List.cons.injEq] at e2
    obtain ⟨e3, e4⟩ := List.append_inj e2.2 rfl
    rw [List.cons.injEq] at e4
    exact ⟨e1, e3, e4.2⟩
  · rintro ⟨e1, e2, e3⟩
    rw [e1, e2, e3]

theorem isoMinuteString_iff (c : Calendar) (t t' : ℤ) (h : FourDigitYear c t)
    (h' : FourDigitYear c t') :
    isoMinuteString (dateTimeOf c t) = isoMinuteString (dateTimeOf c t') ↔ SameMinute t t' := by
  obtain ⟨a, b, _⟩ := hourMinute_lt c t
  obtain ⟨a', b', _⟩ := hourMinute_lt c t'
  rw [sameMinute_iff c, ← dayString_iff c t t' h h', ← pad2_inj a a', ← pad2_inj b b']
  unfold isoMinuteString
  constructor
  · intro e
    obtain ⟨e1, e2⟩ := List.append_inj e rfl
    rw [List.cons.injEq] at e2
    obtain ⟨e3, e4⟩ := List.append_inj e2.2 rfl
    rw [List.cons.injEq] at e4
    exact ⟨e1, e3, e4.2⟩
  · rintro ⟨e1, e2, e3⟩
    rw [e1, e2, e3]

theorem isoSecondString_iff (c : Calendar) (t t' : ℤ) (h : FourDigitYear c t)
    (h' : FourDigitYear c t') :
    isoSecondString (dateTimeOf c t) = isoSecondString (dateTimeOf c t') ↔ SameSecond t t' := by
  obtain ⟨_, _, a⟩ := hourMinute_lt c t
  obtain ⟨_, _, a'⟩ := hourMinute_lt c t'
  rw [sameSecond_iff c, ← isoMinuteString_iff c t t' h h', ← pad2_inj a a']
  unfold isoSecondString
  constructor
  · intro e
    obtain ⟨e1, e2⟩ := List.append_inj e rfl
    rw [List.cons.injEq] at e2
    exact ⟨e1, e2.2⟩
  · rintro ⟨e1, e2⟩
    rw [e1, e2]

/-- times on the same day have the same year -/
theorem FourDigitYear.sameDay {c : Calendar} {t t' : ℤ} (h : FourDigitYear c t)
    (hd : SameDay t t') : FourDigitYear c t' := by
  have : (dateTimeOf c t).date = (dateTimeOf c t').date := (date_eq_iff c t t').2 hd
  unfold FourDigitYear at *
  rwa [← this]

end Wam
