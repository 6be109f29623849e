import Verif.Spec.Config
import Verif.Lemmas.Names
import Mathlib.Data.List.TakeWhile

/-!
# C44 - C47: the configuration
-/

namespace Wam
open Spec

set_option linter.unusedSectionVars false
set_option linter.unusedVariables false

/-! ### C44 -/

section
variable {K : Type} [Field K] [LinearOrder K] [IsStrictOrderedRing K]

private theorem assertInRange_iff (lo hi : ℚ) (x : XF K) :
    assertInRange lo hi x = true ↔ ∃ k : K, x = .fin k ∧ (lo : K) ≤ k ∧ k ≤ (hi : K) := by
  cases x <;> simp [assertInRange, NpOps.le, ofRat, XF.leb]

private theorem fieldInRange_of_assert (lo hi : ℚ) (x : XF K) (h : assertInRange lo hi x = true) :
    fieldInRange lo hi x = true := by
  obtain ⟨k, rfl, h1, h2⟩ := (assertInRange_iff lo hi x).1 h
  simp [fieldInRange, NpOps.lt, ofRat, XF.ltb, h1, h2]

/-- A bounding box is accepted, unchanged, exactly if it consists of four ordinary numbers (no NaN, no
infinities), the longitudes are within ±180, the latitudes within ±80 and south is below north;
everything else is a `ValueError`.  There is no condition on west and east: west > east (a box
across the date line) is accepted. -/
theorem C44_accepted_iff (b : BoundingBox (XF K)) :
    ((∃ w s e n : K, b = ⟨.fin w, .fin s, .fin e, .fin n⟩ ∧ GoodBox w s e n) →
      acceptBox b = .ok b) ∧
    ((¬ ∃ w s e n : K, b = ⟨.fin w, .fin s, .fin e, .fin n⟩ ∧ GoodBox w s e n) →
      acceptBox b = .error .valueError) := by
  have hw := assertInRange_iff (-180) 180 b.west
  have he := assertInRange_iff (-180) 180 b.east
  have hn := assertInRange_iff (-80) 80 b.north
  have hs := assertInRange_iff (-80) 80 b.south
  constructor
  · rintro ⟨w, s, e, n, rfl, g⟩
    have hsn : (-80 : K) ≤ n := g.south.trans g.order.le
    have hns : s ≤ (80 : K) := g.order.le.trans g.north
    have hw' := hw.2 ⟨w, rfl, by push_cast; exact g.west.1, by push_cast; exact g.west.2⟩
    have he' := he.2 ⟨e, rfl, by push_cast; exact g.east.1, by push_cast; exact g.east.2⟩
    have hn' := hn.2 ⟨n, rfl, by push_cast; exact hsn, by push_cast; exact g.north⟩
    have hs' := hs.2 ⟨s, rfl, by push_cast; exact g.south, by push_cast; exact hns⟩
    have fw := fieldInRange_of_assert _ _ _ hw'
    have fe := fieldInRange_of_assert _ _ _ he'
    have fn := fieldInRange_of_assert _ _ _ hn'
    have fs := fieldInRange_of_assert _ _ _ hs'
    have hlt : NpOps.lt (XF.fin s) (XF.fin n) = true := by simp [NpOps.lt, XF.ltb, g.order]
    simp only at hw' he' hn' hs' fw fe fn fs
    simp [acceptBox, hw', he', hn', hs', fw, fe, fn, fs, hlt]
  · intro hb
    unfold acceptBox
    split
    · rfl
    split
    · rfl
    next hw' =>
    split
    · rfl
    next he' =>
    split
    · rfl
    next hn' =>
    split
    · rfl
    next hs' =>
    split
    · rfl
    next hlt =>
    simp only [Bool.not_eq_eq_eq_not, Bool.not_true, Bool.not_eq_false] at hw' he' hn' hs' hlt
    obtain ⟨w, ew, w1, w2⟩ := hw.1 hw'
    obtain ⟨e, ee, e1, e2⟩ := he.1 he'
    obtain ⟨n, en, n1, n2⟩ := hn.1 hn'
    obtain ⟨s, es, s1, s2⟩ := hs.1 hs'
    push_cast at w1 w2 e1 e2 n1 n2 s1 s2
    refine absurd ⟨w, s, e, n, ?_, ⟨w1, w2⟩, ⟨e1, e2⟩, s1, n2, ?_⟩ hb
    · cases b; simp_all
    · rw [es, en] at hlt; simpa [NpOps.lt, XF.ltb] using hlt

/-- An accepted box across the date line, and a rejected box. -/
example : acceptBox (⟨.fin 170, .fin (-10), .fin (-170), .fin 10⟩ : BoundingBox (XF ℚ)) =
      .ok ⟨.fin 170, .fin (-10), .fin (-170), .fin 10⟩ ∧
    acceptBox (⟨.fin 0, .nan, .fin 10, .fin 10⟩ : BoundingBox (XF ℚ)) = .error .valueError := by
  constructor
  · exact (C44_accepted_iff _).1 ⟨170, -10, -170, 10, rfl, by constructor <;> norm_num⟩
  · refine (C44_accepted_iff _).2 ?_
    rintro ⟨w, s, e, n, h, -⟩
    simp at h

end

/-! ### C47 -/

private theorem map_toUpper_digit (u : TimeUnit) (ls : List Char) (h : ls.map Char.toUpper = u.oldName) :
    ∃ c rest, ls = c :: rest ∧ c.isDigit = false := by
  cases ls with
  | nil => cases u <;> simp [TimeUnit.oldName] at h
  | cons c rest =>
    refine ⟨c, rest, rfl, ?_⟩
    by_contra hc
    have hd : c.isDigit = true := by simpa using hc
    have hU : c.toUpper = c := by
      have hd' := hd
      simp only [Char.isDigit, Bool.and_eq_true, decide_eq_true_eq] at hd'
      unfold Char.toUpper
      rw [dif_neg]
      intro h'
      have h1 := h'.1
      have h2 := hd'.2
      rw [UInt32.le_iff_toNat_le] at h1
      rw [UInt32.le_iff_toNat_le] at h2
      have e1 : 'a'.val.toNat = 97 := rfl
      have e2 : '9'.val.toNat = 57 := rfl
      omega
    have : (c.toUpper).isDigit = false := by
      cases u <;> simp [TimeUnit.oldName] at h <;> rw [h.1] <;> decide
    rw [hU, hd] at this
    exact absurd this (by simp)

private theorem takeWhile_digits (num ls : List Char) (h : ∀ c ∈ num, c.isDigit = true)
    (hl : ls = [] ∨ ∃ c rest, ls = c :: rest ∧ c.isDigit = false) :
    (num ++ ls).takeWhile Char.isDigit = num ∧ (num ++ ls).dropWhile Char.isDigit = ls := by
  induction num with
  | nil =>
    rcases hl with rfl | ⟨c, rest, rfl, hc⟩
    · simp
    · simp [hc]
  | cons a num ih =>
    have := ih (fun c hc => h c (List.mem_cons_of_mem _ hc))
    have ha := h a (by simp)
    simp [ha, this]

private theorem fix_old (num : List Char) (u : TimeUnit) (ls : List Char)
    (h : ∀ c ∈ num, c.isDigit = true) (hl : ls.map Char.toUpper = u.oldName) :
    fixDeprecatedFrequency (num ++ ls) = num ++ u.name := by
  obtain ⟨h1, h2⟩ := takeWhile_digits num ls h (Or.inr (map_toUpper_digit u ls hl))
  unfold fixDeprecatedFrequency matchFrequency
  rw [h1, h2, hl]
  cases u <;> rfl

private theorem fix_other (freq : List Char) (h : ∀ num u, ¬ MeansOld freq num u) :
    fixDeprecatedFrequency freq = freq := by
  have key : ∀ u : TimeUnit, (freq.dropWhile Char.isDigit).map Char.toUpper ≠ u.oldName := by
    intro u hu
    refine h (freq.takeWhile Char.isDigit) u ⟨?_, freq.dropWhile Char.isDigit, ?_, hu⟩
    · intro c hc; exact List.mem_takeWhile_imp hc
    · exact (List.takeWhile_append_dropWhile).symm
  unfold fixDeprecatedFrequency matchFrequency
  have k1 := key .customBusinessHour
  have k2 := key .businessHour
  have k3 := key .hour
  have k4 := key .minute
  have k5 := key .second
  have k6 := key .milli
  have k7 := key .micro
  have k8 := key .nano
  simp only [TimeUnit.oldName] at k1 k2 k3 k4 k5 k6 k7 k8
  simp only [deprecatedMap, List.findSome?, k1, k2, k3, k4, k5, k6, k7, k8, if_false,
    Option.map_none]

/-- Every deprecated spelling - a number (or none) followed by CBH, BH, H, T, S, L, U or N in any
case - becomes the same number followed by the current name of the same unit. -/
theorem C47_modernised (freq num : List Char) (u : TimeUnit) (h : MeansOld freq num u) :
    fixDeprecatedFrequency freq = num ++ u.name := by
  obtain ⟨hn, ls, rfl, hl⟩ := h
  exact fix_old num u ls hn hl

/-- Every other string (`1d`, `6min`, `MS`, `1 H`, ...) is returned unchanged. -/
theorem C47_others_unchanged (freq : List Char) (h : ∀ num u, ¬ MeansOld freq num u) :
    fixDeprecatedFrequency freq = freq := fix_other freq h

private theorem name_not_digit (u : TimeUnit) : ∃ c rest, u.name = c :: rest ∧ c.isDigit = false := by
  cases u <;> exact ⟨_, _, rfl, by decide⟩

private theorem fix_new (num : List Char) (u : TimeUnit) (h : ∀ c ∈ num, c.isDigit = true) :
    fixDeprecatedFrequency (num ++ u.name) = num ++ u.name := by
  obtain ⟨h1, h2⟩ := takeWhile_digits num u.name h (Or.inr (name_not_digit u))
  unfold fixDeprecatedFrequency matchFrequency
  rw [h1, h2]
  cases u <;> rfl

/-- The meaning of a frequency is kept: whatever number and unit the string denoted, in deprecated or
current spelling, the result denotes in current spelling. -/
theorem C47_meaning_kept (freq num : List Char) (u : TimeUnit)
    (h : MeansOld freq num u ∨ Means freq num u) :
    Means (fixDeprecatedFrequency freq) num u := by
  rcases h with h | ⟨hn, rfl⟩
  · exact ⟨h.1, C47_modernised freq num u h⟩
  · exact ⟨hn, fix_new num u hn⟩

/-- Applying the correction twice is the same as applying it once (it runs again on every assignment
and when a configuration is read back). -/
theorem C47_idempotent (freq : List Char) :
    fixDeprecatedFrequency (fixDeprecatedFrequency freq) = fixDeprecatedFrequency freq := by
  by_cases h : ∃ num u, MeansOld freq num u
  · obtain ⟨num, u, h⟩ := h
    rw [C47_modernised freq num u h, fix_new num u h.1]
  · have h' : ∀ num u, ¬ MeansOld freq num u := fun num u hh => h ⟨num, u, hh⟩
    rw [fix_other freq h', fix_other freq h']

/-- A string has at most one meaning, so the statements above are not about different readings. -/
theorem C47_meaning_unique (freq num num' : List Char) (u u' : TimeUnit) (h : Means freq num u)
    (h' : Means freq num' u') : num = num' ∧ u = u' := by
  obtain ⟨hn, rfl⟩ := h
  obtain ⟨hn', e⟩ := h'
  have a := takeWhile_digits num u.name hn (Or.inr (name_not_digit u))
  have b := takeWhile_digits num' u'.name hn' (Or.inr (name_not_digit u'))
  rw [e] at a
  refine ⟨a.1.symm.trans b.1, ?_⟩
  have := a.2.symm.trans b.2
  cases u <;> cases u' <;> first | rfl | (exact absurd this (by decide))

example : MeansOld "6H".toList "6".toList .hour ∧ MeansOld "10t".toList "10".toList .minute ∧
    fixDeprecatedFrequency "10t".toList = "10min".toList ∧
    fixDeprecatedFrequency "1d".toList = "1d".toList := by
  refine ⟨⟨by decide, "H".toList, by decide, by decide⟩, ⟨by decide, "t".toList, by decide, by decide⟩,
    by decide, by decide⟩

/-! ### C46 -/

theorem digitVal_digit (n : ℕ) : digitVal (digit n) = some (n % 10) := by
  unfold digitVal
  rw [digit_isDigit]
  have : (digit n).toNat = 48 + n % 10 := by
    unfold digit
    have h : n % 10 < 10 := Nat.mod_lt _ (by norm_num)
    interval_cases n % 10 <;> rfl
  simp [this]

theorem parse4_pad4 (n : ℕ) (h : n < 10000) (rest : List Char) :
    parse4 (pad4 n ++ rest) = some (n, rest) := by
  simp only [pad4, List.cons_append, List.nil_append, parse4, digitVal_digit]
  congr 2
  omega

theorem parse2_pad2 (lo hi n : ℕ) (h : n < 100) (h1 : lo ≤ n) (h2 : n ≤ hi) (rest : List Char) :
    parse2 lo hi (pad2 n ++ rest) = some (n, rest) := by
  simp only [pad2, List.cons_append, List.nil_append, parse2, digits12, digitVal_digit]
  have : n / 10 % 10 * 10 + n % 10 = n := by omega
  rw [this]
  simp [Option.filter, h1, h2]

theorem parseLit_cons (c : Char) (h : c.toUpper = c) (rest : List Char) :
    parseLit c (c :: rest) = some rest := by simp [parseLit, h]

private theorem valid_day (c : Calendar) (d : Date) (h : c.Valid d) :
    1 ≤ d.month ∧ d.month ≤ 12 ∧ 1 ≤ d.day ∧ d.day ≤ 31 := by
  obtain ⟨h1, h2, h3, h4, -⟩ := h
  refine ⟨h1, h2, h3, h4.trans ?_⟩
  have : d.month - 1 < 12 := by omega
  generalize d.month - 1 = k at *
  cases c <;> cases hl : Calendar.isLeap _ d.year <;>
    (interval_cases k <;> simp [Calendar.monthLengths])

private theorem cast_toNat_year {y : ℤ} (h : 0 ≤ y) : ((y.toNat : ℕ) : ℤ) = y := Int.toNat_of_nonneg h

theorem parseIso_minute (c : Calendar) (d : DateTime) (h : d.Valid c) (h0 : 0 ≤ d.date.year)
    (h1 : d.date.year < 10000) :
    parseIso false (isoMinuteString d) = some { d with second := 0, microsecond := 0 } := by
  obtain ⟨hv, hh, hm, hs, hu⟩ := h
  obtain ⟨m1, m2, d1, d2⟩ := valid_day c d.date hv
  unfold isoMinuteString dayString
  simp only [List.append_assoc, List.cons_append]
  unfold parseIso
  have hM : d.minute < 100 := by omega
  have e : pad2 d.minute = pad2 d.minute ++ [] := by simp
  rw [e]
  simp only [parse4_pad4 d.date.year.toNat (by omega), Option.bind_eq_bind, Option.bind_some,
    parseLit_cons '-' (by decide), parse2_pad2 1 12 d.date.month (by omega) m1 m2,
    parse2_pad2 1 31 d.date.day (by omega) d1 d2, parseLit_cons 'T' (by decide),
    parse2_pad2 0 23 d.hour (by omega) (by omega) (by omega), parseLit_cons ':' (by decide),
    parse2_pad2 0 59 d.minute (by omega) (by omega) (by omega), parseSeconds]
  simp [cast_toNat_year h0]

theorem parseIso_second (c : Calendar) (d : DateTime) (h : d.Valid c) (h0 : 0 ≤ d.date.year)
    (h1 : d.date.year < 10000) :
    parseIso true (isoSecondString d) = some { d with microsecond := 0 } := by
  obtain ⟨hv, hh, hm, hs, hu⟩ := h
  obtain ⟨m1, m2, d1, d2⟩ := valid_day c d.date hv
  unfold isoSecondString isoMinuteString dayString
  simp only [List.append_assoc, List.cons_append]
  unfold parseIso
  have e : pad2 d.second = pad2 d.second ++ [] := by simp
  rw [e]
  simp only [parse4_pad4 d.date.year.toNat (by omega), Option.bind_eq_bind, Option.bind_some,
    parseLit_cons '-' (by decide), parse2_pad2 1 12 d.date.month (by omega) m1 m2,
    parse2_pad2 1 31 d.date.day (by omega) d1 d2, parseLit_cons 'T' (by decide),
    parse2_pad2 0 23 d.hour (by omega) (by omega) (by omega), parseLit_cons ':' (by decide),
    parse2_pad2 0 59 d.minute (by omega) (by omega) (by omega), parseSeconds, if_true,
    parse2_pad2 0 59 d.second (by omega) (by omega) (by omega)]
  simp [cast_toNat_year h0]

theorem count_colon_digit (n : ℕ) : (digit n == ':') = false := by
  have := digit_isDigit n
  by_contra h
  have h' : digit n = ':' := by simpa using h
  rw [h'] at this
  exact absurd this (by decide)

theorem count_isoMinute (d : DateTime) : (isoMinuteString d).count ':' = 1 := by
  simp [isoMinuteString, dayString, pad2, pad4, List.count_cons, count_colon_digit]

theorem count_isoSecond (d : DateTime) : (isoSecondString d).count ':' = 2 := by
  simp [isoSecondString, isoMinuteString, dayString, pad2, pad4, List.count_cons, count_colon_digit]

theorem timeOf_floor_minute (c : Calendar) (t : ℤ) :
    timeOf c { dateTimeOf c t with second := 0, microsecond := 0 } = floorTime t 60000000 := by
  have h := timeOf_dateTimeOf c t
  unfold timeOf at h ⊢
  unfold floorTime
  have hs : (dateTimeOf c t).second = (t % usPerDay / 1000000 % 60).toNat := rfl
  have hu : (dateTimeOf c t).microsecond = (t % usPerDay % 1000000).toNat := rfl
  rw [hs, hu] at h
  unfold usPerDay at *
  simp only [Nat.cast_zero] at *
  omega

theorem timeOf_floor_second (c : Calendar) (t : ℤ) :
    timeOf c { dateTimeOf c t with microsecond := 0 } = floorTime t 1000000 := by
  have h := timeOf_dateTimeOf c t
  unfold timeOf at h ⊢
  unfold floorTime
  have hu : (dateTimeOf c t).microsecond = (t % usPerDay % 1000000).toNat := rfl
  rw [hu] at h
  unfold usPerDay at *
  simp only [Nat.cast_zero] at *
  omega

/-- A date written to a configuration file and read back is the same date truncated to the minute, in
every calendar. -/
theorem C46_date_round_trip (c : Calendar) (t : ℤ) (h : FourDigitYear c t) :
    cftimeFromIso c (isoMinuteString (dateTimeOf c t)) = .ok (floorTime t 60000000) := by
  have hv := dateTimeOf_valid c t
  unfold cftimeFromIso
  rw [count_isoMinute, show ((1 : ℕ) != 1) = false from rfl, parseIso_minute c _ hv h.1 h.2]
  simp only [hv.1, if_true, timeOf_floor_minute]

/-- Hence the round trip keeps the date exactly iff it is a whole minute. -/
theorem C46_exact_iff_whole_minute (c : Calendar) (t : ℤ) (h : FourDigitYear c t) :
    cftimeFromIso c (isoMinuteString (dateTimeOf c t)) = .ok t ↔ (60000000 : ℤ) ∣ t := by
  rw [C46_date_round_trip c t h]
  simp only [Except.ok.injEq, floorTime]
  omega

/-- Text with seconds names exactly one time: the string `YYYY-MM-DDTHH:MM:SS` of an existing date-time
is read as the time whose fields it shows. -/
theorem C46_reads_what_is_written (c : Calendar) (d : DateTime) (hd : d.Valid c)
    (h0 : 0 ≤ d.date.year) (h1 : d.date.year < 10000) (t : ℤ) :
    cftimeFromIso c (isoSecondString d) = .ok t ↔ dateTimeOf c t = { d with microsecond := 0 } := by
  have hv : ({ d with microsecond := 0 } : DateTime).Valid c := ⟨hd.1, hd.2.1, hd.2.2.1, hd.2.2.2.1, by norm_num⟩
  unfold cftimeFromIso
  rw [count_isoSecond, show ((2 : ℕ) != 1) = true from rfl, parseIso_second c _ hd h0 h1]
  simp only [hd.1, if_true, Except.ok.injEq]
  constructor
  · rintro rfl; exact dateTimeOf_timeOf c _ hv
  · intro e; rw [← e]; exact timeOf_dateTimeOf c t

private theorem parseIso_date (b : Bool) (s : List Char) (d : DateTime) (h : parseIso b s = some d) :
    d.hour < 24 ∧ d.minute < 60 ∧ d.second < 60 ∧ d.microsecond = 0 ∧ 0 ≤ d.date.year := by
  have p2 : ∀ lo hi s r, parse2 lo hi s = some r → r.1 ≤ hi := by
    intro lo hi s r hr
    unfold parse2 at hr
    rw [Option.filter_eq_some_iff] at hr
    simp only [decide_eq_true_eq] at hr
    exact hr.2.2
  unfold parseIso at h
  simp only [Option.bind_eq_bind, Option.bind_eq_some_iff] at h
  obtain ⟨⟨y, s1⟩, hy, s2, -, ⟨m, s3⟩, hm, s4, -, ⟨dd, s5⟩, hd, s6, -, ⟨hh, s7⟩, hhh, s8, -, ⟨mi, s9⟩,
    hmi, ⟨se, s10⟩, hse, hfin⟩ := h
  simp only at hfin
  split at hfin
  · rw [Option.some.injEq] at hfin
    subst hfin
    have a := p2 _ _ _ _ hhh
    have b' := p2 _ _ _ _ hmi
    refine ⟨by simp only at a ⊢; omega, by simp only at b' ⊢; omega, ?_, rfl, by simp⟩
    cases b
    · simp only [parseSeconds, Bool.false_eq_true, if_false, Option.some.injEq, Prod.mk.injEq] at hse
      rw [← hse.1]; norm_num
    · simp only [parseSeconds, if_true, Option.bind_eq_some_iff] at hse
      obtain ⟨s11, -, hse⟩ := hse
      have e := p2 _ _ _ _ hse
      simp only at e ⊢; omega
  · simp at hfin

/-- Whatever text is accepted as a date denotes a date that exists in the configured calendar: the
result has the fields the text was parsed to.  (30 February is rejected except in `360_day`, 29
February in `noleap`, ...) -/
theorem C46_only_existing_dates (c : Calendar) (s : List Char) (t : ℤ)
    (h : cftimeFromIso c s = .ok t) :
    ∃ d b, parseIso b s = some d ∧ d.Valid c ∧ dateTimeOf c t = d := by
  unfold cftimeFromIso at h
  split at h
  · simp at h
  · next d hd =>
    split at h
    · next hv =>
      rw [Except.ok.injEq] at h
      obtain ⟨h1, h2, h3, h4, -⟩ := parseIso_date _ _ _ hd
      have hv' : d.Valid c := ⟨hv, h1, h2, h3, by omega⟩
      exact ⟨d, _, hd, hv', by rw [← h]; exact dateTimeOf_timeOf c d hv'⟩
    · simp at h

/-- Text naming a day that the calendar does not have is rejected. -/
theorem C46_rejects_missing_dates (c : Calendar) (d : DateTime) (h0 : 0 ≤ d.date.year)
    (h1 : d.date.year < 10000) (hm : d.date.month < 100) (hd : d.date.day < 100) (hh : d.hour < 100)
    (hmi : d.minute < 100) (hs : d.second < 100) (hno : ¬ c.Valid d.date) :
    cftimeFromIso c (isoSecondString d) = .error .valueError := by
  unfold cftimeFromIso
  rw [count_isoSecond, show ((2 : ℕ) != 1) = true from rfl]
  rcases hp : parseIso true (isoSecondString d) with _ | d'
  · rfl
  · simp only
    rw [if_neg]
    intro hv
    apply hno
    -- the parsed date is the printed one
    have p2 : ∀ lo hi n rest r, n < 100 → parse2 lo hi (pad2 n ++ rest) = some r → r = (n, rest) := by
      intro lo hi n rest r hn hr
      simp only [pad2, List.cons_append, List.nil_append, parse2, digits12, digitVal_digit] at hr
      have e : n / 10 % 10 * 10 + n % 10 = n := by omega
      rw [e, Option.filter_eq_some_iff, Option.some.injEq] at hr
      exact hr.1.symm
    unfold isoSecondString isoMinuteString dayString parseIso at hp
    simp only [List.append_assoc, List.cons_append, parse4_pad4 d.date.year.toNat (by omega),
      Option.bind_eq_bind, Option.bind_some, parseLit_cons '-' (by decide),
      Option.bind_eq_some_iff] at hp
    obtain ⟨⟨m, s3⟩, hm', s4, hs4, ⟨dd, s5⟩, hd', s6, -, ⟨hh', s7⟩, -, s8, -, ⟨mi, s9⟩,
      -, ⟨se, s10⟩, -, hfin⟩ := hp
    have e1 := p2 _ _ _ _ _ hm hm'
    simp only [Prod.mk.injEq] at e1
    obtain ⟨rfl, rfl⟩ := e1
    simp only [parseLit_cons '-' (by decide), Option.some.injEq] at hs4
    subst hs4
    have e2 := p2 _ _ _ _ _ hd hd'
    simp only [Prod.mk.injEq] at e2
    obtain ⟨rfl, rfl⟩ := e2
    simp only at hfin
    split at hfin
    · rw [Option.some.injEq] at hfin
      subst hfin
      simp only [cast_toNat_year h0] at hv
      exact hv
    · simp at hfin

/-- `cftime_from_timestamp` returns the very date it is given if that is a whole second, ... -/
theorem C46_timestamp (c : Calendar) (t : ℤ) (h : FourDigitYear c t) (hs : (1000000 : ℤ) ∣ t) :
    cftimeFromTimestamp c t = .ok t := by
  have hv := dateTimeOf_valid c t
  have hu : (dateTimeOf c t).microsecond = 0 := by
    show (t % usPerDay % 1000000).toNat = 0
    unfold usPerDay; omega
  unfold cftimeFromTimestamp isoFormat
  rw [if_pos hu, C46_reads_what_is_written c _ hv h.1 h.2]
  cases hd : dateTimeOf c t
  rw [hd] at hu
  simp only at hu
  rw [hu]

/-- A configuration written to a file and read back: it is accepted again, all other settings are the
same and every date is truncated to the minute; so the configuration is unchanged iff all its
dates are whole minutes. -/
theorem C46_config_round_trip {ρ : Type} (cfg : Config ρ) (c : Calendar)
    (hc : calendarOfName cfg.calendar = some c) (ho : Ordered cfg)
    (hy : ∀ f, FourDigitYear c (cfg.dates f)) :
    makeConfig (toSettings c cfg) =
        .ok { cfg with dates := fun f => floorTime (cfg.dates f) 60000000 } ∧
      (makeConfig (toSettings c cfg) = .ok cfg ↔ ∀ f, (60000000 : ℤ) ∣ cfg.dates f) := by
  have key : makeConfig (toSettings c cfg) =
        .ok { cfg with dates := fun f => floorTime (cfg.dates f) 60000000 } := by
    have hcd : convertDates (toSettings c cfg) =
        .ok (cfg.calendar, fun f => floorTime (cfg.dates f) 60000000) := by
      unfold convertDates toSettings
      simp only [Option.getD_some, hc, convertDate, C46_date_round_trip c _ (hy _)]
      simp only [bind, Except.bind, pure, Except.pure, Except.ok.injEq, Prod.mk.injEq, true_and]
      funext f
      cases f <;> rfl
    have mono : ∀ a b : ℤ, a ≤ b → floorTime a 60000000 ≤ floorTime b 60000000 := by
      intro a b hab; unfold floorTime; omega
    unfold makeConfig
    rw [hcd]
    have hr : (toSettings c cfg).rest = .ok cfg.rest := rfl
    simp only [hr, bind, Except.bind, pure, Except.pure]
    rw [if_pos]
    unfold checkDateOrder
    rw [if_neg (not_lt.2 (mono _ _ ho.tracking)), if_neg (not_lt.2 (mono _ _ ho.tagging)),
      if_neg (not_lt.2 (mono _ _ ho.preprocess))]
  refine ⟨key, ?_⟩
  rw [key]
  simp only [Except.ok.injEq]
  constructor
  · intro e f
    have := congrFun (congrArg Config.dates e) f
    simp only [floorTime] at this
    omega
  · intro hd
    cases cfg
    simp only [Config.mk.injEq, true_and, and_true]
    funext f
    have := hd f
    simp only [floorTime] at this ⊢
    omega

/-! ### C45 -/

theorem checkDateOrder_iff {ρ : Type} (cfg : Config ρ) : checkDateOrder cfg = true ↔ Ordered cfg := by
  unfold checkDateOrder
  constructor
  · intro h
    split at h
    · simp at h
    split at h
    · simp at h
    split at h
    · simp at h
    exact ⟨by omega, by omega, by omega⟩
  · rintro ⟨h1, h2, h3⟩
    rw [if_neg (by omega), if_neg (by omega), if_neg (by omega)]

/-- The names of calendars that are accepted, and the calendars that they stand for. -/
theorem C45_calendar_names (name : String) (c : Calendar) :
    calendarOfName name.toList = some c ↔ NamedCalendar name c := by
  have hn : ∀ s : String, (s.toList = name.toList) ↔ s = name := fun s => String.toList_inj
  constructor
  · intro h
    unfold calendarOfName calendarNames at h
    simp only [List.find?_cons, hn] at h
    by_cases h1 : "standard" = name
    · subst h1; simp at h; subst h; constructor
    by_cases h2 : "gregorian" = name
    · subst h2; simp at h; subst h; constructor
    by_cases h3 : "proleptic_gregorian" = name
    · subst h3; simp at h; subst h; constructor
    by_cases h4 : "noleap" = name
    · subst h4; simp at h; subst h; constructor
    by_cases h5 : "365_day" = name
    · subst h5; simp at h; subst h; constructor
    by_cases h6 : "360_day" = name
    · subst h6; simp at h; subst h; constructor
    by_cases h7 : "julian" = name
    · subst h7; simp at h; subst h; constructor
    by_cases h8 : "all_leap" = name
    · subst h8; simp at h; subst h; constructor
    by_cases h9 : "366_day" = name
    · subst h9; simp at h; subst h; constructor
    simp [h1, h2, h3, h4, h5, h6, h7, h8, h9] at h
  · intro h
    cases h <;> decide +kernel

example : ¬ NamedCalendar "lunar" .standard := by
  rw [← C45_calendar_names]; decide +kernel

/-- Every accepted configuration has a known calendar and ordered periods, and its dates are those
given: a date object unchanged, text as the existing date it names in that calendar. -/
theorem C45_accepted_is_ordered {ρ : Type} (s : Settings ρ) (cfg : Config ρ)
    (h : makeConfig s = .ok cfg) :
    Ordered cfg ∧ ∃ c, calendarOfName cfg.calendar = some c ∧
      cfg.calendar = s.calendar.getD "standard".toList ∧
      ∀ f, ∃ r, s.dates f = some r ∧
        (match r with
         | .date t => cfg.dates f = t
         | .text txt => cftimeFromIso c txt = .ok (cfg.dates f)) := by
  have cd : ∀ (c : Calendar) o t, convertDate c o = .ok t → ∃ r, o = some r ∧
      (match r with | .date t' => t = t' | .text txt => cftimeFromIso c txt = .ok t) := by
    intro c o t ho
    match o, ho with
    | some (.date t'), ho => exact ⟨_, rfl, by simpa [convertDate, eq_comm] using ho⟩
    | some (.text x), ho => exact ⟨_, rfl, by simpa [convertDate] using ho⟩
  unfold makeConfig at h
  simp only [bind, Except.bind, pure, Except.pure] at h
  split at h
  · simp at h
  next r hr =>
  split at h
  · simp at h
  next rest hrest =>
  split at h
  · next hchk =>
    rw [Except.ok.injEq] at h
    subst h
    refine ⟨(checkDateOrder_iff _).1 hchk, ?_⟩
    unfold convertDates at hr
    simp only [bind, Except.bind, pure, Except.pure] at hr
    split at hr
    · simp at hr
    next c hc =>
    split at hr
    · simp at hr
    next t1 h1 =>
    split at hr
    · simp at hr
    next t2 h2 =>
    split at hr
    · simp at hr
    next t3 h3 =>
    split at hr
    · simp at hr
    next t4 h4 =>
    split at hr
    · simp at hr
    next t5 h5 =>
    split at hr
    · simp at hr
    next t6 h6 =>
    rw [Except.ok.injEq] at hr
    subst hr
    refine ⟨c, hc, rfl, ?_⟩
    intro f
    cases f
    · exact cd c _ _ h1
    · exact cd c _ _ h2
    · exact cd c _ _ h3
    · exact cd c _ _ h4
    · exact cd c _ _ h5
    · exact cd c _ _ h6
  · simp at h

/-- An assignment that does not raise leaves an ordered configuration with exactly that setting
changed; whatever the object was before. -/
theorem C45_assignment {ρ : Type} (cfg : Config ρ) (a : Assign ρ) (h : (assign cfg a).1 = none) :
    Ordered (assign cfg a).2 ∧
      (match a with
       | .date f (.date t) => (assign cfg a).2 = { cfg with dates := Function.update cfg.dates f t }
       | .date _ (.text _) => False
       | .calendar name => (assign cfg a).2 = { cfg with calendar := name } ∧
           ∃ c, calendarOfName name = some c
       | .rest (.ok r) => (assign cfg a).2 = { cfg with rest := r }
       | .rest (.error _) => False) := by
  have aft : ∀ cfg' : Config ρ,
      (if checkDateOrder cfg' then (none : Option Err) else some .valueError) = none → Ordered cfg' := by
    intro cfg' h'
    split at h'
    · next hc => exact (checkDateOrder_iff _).1 hc
    · simp at h'
  match a, h with
  | .date f (.date t), h => exact ⟨aft _ h, rfl⟩
  | .date f (.text t), h => simp [assign] at h
  | .calendar name, h =>
    cases hc : calendarOfName name with
    | none => simp [assign, hc] at h
    | some c =>
      simp only [assign, hc] at h ⊢
      exact ⟨aft _ h, trivial, c, rfl⟩
  | .rest (.ok r), h => exact ⟨aft _ h, rfl⟩
  | .rest (.error e), h => simp [assign] at h

/-- An assignment that would make the configuration disordered always raises. -/
theorem C45_disorder_is_reported {ρ : Type} (cfg : Config ρ) (a : Assign ρ)
    (h : ¬ Ordered (assign cfg a).2) : (assign cfg a).1 = some .valueError ∨ (assign cfg a).2 = cfg := by
  match a, h with
  | .date f (.date t), h =>
    left
    show (if checkDateOrder _ then (none : Option Err) else some .valueError) = _
    rw [if_neg]; intro hc; exact h ((checkDateOrder_iff _).1 hc)
  | .date f (.text t), h => right; rfl
  | .calendar name, h =>
    cases hc : calendarOfName name with
    | none => right; simp [assign, hc]
    | some c =>
      left
      simp only [assign, hc] at h ⊢
      rw [if_neg]; intro hc; exact h ((checkDateOrder_iff _).1 hc)
  | .rest (.ok r), h =>
    left
    show (if checkDateOrder _ then (none : Option Err) else some .valueError) = _
    rw [if_neg]; intro hc; exact h ((checkDateOrder_iff _).1 hc)
  | .rest (.error e), h => right; rfl

private theorem assignAll_append {ρ : Type} (cfg : Config ρ) (as bs : List (Assign ρ)) :
    (assignAll cfg (as ++ bs)).1 = (assignAll cfg as).1 ++ (assignAll (assignAll cfg as).2 bs).1 ∧
      (assignAll cfg (as ++ bs)).2 = (assignAll (assignAll cfg as).2 bs).2 := by
  induction as generalizing cfg with
  | nil => simp [assignAll]
  | cons a as ih => simp [assignAll, ih]

/-- After any history of assignments, successful or not, of which the last one did not raise, the
configuration is ordered. -/
theorem C45_history {ρ : Type} (cfg : Config ρ) (as : List (Assign ρ)) (a : Assign ρ)
    (h : (assignAll cfg (as ++ [a])).1.getLast? = some none) :
    Ordered (assignAll cfg (as ++ [a])).2 := by
  obtain ⟨e1, e2⟩ := assignAll_append cfg as [a]
  rw [e2]
  rw [e1] at h
  simp only [assignAll, List.getLast?_append, List.getLast?_singleton, Option.some_or,
    Option.some.injEq] at h
  exact (C45_assignment _ a h).1

/-- If no assignment raises, an ordered configuration stays ordered all the time. -/
theorem C45_stays_ordered {ρ : Type} (cfg : Config ρ) (ho : Ordered cfg) (as : List (Assign ρ))
    (h : ∀ e ∈ (assignAll cfg as).1, e = none) : Ordered (assignAll cfg as).2 := by
  induction as generalizing cfg with
  | nil => exact ho
  | cons a as ih =>
    simp only [assignAll, List.mem_cons] at h ⊢
    exact ih _ (C45_assignment cfg a (h _ (Or.inl rfl))).1 fun e he => h e (Or.inr he)

/-- BUG (pydantic's `validate_assignment` with an after-validator): a rejected assignment of a date is
reported but not undone - the object keeps the disordered value. -/
theorem C45_rejected_assignment_sticks {ρ : Type} (cfg : Config ρ) (ho : Ordered cfg) :
    ∃ a, (assign cfg a).1 = some .valueError ∧ ¬ Ordered (assign cfg a).2 := by
  refine ⟨.date .tracking_end_date (.date (cfg.dates .tracking_start_date - 1)), ?_, ?_⟩
  · simp [assign, checkDateOrder]
  · intro h
    have := h.tracking
    simp [assign] at this

/-- A configuration that is accepted (dates as text, calendar not given) and a disordered one. -/
example :
    (makeConfig (ρ := Unit) ⟨none, fun _ => some (.text "2021-07-01T00:00".toList), .ok ()⟩).isOk = true ∧
    (makeConfig (ρ := Unit) ⟨none, fun f =>
        if f = .tracking_end_date then some (.text "2021-06-30T23:59:59".toList)
        else some (.text "2021-07-01T00:00".toList), .ok ()⟩).isOk = false ∧
    cftimeFromIso .day360 "2021-02-30T00:00".toList = .ok (timeOf .day360 ⟨⟨2021, 2, 30⟩, 0, 0, 0, 0⟩) ∧
    cftimeFromIso .standard "2021-02-30T00:00".toList = .error .valueError := by
  refine ⟨by decide +kernel, by decide +kernel, by decide +kernel, by decide +kernel⟩

end Wam
