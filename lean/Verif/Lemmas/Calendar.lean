import Verif.Model.Calendar
import Mathlib.Tactic.Linarith
import Mathlib.Tactic.Ring
import Mathlib.Tactic.IntervalCases
import Mathlib.Algebra.BigOperators.Group.List.Basic
import Mathlib.Order.Monotone.Basic
import Mathlib.Order.SuccPred.Basic
import Mathlib.Algebra.Order.SuccPred

/-! # Calendar arithmetic: `encode` and `decode` are inverse, and order is preserved -/

namespace Wam
namespace Calendar

/-! ### Days of the year -/

theorem joinDoy_splitDoy (ls : List ℕ) (d : ℕ) :
    joinDoy ls (splitDoy ls d).1 (splitDoy ls d).2 = d := by
  unfold joinDoy
  induction ls generalizing d with
  | nil => simp [splitDoy]
  | cons l ls ih =>
    unfold splitDoy
    split
    · simp
    · rename_i h
      simp only [List.take_succ_cons, List.sum_cons]
      have := ih (d - l)
      omega

theorem splitDoy_valid (ls : List ℕ) (d : ℕ) (h : d < ls.sum) :
    (splitDoy ls d).1 < ls.length ∧ (splitDoy ls d).2 < ls.getD (splitDoy ls d).1 0 := by
  induction ls generalizing d with
  | nil => simp at h
  | cons l ls ih =>
    unfold splitDoy
    split
    · rename_i h'
      exact ⟨by simp, by simpa using h'⟩
    · rename_i h'
      have := ih (d - l) (by rw [List.sum_cons] at h; omega)
      refine ⟨by simpa using this.1, ?_⟩
      simpa using this.2

theorem splitDoy_joinDoy (ls : List ℕ) (m d : ℕ) (hm : m < ls.length) (hd : d < ls.getD m 0) :
    splitDoy ls (joinDoy ls m d) = (m, d) := by
  induction ls generalizing m with
  | nil => simp at hm
  | cons l ls ih =>
    cases m with
    | zero =>
      have : d < l := by simpa using hd
      simp [splitDoy, joinDoy, this]
    | succ m =>
      have h1 := ih m (by simpa using hm) (by simpa using hd)
      have e : joinDoy (l :: ls) (m + 1) d = l + joinDoy ls m d := by
        unfold joinDoy; rw [List.take_succ_cons, List.sum_cons]; omega
      rw [e, splitDoy, if_neg (by omega), Nat.add_sub_cancel_left, h1]

theorem joinDoy_lt (ls : List ℕ) (m d : ℕ) (hm : m < ls.length) (hd : d < ls.getD m 0) :
    joinDoy ls m d < ls.sum := by
  induction ls generalizing m with
  | nil => simp at hm
  | cons l ls ih =>
    cases m with
    | zero =>
      have : d < l := by simpa using hd
      simp only [joinDoy, List.take_zero, List.sum_nil, List.sum_cons]; omega
    | succ m =>
      have h1 := ih m (by simpa using hm) (by simpa using hd)
      simp only [joinDoy, List.take_succ_cons, List.sum_cons] at h1 ⊢
      omega

/-- lexicographic order of `(month, day)` is the order of the days of the year -/
theorem splitDoy_lt (ls : List ℕ) (d d' : ℕ) (h : d < d') :
    (splitDoy ls d).1 < (splitDoy ls d').1 ∨
      ((splitDoy ls d).1 = (splitDoy ls d').1 ∧ (splitDoy ls d).2 < (splitDoy ls d').2) := by
  induction ls generalizing d d' with
  | nil => right; exact ⟨rfl, h⟩
  | cons l ls ih =>
    unfold splitDoy
    by_cases h1 : d < l
    · by_cases h2 : d' < l
      · simp only [h1, h2, if_true]; right; exact ⟨trivial, h⟩
      · simp only [h1, h2, if_true, if_false]; left; omega
    · have h2 : ¬ d' < l := by omega
      simp only [h1, h2, if_false]
      rcases ih (d - l) (d' - l) (by omega) with h3 | ⟨h3, h4⟩
      · left; omega
      · right; exact ⟨by omega, h4⟩

/-! ### Years -/

theorem yearOf_spec (c : Calendar) (n : ℤ) :
    c.yearStart (c.yearOf n) ≤ n ∧ n < c.yearStart (c.yearOf n + 1) := by
  have key : ∀ y : ℤ, (c.yearStart (y - 1) ≤ n ∧ n < c.yearStart (y + 2)) →
      let z := if n < c.yearStart y then y - 1 else if c.yearStart (y + 1) ≤ n then y + 1 else y
      c.yearStart z ≤ n ∧ n < c.yearStart (z + 1) := by
    intro y h
    simp only
    split_ifs with h1 h2
    · exact ⟨h.1, by rwa [Int.sub_add_cancel]⟩
    · refine ⟨h2, ?_⟩
      have : y + 1 + 1 = y + 2 := by omega
      rw [this]; exact h.2
    · exact ⟨by omega, by omega⟩
  apply key
  cases c
  all_goals simp only [yearStart, meanYear]
  all_goals omega

theorem yearStart_succ (c : Calendar) (hc : c ≠ .standard) (y : ℤ) :
    c.yearStart (y + 1) = c.yearStart y + ((c.monthLengths (c.isLeap y)).sum : ℕ) := by
  cases c
  · exact absurd rfl hc
  · simp only [yearStart, isLeap, monthLengths]
    by_cases h4 : y % 4 = 0 <;> by_cases h1 : y % 100 = 0 <;> by_cases h3 : y % 400 = 0 <;>
      simp [h4, h1, h3] <;> omega
  · simp [yearStart, isLeap, monthLengths]; omega
  · simp [yearStart, isLeap, monthLengths]; omega
  · simp [yearStart, isLeap, monthLengths]; omega
  · simp only [yearStart, isLeap, monthLengths]
    by_cases h4 : y % 4 = 0 <;> simp [h4] <;> omega

theorem yearStart_strictMono (c : Calendar) : StrictMono c.yearStart := by
  intro a b h
  cases c <;> simp only [yearStart] <;> omega

/-- the year is determined by its bounds -/
theorem yearOf_unique (c : Calendar) (n y : ℤ) (h0 : c.yearStart y ≤ n)
    (h1 : n < c.yearStart (y + 1)) : c.yearOf n = y := by
  obtain ⟨g0, g1⟩ := c.yearOf_spec n
  have a : y < c.yearOf n + 1 := c.yearStart_strictMono.lt_iff_lt.1 (h0.trans_lt g1)
  have b : c.yearOf n < y + 1 := c.yearStart_strictMono.lt_iff_lt.1 (g0.trans_lt h1)
  omega

theorem monthLengths_length (c : Calendar) (l : Bool) : (c.monthLengths l).length = 12 := by
  cases c <;> rfl

theorem encodePure_decodePure (c : Calendar) (n : ℤ) : c.encodePure (c.decodePure n) = n := by
  unfold encodePure decodePure
  simp only [Nat.add_sub_cancel, joinDoy_splitDoy]
  have := (c.yearOf_spec n).1
  omega

theorem decodePure_encodePure (c : Calendar) (hc : c ≠ .standard) (d : Date) (hm : 1 ≤ d.month)
    (hm' : d.month ≤ 12) (hd : 1 ≤ d.day)
    (hd' : d.day ≤ (c.monthLengths (c.isLeap d.year)).getD (d.month - 1) 0) :
    c.decodePure (c.encodePure d) = d := by
  have hlen : d.month - 1 < (c.monthLengths (c.isLeap d.year)).length := by
    rw [monthLengths_length]; omega
  have hlt := joinDoy_lt _ (d.month - 1) (d.day - 1) hlen (by omega)
  have hy : c.yearOf (c.encodePure d) = d.year := by
    apply yearOf_unique
    · unfold encodePure; omega
    · rw [yearStart_succ c hc]; unfold encodePure; omega
  unfold decodePure
  simp only [hy]
  have e : (c.encodePure d - c.yearStart d.year).toNat =
      joinDoy (c.monthLengths (c.isLeap d.year)) (d.month - 1) (d.day - 1) := by
    unfold encodePure; omega
  rw [e, splitDoy_joinDoy _ _ _ hlen (by omega)]
  cases d
  simp only [Date.mk.injEq, true_and] at *
  omega

theorem decodePure_valid (c : Calendar) (hc : c ≠ .standard) (n : ℤ) :
    1 ≤ (c.decodePure n).month ∧ (c.decodePure n).month ≤ 12 ∧ 1 ≤ (c.decodePure n).day ∧
      (c.decodePure n).day ≤
        (c.monthLengths (c.isLeap (c.decodePure n).year)).getD ((c.decodePure n).month - 1) 0 := by
  obtain ⟨g0, g1⟩ := c.yearOf_spec n
  rw [yearStart_succ c hc] at g1
  have := splitDoy_valid (c.monthLengths (c.isLeap (c.yearOf n))) (n - c.yearStart (c.yearOf n)).toNat
    (by omega)
  rw [monthLengths_length] at this
  unfold decodePure
  simp only [Nat.add_sub_cancel]
  refine ⟨by omega, by omega, by omega, ?_⟩
  omega

theorem yearOf_mono (c : Calendar) {n n' : ℤ} (h : n ≤ n') : c.yearOf n ≤ c.yearOf n' := by
  have a := (c.yearOf_spec n).1
  have b := (c.yearOf_spec n').2
  have := c.yearStart_strictMono.lt_iff_lt.1 (a.trans_lt (h.trans_lt b))
  omega

theorem decodePure_before (c : Calendar) {n n' : ℤ} (h : n < n') :
    (c.decodePure n).before (c.decodePure n') := by
  unfold Date.before decodePure
  simp only
  rcases lt_or_eq_of_le (c.yearOf_mono h.le) with h1 | h1
  · exact Or.inl h1
  · right
    refine ⟨h1, ?_⟩
    have a := (c.yearOf_spec n).1
    rw [← h1]
    rw [← h1] at *
    have := splitDoy_lt (c.monthLengths (c.isLeap (c.yearOf n)))
      (n - c.yearStart (c.yearOf n)).toNat (n' - c.yearStart (c.yearOf n)).toNat (by omega)
    omega

theorem Date.before_irrefl (d : Date) : ¬ d.before d := by unfold Date.before; omega

theorem Date.before_trans {a b c : Date} (h : a.before b) (h' : b.before c) : a.before c := by
  unfold Date.before at *; omega

theorem Date.before_total (a b : Date) : a.before b ∨ a = b ∨ b.before a := by
  unfold Date.before
  cases a; cases b
  simp only [Date.mk.injEq]
  omega

/-! ### The standard calendar -/


theorem julian_reform : julian.decodePure (prolepticGregorian.encodePure reform + 1) = ⟨1582, 10, 4⟩ := by
  decide +kernel

theorem gregorian_reform :
    prolepticGregorian.decodePure (prolepticGregorian.encodePure reform) = reform := by
  decide +kernel

/-- dates before the reform -/
theorem standard_before (n : ℤ) (h : n < prolepticGregorian.encodePure reform) :
    julian.decodePure (n + 2) = ⟨1582, 10, 4⟩ ∨
      (julian.decodePure (n + 2)).before ⟨1582, 10, 4⟩ := by
  rcases eq_or_lt_of_le (show n + 2 ≤ prolepticGregorian.encodePure reform + 1 by omega) with h1 | h1
  · left; rw [h1, julian_reform]
  · right
    have := decodePure_before julian h1
    rwa [julian_reform] at this

theorem standard_after (n : ℤ) (h : prolepticGregorian.encodePure reform ≤ n) :
    prolepticGregorian.decodePure n = reform ∨ reform.before (prolepticGregorian.decodePure n) := by
  rcases eq_or_lt_of_le h with h1 | h1
  · left; rw [← h1, gregorian_reform]
  · right
    have := decodePure_before prolepticGregorian h1
    rwa [gregorian_reform] at this

theorem last_before_reform : (⟨1582, 10, 4⟩ : Date).before reform := by decide

theorem encode_decode (c : Calendar) (n : ℤ) : c.encode (c.decode n) = n := by
  cases c
  · simp only [decode]
    split_ifs with h
    · have hb : (julian.decodePure (n + 2)).before reform := by
        rcases standard_before n h with h1 | h1
        · rw [h1]; exact last_before_reform
        · exact Date.before_trans h1 last_before_reform
      simp only [encode]
      rw [if_pos hb, encodePure_decodePure]
      omega
    · have hb : ¬ (prolepticGregorian.decodePure n).before reform := by
        rcases standard_after n (not_lt.1 h) with h1 | h1
        · rw [h1]; exact Date.before_irrefl _
        · exact fun h2 => Date.before_irrefl _ (Date.before_trans h1 h2)
      simp only [encode]
      rw [if_neg hb, encodePure_decodePure]
  all_goals exact encodePure_decodePure _ n

/-- the order of dates is the order of days -/
theorem decode_before (c : Calendar) {n n' : ℤ} (h : n < n') : (c.decode n).before (c.decode n') := by
  cases c
  · simp only [decode]
    split_ifs with h1 h2 h2
    · exact decodePure_before _ (by omega)
    · have a : (julian.decodePure (n + 2)).before reform := by
        rcases standard_before n h1 with h3 | h3
        · rw [h3]; exact last_before_reform
        · exact Date.before_trans h3 last_before_reform
      rcases standard_after n' (not_lt.1 h2) with h3 | h3
      · rwa [h3]
      · exact Date.before_trans a h3
    · omega
    · exact decodePure_before _ h
  all_goals exact decodePure_before _ h

theorem decode_injective (c : Calendar) : Function.Injective c.decode := by
  intro a b h
  rw [← c.encode_decode a, h, c.encode_decode]

theorem isLeap_standard_old (y : ℤ) (h : y ≤ 1582) : standard.isLeap y = julian.isLeap y := by
  simp [isLeap, h]

theorem isLeap_standard_new (y : ℤ) (h : 1582 ≤ y) :
    standard.isLeap y = prolepticGregorian.isLeap y := by
  rcases eq_or_lt_of_le h with rfl | h
  · rfl
  · simp [isLeap, not_le.2 h]

theorem monthLengths_ne (c c' : Calendar) (h : c ≠ .day360) (h' : c' ≠ .day360) (l : Bool) :
    c.monthLengths l = c'.monthLengths l := by
  cases c <;> cases c' <;> simp_all [monthLengths]

theorem decode_valid (c : Calendar) (n : ℤ) : c.Valid (c.decode n) := by
  cases c
  · simp only [decode]
    split_ifs with h
    · obtain ⟨h1, h2, h3, h4⟩ := decodePure_valid julian (by decide) (n + 2)
      have hy : (julian.decodePure (n + 2)).year ≤ 1582 := by
        rcases standard_before n h with h1 | h1
        · rw [h1]
        · unfold Date.before at h1; simp only at h1; omega
      refine ⟨h1, h2, h3, ?_, fun _ => ?_⟩
      · rw [isLeap_standard_old _ hy, monthLengths_ne standard julian (by decide) (by decide)]
        exact h4
      · rintro ⟨h5, _⟩
        rcases standard_before n h with h1 | h1
        · rw [h1] at h5; exact Date.before_irrefl _ h5
        · exact Date.before_irrefl _ (Date.before_trans h5 h1)
    · obtain ⟨h1, h2, h3, h4⟩ := decodePure_valid prolepticGregorian (by decide) n
      have hy : 1582 ≤ (prolepticGregorian.decodePure n).year := by
        rcases standard_after n (not_lt.1 h) with h1 | h1
        · rw [h1]; decide
        · unfold Date.before reform at h1; simp only at h1; omega
      refine ⟨h1, h2, h3, ?_, fun _ => ?_⟩
      · rw [isLeap_standard_new _ hy, monthLengths_ne standard prolepticGregorian (by decide) (by decide)]
        exact h4
      · rintro ⟨_, h5⟩
        rcases standard_after n (not_lt.1 h) with h1 | h1
        · rw [h1] at h5; exact Date.before_irrefl _ h5
        · exact Date.before_irrefl _ (Date.before_trans h5 h1)
  case prolepticGregorian =>
    obtain ⟨h1, h2, h3, h4⟩ := decodePure_valid prolepticGregorian (by decide) n
    exact ⟨h1, h2, h3, h4, fun h => by cases h⟩
  case noleap =>
    obtain ⟨h1, h2, h3, h4⟩ := decodePure_valid noleap (by decide) n
    exact ⟨h1, h2, h3, h4, fun h => by cases h⟩
  case allLeap =>
    obtain ⟨h1, h2, h3, h4⟩ := decodePure_valid allLeap (by decide) n
    exact ⟨h1, h2, h3, h4, fun h => by cases h⟩
  case day360 =>
    obtain ⟨h1, h2, h3, h4⟩ := decodePure_valid day360 (by decide) n
    exact ⟨h1, h2, h3, h4, fun h => by cases h⟩
  case julian =>
    obtain ⟨h1, h2, h3, h4⟩ := decodePure_valid julian (by decide) n
    exact ⟨h1, h2, h3, h4, fun h => by cases h⟩

theorem decode_encode (c : Calendar) (d : Date) (h : c.Valid d) : c.decode (c.encode d) = d := by
  obtain ⟨h1, h2, h3, h4, h5⟩ := h
  cases c
  · simp only [encode]
    have h5 := h5 rfl
    split_ifs with hb
    · have hy : d.year ≤ 1582 := by unfold Date.before reform at hb; simp only at hb; omega
      rw [isLeap_standard_old _ hy, monthLengths_ne standard julian (by decide) (by decide)] at h4
      have e := decodePure_encodePure julian (by decide) d h1 h2 h3 h4
      have hlt : julian.encodePure d - 2 < prolepticGregorian.encodePure reform := by
        by_contra hge
        have h6 : prolepticGregorian.encodePure reform + 1 < julian.encodePure d := by omega
        have := decodePure_before julian h6
        rw [e, julian_reform] at this
        exact h5 ⟨this, hb⟩
      simp only [decode]
      rw [if_pos hlt, Int.sub_add_cancel, e]
    · have hy : 1582 ≤ d.year := by unfold Date.before reform at hb; simp only at hb; omega
      rw [isLeap_standard_new _ hy,
        monthLengths_ne standard prolepticGregorian (by decide) (by decide)] at h4
      have e := decodePure_encodePure prolepticGregorian (by decide) d h1 h2 h3 h4
      have hge : ¬ prolepticGregorian.encodePure d < prolepticGregorian.encodePure reform := by
        intro hlt
        have := decodePure_before prolepticGregorian hlt
        rw [e, gregorian_reform] at this
        exact hb this
      simp only [decode]
      rw [if_neg hge, e]
  all_goals exact decodePure_encodePure _ (by decide) d h1 h2 h3 h4

end Calendar

/-! ### Times -/

theorem timeOf_dateTimeOf (c : Calendar) (t : ℤ) : timeOf c (dateTimeOf c t) = t := by
  unfold timeOf dateTimeOf usPerDay
  simp only [Calendar.encode_decode]
  omega

/-- a date-time that exists -/
def DateTime.Valid (c : Calendar) (d : DateTime) : Prop :=
  c.Valid d.date ∧ d.hour < 24 ∧ d.minute < 60 ∧ d.second < 60 ∧ d.microsecond < 1000000

theorem dateTimeOf_valid (c : Calendar) (t : ℤ) : (dateTimeOf c t).Valid c := by
  unfold DateTime.Valid dateTimeOf usPerDay
  refine ⟨Calendar.decode_valid _ _, ?_, ?_, ?_, ?_⟩ <;> simp only <;> omega

theorem dateTimeOf_timeOf (c : Calendar) (d : DateTime) (h : d.Valid c) :
    dateTimeOf c (timeOf c d) = d := by
  obtain ⟨h0, h1, h2, h3, h4⟩ := h
  unfold dateTimeOf timeOf usPerDay
  have e1 : ((c.encode d.date - c.encode epochDate) * 86400000000 + d.hour * 3600000000 +
      d.minute * 60000000 + d.second * 1000000 + d.microsecond) / 86400000000 +
      c.encode epochDate = c.encode d.date := by omega
  simp only [e1, Calendar.decode_encode _ _ h0]
  cases d
  simp only [DateTime.mk.injEq, true_and] at *
  omega

theorem date_eq_iff (c : Calendar) (t t' : ℤ) :
    (dateTimeOf c t).date = (dateTimeOf c t').date ↔ t / usPerDay = t' / usPerDay := by
  unfold dateTimeOf
  simp only
  rw [(Calendar.decode_injective c).eq_iff]
  omega

/-! ### Digits -/

theorem digit_inj (a b : ℕ) : digit a = digit b ↔ a % 10 = b % 10 := by
  unfold digit
  have ha : a % 10 < 10 := Nat.mod_lt _ (by norm_num)
  have hb : b % 10 < 10 := Nat.mod_lt _ (by norm_num)
  generalize a % 10 = x at *
  generalize b % 10 = y at *
  interval_cases x <;> interval_cases y <;> decide

theorem digit_isDigit (n : ℕ) : (digit n).isDigit = true := by
  unfold digit
  have h : n % 10 < 10 := Nat.mod_lt _ (by norm_num)
  generalize n % 10 = x at *
  interval_cases x <;> decide

theorem pad2_inj {a b : ℕ} (ha : a < 100) (hb : b < 100) : pad2 a = pad2 b ↔ a = b := by
  unfold pad2
  simp only [List.cons.injEq, digit_inj, and_true]
  omega

theorem pad4_inj {a b : ℕ} (ha : a < 10000) (hb : b < 10000) : pad4 a = pad4 b ↔ a = b := by
  unfold pad4
  simp only [List.cons.injEq, digit_inj, and_true]
  omega

theorem pad2_length (n : ℕ) : (pad2 n).length = 2 := rfl
theorem pad4_length (n : ℕ) : (pad4 n).length = 4 := rfl

end Wam
