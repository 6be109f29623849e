import Verif.Model.Surface
import Verif.Spec.Surface
import Verif.Lemmas.NumK
import Mathlib.Analysis.Complex.ExponentialBounds
import Mathlib.Tactic.Linarith
import Mathlib.Tactic.FieldSimp
import Mathlib.Tactic.Ring
import Mathlib.Tactic.Positivity
import Mathlib.Tactic.NormNum

/-!
# Surface fluxes and humidity: C50, C70, C73
-/

set_option linter.unusedSectionVars false
set_option linter.unusedVariables false

namespace Wam
open Spec

section
variable {K : Type} [Field K] [LinearOrder K] [IsStrictOrderedRing K]

/-! ## C50 -/

/-- ERA5 and ARCO: `tp` precipitation and `e` evaporation (negative when water leaves the surface)
in metres per time step of any positive length.  Both results are non-negative. -/
theorem C50_era5_nonneg (tp e seconds : K) (hs : 0 < seconds) :
    0 ≤ (precipEvapEra5 tp e seconds).1 ∧ 0 ≤ (precipEvapEra5 tp e seconds).2 := by
  simp only [precipEvapEra5, accumulationToFlux, np_max, np_min, np_abs, ofRat_zero, ofRat_cast]
  push_cast
  constructor
  · have := le_max_right tp 0
    have := le_max_right e 0
    positivity
  · positivity

/-- ERA5 and ARCO: dew is moved from evaporation to precipitation, nothing is lost: the net flux is
that of the input (with negative `tp` counted as no rain), in kg m⁻² s⁻¹. -/
theorem C50_era5_net (tp e seconds : K) (hs : 0 < seconds) :
    (precipEvapEra5 tp e seconds).1 - (precipEvapEra5 tp e seconds).2 =
      rate (positivePart tp + e) seconds := by
  simp only [precipEvapEra5, accumulationToFlux, np_max, np_min, np_abs, ofRat_zero, ofRat_cast,
    rate, positivePart]
  push_cast
  have h1 : max tp 0 = if 0 ≤ tp then tp else 0 := by
    split
    · rename_i h; exact max_eq_left h
    · rename_i h; exact max_eq_right (le_of_lt (not_le.mp h))
  have h2 : max e 0 - |min e 0| = e := by
    rcases le_total e 0 with h | h
    · rw [max_eq_right h, min_eq_left h, abs_of_nonpos h]; ring
    · rw [max_eq_left h, min_eq_right h]; simp
  rw [← h1, ← sub_div, ← mul_sub, add_sub_assoc, h2, mul_comm]

/-- ERA5 and ARCO: rain over an evaporating surface is just the rain, and evaporation the
upward flux; over a surface with dew there is no evaporation. -/
theorem C50_era5_parts (tp e seconds : K) (hs : 0 < seconds) (ht : 0 ≤ tp) :
    (e ≤ 0 → precipEvapEra5 tp e seconds = (rate tp seconds, rate (-e) seconds)) ∧
    (0 ≤ e → precipEvapEra5 tp e seconds = (rate (tp + e) seconds, 0)) := by
  simp only [precipEvapEra5, accumulationToFlux, np_max, np_min, np_abs, ofRat_zero, ofRat_cast,
    rate]
  push_cast
  constructor <;> intro h
  · rw [max_eq_left ht, max_eq_right h, min_eq_left h, abs_of_nonpos h, add_zero, mul_comm tp,
      mul_comm (-e)]
  · rw [max_eq_left ht, max_eq_left h, min_eq_right h, abs_zero, mul_zero, zero_div,
      mul_comm (tp + e)]

example : precipEvapEra5 (3 / 1000 : ℚ) (-1 / 1000) 3600 = (1 / 1200, 1 / 3600) := by decide +kernel
example : precipEvapEra5 (-1 / 1000 : ℚ) (2 / 1000) 3600 = (1 / 1800, 0) := by decide +kernel

/-- CMIP: evaporation is the non-negative part of the latent heat flux over the latent heat. -/
theorem C50_cmip_evap (pr hfls : K) :
    (precipEvapCmip pr hfls).2 = positivePart hfls / 2450000 ∧ 0 ≤ (precipEvapCmip pr hfls).2 := by
  simp only [precipEvapCmip, np_max, np_min, np_abs, ofRat_zero, ofRat_cast, positivePart]
  push_cast
  refine ⟨?_, abs_nonneg _⟩
  have hL : (0 : K) < 2450000 := by norm_num
  split
  · rename_i h
    rw [max_eq_left (div_nonneg h hL.le), abs_of_nonneg (div_nonneg h hL.le)]
  · rename_i h
    rw [max_eq_right (div_nonpos_of_nonpos_of_nonneg (not_le.mp h).le hL.le)]; simp

/-- CMIP: what is computed for precipitation.  Without dew (`hfls ≥ 0`) it is the rain; with dew
(`hfls < 0`) the dew is subtracted from the rain instead of added to it. -/
theorem C50_cmip_precip (pr hfls : K) :
    (0 ≤ hfls → (precipEvapCmip pr hfls).1 = positivePart pr) ∧
    (hfls < 0 → (precipEvapCmip pr hfls).1 = positivePart pr - |hfls| / 2450000) := by
  simp only [precipEvapCmip, np_max, np_min, np_abs, ofRat_zero, ofRat_cast, positivePart]
  push_cast
  have hL : (0 : K) < 2450000 := by norm_num
  have h1 : max pr 0 = if 0 ≤ pr then pr else 0 := by
    split
    · rename_i h; exact max_eq_left h
    · rename_i h; exact max_eq_right (le_of_lt (not_le.mp h))
  rw [h1]
  constructor <;> intro h
  · rw [min_eq_right (div_nonneg h hL.le), add_zero]
  · rw [min_eq_left (div_nonpos_of_nonpos_of_nonneg h.le hL.le), abs_of_neg h]; ring

/-- CMIP: precipitation is negative exactly when dew exceeds rain. -/
theorem C50_cmip_precip_negative_iff (pr hfls : K) :
    (precipEvapCmip pr hfls).1 < 0 ↔ hfls < 0 ∧ positivePart pr < |hfls| / 2450000 := by
  have hp : 0 ≤ positivePart pr := by unfold positivePart; split <;> simp_all
  rcases lt_or_ge hfls 0 with h | h
  · rw [(C50_cmip_precip pr hfls).2 h]
    constructor
    · intro h'; exact ⟨h, by linarith⟩
    · intro h'; linarith [h'.2]
  · rw [(C50_cmip_precip pr hfls).1 h]
    constructor
    · intro h'; linarith
    · intro h'; exact absurd h'.1 (not_lt.mpr h)

example : (precipEvapCmip (0 : ℚ) (-245)).1 = -1 / 10000 := by decide +kernel
example : precipEvapCmip (1 / 1000 : ℚ) (-245) = (9 / 10000, 0) := by decide +kernel

/-! ## C70 -/

theorem everySecond_length {β : Type} : ∀ l : List β, (everySecond l).length = (l.length + 1) / 2
  | [] => by simp [everySecond]
  | [_] => by simp [everySecond]
  | _ :: _ :: l => by
    rw [everySecond, List.length_cons, everySecond_length l]
    simp only [List.length_cons]; omega

theorem everySecond_getElem? {β : Type} : ∀ (l : List β) (i : ℕ), (everySecond l)[i]? = l[2 * i]?
  | [], i => by simp [everySecond]
  | [x], i => by
    cases i with
    | zero => rfl
    | succ i => simp [everySecond, Nat.mul_add]
  | x :: y :: l, i => by
    cases i with
    | zero => rfl
    | succ i =>
      rw [everySecond, List.getElem?_cons_succ, everySecond_getElem? l i]
      rfl

theorem flatMap_pair_length {β : Type} (l : List β) :
    (l.flatMap fun t => [t, t]).length = 2 * l.length := by
  induction l with
  | nil => rfl
  | cons a l ih => simp [List.flatMap_cons, ih]; omega

theorem everySecond_pairs {β : Type} (l : List β) : everySecond (l.flatMap fun t => [t, t]) = l := by
  induction l with
  | nil => rfl
  | cons a l ih => simp [List.flatMap_cons, everySecond, ih]

theorem pairMeans_length {α : Type} [Add α] [Div α] [NpOps α] :
    ∀ l : List α, (pairMeans l).length = l.length / 2
  | [] => by simp [pairMeans]
  | [_] => by simp [pairMeans]
  | _ :: _ :: l => by
    rw [pairMeans, List.length_cons, pairMeans_length l]
    simp only [List.length_cons]; omega

theorem pairMeans_getElem : ∀ (l : List K) (i : ℕ) (h : 2 * i + 1 < l.length),
    (pairMeans l)[i]? = some ((l[2 * i]'(by omega) + l[2 * i + 1]) / 2)
  | [], i, h => by simp at h
  | [x], i, h => by simp at h
  | x :: y :: l, i, h => by
    cases i with
    | zero => simp [pairMeans]
    | succ i =>
      have h' : 2 * i + 1 < l.length := by simp only [List.length_cons] at h; omega
      rw [pairMeans, List.getElem?_cons_succ, pairMeans_getElem l i h']
      rfl

/-- resampling fails on an empty axis, on one that does not start at 01:30, and on one with an odd
number of samples; otherwise it succeeds -/
theorem C70_resample_ok_iff (c : Calendar) (times : List ℤ) (values : List K)
    (hlen : values.length = times.length) :
    (∃ r, resample3hr c times values = .ok r) ↔
      ∃ t0, times.head? = some t0 ∧ (dateTimeOf c t0).hour = 1 ∧ (dateTimeOf c t0).minute = 30 ∧
        Even times.length := by
  unfold resample3hr
  cases times with
  | nil => simp
  | cons t0 ts =>
    simp only [List.head?_cons, Option.some.injEq, exists_eq_left', flatMap_pair_length,
      List.length_map, everySecond_length]
    by_cases h : ((dateTimeOf c t0).hour, (dateTimeOf c t0).minute) = (1, 30)
    · have h' := Prod.mk.injEq _ _ _ _ ▸ h
      simp only [h, ne_eq, not_true_eq_false, if_false, h'.1, h'.2, true_and, ite_not]
      constructor
      · rintro ⟨r, hr⟩
        split at hr
        · rename_i hl
          rw [Nat.even_iff]
          simp only [List.length_cons] at hl ⊢; omega
        · cases hr
      · intro he
        rw [Nat.even_iff] at he
        rw [if_pos (by simp only [List.length_cons] at he ⊢; omega)]
        exact ⟨_, rfl⟩
    · rw [if_pos h]
      constructor
      · rintro ⟨r, hr⟩; cases hr
      · rintro ⟨h1, h2, _⟩; exact absurd (by rw [h1, h2]) h

/-- each result is the mean of two consecutive samples `2i`, `2i+1`, labelled 4 h 30 min after the
first of them; no sample is dropped -/
theorem C70_resample_values (c : Calendar) (times : List ℤ) (values : List K)
    (hlen : values.length = times.length) (r : List (ℤ × K))
    (h : resample3hr c times values = .ok r) :
    2 * r.length = times.length ∧
    ∀ (i : ℕ) (hi : 2 * i + 1 < times.length),
      r[i]? = some (times[2 * i] + (4 * 3600 + 30 * 60) * 1000000,
        (values[2 * i]'(by omega) + values[2 * i + 1]'(by omega)) / 2) := by
  unfold resample3hr at h
  cases times with
  | nil => cases h
  | cons t0 ts =>
    simp only at h
    split at h
    · cases h
    · split at h
      · cases h
      · rename_i hl
        simp only [ne_eq, not_not, flatMap_pair_length, List.length_map, everySecond_length] at hl
        injection h with h
        subst h
        rw [everySecond_pairs]
        constructor
        · rw [List.length_zip, List.length_map, everySecond_length, pairMeans_length, hlen]
          omega
        · intro i hi
          have hv := pairMeans_getElem values i (by rw [hlen]; exact hi)
          refine List.getElem?_zip_eq_some.mpr ⟨?_, hv⟩
          rw [List.getElem?_map, everySecond_getElem?, List.getElem?_eq_getElem (by omega)]
          rfl

/-- For a 3-hourly series starting at 01:30 the labels are 06:00, 12:00, 18:00, 00:00, ... -/
theorem C70_labels (c : Calendar) (times : List ℤ) (values : List K)
    (hlen : values.length = times.length) (r : List (ℤ × K))
    (h : resample3hr c times values = .ok r) (t0 : ℤ)
    (hmid : ∃ d : ℤ, t0 = d * usPerDay + 90 * 60 * 1000000)
    (hgrid : ∀ (i : ℕ) (hi : i < times.length), times[i] = t0 + 3 * 3600 * 1000000 * i) :
    ∀ (i : ℕ) (x : ℤ × K), r[i]? = some x →
      (dateTimeOf c x.1).hour = 6 * (i + 1) % 24 ∧ (dateTimeOf c x.1).minute = 0 ∧
      (dateTimeOf c x.1).second = 0 ∧ (dateTimeOf c x.1).microsecond = 0 := by
  intro i x hx
  obtain ⟨hl, hv⟩ := C70_resample_values c times values hlen r h
  have hi : i < r.length := (List.getElem?_eq_some_iff.mp hx).1
  have hi' : 2 * i + 1 < times.length := by omega
  have hx' := hv i hi'
  rw [hx] at hx'
  injection hx' with hx'
  subst hx'
  rw [hgrid (2 * i) (by omega)]
  obtain ⟨d, hd⟩ := hmid
  simp only [dateTimeOf, hd, usPerDay]
  have e : (d * 86400000000 + 90 * 60 * 1000000 + 3 * 3600 * 1000000 * ((2 * i : ℕ) : ℤ) +
      (4 * 3600 + 30 * 60) * 1000000) % 86400000000 = 3600000000 * ((6 * (i + 1) % 24 : ℕ) : ℤ) := by
    push_cast; omega
  rw [e]
  refine ⟨?_, ?_, ?_, ?_⟩ <;> omega

/-- What preprocessing sees: on a 3-hourly series the flux used for a time `t` is the mean of the
samples centred 4 h 30 min and 1 h 30 min before `t` (the six hours ending at `t`); for any other
`t` a `KeyError`. -/
theorem C70_flux_at (c : Calendar) (times : List ℤ) (values : List K)
    (hlen : values.length = times.length) (t0 : ℤ)
    (hstart : (dateTimeOf c t0).hour = 1 ∧ (dateTimeOf c t0).minute = 30)
    (heven : Even times.length) (hpos : times ≠ [])
    (hgrid : ∀ (i : ℕ) (hi : i < times.length), times[i] = t0 + 3 * 3600 * 1000000 * i) (t : ℤ) :
    (∀ (i : ℕ) (hi : 2 * i + 1 < times.length),
      times[2 * i] = t - (4 * 3600 + 30 * 60) * 1000000 →
      times[2 * i + 1] = t - (3600 + 30 * 60) * 1000000 ∧
      loadCmipFlux c times values t =
        .ok ((values[2 * i]'(by omega) + values[2 * i + 1]'(by omega)) / 2)) ∧
    ((∀ (i : ℕ) (hi : 2 * i < times.length),
      times[2 * i] ≠ t - (4 * 3600 + 30 * 60) * 1000000) →
      loadCmipFlux c times values t = .error .keyError) := by
  have hhead : times.head? = some t0 := by
    cases times with
    | nil => exact absurd rfl hpos
    | cons a l =>
      have := hgrid 0 (by simp)
      simp at this
      simp [this]
  obtain ⟨r, hr⟩ := (C70_resample_ok_iff c times values hlen).mpr
    ⟨t0, hhead, hstart.1, hstart.2, heven⟩
  obtain ⟨hl, hv⟩ := C70_resample_values c times values hlen r hr
  have hlabel : ∀ (i : ℕ) (x : ℤ × K), r[i]? = some x → 2 * i + 1 < times.length ∧
      x.1 = t0 + 3 * 3600 * 1000000 * ((2 * i : ℕ) : ℤ) + (4 * 3600 + 30 * 60) * 1000000 := by
    intro i x hx
    have hi : i < r.length := (List.getElem?_eq_some_iff.mp hx).1
    have hi' : 2 * i + 1 < times.length := by omega
    have hx' := hv i hi'
    rw [hx] at hx'
    injection hx' with hx'
    subst hx'
    exact ⟨hi', by rw [hgrid (2 * i) (by omega)]⟩
  constructor
  · intro i hi ht
    have h1 := hgrid (2 * i) (by omega)
    have h2 := hgrid (2 * i + 1) hi
    refine ⟨by rw [h2]; push_cast at h1 ⊢; omega, ?_⟩
    have hx := hv i hi
    simp only [loadCmipFlux, hr, bind, Except.bind]
    cases hf : r.find? (fun x => x.1 == t) with
    | none =>
      rw [List.find?_eq_none] at hf
      have := hf _ (List.mem_of_getElem? hx)
      simp [ht] at this
    | some x =>
      have hx1 := List.find?_some hf
      obtain ⟨j, hj⟩ := List.getElem?_of_mem (List.mem_of_find?_eq_some hf)
      obtain ⟨hj1, hj2⟩ := hlabel j x hj
      have hxt : x.1 = t := by simpa using hx1
      have hij : j = i := by push_cast at hj2 h1; omega
      subst hij
      rw [hx] at hj
      injection hj with hj
      rw [← hj]
  · intro hne
    simp only [loadCmipFlux, hr, bind, Except.bind]
    cases hf : r.find? (fun x => x.1 == t) with
    | none => rfl
    | some x =>
      have hx1 := List.find?_some hf
      obtain ⟨j, hj⟩ := List.getElem?_of_mem (List.mem_of_find?_eq_some hf)
      obtain ⟨hj1, hj2⟩ := hlabel j x hj
      have hxt : x.1 = t := by simpa using hx1
      have := hne j (by omega)
      rw [hgrid (2 * j) (by omega)] at this
      exact absurd (by omega) this

/-- 2 days of 3-hourly samples from 2021-01-01T01:30, i.e. 18628 days after 1970-01-01 -/
def demoTimes : List ℤ :=
  (List.range 16).map fun i => 18628 * usPerDay + 90 * 60 * 1000000 + 3 * 3600 * 1000000 * (i : ℤ)

example : (resample3hr .prolepticGregorian demoTimes
    ((List.range 16).map fun i => ((i : ℚ)))).toOption.map (fun r => r.map fun x =>
      ((dateTimeOf .prolepticGregorian x.1).hour, x.2)) =
    some [(6, 1 / 2), (12, 5 / 2), (18, 9 / 2), (0, 13 / 2), (6, 17 / 2), (12, 21 / 2),
      (18, 25 / 2), (0, 29 / 2)] := by decide +kernel

/-- the levels used for CMIP data are exactly those present for every variable -/
theorem C70_common_levels (order : List ℚ → List ℚ) (horder : ∀ l x, x ∈ order l ↔ x ∈ l)
    (hperm : ∀ l, l.Nodup → (order l).Nodup) (l : List ℚ) (ls : List (List ℚ)) :
    (∀ x, x ∈ commonLevels order l ls ↔ x ∈ l ∧ ∀ m ∈ ls, x ∈ m) ∧
    (commonLevels order l ls).Nodup := by
  have key : ∀ (ls : List (List ℚ)) (acc : List ℚ), acc.Nodup →
      (∀ x, x ∈ ls.foldl (fun common lv => common.filter fun x => x ∈ lv) acc ↔
        x ∈ acc ∧ ∀ m ∈ ls, x ∈ m) ∧
      (ls.foldl (fun common lv => common.filter fun x => x ∈ lv) acc).Nodup := by
    intro ls
    induction ls with
    | nil => intro acc h; simp [h]
    | cons m ls ih =>
      intro acc h
      obtain ⟨h1, h2⟩ := ih _ (h.filter fun x => decide (x ∈ m))
      refine ⟨fun x => ?_, h2⟩
      rw [List.foldl_cons, h1]
      simp [and_assoc]
  obtain ⟨h1, h2⟩ := key ls l.dedup l.nodup_dedup
  refine ⟨fun x => ?_, hperm _ h2⟩
  rw [commonLevels, horder, h1, List.mem_dedup]

example : commonLevels (id : List ℚ → List ℚ) [100, 85, 70, 50] [[85, 50, 20], [50, 85]] =
    [85, 50] := by decide +kernel

end

/-! ## C73: specific humidity at the surface from the dew point -/

noncomputable instance : NpExp ℝ := ⟨Real.exp⟩

/-- the vapour pressure at a dew point is positive, 611.21 Pa at 0 °C, and grows with it -/
theorem C73_vapour_pressure (T T' : ℝ) (h : 3219 / 100 < T) (h' : T < T') :
    0 < saturationPressure T ∧ saturationPressure T < saturationPressure T' ∧
    saturationPressure (27315 / 100 : ℝ) = 61121 / 100 := by
  simp only [saturationPressure, NpExp.exp, ofRat_cast]
  push_cast
  refine ⟨by positivity, ?_, by norm_num⟩
  apply mul_lt_mul_of_pos_left _ (by norm_num)
  apply Real.exp_lt_exp.mpr
  rw [div_lt_div_iff₀ (by linarith) (by linarith)]
  nlinarith

/-- The result is the specific humidity of moist air with that vapour pressure -/
theorem C73_is_specific_humidity (T p : ℝ) :
    calculateHumidity T p =
      specificHumidity (2870597 / 10000) (4615250 / 10000) (saturationPressure T) p := by
  simp only [calculateHumidity, specificHumidity, ofRat_cast]
  generalize (saturationPressure T : ℝ) = e
  push_cast
  have : e / (4615250 / 10000) + (p - e) / (2870597 / 10000) =
      (p - (1 - 2870597 / 10000 / (4615250 / 10000)) * e) / (2870597 / 10000) := by
    field_simp; ring
  rw [this]
  by_cases hd : p - (1 - 2870597 / 10000 / (4615250 / 10000)) * e = 0
  · rw [hd]; simp
  · field_simp

/-- It lies strictly between 0 and 1 exactly when the vapour pressure is below the air pressure -/
theorem C73_between_zero_and_one (T p : ℝ) :
    (0 < calculateHumidity T p ∧ calculateHumidity T p < 1) ↔ (saturationPressure T : ℝ) < p := by
  have he : (0 : ℝ) < saturationPressure T := by
    simp only [saturationPressure, NpExp.exp, ofRat_cast]
    positivity
  simp only [calculateHumidity, ofRat_cast]
  generalize (saturationPressure T : ℝ) = e at *
  push_cast
  constructor
  · rintro ⟨h0, h1⟩
    have hd : 0 < p - (1 - 2870597 / 10000 / (4615250 / 10000)) * e := by
      by_contra hd
      have := div_nonpos_of_nonneg_of_nonpos
        (by positivity : (0 : ℝ) ≤ 2870597 / 10000 / (4615250 / 10000) * e) (not_lt.mp hd)
      linarith
    rw [div_lt_one hd] at h1
    linarith
  · intro h
    have hd : 0 < p - (1 - 2870597 / 10000 / (4615250 / 10000)) * e := by
      have : (1 - 2870597 / 10000 / (4615250 / 10000) : ℝ) < 1 := by norm_num
      nlinarith
    refine ⟨by positivity, ?_⟩
    rw [div_lt_one hd]
    linarith

/-- A higher dew point gives a higher humidity, a higher pressure a lower one -/
theorem C73_monotone (T T' p p' : ℝ) (hT : 3219 / 100 < T) (hTT : T ≤ T')
    (hp : p' ≤ p) (hsat : (saturationPressure T' : ℝ) < p') (hne : T < T' ∨ p' < p) :
    calculateHumidity T p < calculateHumidity T' p' := by
  have he : (0 : ℝ) < saturationPressure T := by
    simp only [saturationPressure, NpExp.exp, ofRat_cast]
    positivity
  have hee : (saturationPressure T : ℝ) ≤ saturationPressure T' := by
    rcases eq_or_lt_of_le hTT with h | h
    · rw [h]
    · exact (C73_vapour_pressure T T' hT h).2.1.le
  have hne' : (saturationPressure T : ℝ) < saturationPressure T' ∨ p' < p := by
    rcases hne with h | h
    · exact .inl (C73_vapour_pressure T T' hT h).2.1
    · exact .inr h
  simp only [calculateHumidity, ofRat_cast]
  generalize (saturationPressure T : ℝ) = e at *
  generalize (saturationPressure T' : ℝ) = e' at *
  push_cast
  have hr : (2870597 / 10000 / (4615250 / 10000) : ℝ) < 1 := by norm_num
  have hr0 : (0 : ℝ) < 2870597 / 10000 / (4615250 / 10000) := by norm_num
  generalize (2870597 / 10000 / (4615250 / 10000) : ℝ) = ε at *
  have hd : 0 < p - (1 - ε) * e := by nlinarith
  have hd' : 0 < p' - (1 - ε) * e' := by nlinarith
  rw [div_lt_div_iff₀ hd hd']
  rcases hne' with h | h
  · nlinarith [mul_pos hr0 (sub_pos.mpr h), mul_pos hr0 he, mul_nonneg hr0.le (mul_nonneg he.le (sub_nonneg.mpr hp)),
      mul_pos (mul_pos hr0 (sub_pos.mpr h)) (lt_of_lt_of_le (lt_trans (lt_trans he h) hsat) hp)]
  · have : e * p' < e' * p := by nlinarith
    nlinarith

/-- 10 °C dew point at 1000 hPa: the hypotheses of the theorems above are met -/
example : (saturationPressure (28315 / 100 : ℝ)) < 100000 := by
  simp only [saturationPressure, NpExp.exp, ofRat_cast]
  push_cast
  have h1 : (17502 / 1000 * (28315 / 100 - 27315 / 100) / (28315 / 100 - 3219 / 100) : ℝ) ≤ 1 := by
    norm_num
  have h2 := Real.exp_le_exp.mpr h1
  have h3 := Real.exp_one_lt_d9
  nlinarith

end Wam
