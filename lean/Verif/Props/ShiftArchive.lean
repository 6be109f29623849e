import Verif.Props.Causal
import Verif.Props.Shift
import Verif.Model.Pipeline
import Verif.Props.Names

/-!
# C103, C104: runs on archives
-/
set_option linter.unusedSectionVars false
set_option linter.unusedVariables false

namespace Wam
open Spec

theorem floorTime_ge {u lo t : ℤ} (hu : 0 < u) (h : u ∣ lo) (hl : lo ≤ t) : lo ≤ floorTime t u := by
  obtain ⟨k, rfl⟩ := h
  unfold floorTime
  have := Int.emod_nonneg (t - u * k) hu.ne'
  have e : t % u = (t - u * k) % u := by rw [Int.sub_mul_emod_self_left]
  have := Int.emod_add_mul_ediv (t - u * k) u
  have := Int.mul_nonneg hu.le (Int.ediv_nonneg (a := t - u * k) (by omega) hu.le)
  omega

theorem floorTime_le {u t : ℤ} (hu : 0 < u) : floorTime t u ≤ t := by
  unfold floorTime
  have := Int.emod_nonneg t hu.ne'
  omega

theorem ceilTime_le {u hi t : ℤ} (hu : 0 < u) (h : u ∣ hi) (hl : t ≤ hi) : ceilTime t u ≤ hi := by
  have := floorTime_ge hu (Int.dvd_neg.mpr h) (neg_le_neg hl)
  unfold floorTime at this
  unfold ceilTime
  omega

theorem le_ceilTime {u t : ℤ} (hu : 0 < u) : t ≤ ceilTime t u := by
  unfold ceilTime
  have := Int.emod_nonneg (-t) hu.ne'
  omega

theorem ceilTime_shift {u δ : ℤ} (h : u ∣ δ) (t : ℤ) : ceilTime (t + δ) u = ceilTime t u + δ := by
  unfold ceilTime
  rw [neg_add, Int.add_emod, Int.emod_eq_zero_of_dvd (Int.dvd_neg.mpr h), add_zero, Int.emod_emod]
  omega

theorem SameRegionOn.refl {m n : ℕ} {α : Type*} (lo hi : ℤ) (r : Except Err (Region m n α)) : SameRegionOn lo hi r r := by
  rcases r with e | (mask | f)
  · exact .error e
  · exact .stationary mask
  · exact .moving f f fun _ _ _ => rfl

theorem countP_shift (times : List ℤ) (δ : ℤ) (p q : ℤ → Bool) (h : ∀ x, p (x + δ) = q x) :
    (times.map (· + δ)).countP p = times.countP q := by
  rw [List.countP_map]
  exact List.countP_congr fun x _ => by simp only [Function.comp, h]

theorem nearestIndex_shift (times : List ℤ) (δ t : ℤ) : nearestIndex (times.map (· + δ)) (t + δ) = nearestIndex times t := by
  have c1 : (times.map (· + δ)).countP (· ≤ t + δ) = times.countP (· ≤ t) :=
    countP_shift times δ _ _ fun x => decide_eq_decide.mpr (by omega)
  have c2 : (times.map (· + δ)).countP (· < t + δ) = times.countP (· < t) :=
    countP_shift times δ _ _ fun x => decide_eq_decide.mpr (by omega)
  rcases times with _ | ⟨a, l⟩
  · simp [nearestIndex]
  · set times := a :: l with ht
    have hne : times ≠ [] := by simp [ht]
    have hpos : 0 < times.length := List.length_pos_iff.mpr hne
    have own : ∀ i : ℤ, i < times.length →
        (if i < 0 then (times.map (· + δ)).getLastD 0 else (times.map (· + δ)).getD i.toNat 0) =
        (if i < 0 then times.getLastD 0 else times.getD i.toNat 0) + δ := by
      intro i hi
      by_cases h : i < 0
      · rw [if_pos h, if_pos h, List.getLastD_eq_getLast?, List.getLastD_eq_getLast?, List.getLast?_map,
          List.getLast?_eq_some_getLast hne]
        rfl
      · rw [if_neg h, if_neg h, List.getD_eq_getElem?_getD, List.getD_eq_getElem?_getD, List.getElem?_map,
          List.getElem?_eq_getElem (by omega)]
        rfl
    have b1 : ((times.countP (· ≤ t) : ℤ) - 1) < times.length := by
      have := List.countP_le_length (p := fun x => decide (x ≤ t)) (l := times)
      omega
    have b2 : (if times.countP (· < t) = times.length then (-1 : ℤ) else times.countP (· < t)) < times.length := by
      have := List.countP_le_length (p := fun x => decide (x < t)) (l := times)
      split
      · omega
      · omega
    unfold nearestIndex
    simp only [c1, c2, List.length_map]
    rw [own _ b1, own _ b2]
    simp only [add_sub_add_right_eq_sub]

theorem nearestMask_shift {β : Type*} (entries : List (ℤ × β)) (δ t : ℤ) :
    nearestMask (entries.map fun e => (e.1 + δ, e.2)) (t + δ) = nearestMask entries t := by
  unfold nearestMask
  have : (entries.map fun e => (e.1 + δ, e.2)).map Prod.fst = (entries.map Prod.fst).map (· + δ) := by
    simp only [List.map_map, Function.comp_def]
  rw [this, nearestIndex_shift]
  rcases nearestIndex (entries.map Prod.fst) t with i | i
  · simp only [Int.ofNat_eq_natCast, List.getElem?_map]
    cases entries[i]? <;> rfl
  · rfl

section
variable {m n : ℕ} {α : Type} [LinearOrder α] [Add α] [Sub α] [Mul α] [Div α] [NpOps α] [NpTrig α]

/-- the data read at a time depend only on the slices of the period -/
theorem loadData_same {files files' : List Char → Except Err (DataFile α α)} {io io' : IOConfig α} {δ lo hi : ℤ}
    (hf : io'.input_frequency = io.input_frequency) (hu : 0 < io.input_frequency) (hδ : io.input_frequency ∣ δ)
    (hlo : io.input_frequency ∣ lo) (hhi : io.input_frequency ∣ hi) (sub : Subset)
    (h : ∀ s, lo ≤ s → s ≤ hi → readSlice files' (sliceKey io' (s + δ) sub) = readSlice files (sliceKey io s sub))
    {t : ℤ} (h0 : lo ≤ t) (h1 : t ≤ hi) : loadData files' io' (t + δ) sub = loadData files io t sub := by
  unfold loadData loadDataWith
  rw [hf]
  simp only [floorTime_shift hδ, ceilTime_shift hδ]
  rw [h t h0 h1, h _ (floorTime_ge hu hlo h0) ((floorTime_le hu).trans h1), h _ (h0.trans (le_ceilTime hu)) (ceilTime_le hu hhi h1)]
  simp only [add_left_inj, add_sub_add_right_eq_sub]

theorem regionAt_shift (r : TagFile α α) (δ t : ℤ) : regionAt (shiftTagFile δ r) (t + δ) = regionAt r t := by
  unfold regionAt shiftTagFile
  rcases r.time with _ | times
  · rfl
  · simp only [Option.map_some, List.length_map]
    have : (times.map (· + δ)).zip (List.range times.length) =
        (times.zip (List.range times.length)).map fun e => (e.1 + δ, e.2) := by
      rw [List.zip_map_left]; rfl
    rw [this, nearestMask_shift]

theorem loadTaggingRegion_shift (c : Except Err (TagFile α α)) (domain : Option (BoundingBox α)) (δ : ℤ) (t : Option ℤ) :
    loadTaggingRegion (c.map (shiftTagFile δ)) domain (t.map (· + δ)) =
      match t with
      | none => (loadTaggingRegion c domain none).map (shiftTagFile δ)
      | some t => loadTaggingRegion c domain (some t) := by
  rcases c with e | r
  · cases t <;> rfl
  · cases domain with
    | none => cases t with
      | none => rfl
      | some t => exact regionAt_shift r δ t
    | some b =>
      have hs : selectRegion (shiftTagFile δ r) b = (selectRegion r b).map (shiftTagFile δ) := by
        unfold selectRegion
        show Except.bind (selectSubdomain (⟨r.latitude, r.longitude, [], fun _ i j => (i, j)⟩ : Dataset α (ℕ × ℕ)) b) _ =
          Except.map _ (Except.bind (selectSubdomain (⟨r.latitude, r.longitude, [], fun _ i j => (i, j)⟩ : Dataset α (ℕ × ℕ)) b) _)
        generalize selectSubdomain (⟨r.latitude, r.longitude, [], fun _ i j => (i, j)⟩ : Dataset α (ℕ × ℕ)) b = q
        cases q <;> rfl
      cases t with
      | none =>
        show Except.bind (selectRegion (shiftTagFile δ r) b) _ = Except.map _ (Except.bind (selectRegion r b) _)
        rw [hs]
        cases selectRegion r b <;> rfl
      | some t =>
        show Except.bind (selectRegion (shiftTagFile δ r) b) (fun r => regionAt r (t + δ)) =
          Except.bind (selectRegion r b) (fun r => regionAt r t)
        rw [hs]
        rcases selectRegion r b with e | r'
        · rfl
        · exact regionAt_shift r' δ t

theorem trackingRegion_shift (domain : Option (BoundingBox α)) (tag : TaggingRegion α α) (lat lon : List α) (δ : ℤ) :
    (trackingRegion domain (shiftTag δ tag) lat lon : Except Err (Region (m + 2) (n + 2) α)) =
      (trackingRegion domain tag lat lon).map (shiftRegion δ) := by
  cases tag with
  | box b => rfl
  | file c =>
    have h0 := loadTaggingRegion_shift c domain δ none
    have h1 : ∀ t, loadTaggingRegion (c.map (shiftTagFile δ)) domain (some t) = loadTaggingRegion c domain (some (t - δ)) := fun t => by
      have := loadTaggingRegion_shift c domain δ (some (t - δ))
      simpa using this
    simp only [trackingRegion, shiftTag]
    simp only [Option.map_none] at h0
    rw [h0]
    simp only [h1]
    rcases loadTaggingRegion c domain none with e | r
    · rfl
    · show (match r.time.map (List.map (· + δ)) with | none => _ | some _ => _) = _
      rcases hrt : r.time with _ | times
      · have e : (regionOnGrid lat lon (shiftTagFile δ r) : Except Err (Arr (m + 2) (n + 2) α)) = regionOnGrid lat lon r := rfl
        simp only [Except.map, hrt, Option.map_none, e]
        rcases (regionOnGrid lat lon r : Except Err (Arr (m + 2) (n + 2) α)) with e | mask <;> rfl
      · simp only [Except.map, hrt, Option.map_some]
        rfl

/-- The experiment on an archive whose slices are those of another archive moved by `δ` in time (in any calendar and any folder),
with the tagging region moved likewise, reads the moved data. -/
theorem experiment_shifted {files files' : List Char → Except Err (DataFile α α)} {io io' : IOConfig α} {δ lo hi : ℤ}
    (hf : io'.input_frequency = io.input_frequency) (hu : 0 < io.input_frequency) (hδ : io.input_frequency ∣ δ)
    (hlo : io.input_frequency ∣ lo) (hhi : io.input_frequency ∣ hi) (hdom : io'.tracking_domain = io.tracking_domain)
    (h : ∀ sub s, lo ≤ s → s ≤ hi → readSlice files' (sliceKey io' (s + δ) sub) = readSlice files (sliceKey io s sub))
    (tag : TaggingRegion α α) {first : ℤ} (h0 : lo ≤ first) (h1 : first ≤ hi) :
    AgreeOn (lo + δ) (hi + δ) (shiftSource δ (experimentSource (m := m) (n := n) files io tag first))
      (experimentSource files' io' (shiftTag δ tag) (first + δ)) := by
  have key : ∀ sub t, lo + δ ≤ t → t ≤ hi + δ → loadData files' io' t sub = loadData files io (t - δ) sub := fun sub t a b => by
    have := loadData_same hf hu hδ hlo hhi sub (h sub) (t := t - δ) (by omega) (by omega)
    rwa [sub_add_cancel] at this
  have kf : loadData files' io' (first + δ) .states = loadData files io first .states :=
    loadData_same hf hu hδ hlo hhi .states (h .states) h0 h1
  refine ⟨fun t a b => ?_, fun t a b => ?_, ?_, ?_, ?_⟩
  · show (loadData files' io' t .states).map _ = (loadData files io (t - δ) .states).map _
    rw [key _ t a b]
  · show (loadData files' io' t .fluxes).map _ = (loadData files io (t - δ) .fluxes).map _
    rw [key _ t a b]
  · simp only [experimentSource, archiveSource, shiftSource, kf, hdom]
    rw [trackingRegion_shift]
    exact SameRegionOn.refl _ _ _
  · simp only [experimentSource, archiveSource, shiftSource, kf]
  · simp only [experimentSource, archiveSource, shiftSource, kf]

/-- a slice of a moved archive -/
theorem readSlice_moved {δ lo hi : ℤ} {io io' : IOConfig α} {files files' : List Char → Except Err (DataFile α α)}
    (h : MovedArchive δ lo hi io io' files files') (hsec : 1000000 ∣ δ) (sub : Subset) (s : ℤ) (h0 : lo ≤ s) (h1 : s ≤ hi) :
    readSlice files' (sliceKey io' (s + δ) sub) = readSlice files (sliceKey io s sub) := by
  unfold readSlice sliceKey
  simp only [h.moved s h0 h1, h.tracking_domain]
  rcases hf : files (inputPath io.calendar s io.preprocessed_data_folder) with e | f
  · rfl
  · have hsel : selectTime (shiftFile δ io'.calendar f) (isoSecondString (dateTimeOf io'.calendar (s + δ))) =
        selectTime f (isoSecondString (dateTimeOf io.calendar s)) := by
      unfold selectTime shiftFile
      rw [List.filter_map, h.calendar s f h0 h1 hf]
      have e : (f.entries.filter ((fun e : ℤ × Dataset α α => decide (isoSecondString (dateTimeOf io'.calendar e.1) =
            isoSecondString (dateTimeOf io'.calendar (s + δ)))) ∘ fun e => (e.1 + δ, e.2))) =
          f.entries.filter fun e => decide (isoSecondString (dateTimeOf io.calendar e.1) = isoSecondString (dateTimeOf io.calendar s)) := by
        refine List.filter_congr fun e he => ?_
        obtain ⟨y0, y1⟩ := h.entries s f h0 h1 hf e he
        obtain ⟨z0, z1⟩ := h.years s h0 h1
        refine decide_eq_decide.mpr ?_
        rw [isoSecondString_iff _ _ _ y1 z1, isoSecondString_iff _ _ _ y0 z0]
        obtain ⟨k, rfl⟩ := hsec
        unfold SameSecond
        omega
      rw [e]
      clear e
      generalize f.entries.filter (fun e => decide (isoSecondString (dateTimeOf io.calendar e.1) =
        isoSecondString (dateTimeOf io.calendar s))) = q
      rcases q with _ | ⟨a, _ | ⟨b, l⟩⟩ <;> rfl
    show Except.bind (selectTime (shiftFile δ io'.calendar f) _) _ = Except.bind (selectTime f _) _
    rw [hsel]

theorem Spec.AgreeOn.mono {β : Type*} {lo hi lo' hi' : ℤ} {src src' : Source m n β} (h : AgreeOn lo hi src src') (h0 : lo ≤ lo') (h1 : hi' ≤ hi) :
    AgreeOn lo' hi' src src' where
  states := fun t a b => h.states t (h0.trans a) (b.trans h1)
  fluxes := fun t a b => h.fluxes t (h0.trans a) (b.trans h1)
  region := by
    have := h.region
    rcases hr : src.region with e | r <;> rcases hr' : src'.region with e' | r' <;> rw [hr, hr'] at this <;> cases this
    · exact .error _
    · exact .stationary _
    · exact .moving _ _ fun t a b => by rename_i hfg; exact hfg t (h0.trans a) (b.trans h1)
  grid := h.grid
  weight := h.weight

variable [Neg α] {P P' : Type*}

/-- **C103** (archives, forward).  The same from the files on: if the preprocessed files of another archive are the same with all
times moved (in any calendar), a tagging file likewise, and all dates of the configuration are moved by the same whole number of
input and output intervals, then the run does the same with all times moved.  So no calendar, weekday or season plays a role. -/
theorem C103_archive_forward (δ lo hi : ℤ) (cfg : RunConfig α) (io io' : IOConfig α)
    (files files' : List Char → Except Err (DataFile α α)) (tag : TaggingRegion α α) (h : MovedArchive δ lo hi io io' files files')
    (hsec : 1000000 ∣ δ) (hδ : cfg.output_frequency ∣ δ) (hδ' : io.input_frequency ∣ δ) (hu : 0 < io.input_frequency)
    (hlo : io.input_frequency ∣ lo) (hhi : io.input_frequency ∣ hi) (hstart : lo ≤ cfg.tracking_start_date)
    (hord : cfg.tracking_start_date ≤ cfg.tracking_end_date) (hend : cfg.tracking_end_date ≤ hi) (hdt : 0 < cfg.timestep)
    (path : ℤ → P) (path' : ℤ → P')
    (disk : P → Option (FwdOutput (m + 2) (n + 2) α)) (disk' : P' → Option (FwdOutput (m + 2) (n + 2) α))
    (hd : cfg.restart = true → disk' (path' (cfg.tracking_start_date + δ)) = disk (path cfg.tracking_start_date)) (fuel : ℕ) :
    Corresponds (ShiftedBy δ) (fwdRun cfg (experimentSource files io tag cfg.tracking_start_date) path disk fuel)
      (fwdRun (shiftConfig δ cfg) (experimentSource files' io' (shiftTag δ tag) (cfg.tracking_start_date + δ)) path' disk' fuel) := by
  have ha := experiment_shifted (m := m) (n := n) h.input_frequency hu hδ' hlo hhi h.tracking_domain
    (fun sub s => readSlice_moved h hsec sub s) tag hstart (hord.trans hend)
  rw [C104_period_forward (shiftConfig δ cfg) hdt _ _ (ha.mono (Int.add_le_add_right hstart δ) (Int.add_le_add_right hend δ))
    (Int.add_le_add_right hord δ) path' path' disk' disk' (fun _ => rfl) fuel]
  exact C103_shift_forward δ cfg _ hδ path path' disk disk' hd fuel

/-- **C103** (archives, backward) -/
theorem C103_archive_backward (δ lo hi : ℤ) (cfg : RunConfig α) (io io' : IOConfig α)
    (files files' : List Char → Except Err (DataFile α α)) (tag : TaggingRegion α α) (h : MovedArchive δ lo hi io io' files files')
    (hsec : 1000000 ∣ δ) (hδ : cfg.output_frequency ∣ δ) (hδ' : io.input_frequency ∣ δ) (hu : 0 < io.input_frequency)
    (hlo : io.input_frequency ∣ lo) (hhi : io.input_frequency ∣ hi) (hstart : lo ≤ cfg.tracking_start_date)
    (hord : cfg.tracking_start_date ≤ cfg.tracking_end_date) (hend : cfg.tracking_end_date ≤ hi) (hdt : 0 < cfg.timestep)
    (path : ℤ → P) (path' : ℤ → P')
    (disk : P → Option (BwdOutput (m + 2) (n + 2) α)) (disk' : P' → Option (BwdOutput (m + 2) (n + 2) α))
    (hd : cfg.restart = true → disk' (path' (cfg.tracking_end_date + δ)) = disk (path cfg.tracking_end_date)) (fuel : ℕ) :
    Corresponds (ShiftedBy δ) (bwdRun cfg (experimentSource files io tag cfg.tracking_end_date) path disk fuel)
      (bwdRun (shiftConfig δ cfg) (experimentSource files' io' (shiftTag δ tag) (cfg.tracking_end_date + δ)) path' disk' fuel) := by
  have ha := experiment_shifted (m := m) (n := n) h.input_frequency hu hδ' hlo hhi h.tracking_domain
    (fun sub s => readSlice_moved h hsec sub s) tag (hstart.trans hord) hend
  rw [C104_period_backward (shiftConfig δ cfg) hdt _ _ (ha.mono (Int.add_le_add_right hstart δ) (Int.add_le_add_right hend δ))
    (Int.add_le_add_right hord δ) path' path' disk' disk' (fun _ => rfl) fuel]
  exact C103_shift_backward δ cfg _ hδ path path' disk disk' hd fuel

/-- **C104** (archives).  Two archives whose files for the days from `lo` to `hi` are the same give the same data at all times from
`lo` to `hi` (multiples of the input interval), whatever other files they hold: so `C104_period_*` and `C104_causal_*` apply. -/
theorem C104_archive (io : IOConfig α) (files files' : List Char → Except Err (DataFile α α)) (tag : TaggingRegion α α) (lo hi : ℤ)
    (hu : 0 < io.input_frequency) (hlo : io.input_frequency ∣ lo) (hhi : io.input_frequency ∣ hi)
    (h : ∀ s, lo ≤ s → s ≤ hi → files' (inputPath io.calendar s io.preprocessed_data_folder) =
      files (inputPath io.calendar s io.preprocessed_data_folder))
    (first : ℤ) (h0 : lo ≤ first) (h1 : first ≤ hi) :
    AgreeOn lo hi (experimentSource (m := m) (n := n) files io tag first) (experimentSource files' io tag first) := by
  have hs : ∀ sub s, lo ≤ s → s ≤ hi → readSlice files' (sliceKey io s sub) = readSlice files (sliceKey io s sub) := by
    intro sub s a b
    unfold readSlice
    have e : files' (sliceKey io s sub).filename = files (sliceKey io s sub).filename := h s a b
    rw [e]
  have key : ∀ sub t, lo ≤ t → t ≤ hi → loadData files' io t sub = loadData files io t sub := fun sub t a b => by
    have := loadData_same (files := files) (files' := files') (io := io) (io' := io) (δ := 0) rfl hu (dvd_zero _) hlo hhi sub
      (by intro s a b; rw [add_zero]; exact hs sub s a b) a b
    rwa [add_zero] at this
  have kf := key .states first h0 h1
  refine ⟨fun t a b => ?_, fun t a b => ?_, ?_, ?_, ?_⟩
  · show (loadData files' io t .states).map _ = (loadData files io t .states).map _
    rw [key _ t a b]
  · show (loadData files' io t .fluxes).map _ = (loadData files io t .fluxes).map _
    rw [key _ t a b]
  · simp only [experimentSource, archiveSource, kf]
    exact SameRegionOn.refl _ _ _
  · simp only [experimentSource, archiveSource, kf]
  · simp only [experimentSource, archiveSource, kf]

end

namespace ShiftDemo

/-- one day of six-hourly data on a 3x3 grid -/
def weather (s : ℤ) : Dataset ℚ ℚ :=
  ⟨[20, 10, 0], [5, 15, 25], [.s_upper, .s_lower, .fx_upper, .fx_lower, .fy_upper, .fy_lower, .evap, .precip],
    fun _ i j => 3 + i + j + (s / 3600000000 : ℤ) ^ 2⟩

def file : DataFile ℚ ℚ := ⟨.standard, [0, 21600000000, 43200000000, 64800000000].map fun s => (s, weather s)⟩

def files (p : List Char) : Except Err (DataFile ℚ ℚ) :=
  if p = "in/1970-01-01_fluxes_storages.nc".toList then .ok file else .error .fileNotFound

/-- ninety days later, in a calendar with months of thirty days -/
def δ : ℤ := 90 * 86400000000

def files' (p : List Char) : Except Err (DataFile ℚ ℚ) :=
  if p = "other/1970-04-01_fluxes_storages.nc".toList then .ok (shiftFile δ .day360 file) else .error .fileNotFound

def io : IOConfig ℚ := ⟨.standard, "in".toList, none, 21600000000⟩
def io' : IOConfig ℚ := ⟨.day360, "other".toList, none, 21600000000⟩

theorem moved : MovedArchive δ 0 64800000000 io io' files files' := by
  have y : FourDigitYear .standard 0 := by unfold FourDigitYear; decide +kernel
  have y' : FourDigitYear .day360 δ := by unfold FourDigitYear; decide +kernel
  have ys : ∀ s, 0 ≤ s → s ≤ 64800000000 → FourDigitYear .standard s := fun s h0 h1 =>
    FourDigitYear.sameDay y (by unfold SameDay; omega)
  have ys' : ∀ s, 0 ≤ s → s ≤ 64800000000 → FourDigitYear .day360 (s + δ) := fun s h0 h1 =>
    FourDigitYear.sameDay y' (by unfold SameDay δ; omega)
  have p : ∀ s, 0 ≤ s → s ≤ 64800000000 → inputPath .standard s "in".toList = "in/1970-01-01_fluxes_storages.nc".toList := fun s h0 h1 =>
    ((C42_input_path .standard s 0 _ _ (ys s h0 h1) y).2 ⟨rfl, by unfold SameDay; omega⟩).trans (by decide +kernel)
  have p' : ∀ s, 0 ≤ s → s ≤ 64800000000 → inputPath .day360 (s + δ) "other".toList = "other/1970-04-01_fluxes_storages.nc".toList :=
    fun s h0 h1 => ((C42_input_path .day360 (s + δ) δ _ _ (ys' s h0 h1) y').2 ⟨rfl, by unfold SameDay δ; omega⟩).trans (by decide +kernel)
  have f : ∀ s, 0 ≤ s → s ≤ 64800000000 → files (inputPath io.calendar s io.preprocessed_data_folder) = .ok file := fun s h0 h1 => by
    show files (inputPath .standard s "in".toList) = _
    rw [p s h0 h1]; rfl
  refine ⟨rfl, rfl, fun s h0 h1 => ?_, fun s g h0 h1 h => ?_, fun s h0 h1 => ⟨ys s h0 h1, ys' s h0 h1⟩, fun s g h0 h1 h e he => ?_⟩
  · rw [f s h0 h1]
    show files' (inputPath .day360 (s + δ) "other".toList) = _
    rw [p' s h0 h1]; rfl
  · rw [f s h0 h1] at h; injection h with h; subst h; rfl
  · rw [f s h0 h1] at h; injection h with h; subst h
    have : 0 ≤ e.1 ∧ e.1 ≤ 64800000000 := by
      simp only [file, List.map_cons, List.map_nil, List.mem_cons, List.not_mem_nil, or_false] at he
      rcases he with rfl | rfl | rfl | rfl <;> simp
    exact ⟨ys _ this.1 this.2, ys' _ this.1 this.2⟩

/-- a run of twelve hours on the two archives -/
example [NpTrig ℚ] (fuel : ℕ) :
    Corresponds (ShiftedBy δ)
      (fwdRun ⟨0, 43200000000, 0, 21600000000, 1800, 21600000000, 3, false, false⟩
        (experimentSource (m := 1) (n := 1) files io (.box ⟨0, 0, 20, 20⟩) 0) id (fun _ => none) fuel)
      (fwdRun ⟨0 + δ, 43200000000 + δ, 0 + δ, 21600000000 + δ, 1800, 21600000000, 3, false, false⟩
        (experimentSource (m := 1) (n := 1) files' io' (.box ⟨0, 0, 20, 20⟩) (0 + δ)) id (fun _ => none) fuel) :=
  C103_archive_forward δ 0 64800000000 ⟨0, 43200000000, 0, 21600000000, 1800, 21600000000, 3, false, false⟩ io io' files files'
    (.box ⟨0, 0, 20, 20⟩) moved (by decide) (by decide) (by decide) (by decide) (by decide) (by decide) (by decide) (by decide)
    (by decide) (by decide) id id _ _ (fun h => by cases h) fuel

/-- another archive that holds a file for the next day as well -/
example [NpTrig ℚ] : AgreeOn 0 64800000000 (experimentSource (m := 1) (n := 1) files io (.box ⟨0, 0, 20, 20⟩) 0)
    (experimentSource (fun p => if p = "in/1970-01-02_fluxes_storages.nc".toList then .ok file else files p) io (.box ⟨0, 0, 20, 20⟩) 0) := by
  refine C104_archive io _ _ _ 0 64800000000 (by decide) (by decide) (by decide) (fun s h0 h1 => ?_) 0 le_rfl (by decide)
  have y : FourDigitYear .standard 0 := by unfold FourDigitYear; decide +kernel
  have p : inputPath .standard s "in".toList = "in/1970-01-01_fluxes_storages.nc".toList :=
    ((C42_input_path .standard s 0 _ _ (FourDigitYear.sameDay y (by unfold SameDay; omega)) y).2
      ⟨rfl, by unfold SameDay; omega⟩).trans (by decide +kernel)
  have ne : ¬ inputPath io.calendar s io.preprocessed_data_folder = "in/1970-01-02_fluxes_storages.nc".toList := fun e =>
    absurd (p.symm.trans e) (by decide)
  exact if_neg ne

end ShiftDemo

end Wam
