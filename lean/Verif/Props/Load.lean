import Verif.Lemmas.IO
import Verif.Lemmas.NumK
import Verif.Props.Select
import Verif.Props.Names

/-! # C37, C38: `load_data` and its cache -/

set_option linter.unusedSectionVars false
set_option linter.unusedVariables false

namespace Wam
open Spec

/-! ### C37 -/

section LoadData
variable {κ α : Type} [LinearOrder κ]

/-- Only the slices at the input times around `t` matter, and these are less than one
`input_frequency` away: whatever else is in the archive, the result is the same. -/
theorem C37_only_enclosing_slices [Add α] [Sub α] [Mul α] [NpOps α]
    (files files' : List Char → Except Err (DataFile κ α)) (cfg : IOConfig κ) (sub : Subset)
    (t : ℤ) (hf : 0 < cfg.input_frequency)
    (h : ∀ s, cfg.input_frequency ∣ s → |s - t| < cfg.input_frequency →
      readSlice files (sliceKey cfg s sub) = readSlice files' (sliceKey cfg s sub)) :
    loadData files cfg t sub = loadData files' cfg t sub := by
  obtain ⟨d1, h1, h2, d2, h3, h4⟩ := C48_floor_ceil t _ hf
  have e0 := h _ d1 (by rw [abs_of_nonpos (by omega)]; omega)
  have e1 := h _ d2 (by rw [abs_of_nonneg (by omega)]; omega)
  unfold loadData loadDataWith
  simp only
  split_ifs with hc
  · rcases hc with hc | hc
    · conv_lhs => rw [hc]
      conv_rhs => rw [hc]
      exact e0
    · conv_lhs => rw [hc]
      conv_rhs => rw [hc]
      exact e1
  · rw [e0, e1]

/-- a list of entries with increasing whole-second times of one day has exactly one entry for the label
of one of its times -/
private theorem selectTime_archive (f : DataFile κ α) (c : Calendar) (hc : f.calendar = c)
    (s : ℤ) (d : Dataset κ α) (hm : (s, d) ∈ f.entries)
    (hs : (f.entries.map Prod.fst).Pairwise (· < ·))
    (he : ∀ e ∈ f.entries, SameDay e.1 s ∧ 1000000 ∣ e.1) (hy : FourDigitYear c s) :
    selectTime f (isoSecondString (dateTimeOf c s)) = .ok d := by
  have hlab : ∀ e ∈ f.entries, (isoSecondString (dateTimeOf f.calendar e.1) =
      isoSecondString (dateTimeOf c s) ↔ e.1 = s) := by
    intro e hme
    obtain ⟨h1, h2⟩ := he e hme
    have h3 := (he _ hm).2
    have hye : FourDigitYear c e.1 := FourDigitYear.sameDay hy (show SameDay s e.1 from h1.symm)
    rw [hc, isoSecondString_iff c _ _ hye hy]
    unfold SameSecond
    simp only at h3
    omega
  have hfil : (f.entries.filter fun e => decide (isoSecondString (dateTimeOf f.calendar e.1) =
      isoSecondString (dateTimeOf c s))) = [(s, d)] := by
    rw [List.filter_congr (q := fun e => decide (e.1 = s))
      (fun e hme => by simp only [hlab e hme])]
    clear hlab he
    generalize f.entries = l at hm hs
    induction l with
    | nil => simp at hm
    | cons a l ih =>
      rw [List.map_cons, List.pairwise_cons] at hs
      rcases List.mem_cons.1 hm with rfl | hm
      · rw [List.filter_cons_of_pos (by simp)]
        congr 1
        rw [List.filter_eq_nil_iff]
        intro b hb
        have := hs.1 b.1 (List.mem_map.2 ⟨b, hb, rfl⟩)
        simp only at this
        simp only [decide_eq_true_eq]
        omega
      · have := hs.1 s (List.mem_map.2 ⟨(s, d), hm, rfl⟩)
        rw [List.filter_cons_of_neg (by simp only [decide_eq_true_eq]; omega)]
        exact ih hm hs.2
  unfold selectTime
  rw [hfil]

private theorem readSlice_archive {files : List Char → Except Err (DataFile κ α)}
    {cfg : IOConfig κ} {A B : ℤ} {weather : ℤ → Dataset κ α} (sub : Subset)
    (ha : Archive files cfg.calendar cfg.preprocessed_data_folder cfg.input_frequency A B weather)
    (hv : ∀ s, ∀ v ∈ sub.variables, v ∈ (weather s).vars)
    (s : ℤ) (h0 : A ≤ s) (h1 : s ≤ B) (hd : cfg.input_frequency ∣ s) :
    readSlice files (sliceKey cfg s sub) =
      match cfg.tracking_domain with
      | some box => selectSubdomain { weather s with vars := sub.variables } box
      | none => .ok { weather s with vars := sub.variables } := by
  obtain ⟨f, h2, h3, h4, h5, h6⟩ := ha.day s h0 h1 hd
  have h7 := selectTime_archive f cfg.calendar h3 s (weather s) h4 h5 h6 (ha.year s h0 h1)
  have h8 : (weather s).getVars sub.variables = .ok { weather s with vars := sub.variables } := by
    unfold Dataset.getVars
    rw [if_pos]
    rw [List.all_eq_true]
    intro v hv'
    simpa using hv s v hv'
  unfold readSlice sliceKey
  simp only [h2]
  show (do let ds ← selectTime f _; _) = _
  rw [h7]
  show (do let ds ← (weather s).getVars sub.variables; _) = _
  rw [h8]
  cases cfg.tracking_domain <;> rfl

variable {K : Type} [Field K] [LinearOrder K] [IsStrictOrderedRing K]

/-- Without a sub-domain: at every time `t` of the period covered by the archive, `load_data` returns
the requested variables, on the grid of the files; at an input time the data of that time, and
between two input times `s0 < t < s1 = s0 + input_frequency` the linear interpolation in time. -/
theorem C37_interpolation (files : List Char → Except Err (DataFile κ K)) (cfg : IOConfig κ)
    (A B : ℤ) (weather : ℤ → Dataset κ K) (sub : Subset) (hf : 0 < cfg.input_frequency)
    (hdom : cfg.tracking_domain = none)
    (ha : Archive files cfg.calendar cfg.preprocessed_data_folder cfg.input_frequency A B weather)
    (hv : ∀ s, ∀ v ∈ sub.variables, v ∈ (weather s).vars)
    (hA : cfg.input_frequency ∣ A) (hB : cfg.input_frequency ∣ B) (t : ℤ) (h0 : A ≤ t) (h1 : t ≤ B) :
    ∃ ds, loadData files cfg t sub = .ok ds ∧ ds.vars = sub.variables ∧
      ((cfg.input_frequency ∣ t ∧ ds = { weather t with vars := sub.variables }) ∨
        ∃ s0 s1, cfg.input_frequency ∣ s0 ∧ s0 < t ∧ t < s1 ∧ s1 = s0 + cfg.input_frequency ∧
          ds.latitude = (weather s0).latitude ∧ ds.longitude = (weather s0).longitude ∧
          ∀ v i j, ds.data v i j * (s1 - s0 : ℤ) =
            (weather s0).data v i j * (s1 - t : ℤ) + (weather s1).data v i j * (t - s0 : ℤ)) := by
  obtain ⟨d1, g1, g2, d2, g3, g4⟩ := C48_floor_ceil t _ hf
  obtain ⟨e1, e2, e3⟩ := C48_multiple t _ hf
  have hread := readSlice_archive (α := K) sub ha hv
  rw [hdom] at hread
  by_cases hd : cfg.input_frequency ∣ t
  · refine ⟨_, ?_, rfl, Or.inl ⟨hd, rfl⟩⟩
    unfold loadData loadDataWith
    simp only
    rw [if_pos (Or.inl (e1.1 hd)), hread t h0 h1 hd]
  · have hl := (C48_floor_ceil_optimal t _ A hf hA).1 h0
    have hr := (C48_floor_ceil_optimal t _ B hf hB).2 h1
    have hstep : ceilTime t cfg.input_frequency = floorTime t cfg.input_frequency +
        cfg.input_frequency := by
      rcases e3 with h | h
      · exact absurd h.1 hd
      · exact h.2
    have n1 : floorTime t cfg.input_frequency ≠ t := fun e => hd (e ▸ d1)
    have n2 : ceilTime t cfg.input_frequency ≠ t := fun e => hd (e ▸ d2)
    refine ⟨Dataset.lerp (ofRat (((t - floorTime t cfg.input_frequency : ℤ) : ℚ) /
        ((ceilTime t cfg.input_frequency - floorTime t cfg.input_frequency : ℤ) : ℚ)))
        { weather (floorTime t cfg.input_frequency) with vars := sub.variables }
        { weather (ceilTime t cfg.input_frequency) with vars := sub.variables },
      ?_, ?_, Or.inr ⟨floorTime t cfg.input_frequency, ceilTime t cfg.input_frequency, d1,
      by omega, by omega, hstep, ?_, ?_, ?_⟩⟩
    · unfold loadData loadDataWith
      simp only
      rw [if_neg (by intro h; rcases h with h | h <;> omega), hread _ hl (by omega) d1,
        hread _ (by omega) hr d2]
      rfl
    · rfl
    · rfl
    · rfl
    · intro v i j
      simp only [Dataset.lerp]
      have hne : ((ceilTime t cfg.input_frequency - floorTime t cfg.input_frequency : ℤ) : K) ≠ 0 := by
        rw [Int.cast_ne_zero]; omega
      rw [show (ofRat (((t - floorTime t cfg.input_frequency : ℤ) : ℚ) /
        ((ceilTime t cfg.input_frequency - floorTime t cfg.input_frequency : ℤ) : ℚ)) : K) =
        ((t - floorTime t cfg.input_frequency : ℤ) : K) /
        ((ceilTime t cfg.input_frequency - floorTime t cfg.input_frequency : ℤ) : K) by
          rw [show (ofRat : ℚ → K) = Rat.cast from rfl]; push_cast; rfl]
      rw [add_mul, div_mul_eq_mul_div, div_mul_cancel₀ _ hne]
      push_cast
      ring

/-- Hence an interpolated value lies between the two slices. -/
theorem C37_between (files : List Char → Except Err (DataFile κ K)) (cfg : IOConfig κ)
    (A B : ℤ) (weather : ℤ → Dataset κ K) (sub : Subset) (hf : 0 < cfg.input_frequency)
    (hdom : cfg.tracking_domain = none)
    (ha : Archive files cfg.calendar cfg.preprocessed_data_folder cfg.input_frequency A B weather)
    (hv : ∀ s, ∀ v ∈ sub.variables, v ∈ (weather s).vars)
    (hA : cfg.input_frequency ∣ A) (hB : cfg.input_frequency ∣ B) (t : ℤ) (h0 : A ≤ t) (h1 : t ≤ B)
    (lo hi : K) (v : Var) (i j : ℕ)
    (hb : ∀ s, |s - t| < cfg.input_frequency → lo ≤ (weather s).data v i j ∧
      (weather s).data v i j ≤ hi) :
    ∃ ds, loadData files cfg t sub = .ok ds ∧ lo ≤ ds.data v i j ∧ ds.data v i j ≤ hi := by
  obtain ⟨ds, h2, _, h3⟩ := C37_interpolation files cfg A B weather sub hf hdom ha hv hA hB t h0 h1
  refine ⟨ds, h2, ?_⟩
  rcases h3 with ⟨_, rfl⟩ | ⟨s0, s1, _, l0, l1, l2, _, _, h4⟩
  · exact hb t (by simpa using hf)
  · have e := h4 v i j
    have b0 := hb s0 (by rw [abs_of_neg (by omega)]; omega)
    have b1 := hb s1 (by rw [abs_of_pos (by omega)]; omega)
    have p0 : (0 : K) < ((t - s0 : ℤ) : K) := by exact_mod_cast (by omega : 0 < t - s0)
    have p1 : (0 : K) < ((s1 - t : ℤ) : K) := by exact_mod_cast (by omega : 0 < s1 - t)
    have ps : ((s1 - s0 : ℤ) : K) = ((s1 - t : ℤ) : K) + ((t - s0 : ℤ) : K) := by push_cast; ring
    have p2 : (0 : K) < ((s1 - s0 : ℤ) : K) := by rw [ps]; positivity
    constructor
    · refine le_of_mul_le_mul_right ?_ p2
      rw [e, ps, mul_add]
      exact add_le_add (mul_le_mul_of_nonneg_right b0.1 p1.le) (mul_le_mul_of_nonneg_right b1.1 p0.le)
    · refine le_of_mul_le_mul_right ?_ p2
      rw [e, ps, mul_add]
      exact add_le_add (mul_le_mul_of_nonneg_right b0.2 p1.le) (mul_le_mul_of_nonneg_right b1.2 p0.le)

/-- Data that are linear in time are reproduced exactly at every time. -/
theorem C37_linear_data (files : List Char → Except Err (DataFile κ K)) (cfg : IOConfig κ)
    (A B : ℤ) (weather : ℤ → Dataset κ K) (sub : Subset) (hf : 0 < cfg.input_frequency)
    (hdom : cfg.tracking_domain = none)
    (ha : Archive files cfg.calendar cfg.preprocessed_data_folder cfg.input_frequency A B weather)
    (hv : ∀ s, ∀ v ∈ sub.variables, v ∈ (weather s).vars)
    (hA : cfg.input_frequency ∣ A) (hB : cfg.input_frequency ∣ B) (t : ℤ) (h0 : A ≤ t) (h1 : t ≤ B)
    (p q : Var → ℕ → ℕ → K) (hlin : ∀ s v i j, (weather s).data v i j = p v i j + q v i j * (s : K)) :
    ∃ ds, loadData files cfg t sub = .ok ds ∧
      ∀ v i j, ds.data v i j = p v i j + q v i j * (t : K) := by
  obtain ⟨ds, h2, _, h3⟩ := C37_interpolation files cfg A B weather sub hf hdom ha hv hA hB t h0 h1
  refine ⟨ds, h2, ?_⟩
  rcases h3 with ⟨_, rfl⟩ | ⟨s0, s1, _, l0, l1, l2, _, _, h4⟩
  · exact hlin t
  · intro v i j
    have e := h4 v i j
    have p2 : ((s1 - s0 : ℤ) : K) ≠ 0 := by rw [Int.cast_ne_zero]; omega
    refine mul_right_cancel₀ p2 ?_
    rw [e, hlin, hlin]
    push_cast
    ring

/-- `selectSubdomain` only looks at the coordinates -/
private theorem selectSubdomain_eq (lat lon : List κ) (box : BoundingBox κ) :
    (∃ e, ∀ (vars : List Var) (data : Var → ℕ → ℕ → α),
      selectSubdomain ⟨lat, lon, vars, data⟩ box = .error e) ∨
    ∃ (rows cols : ℕ → ℕ) (lat' lon' : List κ), ∀ (vars : List Var) (data : Var → ℕ → ℕ → α),
      selectSubdomain ⟨lat, lon, vars, data⟩ box =
        .ok ⟨lat', lon', vars, fun v i j => data v (rows i) (cols j)⟩ := by
  by_cases h : box.west < box.east
  · cases hc : labelSlice lon box.west box.east with
    | error e => left; exact ⟨e, fun vars data => by simp [selectSubdomain, h, hc, bind, Except.bind]⟩
    | ok cols =>
      cases hr : labelSlice lat box.north box.south with
      | error e =>
        left; exact ⟨e, fun vars data => by simp [selectSubdomain, h, hc, hr, bind, Except.bind]⟩
      | ok rows =>
        right
        exact ⟨_, _, _, _, fun vars data => by
          simp only [selectSubdomain, h, hc, hr, bind, Except.bind, if_true, pure, Except.pure,
            Dataset.isel]
          rfl⟩
  · cases hr : labelSlice ((List.range lat.length).filterMap fun i => lat[i]?) box.north box.south with
    | error e =>
      left
      exact ⟨e, fun vars data => by
        simp only [selectSubdomain, h, hr, bind, Except.bind, if_false, Dataset.isel]⟩
    | ok rows =>
      right
      exact ⟨_, _, _, _, fun vars data => by
        simp only [selectSubdomain, h, hr, bind, Except.bind, if_false, pure, Except.pure,
          Dataset.isel]
        rfl⟩

/-- With a sub-domain: `load_data` returns the sub-domain of what it returns without one (all slices
being on one grid), so cropping and interpolation commute. -/
theorem C37_subdomain (files : List Char → Except Err (DataFile κ K)) (cfg : IOConfig κ)
    (box : BoundingBox κ) (A B : ℤ) (weather : ℤ → Dataset κ K) (sub : Subset)
    (hf : 0 < cfg.input_frequency) (hdom : cfg.tracking_domain = some box)
    (ha : Archive files cfg.calendar cfg.preprocessed_data_folder cfg.input_frequency A B weather)
    (hv : ∀ s, ∀ v ∈ sub.variables, v ∈ (weather s).vars) (lat lon : List κ)
    (hgrid : ∀ s, (weather s).latitude = lat ∧ (weather s).longitude = lon)
    (hA : cfg.input_frequency ∣ A) (hB : cfg.input_frequency ∣ B) (t : ℤ) (h0 : A ≤ t) (h1 : t ≤ B) :
    loadData files cfg t sub =
      (loadData files { cfg with tracking_domain := none } t sub).bind fun ds =>
        selectSubdomain ds box := by
  obtain ⟨d1, g1, g2, d2, g3, g4⟩ := C48_floor_ceil t _ hf
  obtain ⟨e1, e2, e3⟩ := C48_multiple t _ hf
  have hread := readSlice_archive (α := K) sub ha hv
  have hread' := readSlice_archive (α := K) (cfg := { cfg with tracking_domain := none }) sub ha hv
  rw [hdom] at hread
  simp only at hread hread'
  by_cases hd : cfg.input_frequency ∣ t
  · unfold loadData loadDataWith
    simp only
    rw [if_pos (Or.inl (e1.1 hd)), if_pos (Or.inl (e1.1 hd)), hread t h0 h1 hd, hread' t h0 h1 hd]
    rfl
  · have hl := (C48_floor_ceil_optimal t _ A hf hA).1 h0
    have hr := (C48_floor_ceil_optimal t _ B hf hB).2 h1
    have n1 : floorTime t cfg.input_frequency ≠ t := fun e => hd (e ▸ d1)
    have n2 : ceilTime t cfg.input_frequency ≠ t := fun e => hd (e ▸ d2)
    unfold loadData loadDataWith
    simp only
    rw [if_neg (by intro h; rcases h with h | h <;> omega),
      if_neg (by intro h; rcases h with h | h <;> omega), hread _ hl (by omega) d1,
      hread _ (by omega) hr d2, hread' _ hl (by omega) d1, hread' _ (by omega) hr d2]
    have w : ∀ s, ({ weather s with vars := sub.variables } : Dataset κ K) =
        ⟨lat, lon, sub.variables, (weather s).data⟩ := by
      intro s
      obtain ⟨a, b⟩ := hgrid s
      rw [← a, ← b]
    rw [w, w]
    rcases selectSubdomain_eq (α := K) lat lon box with ⟨e, h⟩ | ⟨rows, cols, lat', lon', h⟩
    · simp only [h, bind, Except.bind, pure, Except.pure, Dataset.lerp]
    · simp only [h, bind, Except.bind, pure, Except.pure, Dataset.lerp]

/-- End to end: if the archive covers the tracking period (rounded outwards to input times), a run that
reads from it gets data at every time it asks for, so it has well-defined input `inp` (and all
theorems about runs apply); at input times `inp` is what the files say. -/
theorem C37_runs_from_archive {m n : ℕ} (files : List Char → Except Err (DataFile κ K))
    (cfg : IOConfig κ) (A B : ℤ) (weather : ℤ → Dataset κ K) (hf : 0 < cfg.input_frequency)
    (hdom : cfg.tracking_domain = none)
    (ha : Archive files cfg.calendar cfg.preprocessed_data_folder cfg.input_frequency A B weather)
    (hv : ∀ s v, v ∈ (weather s).vars)
    (hA : cfg.input_frequency ∣ A) (hB : cfg.input_frequency ∣ B)
    (grid : GridInfo (m + 2) K) (mask : Arr (m + 2) (n + 2) K) (weight : Fin (m + 2) → K)
    (run : RunConfig K) (hts : 0 < run.timestep)
    (ho : run.tracking_start_date ≤ run.tracking_end_date)
    (hA' : A ≤ run.tracking_start_date) (hB' : run.tracking_end_date ≤ B) :
    ∃ inp : Input m n K,
      Runnable run (archiveSource files cfg grid (.ok (.stationary mask)) weight) inp ∧
      ∀ s, A ≤ s → s ≤ B → cfg.input_frequency ∣ s →
        inp.states s = (weather s).toStates ∧ inp.fluxes s = (weather s).toFluxes := by
  have h := fun (sub : Subset) (t : ℤ) (h0 : A ≤ t) (h1 : t ≤ B) =>
    C37_interpolation files cfg A B weather sub hf hdom ha (fun s v _ => hv s v) hA hB t h0 h1
  let inp : Input m n K :=
    { states := fun t => match loadData files cfg t .states with
        | .ok ds => ds.toStates
        | .error _ => ⟨fun _ _ => 0, fun _ _ => 0⟩
      fluxes := fun t => match loadData files cfg t .fluxes with
        | .ok ds => ds.toFluxes
        | .error _ => (weather t).toFluxes
      region := fun _ => mask }
  refine ⟨inp, ⟨hts, ho, ⟨?_, ?_, _, rfl, fun t _ _ => rfl⟩⟩, ?_⟩
  · intro t h0 h1
    obtain ⟨ds, h2, _⟩ := h .states t (by omega) (by omega)
    simp only [archiveSource, inp, h2]
    rfl
  · intro t h0 h1
    obtain ⟨ds, h2, _⟩ := h .fluxes t (by omega) (by omega)
    simp only [archiveSource, inp, h2]
    rfl
  · intro s h0 h1 hd
    constructor
    · obtain ⟨ds, h2, _, h3⟩ := h .states s h0 h1
      rcases h3 with ⟨_, rfl⟩ | ⟨s0, s1, e1, e2, e3, e4, _⟩
      · simp only [inp, h2]; rfl
      · have := (C48_floor_ceil_optimal s0 _ s hf hd)
        obtain ⟨p, rfl⟩ := hd
        obtain ⟨q, rfl⟩ := e1
        have hq : q < p := lt_of_mul_lt_mul_left e2 hf.le
        rw [e4, ← mul_add_one] at e3
        have := lt_of_mul_lt_mul_left e3 hf.le
        omega
    · obtain ⟨ds, h2, _, h3⟩ := h .fluxes s h0 h1
      rcases h3 with ⟨_, rfl⟩ | ⟨s0, s1, e1, e2, e3, e4, _⟩
      · simp only [inp, h2]; rfl
      · obtain ⟨p, rfl⟩ := hd
        obtain ⟨q, rfl⟩ := e1
        have hq : q < p := lt_of_mul_lt_mul_left e2 hf.le
        rw [e4, ← mul_add_one] at e3
        have := lt_of_mul_lt_mul_left e3 hf.le
        omega

/-! Instance: an archive with one day of six-hourly data on a 2x2 grid. -/

private def demoWeather (s : ℤ) : Dataset ℤ ℚ :=
  ⟨[1, 0], [5, 6], [.s_upper, .s_lower], fun _ i j => 3 + i + j + (s / 3600000000 : ℤ) ^ 2⟩

private def demoFile : DataFile ℤ ℚ :=
  ⟨.standard, [0, 21600000000, 43200000000, 64800000000].map fun s => (s, demoWeather s)⟩

private def demoFiles (p : List Char) : Except Err (DataFile ℤ ℚ) :=
  if p = "in/1970-01-01_fluxes_storages.nc".toList then .ok demoFile else .error .fileNotFound

private theorem demoArchive :
    Archive demoFiles .standard "in".toList 21600000000 0 64800000000 demoWeather where
  day := by
    intro s h0 h1 hd
    have hy : FourDigitYear .standard 0 := by unfold FourDigitYear; decide +kernel
    have hsame : SameDay s 0 := by unfold SameDay; omega
    have hys : FourDigitYear .standard s := FourDigitYear.sameDay hy hsame.symm
    have hp : inputPath .standard s "in".toList = "in/1970-01-01_fluxes_storages.nc".toList :=
      ((C42_input_path .standard s 0 _ _ hys hy).2 ⟨rfl, hsame⟩).trans (by decide +kernel)
    refine ⟨demoFile, by rw [hp]; rfl, rfl, ?_, by decide, ?_⟩
    · have : s = 0 ∨ s = 21600000000 ∨ s = 43200000000 ∨ s = 64800000000 := by omega
      rcases this with rfl | rfl | rfl | rfl <;> simp [demoFile]
    · intro e he
      simp only [demoFile, List.map_cons, List.map_nil, List.mem_cons, List.not_mem_nil,
        or_false] at he
      unfold SameDay
      rcases he with rfl | rfl | rfl | rfl <;> simp only <;> omega
  year := by
    intro s h0 h1
    have hy : FourDigitYear .standard 0 := by unfold FourDigitYear; decide +kernel
    exact FourDigitYear.sameDay hy (by unfold SameDay; omega)

/-- at 03:00 the data are the mean of those at 00:00 and 06:00 -/
example : ∃ ds, loadData demoFiles ⟨.standard, "in".toList, none, 21600000000⟩ 10800000000 .states =
    .ok ds ∧ ds.data .s_lower 0 1 = 4 + 36 / 2 := by
  obtain ⟨ds, h1, _, h2⟩ := C37_interpolation demoFiles ⟨.standard, "in".toList, none, 21600000000⟩
    0 64800000000 demoWeather .states (by decide) rfl demoArchive (fun _ v hv => hv) (by decide) (by decide)
    10800000000 (by decide) (by decide)
  refine ⟨ds, h1, ?_⟩
  rcases h2 with ⟨h2, _⟩ | ⟨s0, s1, h2, h3, h4, h5, _, _, h6⟩
  · exact absurd h2 (by decide)
  · simp only at h2 h5
    have e0 : s0 = 0 := by omega
    have e1 : s1 = 21600000000 := by omega
    have := h6 .s_lower 0 1
    subst e0 e1
    norm_num [demoWeather] at this
    linarith

end LoadData

/-! ### C38 -/

section Cache
variable {Key D : Type}

/-- What the program would see without a cache: it owns a list of datasets; loading appends the data
read from the files, modifying changes one of them. -/
def Spec.pureStep (read : Key → Except Err D) (ds : List D) :
    IOAction Key D → Option Err × List D
  | .load k =>
    match read k with
    | .error e => (some e, ds)
    | .ok d => (none, ds ++ [d])
  | .loadTwo k0 k1 combine =>
    match read k0, read k1 with
    | .error e, _ => (some e, ds)
    | _, .error e => (some e, ds)
    | .ok d0, .ok d1 => (none, ds ++ [combine d0 d1])
  | .modify i f =>
    if i < ds.length then (none, ds.modify i f) else (some (.other "no such dataset"), ds)

/-- a sequence of actions without a cache -/
def Spec.pureRun (read : Key → Except Err D) (ds : List D) :
    List (IOAction Key D) → List (Option Err) × List D
  | [] => ([], ds)
  | a :: as =>
    let r := pureStep read ds a
    let r' := pureRun read r.2 as
    (r.1 :: r'.1, r'.2)

variable [DecidableEq Key]

/-- the cached objects are unmodified and private; the program's references are distinct and valid -/
private structure Inv (read : Key → Except Err D) (refs : List ℕ) (mem : Mem Key D) (ds : List D) :
    Prop where
  size : mem.cache.length ≤ cacheSize
  fresh : ∀ e ∈ mem.cache, e.2 ∉ refs ∧ ∃ d, mem.heap[e.2]? = some d ∧ read e.1 = .ok d
  nodup : refs.Nodup
  valid : ∀ r ∈ refs, r < mem.heap.length
  view : refs.map (fun r => mem.heap[r]?) = ds.map some

private theorem getElem?_snoc {l : List D} {d : D} {r : ℕ} (h : r < l.length) :
    (l ++ [d])[r]? = l[r]? := List.getElem?_append_left h

private theorem Inv.alloc {read : Key → Except Err D} {refs : List ℕ} {mem : Mem Key D} {ds : List D}
    (h : Inv read refs mem ds) (d : D) : Inv read refs (mem.alloc d).2 ds where
  size := h.size
  fresh := by
    intro e he
    obtain ⟨h1, d', h2, h3⟩ := h.fresh e he
    refine ⟨h1, d', ?_, h3⟩
    have : e.2 < mem.heap.length := (List.getElem?_eq_some_iff.1 h2).1
    exact (getElem?_snoc this).trans h2
  nodup := h.nodup
  valid := by
    intro r hr
    have := h.valid r hr
    simp only [Mem.alloc, List.length_append, List.length_cons, List.length_nil]
    omega
  view := by
    rw [← h.view]
    apply List.map_congr_left
    intro r hr
    exact getElem?_snoc (h.valid r hr)

private theorem cached_spec {read : Key → Except Err D} {refs : List ℕ} {mem : Mem Key D} {ds : List D}
    (h : Inv read refs mem ds) (k : Key) :
    (∃ e, read k = .error e ∧ mem.cached read k = (.error e, mem)) ∨
    ∃ r mem' d, mem.cached read k = (.ok r, mem') ∧ Inv read refs mem' ds ∧ read k = .ok d ∧
      mem'.heap[r]? = some d ∧ r ∉ refs ∧ (∀ r', r' < mem.heap.length → mem'.heap[r']? = mem.heap[r']?) ∧
      mem.heap.length ≤ mem'.heap.length := by
  unfold Mem.cached
  cases hf : mem.cache.find? (fun e => decide (e.1 = k)) with
  | some e =>
    right
    have hmem := List.mem_of_find?_eq_some hf
    have hk : e.1 = k := by simpa using List.find?_some hf
    obtain ⟨h1, d, h2, h3⟩ := h.fresh e hmem
    refine ⟨e.2, _, d, rfl, ?_, hk ▸ h3, h2, h1, fun r' _ => rfl, le_rfl⟩
    exact
      { size := by
          have hl := List.length_eraseP_of_mem hmem (p := fun e => decide (e.1 = k)) (by simpa using hk)
          have := h.size
          have hpos : 0 < mem.cache.length := List.length_pos_of_mem hmem
          simp only [List.length_cons]
          omega
        fresh := by
          intro e' he'
          rcases List.mem_cons.1 he' with rfl | he'
          · exact h.fresh _ hmem
          · exact h.fresh _ (List.mem_of_mem_eraseP he')
        nodup := h.nodup
        valid := h.valid
        view := h.view }
  | none =>
    cases hr : read k with
    | error e => left; exact ⟨e, rfl, rfl⟩
    | ok d =>
      right
      have ha := h.alloc d
      have hget : (mem.heap ++ [d])[mem.heap.length]? = some d := by simp
      have hnot : mem.heap.length ∉ refs := fun hc => absurd (h.valid _ hc) (lt_irrefl _)
      refine ⟨mem.heap.length, _, d, rfl, ?_, rfl, hget, hnot, fun r' hr' => getElem?_snoc hr', ?_⟩
      · exact
          { size := by simp only [List.length_take]; omega
            fresh := by
              intro e he
              rcases List.mem_cons.1 (List.mem_of_mem_take he) with rfl | he
              · exact ⟨hnot, d, hget, hr⟩
              · exact ha.fresh e he
            nodup := h.nodup
            valid := ha.valid
            view := ha.view }
      · simp [Mem.alloc]

private theorem loadSlice_spec {read : Key → Except Err D} {refs : List ℕ} {mem : Mem Key D}
    {ds : List D} (h : Inv read refs mem ds) (k : Key) :
    (∃ e, read k = .error e ∧ mem.loadSlice read k = (.error e, mem)) ∨
    ∃ r mem' d, mem.loadSlice read k = (.ok r, mem') ∧ read k = .ok d ∧ Inv read refs mem' ds ∧
      Inv read (refs ++ [r]) mem' (ds ++ [d]) ∧ mem'.heap[r]? = some d ∧
      (∀ r', r' < mem.heap.length → mem'.heap[r']? = mem.heap[r']?) ∧
      mem.heap.length ≤ mem'.heap.length := by
  unfold Mem.loadSlice
  rcases cached_spec h k with ⟨e, h1, h2⟩ | ⟨r, mem1, d, h1, h2, h3, h4, h5, h6, h7⟩
  · left; exact ⟨e, h1, by rw [h2]⟩
  · right
    have hget : (mem1.heap ++ [d])[mem1.heap.length]? = some d := by simp
    have ha := h2.alloc d
    have hnot : mem1.heap.length ∉ refs := fun hc => absurd (h2.valid _ hc) (lt_irrefl _)
    refine ⟨mem1.heap.length, (mem1.alloc d).2, d, ?_, h3, ha, ?_, hget, ?_, ?_⟩
    · rw [h1]; simp only [h4]; rfl
    · exact
        { size := ha.size
          fresh := by
            intro e he
            obtain ⟨a, d', b, c⟩ := ha.fresh e he
            refine ⟨?_, d', b, c⟩
            intro hc
            rcases List.mem_append.1 hc with hc | hc
            · exact a hc
            · simp only [List.mem_singleton] at hc
              obtain ⟨_, d'', b'', _⟩ := h2.fresh e he
              have := (List.getElem?_eq_some_iff.1 b'').1
              omega
          nodup := by
            rw [List.nodup_append]
            refine ⟨h.nodup, List.nodup_singleton _, ?_⟩
            intro a ha' b hb
            simp only [List.mem_singleton] at hb
            rintro rfl
            exact hnot (hb ▸ ha')
          valid := by
            intro r hr
            rcases List.mem_append.1 hr with hr | hr
            · exact ha.valid r hr
            · simp only [List.mem_singleton] at hr
              subst hr
              simp [Mem.alloc]
          view := by
            rw [List.map_append, List.map_append, ha.view]
            simp only [List.map_cons, List.map_nil]
            congr 2 }
    · intro r' hr'
      exact (getElem?_snoc (lt_of_lt_of_le hr' h7)).trans (h6 r' hr')
    · simp only [Mem.alloc, List.length_append]; omega

private theorem modify_spec {read : Key → Except Err D} {refs : List ℕ} {mem : Mem Key D} {ds : List D}
    (h : Inv read refs mem ds) (i : ℕ) (f : D → D) (r : ℕ) (hi : refs[i]? = some r) :
    Inv read refs { mem with heap := mem.heap.modify r f } (ds.modify i f) where
  size := h.size
  fresh := by
    intro e he
    obtain ⟨a, d, b, c⟩ := h.fresh e he
    refine ⟨a, d, ?_, c⟩
    have hne : r ≠ e.2 := by
      rintro rfl
      exact a (List.mem_of_getElem? hi)
    simp only
    rw [List.getElem?_modify]
    simpa [hne] using b
  nodup := h.nodup
  valid := by intro r hr; simpa using h.valid r hr
  view := by
    apply List.ext_getElem?
    intro j
    have hv := congrArg (fun l => l[j]?) h.view
    simp only [List.getElem?_map] at hv ⊢
    rw [List.getElem?_modify]
    cases hj : refs[j]? with
    | none =>
      rw [hj] at hv
      simp only [Option.map_none] at hv
      have : ds[j]? = none := by
        cases hd : ds[j]? with
        | none => rfl
        | some x => rw [hd] at hv; cases hv
      rw [this]; rfl
    | some r' =>
      rw [hj] at hv
      simp only [Option.map_some] at hv ⊢
      cases hd : ds[j]? with
      | none => rw [hd] at hv; cases hv
      | some x =>
        rw [hd] at hv
        simp only [Option.map_some, Option.some.injEq] at hv ⊢
        rw [List.getElem?_modify, hv]
        by_cases hij : i = j
        · subst hij
          rw [hi] at hj
          cases hj
          simp
        · have hrr : r ≠ r' := by
            rintro rfl
            apply hij
            have hli := (List.getElem?_eq_some_iff.1 hi)
            have hlj := (List.getElem?_eq_some_iff.1 hj)
            exact (List.Nodup.getElem_inj_iff h.nodup).1 (hli.2.trans hlj.2.symm)
          simp [hij, hrr]

private theorem ioRun_spec (read : Key → Except Err D) (acts : List (IOAction Key D)) :
    ∀ (refs : List ℕ) (mem : Mem Key D) (ds : List D), Inv read refs mem ds →
    (ioRun read (refs, mem) acts).1 = (pureRun read ds acts).1 ∧
      Inv read (ioRun read (refs, mem) acts).2.1 (ioRun read (refs, mem) acts).2.2
        (pureRun read ds acts).2 := by
  induction acts with
  | nil => intro refs mem ds h; exact ⟨rfl, h⟩
  | cons a acts ih =>
    intro refs mem ds h
    have hstep : (ioStep read (refs, mem) a).1 = (pureStep read ds a).1 ∧
        Inv read (ioStep read (refs, mem) a).2.1 (ioStep read (refs, mem) a).2.2
          (pureStep read ds a).2 := by
      cases a with
      | load k =>
        rcases loadSlice_spec h k with ⟨e, h1, h2⟩ | ⟨r, mem', d, h1, h2, _, h3, _⟩
        · simp only [ioStep, pureStep, h1, h2]; exact ⟨trivial, h⟩
        · simp only [ioStep, pureStep, h1, h2]; exact ⟨trivial, h3⟩
      | loadTwo k0 k1 f =>
        simp only [ioStep, pureStep, Mem.loadTwo]
        rcases loadSlice_spec h k0 with ⟨e, h1, h2⟩ | ⟨r0, mem0, d0, h1, h2, h3, _, h4, _, _⟩
        · simp only [h1, h2]; exact ⟨trivial, h⟩
        · simp only [h1, h2]
          rcases loadSlice_spec h3 k1 with ⟨e, g1, g2⟩ | ⟨r1, mem1, d1, g1, g2, g3, _, g4, g5, g6⟩
          · simp only [g1, g2]; exact ⟨trivial, h3⟩
          · have hr0 : mem1.heap[r0]? = some d0 :=
              (g5 r0 (List.getElem?_eq_some_iff.1 h4).1).trans h4
            simp only [g1, g2, hr0, g4]
            refine ⟨trivial, ?_⟩
            have ha := g3.alloc (f d0 d1)
            have hnot : mem1.heap.length ∉ refs := fun hc => absurd (g3.valid _ hc) (lt_irrefl _)
            exact
              { size := ha.size
                fresh := by
                  intro e he
                  obtain ⟨a, d', b, c⟩ := ha.fresh e he
                  refine ⟨?_, d', b, c⟩
                  intro hc
                  rcases List.mem_append.1 hc with hc | hc
                  · exact a hc
                  · simp only [List.mem_singleton] at hc
                    obtain ⟨_, d'', b'', _⟩ := g3.fresh e he
                    have := (List.getElem?_eq_some_iff.1 b'').1
                    simp only [Mem.alloc] at hc
                    omega
                nodup := by
                  rw [List.nodup_append]
                  refine ⟨h.nodup, List.nodup_singleton _, ?_⟩
                  intro a ha' b hb
                  simp only [List.mem_singleton] at hb
                  rintro rfl
                  exact hnot ((show a = mem1.heap.length from hb) ▸ ha')
                valid := by
                  intro r hr
                  rcases List.mem_append.1 hr with hr | hr
                  · exact ha.valid r hr
                  · simp only [List.mem_singleton] at hr
                    subst hr
                    simp [Mem.alloc]
                view := by
                  rw [List.map_append, List.map_append, ha.view]
                  simp [Mem.alloc] }
      | modify i f =>
        have hlen : refs.length = ds.length := by simpa using congrArg List.length h.view
        simp only [ioStep, pureStep]
        cases hi : refs[i]? with
        | none =>
          have : ¬ i < ds.length := by
            rw [List.getElem?_eq_none_iff] at hi; omega
          simp only [this, if_false]
          exact ⟨trivial, h⟩
        | some r =>
          have : i < ds.length := by
            have := (List.getElem?_eq_some_iff.1 hi).1; omega
          simp only [this, if_true]
          exact ⟨trivial, modify_spec h i f r hi⟩
    have := ih _ _ _ hstep.2
    simp only [ioRun, pureRun]
    exact ⟨by rw [hstep.1, this.1], this.2⟩

/-- The cache is invisible: for every sequence of loads and modifications of loaded datasets, in a
process that starts with an empty cache, every action succeeds or fails as without a cache, and at
the end (hence at any time) every dataset of the program has the value it would have without a
cache; the cache never holds more than 6 slices. -/
theorem C38_cache_invisible (read : Key → Except Err D) (acts : List (IOAction Key D)) :
    let r := ioRun read ([], ⟨[], []⟩) acts
    let p := pureRun read [] acts
    r.1 = p.1 ∧ r.2.1.map (fun ref => r.2.2.heap[ref]?) = p.2.map some ∧
      r.2.2.cache.length ≤ 6 := by
  have h0 : Inv read [] (⟨[], []⟩ : Mem Key D) [] :=
    { size := by simp
      fresh := by simp
      nodup := by simp
      valid := by simp
      view := by simp }
  obtain ⟨h1, h2⟩ := ioRun_spec read acts [] ⟨[], []⟩ [] h0
  exact ⟨h1, h2.view, h2.size⟩

/-- With the real `load_data`: two calls with the same arguments return the same data no matter which
loads and modifications happen in between. -/
theorem C38_repeatable (read : Key → Except Err D) (k : Key) (d : D) (hk : read k = .ok d)
    (acts acts' : List (IOAction Key D)) :
    let r := ioRun read ([], ⟨[], []⟩) (acts ++ [.load k] ++ acts' ++ [.load k])
    r.1.getLast? = some none ∧
      (r.2.1.map (fun ref => r.2.2.heap[ref]?)).getLast? = some (some d) := by
  intro r
  obtain ⟨h1, h2, _⟩ := C38_cache_invisible read (acts ++ [.load k] ++ acts' ++ [.load k])
  have happ : ∀ (as bs : List (IOAction Key D)) (ds : List D), pureRun read ds (as ++ bs) =
      ((pureRun read ds as).1 ++ (pureRun read (pureRun read ds as).2 bs).1,
        (pureRun read (pureRun read ds as).2 bs).2) := by
    intro as bs
    induction as with
    | nil => intro ds; rfl
    | cons a as ih => intro ds; simp [pureRun, ih]
  have h1' : r.1 = _ := h1
  have h2' : r.2.1.map (fun ref => r.2.2.heap[ref]?) = _ := h2
  rw [h1', h2', happ]
  simp [pureRun, pureStep, hk]

/-- If a file changes between two loads, the second load still returns the old data (the cache is
never invalidated): the assumption of unchanged files is needed. -/
theorem C38_stale_if_files_change (read read' : Key → Except Err D) (k : Key) (d : D)
    (h : read k = .ok d) :
    let s := (ioRun read ([], ⟨[], []⟩) [.load k]).2
    let s' := (ioRun read' s [.load k]).2
    s'.1.map (fun ref => s'.2.heap[ref]?) = [some d, some d] := by
  simp [ioRun, ioStep, Mem.loadSlice, Mem.cached, h, Mem.alloc, cacheSize]

/-- instance: eight different slices (two evictions), a modified copy, and a reload -/
example : (fun r : List (Option Err) × (List ℕ × Mem ℕ ℕ) =>
      (r.2.1.map (fun ref => r.2.2.heap[ref]?), r.2.2.cache.map Prod.fst, r.1.countP Option.isSome))
    (ioRun (fun k => if k < 10 then .ok (100 * k) else .error .keyError) ([], ⟨[], []⟩)
      [.load 0, .load 1, .modify 1 (· + 1), .load 1, .load 2, .load 3, .load 4, .load 5,
        .load 6, .load 7, .load 11, .load 0, .loadTwo 1 2 (· + ·)]) =
    ([some 0, some 101, some 100, some 200, some 300, some 400, some 500, some 600, some 700, some 0,
      some 300], [2, 1, 0, 7, 6, 5], 1) := by decide +kernel

end Cache

end Wam
