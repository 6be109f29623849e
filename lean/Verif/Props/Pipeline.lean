import Verif.Spec.Pipeline
import Verif.Props.PrepInput
import Verif.Props.PrepRun
import Verif.Props.Load
import Verif.Props.Select
import Verif.Props.Shapes
import Verif.Props.RunPhysics
import Verif.Props.Surface
import Verif.Spec.Grid

/-!
# C88: an experiment from the raw files to the output
-/

set_option linter.unusedSectionVars false
set_option linter.unusedVariables false

namespace Wam
open Spec

section
variable {K : Type} [Field K] [LinearOrder K] [IsStrictOrderedRing K]

/-- what `load_data` gives at every time of a period that is covered by an archive -/
theorem loadData_values {files : List Char → Except Err (DataFile K K)} {cfg : IOConfig K} {A B : ℤ}
    {weather : ℤ → Dataset K K} (sub : Subset) (hf : 0 < cfg.input_frequency) (hdom : cfg.tracking_domain = none)
    (ha : Archive files cfg.calendar cfg.preprocessed_data_folder cfg.input_frequency A B weather)
    (hv : ∀ s v, v ∈ (weather s).vars) (hA : cfg.input_frequency ∣ A) (hB : cfg.input_frequency ∣ B)
    (lat lon : List K) (hgrid : ∀ s, (weather s).latitude = lat ∧ (weather s).longitude = lon) :
    ∃ value : ℤ → Var → ℕ → ℕ → K,
      (∀ t, A ≤ t → t ≤ B → ∃ ds, loadData files cfg t sub = .ok ds ∧ ds.latitude = lat ∧ ds.longitude = lon ∧
        ds.data = value t) ∧
      (∀ t, A ≤ t → t ≤ B → cfg.input_frequency ∣ t → value t = (weather t).data) ∧
      ∀ v i j, LinearBetween cfg.input_frequency A B fun t => value t v i j := by
  have h := fun (t : ℤ) (h0 : A ≤ t) (h1 : t ≤ B) =>
    C37_interpolation files cfg A B weather sub hf hdom ha (fun s v _ => hv s v) hA hB t h0 h1
  have key : ∀ t, A ≤ t → t ≤ B → ∃ ds, loadData files cfg t sub = .ok ds ∧ ds.latitude = lat ∧ ds.longitude = lon ∧
      ∀ s, cfg.input_frequency ∣ s → s ≤ t → t ≤ s + cfg.input_frequency → ∀ v i j,
        ds.data v i j * (cfg.input_frequency : ℤ) = (weather s).data v i j * (s + cfg.input_frequency - t : ℤ) +
          (weather (s + cfg.input_frequency)).data v i j * (t - s : ℤ) := by
    intro t h0 h1
    obtain ⟨ds, e, -, hcase⟩ := h t h0 h1
    refine ⟨ds, e, ?_⟩
    rcases hcase with ⟨hd, rfl⟩ | ⟨s0, s1, d0, l0, l1, rfl, g1, g2, hval⟩
    · refine ⟨(hgrid t).1, (hgrid t).2, ?_⟩
      intro s hs l1 l2 v i j
      obtain ⟨p, rfl⟩ := hd
      obtain ⟨q, rfl⟩ := hs
      have a1 : q ≤ p := le_of_mul_le_mul_left l1 hf
      have a2 : p ≤ q + 1 := by
        rw [← mul_add_one] at l2
        exact le_of_mul_le_mul_left l2 hf
      rcases (by omega : p = q ∨ p = q + 1) with rfl | rfl
      · push_cast; ring
      · rw [mul_add_one]; push_cast; ring
    · refine ⟨by rw [g1, (hgrid s0).1], by rw [g2, (hgrid s0).2], ?_⟩
      intro s hs l2 l3 v i j
      have : s = s0 := by
        obtain ⟨p, rfl⟩ := d0
        obtain ⟨q, rfl⟩ := hs
        rw [← mul_add_one] at l1 l3
        have a1 : q < p + 1 := lt_of_mul_lt_mul_left (lt_of_le_of_lt l2 l1) hf.le
        have a2 : p < q + 1 := lt_of_mul_lt_mul_left (lt_of_lt_of_le l0 l3) hf.le
        have : p = q := by omega
        rw [this]
      subst this
      have := hval v i j
      rw [show ((s + cfg.input_frequency - s : ℤ) : K) = (cfg.input_frequency : ℤ) by push_cast; ring] at this
      exact this
  classical
  let value : ℤ → Var → ℕ → ℕ → K := fun t =>
    match loadData files cfg t sub with
    | .ok ds => ds.data
    | .error _ => fun _ _ _ => 0
  have hfK : ((cfg.input_frequency : ℤ) : K) ≠ 0 := by
    rw [Int.cast_ne_zero]; omega
  have hat : ∀ t, A ≤ t → t ≤ B → cfg.input_frequency ∣ t → value t = (weather t).data := by
    intro t h0 h1 hd
    obtain ⟨ds, e, -, -, hval⟩ := key t h0 h1
    have hval := hval t hd le_rfl (by omega)
    show (match loadData files cfg t sub with | .ok ds => ds.data | .error _ => fun _ _ _ => 0) = _
    rw [e]
    funext v i j
    have := hval v i j
    rw [sub_self, Int.cast_zero, mul_zero, add_zero, show ((t + cfg.input_frequency - t : ℤ) : K) =
      (cfg.input_frequency : ℤ) by push_cast; ring] at this
    exact mul_right_cancel₀ hfK this
  refine ⟨value, ?_, hat, ?_⟩
  · intro t h0 h1
    obtain ⟨ds, e, g1, g2, -⟩ := key t h0 h1
    refine ⟨ds, e, g1, g2, ?_⟩
    show _ = (match loadData files cfg t sub with | .ok ds => ds.data | .error _ => fun _ _ _ => 0)
    rw [e]
  · intro v i j s t hs h0 h1 h2 h3
    obtain ⟨ds, e, -, -, hval⟩ := key t (by omega) (by omega)
    have := hval s hs h2 h3 v i j
    have e2 : value t v i j = ds.data v i j := by
      show (match loadData files cfg t sub with | .ok ds => ds.data | .error _ => fun _ _ _ => 0) v i j = _
      rw [e]
    simp only
    rw [e2, this, hat s h0 (by omega) hs, hat (s + cfg.input_frequency) (by omega) h1 (dvd_add hs dvd_rfl)]

/-- a quantity that is interpolated linearly is positive if it is so at the input times -/
theorem linear_pos {freq A B : ℤ} {x : ℤ → K} (h : LinearBetween freq A B x) (hf : 0 < freq) (hA : freq ∣ A)
    (hB : freq ∣ B) (hx : ∀ t, A ≤ t → t ≤ B → freq ∣ t → 0 < x t) (t : ℤ) (h0 : A ≤ t) (h1 : t ≤ B) : 0 < x t := by
  by_cases hd : freq ∣ t
  · exact hx t h0 h1 hd
  obtain ⟨d1, g1, g2, d2, g3, g4⟩ := C48_floor_ceil t _ hf
  set s := floorTime t freq with hs
  have hne : s ≠ t := fun e => hd (e ▸ d1)
  have hsA := (C48_floor_ceil_optimal t _ A hf hA).1 h0
  have hsB : s + freq ≤ B := by
    obtain ⟨p, hp⟩ := d1
    obtain ⟨q, hq⟩ := hB
    have : p < q := by
      apply lt_of_mul_lt_mul_left _ hf.le
      rw [← hp, ← hq]; omega
    have := mul_le_mul_of_nonneg_left (show p + 1 ≤ q by omega) hf.le
    rw [mul_add_one, ← hp, ← hq] at this
    exact this
  have e := h s t d1 hsA hsB (by omega) (by omega)
  have a1 := hx s hsA (by omega) d1
  have a2 := hx (s + freq) (by omega) hsB (dvd_add d1 dvd_rfl)
  have p1 : (0 : K) < (s + freq - t : ℤ) := by exact_mod_cast (by omega : 0 < s + freq - t)
  have p2 : (0 : K) < (t - s : ℤ) := by exact_mod_cast (by omega : 0 < t - s)
  have p3 : (0 : K) < (freq : ℤ) := by exact_mod_cast hf
  have : 0 < x t * (freq : ℤ) := by rw [e]; positivity
  by_contra hn
  have := mul_nonpos_of_nonpos_of_nonneg (not_lt.1 hn) p3.le
  linarith

theorem linear_nonneg {freq A B : ℤ} {x : ℤ → K} (h : LinearBetween freq A B x) (hf : 0 < freq) (hA : freq ∣ A)
    (hB : freq ∣ B) (hx : ∀ t, A ≤ t → t ≤ B → freq ∣ t → 0 ≤ x t) (t : ℤ) (h0 : A ≤ t) (h1 : t ≤ B) : 0 ≤ x t := by
  by_cases hd : freq ∣ t
  · exact hx t h0 h1 hd
  obtain ⟨d1, g1, g2, d2, g3, g4⟩ := C48_floor_ceil t _ hf
  set s := floorTime t freq with hs
  have hne : s ≠ t := fun e => hd (e ▸ d1)
  have hsA := (C48_floor_ceil_optimal t _ A hf hA).1 h0
  have hsB : s + freq ≤ B := by
    obtain ⟨p, hp⟩ := d1
    obtain ⟨q, hq⟩ := hB
    have : p < q := by
      apply lt_of_mul_lt_mul_left _ hf.le
      rw [← hp, ← hq]; omega
    have := mul_le_mul_of_nonneg_left (show p + 1 ≤ q by omega) hf.le
    rw [mul_add_one, ← hp, ← hq] at this
    exact this
  have e := h s t d1 hsA hsB (by omega) (by omega)
  have a1 := hx s hsA (by omega) d1
  have a2 := hx (s + freq) (by omega) hsB (dvd_add d1 dvd_rfl)
  have p1 : (0 : K) < (s + freq - t : ℤ) := by exact_mod_cast (by omega : 0 < s + freq - t)
  have p2 : (0 : K) < (t - s : ℤ) := by exact_mod_cast (by omega : 0 < t - s)
  have p3 : (0 : K) < (freq : ℤ) := by exact_mod_cast hf
  have : 0 ≤ x t * (freq : ℤ) := by rw [e]; positivity
  exact nonneg_of_mul_nonneg_left this p3

/-- what remains of data in the tracking domain, io.py:108-109 -/
def trim {β : Type} (dom : Option (BoundingBox K)) (ds : Dataset K β) : Except Err (Dataset K β) :=
  match dom with
  | none => .ok ds
  | some box => selectSubdomain ds box

/-- selecting the tracking domain takes the same cells of all data on one grid -/
theorem trim_cells {dom : Option (BoundingBox K)} {lat₀ lon₀ lat lon : List K} (h : CutTo dom lat₀ lon₀ lat lon) :
    ∃ F : ℕ → ℕ → ℕ × ℕ,
      (∀ i < lat.length, ∀ j < lon.length, SamePlace dom lat₀ lon₀ lat lon i j (F i j).1 (F i j).2) ∧
      ∀ {β : Type} (ds : Dataset K β), ds.latitude = lat₀ → ds.longitude = lon₀ → ∃ ds', trim dom ds = .ok ds' ∧
        ds'.latitude = lat ∧ ds'.longitude = lon ∧ ∀ v i j, ds'.data v i j = ds.data v (F i j).1 (F i j).2 := by
  cases dom with
  | none =>
    obtain ⟨rfl, rfl⟩ := h
    refine ⟨fun i j => (i, j), ?_, ?_⟩
    · intro i hi j hj
      exact ⟨⟨_, List.getElem?_eq_getElem hi, List.getElem?_eq_getElem hi⟩,
        ⟨_, List.getElem?_eq_getElem hj, List.getElem?_eq_getElem hj⟩, fun _ => ⟨rfl, rfl⟩⟩
    · intro β ds e1 e2
      exact ⟨ds, rfl, e1, e2, fun _ _ _ => rfl⟩
  | some box =>
    obtain ⟨hd, hi, h2, hsn, e1, e2, e3, e4⟩ := h
    let ref : Dataset K (ℕ × ℕ) := ⟨lat₀, lon₀, [], fun _ i j => (i, j)⟩
    have hsel : ∃ ds', selectSubdomain ref box = .ok ds' ∧ ds'.latitude = lat ∧ ds'.longitude = lon ∧ Attached ref ds' := by
      by_cases hwe : box.west < box.east
      · obtain ⟨ds', a, b, d, -, e⟩ := C40_plain_box ref box hi hd h2 hwe hsn
        exact ⟨ds', a, by rw [d, e1], by rw [b, e2 hwe], e⟩
      · obtain ⟨ds', a, b, d, -, e⟩ := C40_box_across_date_line ref box hi hd h2 (not_lt.1 hwe) hsn
        refine ⟨ds', a, by rw [d, e1], ?_, e⟩
        rw [b]
        split_ifs with hx
        · exact (e3 (not_lt.1 hwe) hx).symm
        · exact (e4 (not_lt.1 hwe) hx).symm
    obtain ⟨ds', a, b, d, hatt⟩ := hsel
    refine ⟨fun i j => ds'.data .precip i j, ?_, ?_⟩
    · intro i hi j hj
      obtain ⟨i0, j0, p, q, r⟩ := hatt i j _ _ (List.getElem?_eq_getElem (by rw [b]; exact hi))
        (List.getElem?_eq_getElem (by rw [d]; exact hj))
      have hF : ds'.data .precip i j = (i0, j0) := r .precip
      refine ⟨⟨_, by simp only [hF]; exact p, ?_⟩, ⟨_, by simp only [hF]; exact q, ?_⟩, fun h => by cases h⟩
      · rw [← List.getElem?_eq_getElem, b]
      · rw [← List.getElem?_eq_getElem, d]
    · intro β ds l1 l2
      rcases selectSubdomain_natural ref ds box l1 l2 with ⟨e, he, -⟩ | ⟨r1, r2, f, g, s1, s2, s3, s4, s5⟩
      · rw [a] at he; cases he
      · rw [a] at s1
        injection s1 with s1
        subst s1
        refine ⟨r2, s2, by rw [s3, b], by rw [s4, d], fun v i j => ?_⟩
        rw [(s5 v i j).2]
        have : ds'.data .precip i j = (f i, g j) := (s5 .precip i j).1
        simp only [this]

/-- From the preprocessing to the input of a run, for any source of raw data. -/
theorem pipeline [NpTrig K] {m n : ℕ} (compute : ℤ → Except Err (Dataset K K)) (c : Calendar) (dir : List Char)
    (start stop freq B : ℤ) (old : PrepDisk K K) (lat lon : List K) {dom : Option (BoundingBox K)} {lat' lon' : List K}
    (hcut : CutTo dom lat lon lat' lon') (hlat : lat'.length = m + 2) (hlon : lon'.length = n + 2)
    (hf : 0 < freq) (hfm : 60000000 ∣ freq) (hs : freq ∣ start) (hB : freq ∣ B) (hBs : B ≤ stop)
    (hy : ∀ t, start ≤ t → t ≤ stop → FourDigitYear c t)
    (hc : ∀ t ∈ inputDates start stop freq, ∃ ds, compute t = .ok ds ∧ ds.latitude = lat ∧ ds.longitude = lon ∧
      ds.vars = allVars ∧ MoistData ds)
    (run : RunConfig K) (hts : 0 < run.timestep) (hA' : start ≤ run.tracking_start_date)
    (ho : run.tracking_start_date ≤ run.tracking_end_date) (hB' : run.tracking_end_date ≤ B)
    (tag : TaggingRegion K K) (mask : ℤ → Arr (m + 2) (n + 2) K)
    (htag : ∃ r, trackingRegion dom tag lat' lon' = .ok r ∧ ∀ t, run.tracking_start_date ≤ t → t ≤ run.tracking_end_date →
      Spec.regionAt r t = .ok (mask t) ∧ ∀ i j, 0 ≤ mask t i j)
    (first : ℤ) (hfirst : start ≤ first ∧ first ≤ B) :
    ∃ (folder : PrepDisk K K) (inp : Input m n K),
      prepExperiment compute c dir start stop freq old = (none, folder) ∧
      InputFrom compute freq start B dom lat' lon' inp ∧ inp.region = mask ∧
      Runnable run (experimentSource folder.files ⟨c, dir, dom, freq⟩ tag first) inp ∧
      Physical inp run.tracking_start_date run.tracking_end_date := by
  classical
  obtain ⟨hm, hlt⟩ := C56_dates_whole_minutes start stop freq hf (hfm.trans hs) hfm
  have hy' : ∀ t ∈ inputDates start stop freq, FourDigitYear c t := fun t ht =>
    hy t ((hm t).1 ht).1 ((hm t).1 ht).2.1
  obtain ⟨folder, hfold⟩ := C57_succeeds compute c dir start stop freq old hy' lat.length lon.length allVars
    (fun t ht => by
      obtain ⟨ds, a, b, d, e, -⟩ := hc t ht
      exact ⟨ds, a, by rw [b], by rw [d], e⟩)
  let weather : ℤ → Dataset K K := fun t =>
    if h : t ∈ inputDates start stop freq then Classical.choose (hc t h) else ⟨lat, lon, allVars, fun _ _ _ => 1⟩
  have hin : ∀ t (h : t ∈ inputDates start stop freq), compute t = .ok (weather t) ∧ (weather t).latitude = lat ∧
      (weather t).longitude = lon ∧ (weather t).vars = allVars ∧ MoistData (weather t) := by
    intro t h
    have := Classical.choose_spec (hc t h)
    simp only [weather, dif_pos h]
    exact this
  have hgrid : ∀ t, (weather t).latitude = lat ∧ (weather t).longitude = lon := by
    intro t
    by_cases h : t ∈ inputDates start stop freq
    · exact ⟨(hin t h).2.1, (hin t h).2.2.1⟩
    · simp only [weather, dif_neg h, and_self]
  have hv : ∀ t v, v ∈ (weather t).vars := by
    intro t v
    have : (weather t).vars = allVars := by
      by_cases h : t ∈ inputDates start stop freq
      · exact (hin t h).2.2.2.1
      · simp only [weather, dif_neg h]
    rw [this]
    cases v <;> simp [allVars]
  have hArch0 := C74_archive compute c dir start stop freq old folder weather lat lon hf hfm hs hy
    (fun t ht => (hin t ht).1) hgrid hfold
  have hArch : Archive folder.files c dir freq start B weather :=
    ⟨fun s a b d => hArch0.day s a (b.trans hBs) d, fun s a b => hArch0.year s a (b.trans hBs)⟩
  have hdates : ∀ t, start ≤ t → t ≤ B → freq ∣ t → t ∈ inputDates start stop freq := fun t a b d =>
    (hm t).2 ⟨a, b.trans hBs, dvd_sub d hs⟩
  let io : IOConfig K := ⟨c, dir, none, freq⟩
  obtain ⟨vs, hvs, hvs', hvsL⟩ := loadData_values (cfg := io) .states hf rfl hArch hv hs hB lat lon hgrid
  obtain ⟨vf, hvf, hvf', hvfL⟩ := loadData_values (cfg := io) .fluxes hf rfl hArch hv hs hB lat lon hgrid
  let iod : IOConfig K := ⟨c, dir, dom, freq⟩
  obtain ⟨F, hF, hcut'⟩ := trim_cells hcut
  have hload : ∀ sub t, start ≤ t → t ≤ B → loadData folder.files iod t sub =
      (loadData folder.files io t sub).bind (trim dom) := by
    intro sub t h0 h1
    cases hdm : dom with
    | none =>
      have e : iod = io := by simp only [iod, io, hdm]
      rw [e]
      cases loadData folder.files io t sub <;> rfl
    | some box =>
      have := C37_subdomain folder.files iod box start B weather sub hf hdm hArch (fun s v _ => hv s v) lat lon hgrid hs hB t
        h0 h1
      rw [this]
      rfl
  have hcell : ∀ (v : ℤ → Var → ℕ → ℕ → K) sub, (∀ t, start ≤ t → t ≤ B → ∃ ds, loadData folder.files io t sub = .ok ds ∧
      ds.latitude = lat ∧ ds.longitude = lon ∧ ds.data = v t) → ∀ t, start ≤ t → t ≤ B → ∃ ds,
      loadData folder.files iod t sub = .ok ds ∧ ds.latitude = lat' ∧ ds.longitude = lon' ∧
      ∀ w i j, ds.data w i j = v t w (F i j).1 (F i j).2 := by
    intro v sub h t h0 h1
    obtain ⟨ds, a, b, d, e⟩ := h t h0 h1
    obtain ⟨ds', a', b', d', e'⟩ := hcut' ds b d
    refine ⟨ds', ?_, b', d', fun w i j => by rw [e', e]⟩
    rw [hload sub t h0 h1, a]
    exact a'
  let inp : Input m n K :=
    { states := fun t => ⟨fun i j => vs t .s_upper (F i j).1 (F i j).2, fun i j => vs t .s_lower (F i j).1 (F i j).2⟩
      fluxes := fun t => { fx_upper := fun i j => vf t .fx_upper (F i j).1 (F i j).2
                           fy_upper := fun i j => vf t .fy_upper (F i j).1 (F i j).2
                           fx_lower := fun i j => vf t .fx_lower (F i j).1 (F i j).2
                           fy_lower := fun i j => vf t .fy_lower (F i j).1 (F i j).2
                           evap := fun i j => vf t .evap (F i j).1 (F i j).2
                           precip := fun i j => vf t .precip (F i j).1 (F i j).2 }
      region := mask }
  obtain ⟨r, hr, hrt⟩ := htag
  have hregion : (experimentSource (m := m) (n := n) folder.files iod tag first).region = .ok r := by
    obtain ⟨ds, a, b, d, -⟩ := hcell vs .states hvs first hfirst.1 hfirst.2
    show trackingRegion dom tag _ _ = .ok r
    rw [a]
    simp only [b, d, hr]
  have hmoist : ∀ t, start ≤ t → t ≤ B → freq ∣ t → MoistData (weather t) := fun t a b d =>
    (hin t (hdates t a b d)).2.2.2.2
  have hplace : ∀ (i : Fin (m + 2)) (j : Fin (n + 2)), SamePlace dom lat lon lat' lon' i j (F i j).1 (F i j).2 := fun i j =>
    hF i (by rw [hlat]; exact i.2) j (by rw [hlon]; exact j.2)
  have bound : ∀ (t : ℤ) (i : Fin (m + 2)) (j : Fin (n + 2)), (F i j).1 < (weather t).latitude.length ∧
      (F i j).2 < (weather t).longitude.length := by
    intro t i j
    rw [(hgrid t).1, (hgrid t).2]
    obtain ⟨⟨y, hy, -⟩, ⟨x, hx, -⟩, -⟩ := hplace i j
    exact ⟨(List.getElem?_eq_some_iff.1 hy).1, (List.getElem?_eq_some_iff.1 hx).1⟩
  refine ⟨folder, inp, hfold, ?_, rfl, ⟨hts, ho, ?_, ?_, r, hregion, fun t a b => (hrt t a b).1⟩, ?_⟩
  · refine ⟨?_, fun i j => hvsL _ _ _, fun i j => hvsL _ _ _, fun i j => hvfL _ _ _, fun i j => hvfL _ _ _,
      fun i j => hvfL _ _ _, fun i j => hvfL _ _ _, fun i j => hvfL _ _ _, fun i j => hvfL _ _ _⟩
    intro t a b d
    refine ⟨weather t, (hin t (hdates t a b d)).1, fun i j => ⟨(F i j).1, (F i j).2, ?_, ?_⟩⟩
    · rw [(hgrid t).1, (hgrid t).2]
      exact hplace i j
    · constructor <;> simp only [inp, hvs' t a b d, hvf' t a b d]
  · intro t a b
    obtain ⟨ds, e, -, -, hd⟩ := hcell vs .states hvs t (hA'.trans a) (b.trans hB')
    show (loadData folder.files iod t .states).map Dataset.toStates = _
    rw [e]
    simp only [Except.map, Dataset.toStates, hd, inp]
  · intro t a b
    obtain ⟨ds, e, -, -, hd⟩ := hcell vf .fluxes hvf t (hA'.trans a) (b.trans hB')
    show (loadData folder.files iod t .fluxes).map Dataset.toFluxes = _
    rw [e]
    simp only [Except.map, Dataset.toFluxes, hd, inp]
  · refine ⟨fun t a b i j => ⟨?_, ?_⟩, fun t a b i j => ?_, fun t a b i j => ?_, fun t a b i j => (hrt t a b).2 i j⟩
    · refine linear_pos (hvsL .s_upper _ _) hf hs hB (fun s p q d => ?_) t (hA'.trans a) (b.trans hB')
      simp only [hvs' s p q d]
      exact (hmoist s p q d).s_upper _ (bound s i j).1 _ (bound s i j).2
    · refine linear_pos (hvsL .s_lower _ _) hf hs hB (fun s p q d => ?_) t (hA'.trans a) (b.trans hB')
      simp only [hvs' s p q d]
      exact (hmoist s p q d).s_lower _ (bound s i j).1 _ (bound s i j).2
    · refine linear_nonneg (hvfL .precip _ _) hf hs hB (fun s p q d => ?_) t (hA'.trans a) (b.trans hB')
      simp only [hvf' s p q d]
      exact (hmoist s p q d).precip _ (bound s i j).1 _ (bound s i j).2
    · refine linear_nonneg (hvfL .evap _ _) hf hs hB (fun s p q d => ?_) t (hA'.trans a) (b.trans hB')
      simp only [hvf' s p q d]
      exact (hmoist s p q d).evap _ (bound s i j).1 _ (bound s i j).2

/-! ### Both layers hold water -/

variable [FloorRing K]

theorem between_water_pos {E : List (Level K)} (hs : E.Pairwise fun a b => a.p ≤ b.p)
    (hq : ∀ e ∈ E, 0 ≤ e.q ∧ (0 < e.p → 0 < e.q)) {lo hi : K} (h0 : 0 ≤ lo) (hlh : lo < hi)
    (hlo : ∃ e ∈ E, e.p = lo) (hhi : ∃ e ∈ E, e.p = hi) : 0 < pairSum water (between lo hi E) := by
  obtain ⟨el, hel, elp⟩ := hlo
  obtain ⟨eh, heh, ehp⟩ := hhi
  have hmem : ∀ e, e ∈ between lo hi E ↔ e ∈ E ∧ lo ≤ e.p ∧ e.p ≤ hi := by
    intro e
    unfold between
    rw [List.mem_filter]
    simp
  have hbs : (between lo hi E).Pairwise fun a b => a.p ≤ b.p := hs.filter _
  have m1 : eh ∈ between lo hi E := (hmem eh).2 ⟨heh, by rw [ehp]; exact hlh.le, by rw [ehp]⟩
  have m2 : el ∈ between lo hi E := (hmem el).2 ⟨hel, by rw [elp], by rw [elp]; exact hlh.le⟩
  generalize hB : between lo hi E = B at *
  cases B with
  | nil => cases m1
  | cons a l =>
    have ha : a.p = lo := by
      have h1 : lo ≤ a.p := ((hmem a).1 List.mem_cons_self).2.1
      rcases List.mem_cons.mp m2 with rfl | m2
      · exact elp
      · have := (List.pairwise_cons.mp hbs).1 el m2
        linarith
    refine (pairSum_water_pos l a hbs (fun e he => (hq e ((hmem e).1 he).1).1) (fun e he hlt =>
      (hq e ((hmem e).1 (List.mem_cons_of_mem _ he)).1).2 (by linarith))).2 ⟨eh, ?_, by rw [ha, ehp]; exact hlh⟩
    rcases List.mem_cons.mp m1 with rfl | m1
    · rw [ehp] at ha; exact absurd ha (ne_of_gt hlh)
    · exact m1

/-- positive humidity at all levels of a completed column except at the top of the atmosphere -/
theorem extended_humidity {levels : List (Level K)} {S : Level K} {pb : K} {E : List (Level K)}
    (hE : IsExtended levels S pb E) (hps : 0 < S.p) (h0 : ∀ l ∈ levels, 0 < l.p)
    (hq : ∀ l ∈ levels, 0 < l.q) (hqs : 0 < S.q) : ∀ e ∈ E, 0 ≤ e.q ∧ (0 < e.p → 0 < e.q) := by
  obtain ⟨hs, top, htop, bdy, hmin, hb, hi, hperm⟩ := hE
  have hS : ∀ l ∈ S :: (⟨0, 0, top.u, top.v⟩ : Level K) :: levels, 0 ≤ l.p ∧ 0 ≤ l.q ∧ (0 < l.p → 0 < l.q) := by
    intro l hl
    simp only [List.mem_cons] at hl
    rcases hl with rfl | rfl | h
    · exact ⟨hps.le, hqs.le, fun _ => hqs⟩
    · exact ⟨le_rfl, le_rfl, fun h => absurd h (lt_irrefl _)⟩
    · exact ⟨(h0 l h).le, (hq l h).le, fun _ => hq l h⟩
  have hbdy : 0 ≤ bdy.q ∧ (0 < bdy.p → 0 < bdy.q) := by
    rcases hi with ⟨l, hl, rfl⟩ | ⟨l, hl, h, hh, h1, h2, -, h3, -, -⟩
    · exact (hS _ hl).2
    · obtain ⟨a1, a2, a3⟩ := hS l hl
      obtain ⟨b1, b2, b3⟩ := hS h hh
      have hbp : 0 < bdy.p := lt_of_le_of_lt a1 h1
      have hhq := b3 (lt_of_lt_of_le hbp h2)
      have : 0 < bdy.q := by
        rw [h3]
        unfold line
        have d : 0 < h.p - l.p := by linarith
        have e : l.q + (h.q - l.q) * (bdy.p - l.p) / (h.p - l.p) =
            (l.q * (h.p - bdy.p) + h.q * (bdy.p - l.p)) / (h.p - l.p) := by
          field_simp; ring
        rw [e]
        apply div_pos _ d
        have := mul_nonneg a2 (sub_nonneg.mpr h2)
        have := mul_pos hhq (sub_pos.mpr h1)
        linarith
      exact ⟨this.le, fun _ => this⟩
  intro e he
  have := hperm.mem_iff.1 he
  rw [List.mem_cons] at this
  rcases this with rfl | h
  · exact hbdy
  · exact (hS e h).2

/-- with positive humidity and a layer boundary inside the column, both layers hold water -/
theorem layersFrom_pos {P : String → Option ℚ → K → K → K → Prop} {ls : List ℚ} {lay : LayerConfig K} {lat lon : K}
    {hasTcw : Bool} {r : LayerSums K} (h : LayersFrom P ls lay lat lon hasTcw r) (hls : ∀ l ∈ ls, 0 < l)
    (hps : ∀ x, P "ps" none lat lon x → 0 < x ∧ 0 < lay.factor * x + lay.offset ∧ lay.factor * x + lay.offset < x)
    (hq : ∀ l ∈ ls, ∀ x, P "q" (some l) lat lon x → 0 < x) (hqs : ∀ x, P "qs" none lat lon x → 0 < x)
    (htcw : hasTcw = true → ∀ x, P "tcw" none lat lon x → 0 < x) : 0 < r.s_upper ∧ 0 < r.s_lower := by
  obtain ⟨levels, S, E, hl, hS, hE, hno, ht⟩ := h
  obtain ⟨p1, p2, p3⟩ := hps S.p hS.p
  have hlev : ∀ L ∈ levels, 0 < L.p ∧ 0 < L.q := by
    have : ∀ (ls : List ℚ) (levels : List (Level K)), List.Forall₂ (LevelFrom P lat lon) ls levels → (∀ l ∈ ls, 0 < l) →
        (∀ l ∈ ls, ∀ x, P "q" (some l) lat lon x → 0 < x) → ∀ L ∈ levels, 0 < L.p ∧ 0 < L.q := by
      intro ls levels hf hp hq
      induction hf with
      | nil => intro L hL; cases hL
      | cons h1 _ ih =>
        intro L hL
        rcases List.mem_cons.mp hL with rfl | hL
        · exact ⟨by rw [h1.p]; exact_mod_cast hp _ List.mem_cons_self, hq _ List.mem_cons_self _ h1.q⟩
        · exact ih (fun l hl => hp l (List.mem_cons_of_mem _ hl)) (fun l hl => hq l (List.mem_cons_of_mem _ hl)) L hL
    exact this ls levels hl hls hq
  have hall := extended_humidity hE p1 (fun l hl => (hlev l hl).1) (fun l hl => (hlev l hl).2) (hqs _ hS.q)
  obtain ⟨f0, fb, fs, ft⟩ := extended_facts (fun l hl => ((hlev l hl).1).le) p1.le p2.le hE
  have hu : 0 < pairSum water (between 0 (lay.factor * S.p + lay.offset) E) :=
    between_water_pos hE.1 hall le_rfl p2 ft fb
  have hlw : 0 < pairSum water (between (lay.factor * S.p + lay.offset) S.p E) :=
    between_water_pos hE.1 hall p2.le p3 fb fs
  have hw : 0 < pairSum water (between 0 S.p E) := between_water_pos hE.1 hall le_rfl p1 ft fs
  cases hasTcw with
  | false =>
    rw [hno rfl]
    exact ⟨hu, hlw⟩
  | true =>
    obtain ⟨w, hw', rfl⟩ := ht rfl
    have := htcw rfl w hw'
    simp only [scale, layerIntegrals]
    constructor <;> positivity

/-! ### The tagging region -/

theorem taggingBoxAt_mask (box : BoundingBox K) (y x : K) :
    BoxMask box y x ((taggingBoxAt box y x : ℕ) : K) ∧ (0 : K) ≤ ((taggingBoxAt box y x : ℕ) : K) := by
  refine ⟨?_, Nat.cast_nonneg _⟩
  unfold BoxMask taggingBoxAt
  by_cases h : box.east < box.west
  · have h' : ¬ box.west ≤ box.east := not_le.2 h
    simp only [h, h', decide_true, if_true, false_and, false_or, true_and]
    constructor
    · rintro ⟨a, b, d⟩
      simp [a, b, d]
    · intro hn
      rw [if_neg, Nat.cast_zero]
      simpa [and_assoc] using hn
  · have h' : box.west ≤ box.east := not_lt.1 h
    simp only [h, h', decide_false, Bool.false_eq_true, if_false, false_and, or_false, true_and]
    constructor
    · rintro ⟨a, b, d, e⟩
      simp [a, b, d, e]
    · intro hn
      rw [if_neg, Nat.cast_zero]
      simpa [and_assoc] using hn

/-- a usable tagging region gives the mask it should at every time -/
theorem trackingRegion_value {m n : ℕ} (tag : TaggingRegion K K) {lat₀ lon₀ : List K} (h : UsableRegion tag lat₀ lon₀)
    {dom : Option (BoundingBox K)} {lat lon : List K} (hcut : CutTo dom lat₀ lon₀ lat lon)
    (hlat : lat.length = m + 2) (hlon : lon.length = n + 2) :
    ∃ (mask : ℤ → Arr (m + 2) (n + 2) K) (r : Region (m + 2) (n + 2) K), trackingRegion dom tag lat lon = .ok r ∧
      ∀ t, Spec.regionAt r t = .ok (mask t) ∧ ∀ (i : Fin (m + 2)) (j : Fin (n + 2)),
        RegionValue dom tag lat lon t i j (mask t i j) ∧ 0 ≤ mask t i j := by
  cases tag with
  | box box =>
    refine ⟨fun _ i j => ((taggingBoxAt box (lat.getD i (ofRat 0)) (lon.getD j (ofRat 0)) : ℕ) : K), _, rfl, fun t => ⟨?_, ?_⟩⟩
    · show Except.ok _ = Except.ok _
      congr 1
      funext i j
      rw [ofRat_cast, Rat.cast_natCast]
    · intro i j
      refine ⟨⟨lat[i.val]'(by omega), lon[j.val]'(by omega), List.getElem?_eq_getElem _, List.getElem?_eq_getElem _, ?_⟩,
        (taggingBoxAt_mask box _ _).2⟩
      have e1 : lat.getD i (ofRat 0) = lat[i.val]'(by omega) := by
        rw [List.getD_eq_getElem?_getD, List.getElem?_eq_getElem (by omega)]; rfl
      have e2 : lon.getD j (ofRat 0) = lon[j.val]'(by omega) := by
        rw [List.getD_eq_getElem?_getD, List.getElem?_eq_getElem (by omega)]; rfl
      have := (taggingBoxAt_mask box (lat[i.val]'(by omega)) (lon[j.val]'(by omega))).1
      rw [← e1, ← e2] at this
      rw [← e1, ← e2]
      exact this
  | file content =>
    obtain ⟨r, rfl, ⟨rfl, rfl⟩, hpos, htimes⟩ := h
    obtain ⟨F, hF, hcut'⟩ := trim_cells hcut
    have hplace : ∀ (i : Fin (m + 2)) (j : Fin (n + 2)), SamePlace dom r.latitude r.longitude lat lon i j (F i j).1 (F i j).2 :=
      fun i j => hF i (by rw [hlat]; exact i.2) j (by rw [hlon]; exact j.2)
    have hload : loadTaggingRegion (.ok r) dom none = .ok { r with
        latitude := lat, longitude := lon, mask := fun t i j => r.mask t (F i j).1 (F i j).2 } := by
      cases dom with
      | none =>
        obtain ⟨rfl, rfl⟩ := hcut
        obtain ⟨ds', a, -, -, b⟩ := hcut' (⟨r.latitude, r.longitude, [], fun _ i j => (i, j)⟩ : Dataset K (ℕ × ℕ)) rfl rfl
        injection a with a
        subst a
        have hFi : ∀ i j, F i j = (i, j) := fun i j => (b .precip i j).symm
        simp only [loadTaggingRegion, bind, Except.bind, hFi]
      | some box =>
        obtain ⟨ds', a, e1, e2, b⟩ := hcut' (⟨r.latitude, r.longitude, [], fun _ i j => (i, j)⟩ : Dataset K (ℕ × ℕ)) rfl rfl
        have a : selectSubdomain _ box = _ := a
        simp only [loadTaggingRegion, selectRegion, bind, Except.bind, a, pure, Except.pure, e1, e2, b]
    have hload' : ∀ t, loadTaggingRegion (.ok r) dom (some t) = Wam.regionAt { r with
        latitude := lat, longitude := lon, mask := fun t i j => r.mask t (F i j).1 (F i j).2 } t := by
      intro t
      have : loadTaggingRegion (.ok r) dom (some t) = (loadTaggingRegion (.ok r) dom none).bind fun r => Wam.regionAt r t := by
        cases dom with
        | none => rfl
        | some box =>
          simp only [loadTaggingRegion, bind, Except.bind]
          cases selectRegion r box <;> rfl
      rw [this, hload]
      rfl
    cases ht : r.time with
    | none =>
      refine ⟨fun _ i j => r.mask 0 (F i j).1 (F i j).2, .stationary fun i j => r.mask 0 (F i j).1 (F i j).2, ?_,
        fun t => ⟨rfl, fun i j => ⟨?_, hpos _ _ _⟩⟩⟩
      · simp only [trackingRegion, hload, ht, regionOnGrid, and_self, if_true]
      · simp only [RegionValue, ht]
        exact ⟨_, _, hplace i j, rfl⟩
    | some times =>
      obtain ⟨hne, hs⟩ := htimes times ht
      have hfst : (times.zip (List.range times.length)).map Prod.fst = times := by
        rw [List.map_fst_zip]; simp
      have hnear : ∀ t : ℤ, ∃ (k : ℕ) (tk : ℤ), times[k]? = some tk ∧ (∀ s ∈ times, |tk - t| ≤ |s - t|) ∧
          loadTaggingRegion (.ok r) dom (some t) = .ok { r with
            latitude := lat, longitude := lon, time := none, mask := fun _ i j => r.mask k (F i j).1 (F i j).2 } := by
        intro t
        obtain ⟨e, he, h1, h2⟩ := C43_nearest_region (times.zip (List.range times.length))
          (by intro hc; apply hne; rw [← hfst, hc]; rfl) (by rw [hfst]; exact hs) t
        obtain ⟨k, hk, hek⟩ := List.getElem_of_mem he
        rw [List.getElem_zip] at hek
        simp only [List.getElem_range] at hek
        have hk' : k < times.length := by
          have := hk; simp at this; omega
        subst hek
        refine ⟨k, _, List.getElem?_eq_getElem hk', ?_, ?_⟩
        · intro s hs'
          obtain ⟨q, hq, rfl⟩ := List.getElem_of_mem hs'
          have := h2 ((times.zip (List.range times.length))[q]'(by simpa using hq)) (List.getElem_mem _)
          rw [List.getElem_zip] at this
          simp only at this
          rcases this with h | h
          · exact h.le
          · exact h.1.le
        · rw [hload']
          simp only [bind, Except.bind, Wam.regionAt, ht, h1]
          rfl
      choose k tk a1 a2 a3 using hnear
      refine ⟨fun t i j => r.mask (k t) (F i j).1 (F i j).2, .moving fun t => (loadTaggingRegion (.ok r) dom (some t)).bind
          (regionOnGrid lat lon), ?_, fun t => ⟨?_, fun i j => ⟨?_, hpos _ _ _⟩⟩⟩
      · simp only [trackingRegion, hload, ht]
      · simp only [Spec.regionAt, a3, Except.bind, regionOnGrid, and_self, if_true]
      · simp only [RegionValue, ht]
        exact ⟨_, _, hplace i j, k t, tk t, a1 t, a2 t, rfl⟩

/-! ### Both runs -/

section
variable [NpTrig K] {P : Type} {m n : ℕ}

/-- what must be known of the preprocessing -/
theorem pipeline_works {compute : ℤ → Except Err (Dataset K K)} {c : Calendar} (dir : List Char)
    {start stop freq last : ℤ} (hper : PrepPeriod c start stop freq last) (old : PrepDisk K K)
    {lat₀ lon₀ lat lon : List K} (hlat : lat.length = m + 2) (hlon : lon.length = n + 2)
    (hc : ∀ t ∈ inputDates start stop freq, ∃ ds, compute t = .ok ds ∧ ds.latitude = lat₀ ∧ ds.longitude = lon₀ ∧
      ds.vars = allVars ∧ MoistData ds)
    {run : RunConfig K} (hrun : TracksWithin run start last) {dom : Option (BoundingBox K)} {tag : TaggingRegion K K}
    (hfit : ∀ t ∈ inputDates start stop freq, ∀ ds, compute t = .ok ds → FitsData dom tag ds lat lon)
    (path : ℤ → P) :
    (∀ out : P → Option (FwdOutput (m + 2) (n + 2) K), RestartFwd run path out →
      ForwardWorks compute c dir start stop freq last old run dom tag path out) ∧
    (∀ out : P → Option (BwdOutput (m + 2) (n + 2) K), RestartBwd run path out →
      BackwardWorks compute c dir start stop freq last old run dom tag path out) := by
  obtain ⟨hm, -⟩ := C56_dates_whole_minutes start stop freq hper.pos (hper.minutes.trans hper.first_dvd) hper.minutes
  have hgrid : ∀ t, start ≤ t → t ≤ last → freq ∣ t → ∃ ds, compute t = .ok ds ∧
      CutTo dom ds.latitude ds.longitude lat lon := by
    intro t a b d
    have hmem := (hm t).2 ⟨a, b.trans hper.le, dvd_sub d hper.first_dvd⟩
    obtain ⟨ds, e, -⟩ := hc t hmem
    exact ⟨ds, e, (hfit t hmem ds e).domain⟩
  have hfit0 : CutTo dom lat₀ lon₀ lat lon ∧ UsableRegion tag lat₀ lon₀ := by
    have hmem := (hm start).2 ⟨le_rfl, ((hrun.start.trans hrun.ordered).trans hrun.stop).trans hper.le,
      by rw [sub_self]; exact dvd_zero _⟩
    obtain ⟨ds, e, e1, e2, -⟩ := hc start hmem
    have := hfit start hmem ds e
    rw [← e1, ← e2]
    exact ⟨this.domain, this.region⟩
  obtain ⟨hcut, htag⟩ := hfit0
  obtain ⟨mask, r, hr, hmask⟩ := trackingRegion_value (m := m) (n := n) tag htag hcut hlat hlon
  have key := fun first (h1 : start ≤ first) (h2 : first ≤ last) =>
    pipeline compute c dir start stop freq last old lat₀ lon₀ hcut hlat hlon hper.pos hper.minutes hper.first_dvd hper.last_dvd
      hper.le hper.years hc run hrun.timestep_pos hrun.start hrun.ordered hrun.stop tag mask
      ⟨r, hr, fun t _ _ => ⟨(hmask t).1, fun i j => ((hmask t).2 i j).2⟩⟩ first ⟨h1, h2⟩
  constructor
  · intro out hout
    obtain ⟨folder, inp, e1, e2, e3, e4, e5⟩ := key run.tracking_start_date hrun.start (hrun.ordered.trans hrun.stop)
    refine ⟨folder, inp, lat, lon, e1, hgrid, e2, fun t i j => by rw [e3]; exact ((hmask t).2 i j).1, e4, e5, ?_⟩
    obtain ⟨o, ho⟩ := fwd_init_ok run _ inp path out e4 (fun h => by
      obtain ⟨f, hf, -⟩ := hout h
      rw [hf]; rfl)
    obtain ⟨_, _, _, hall⟩ := fwd_run_eq run _ inp path out e4 o ho
    have hends : EndsIn (fwdRun run (experimentSource (m := m) (n := n) folder.files ⟨c, dir, dom, freq⟩ tag
        run.tracking_start_date) path out) _ := ⟨run.steps, fun fuel hf => by rw [hall, if_neg (by omega)]⟩
    refine ⟨_, hends, C26_files_are_sound_forward run _ inp path out e4 e5 ?_ hends⟩
    intro i j
    unfold startFwd
    cases hre : run.restart with
    | false => exact ⟨le_rfl, le_rfl⟩
    | true =>
      obtain ⟨f, hf, hpos⟩ := hout hre
      rw [hf]
      exact hpos i j
  · intro out hout
    obtain ⟨folder, inp, e1, e2, e3, e4, e5⟩ := key run.tracking_end_date (hrun.start.trans hrun.ordered) hrun.stop
    refine ⟨folder, inp, lat, lon, e1, hgrid, e2, fun t i j => by rw [e3]; exact ((hmask t).2 i j).1, e4, e5, ?_⟩
    obtain ⟨o, ho⟩ := bwd_init_ok run _ inp path out e4 (fun h => by
      obtain ⟨f, hf, -⟩ := hout h
      rw [hf]; rfl)
    obtain ⟨_, _, _, hall⟩ := bwd_run_eq run _ inp path out e4 o ho
    have hends : EndsIn (bwdRun run (experimentSource (m := m) (n := n) folder.files ⟨c, dir, dom, freq⟩ tag
        run.tracking_end_date) path out) _ := ⟨run.steps, fun fuel hf => by rw [hall, if_neg (by omega)]⟩
    refine ⟨_, hends, C26_files_are_sound_backward run _ inp path out e4 e5 ?_ hends⟩
    intro i j
    unfold startBwd
    cases hre : run.restart with
    | false => exact ⟨le_rfl, le_rfl⟩
    | true =>
      obtain ⟨f, hf, hpos⟩ := hout hre
      rw [hf]
      exact hpos i j

end

/-! ### The preprocessed grid -/

/-- the longitudes of the preprocessed data, given those of the raw data -/
def shiftedLongitudes (xs : List K) : List K :=
  (shiftLongitude (⟨[], xs, [], fun _ _ _ => ()⟩ : Dataset K Unit)).longitude

theorem shiftedLongitudes_length (xs : List K) : (shiftedLongitudes xs).length = xs.length := by
  unfold shiftedLongitudes
  by_cases h : ∃ x ∈ xs, 180 < x ∨ x < 0
  · obtain ⟨order, ho⟩ := C55_columns (⟨[], xs, [], fun _ _ _ => ()⟩ : Dataset K Unit) h
    exact ho.length
  · rw [C55_unchanged (⟨[], xs, [], fun _ _ _ => ()⟩ : Dataset K Unit)]
    intro x hx
    by_contra hn
    exact h ⟨x, hx, by
      rcases not_and_or.1 hn with h | h
      · exact .inr (not_le.1 h)
      · exact .inl (not_le.1 h)⟩

theorem prepTime_grid {cell : RawInput K K → ℕ → ℕ → Except Err (LayerSums K)} {raw : RawInput K K} {ds : Dataset K K}
    (h : prepTime cell raw = .ok ds) : ds.vars = allVars ∧ ds.longitude = shiftedLongitudes raw.longitude := by
  unfold prepTime at h
  cases hrows : ((List.range raw.latitude.length).mapM fun i =>
      (List.range raw.longitude.length).mapM fun j => cell raw i j) with
  | error e => rw [hrows] at h; simp [bind, Except.bind] at h
  | ok rows =>
    rw [hrows] at h
    simp only [bind, Except.bind, pure, Except.pure, Except.ok.injEq] at h
    subst h
    unfold shiftedLongitudes shiftLongitude
    simp only
    split <;> exact ⟨rfl, rfl⟩

/-- cells of a preprocessed grid -/
theorem gridFrom_moist {g : List K × List K} {R : K → K → LayerSums K → K → K → Prop} {ds : Dataset K K}
    (h : GridFrom g R ds)
    (hR : ∀ lat ∈ g.1, ∀ lon ∈ g.2, ∀ r p e, R lat lon r p e → (0 < r.s_upper ∧ 0 < r.s_lower) ∧ 0 ≤ p ∧ 0 ≤ e) :
    MoistData ds := by
  obtain ⟨g1, g2, g3, order, g4, g5⟩ := h
  have key : ∀ i < ds.latitude.length, ∀ j < ds.longitude.length, ∃ r p e, CellIs ds i j r p e ∧
      (0 < r.s_upper ∧ 0 < r.s_lower) ∧ 0 ≤ p ∧ 0 ≤ e := by
    intro i hi j hj
    rw [g1] at hi
    have hjo : j < order.length := by
      rw [g4.length_eq, List.length_range, ← g2]; exact hj
    obtain ⟨x, lon, a1, a2, a3, r, p, e, a4, a5⟩ :=
      g5 i _ j _ (List.getElem?_eq_getElem hi) (List.getElem?_eq_getElem hjo)
    exact ⟨r, p, e, a5, hR _ (List.getElem_mem _) lon (List.mem_of_getElem? a2) r p e a4⟩
  refine ⟨?_, ?_, ?_, ?_⟩ <;> intro i hi j hj <;> obtain ⟨r, p, e, c, ⟨h1, h2⟩, h3, h4⟩ := key i hi j hj
  · rw [c.s_upper]; exact h1
  · rw [c.s_lower]; exact h2
  · rw [c.precip]; exact h3
  · rw [c.evap]; exact h4

end

/-! ### C88 -/

/-- preprocessing complete and moist ERA5 data on pressure levels succeeds and gives data with water in both layers -/
theorem era5_moist {cfg : InputConfig} {disk : List Char → Except Err (RawFile ℝ ℝ)} {t : ℤ}
    (hlt : cfg.levelType = .pressure_levels) {levels : List ℤ}
    (hL : cfg.levels = .list levels) (hne : levels ≠ []) (hpos : ∀ l ∈ levels, 0 < l) {g : List ℝ × List ℝ}
    (h : Era5Complete cfg disk t levels g) {argsort : List ℝ → List ℕ} (ha : IsArgsort argsort) {lay : LayerConfig ℝ}
    (hsec : 0 < cfg.nseconds) (hp : MoistEra5 cfg disk t lay levels g) :
    ∃ ds, prepEra5 argsort lay cfg disk t = .ok ds ∧ ds.latitude = g.1 ∧ ds.longitude = shiftedLongitudes g.2 ∧
      ds.vars = allVars ∧ MoistData ds := by
  have hsec' : (0 : ℝ) < ofRat cfg.nseconds := by rw [ofRat_cast]; exact_mod_cast hsec
  obtain ⟨ds, hasTcw, h1, h2, hg⟩ := C83_era5_pressure_levels hlt hL hne (fun l hl => (hpos l hl).le) h ha hp.ps
  have hprep := h1
  unfold prepEra5 at h1
  cases hraw : getInputEra5 cfg disk t with
  | error e => rw [hraw] at h1; cases h1
  | ok raw =>
    rw [hraw] at h1
    have h1 : prepTime (prepCell argsort lay cfg) raw = .ok ds := h1
    obtain ⟨e1, e2⟩ := prepTime_grid h1
    have hgr := (era5_grid_tcw h hraw).1
    refine ⟨ds, hprep, hg.1, ?_, e1, ?_⟩
    · rw [e2, hgr]
    · refine gridFrom_moist hg ?_
      rintro lat hlat lon hlon r p e ⟨hr, ⟨tp, ev, -, -, rfl⟩, ⟨ev', -, hev⟩⟩
      refine ⟨layersFrom_pos hr ?_ ?_ ?_ ?_ ?_, ?_, ?_⟩
      · intro l hl
        simp only [List.mem_map] at hl
        obtain ⟨m, hm, rfl⟩ := hl
        have : (0 : ℚ) < (m : ℚ) := by exact_mod_cast hpos m hm
        positivity
      · intro x hx
        exact ⟨(hp.ps lat hlat lon hlon x hx).1, (hp.boundary lat hlat lon hlon x hx).1, (hp.boundary lat hlat lon hlon x hx).2⟩
      · intro l hl x hx
        simp only [List.mem_map] at hl
        obtain ⟨m, hm, rfl⟩ := hl
        have hx' : OnDisk cfg disk "q" t (some ((m : ℚ) * 100 / 100)) lat lon x := hx
        rw [mul_div_cancel_right₀ _ (by norm_num)] at hx'
        exact hp.q lat hlat lon hlon m hm x hx'
      · rintro x ⟨T, p, hT, hp', rfl⟩
        exact ((C73_between_zero_and_one T p).2 (hp.dewpoint lat hlat lon hlon T p hT hp')).1
      · intro _ x hx
        exact hp.tcw lat hlat lon hlon x hx
      · exact (C50_era5_nonneg tp ev _ hsec').1
      · rw [hev 0]
        exact (C50_era5_nonneg 0 ev' _ hsec').2

/-! ### Model levels -/

section
variable {K : Type} [Field K] [LinearOrder K] [IsStrictOrderedRing K]

theorem era5_table_strict : ((era5AInt.zip era5BInt).zip (era5AInt.zip era5BInt).tail).all
    (fun r => decide (r.1.2 ≤ r.2.2) &&
      decide (r.1.1 + r.1.2 * 30331 < r.2.1 + r.2.2 * 30331)) = true := by
  decide +kernel

theorem era5_pressures_strict (sp : K) (hsp : 30331 ≤ sp) :
    (List.zipWith (fun a b => a + b * sp) (era5A K) (era5B K)).Pairwise (· < ·) := by
  have e : List.zipWith (fun a b => a + b * sp) (era5A K) (era5B K) =
      (era5AInt.zip era5BInt).map fun r =>
        ((r.1 : K) / 1000000) + ((r.2 : K) / 1000000) * sp := by
    rw [era5A, era5B, List.zipWith_map, List.zip, List.map_zipWith]
    congr 1
    funext x y
    simp only [ofRat_cast, Rat.mkRat_eq_div]
    push_cast
    ring
  rw [e, ← List.isChain_iff_pairwise, List.isChain_map]
  apply chain_of_zip_tail
  intro r hr
  have := List.all_eq_true.1 era5_table_strict r hr
  simp only [Bool.and_eq_true, decide_eq_true_eq] at this
  obtain ⟨h1, h2⟩ := this
  have h1' : (r.1.2 : K) ≤ (r.2.2 : K) := by exact_mod_cast h1
  have h2' : (r.1.1 : K) + (r.1.2 : K) * 30331 < (r.2.1 : K) + (r.2.2 : K) * 30331 := by
    exact_mod_cast h2
  nlinarith [mul_le_mul_of_nonneg_left hsp (sub_nonneg.2 h1')]

theorem halfPressure_strict (sp : K) (hsp : 30331 ≤ sp) {i j : ℕ} (hij : i < j) (hj : j ≤ 137) :
    halfPressure (era5A K) (era5B K) sp i < halfPressure (era5A K) (era5B K) sp j := by
  have h := List.pairwise_iff_getElem.1 (era5_pressures_strict sp hsp)
  have hl : (List.zipWith (fun a b => a + b * sp) (era5A K) (era5B K)).length = 138 := by
    rw [List.length_zipWith, era5A_length, era5B_length]; rfl
  have := h i j (by omega) (by omega) hij
  rw [List.getElem_zipWith, List.getElem_zipWith] at this
  unfold halfPressure
  rw [List.getD_eq_getElem _ _ (by rw [era5A_length]; omega), List.getD_eq_getElem _ _ (by rw [era5B_length]; omega),
    List.getD_eq_getElem _ _ (by rw [era5A_length]; omega), List.getD_eq_getElem _ _ (by rw [era5B_length]; omega)]
  exact this

theorem fullPressure_strict (sp : K) (hsp : 30331 ≤ sp) {l m : ℤ} (h1 : 1 ≤ l) (hlm : l < m) (hm : m ≤ 137) :
    fullPressure (era5A K) (era5B K) sp l < fullPressure (era5A K) (era5B K) sp m := by
  unfold fullPressure
  have a := halfPressure_strict sp hsp (i := (l - 1).toNat) (j := (m - 1).toNat) (by omega) (by omega)
  have b := halfPressure_strict sp hsp (i := l.toNat) (j := m.toNat) (by omega) (by omega)
  linarith

theorem fullPressure_between (sp : K) (hsp : 30331 ≤ sp) {l : ℤ} (h1 : 1 ≤ l) (hm : l ≤ 137) :
    halfPressure (era5A K) (era5B K) sp 0 < fullPressure (era5A K) (era5B K) sp l ∧
    fullPressure (era5A K) (era5B K) sp l < halfPressure (era5A K) (era5B K) sp 137 := by
  have a := halfPressure_strict sp hsp (i := (l - 1).toNat) (j := l.toNat) (by omega) (by omega)
  have b : halfPressure (era5A K) (era5B K) sp 0 ≤ halfPressure (era5A K) (era5B K) sp (l - 1).toNat := by
    rcases Nat.eq_zero_or_pos (l - 1).toNat with h | h
    · rw [h]
    · exact (halfPressure_strict sp hsp h (by omega)).le
  have c : halfPressure (era5A K) (era5B K) sp l.toNat ≤ halfPressure (era5A K) (era5B K) sp 137 := by
    rcases Nat.lt_or_eq_of_le (show l.toNat ≤ 137 by omega) with h | h
    · exact (halfPressure_strict sp hsp h le_rfl).le
    · rw [h]
  unfold fullPressure
  constructor <;> linarith

/-- the layers of air that stand for the levels all have mass -/
theorem thickness_pos {sp : K} (hsp : 30331 ≤ sp) {levels : List ℤ} (htab : ∀ l ∈ levels, 1 ≤ l ∧ l ≤ 137)
    (hdown : levels.Pairwise (· < ·)) {edges dp : List K} (he : LevelEdges (era5A K) (era5B K) sp levels edges)
    (hd : ThicknessOf edges dp) : ∀ d ∈ dp, 0 < d := by
  have hlen : dp.length = levels.length := by have := hd.1; have := he.length; omega
  have hlow : ∀ (k : ℕ) (hk : k < levels.length), ∃ e, edges[k]? = some e ∧
      e < fullPressure (era5A K) (era5B K) sp levels[k] := by
    intro k hk
    have v := htab _ (List.getElem_mem hk)
    cases k with
    | zero => exact ⟨_, he.top, (fullPressure_between sp hsp v.1 v.2).1⟩
    | succ k =>
      refine ⟨_, he.between k _ _ (List.getElem?_eq_getElem (by omega)) (List.getElem?_eq_getElem hk), ?_⟩
      have v' := htab _ (List.getElem_mem (show k < levels.length by omega))
      have := fullPressure_strict sp hsp v'.1 (List.pairwise_iff_getElem.1 hdown k (k + 1) (by omega) hk (by omega)) v.2
      linarith
  have hhigh : ∀ (k : ℕ) (hk : k < levels.length), ∃ e, edges[k + 1]? = some e ∧
      fullPressure (era5A K) (era5B K) sp levels[k] < e := by
    intro k hk
    have v := htab _ (List.getElem_mem hk)
    by_cases hl : k + 1 < levels.length
    · refine ⟨_, he.between k _ _ (List.getElem?_eq_getElem hk) (List.getElem?_eq_getElem hl), ?_⟩
      have v' := htab _ (List.getElem_mem hl)
      have := fullPressure_strict sp hsp v.1 (List.pairwise_iff_getElem.1 hdown k (k + 1) hk hl (by omega)) v'.2
      linarith
    · have e : k + 1 = levels.length := by omega
      refine ⟨_, by rw [e]; exact he.bottom, ?_⟩
      rw [era5A_length]
      exact (fullPressure_between sp hsp v.1 v.2).2
  intro d hdm
  obtain ⟨k, hk, rfl⟩ := List.getElem_of_mem hdm
  obtain ⟨e1, a1, b1⟩ := hlow k (by omega)
  obtain ⟨e2, a2, b2⟩ := hhigh k (by omega)
  rw [hd.2 k _ e1 e2 (List.getElem?_eq_getElem hk) a1 a2]
  linarith

theorem sum_map_pos {β : Type} (f : β → K) : ∀ (l : List β), (∀ x ∈ l, 0 < f x) → l ≠ [] → 0 < (l.map f).sum
  | [], _, h => absurd rfl h
  | [x], h, _ => by simpa using h x (by simp)
  | x :: y :: l, h, _ => by
    have := sum_map_pos f (y :: l) (fun z hz => h z (List.mem_cons_of_mem _ hz)) (by simp)
    rw [List.map_cons, List.sum_cons]
    have := h x (by simp)
    linarith

theorem modelLayersFrom_pos {cfg : InputConfig} {disk : List Char → Except Err (RawFile K K)} {t : ℤ} {levels : List ℤ}
    {boundary : ℤ} (htwo : TwoLayers levels boundary) {lat lon : K} {hasTcw : Bool} {r : LayerSums K}
    (h : ModelLayersFrom cfg disk t levels boundary lat lon hasTcw r)
    (hps : ∀ x, OnDisk cfg disk "sp" t none lat lon x → 30331 ≤ x)
    (hq : ∀ l ∈ levels, ∀ x, OnDisk cfg disk "q" t (some (l : ℚ)) lat lon x → 0 < x)
    (htcw : ∀ x, OnDisk cfg disk "tcw" t none lat lon x → 0 < x) : 0 < r.s_upper ∧ 0 < r.s_lower := by
  obtain ⟨ls, sp, edges, e1, e2, e3, e4, e5, h1, h2⟩ := h
  have hdp := thickness_pos (hps sp e2) htwo.table htwo.down e4 e5
  have hwater : ∀ l ∈ ls, 0 < l.water := by
    intro l hl
    have a := hq l.number (by rw [← e1]; exact List.mem_map_of_mem hl) _ (e3 l hl).1
    have b := hdp _ (List.mem_map_of_mem (f := ModelLevel.dp) hl)
    unfold ModelLevel.water grav
    positivity
  have key : ∀ (p : ModelLevel K → Bool), (∃ l ∈ ls, p l = true) → 0 < ((ls.filter p).map ModelLevel.water).sum := by
    rintro p ⟨l, hl, hp⟩
    refine sum_map_pos _ _ (fun x hx => hwater x (List.mem_filter.1 hx).1) ?_
    exact List.ne_nil_of_mem (List.mem_filter.2 ⟨hl, hp⟩)
  have hu : 0 < upperSum boundary ModelLevel.water ls := by
    apply key
    obtain ⟨m, hm, hb⟩ := htwo.upper
    rw [← e1, List.mem_map] at hm
    obtain ⟨l, hl, rfl⟩ := hm
    exact ⟨l, hl, decide_eq_true hb⟩
  have hlo : 0 < lowerSum boundary ModelLevel.water ls := by
    apply key
    obtain ⟨m, hm, hb⟩ := htwo.lower
    rw [← e1, List.mem_map] at hm
    obtain ⟨l, hl, rfl⟩ := hm
    exact ⟨l, hl, decide_eq_true hb⟩
  cases hasTcw with
  | false => rw [h1 rfl]; exact ⟨hu, hlo⟩
  | true =>
    obtain ⟨w, hw, rfl⟩ := h2 rfl
    have := htcw w hw
    have hall : 0 < (ls.map ModelLevel.water).sum := by
      refine sum_map_pos _ _ hwater ?_
      rintro rfl
      simp at e1
      obtain ⟨m, hm, -⟩ := htwo.upper
      rw [e1] at hm
      cases hm
    simp only [scale, modelIntegrals]
    constructor <;> positivity

end

/-! ### Each source of data -/

section
variable {K : Type} [Field K] [LinearOrder K] [IsStrictOrderedRing K] [FloorRing K]

/-- ERA5 on model levels -/
theorem era5_model_moist [NpExp K] {cfg : InputConfig} {disk : List Char → Except Err (RawFile K K)} {t : ℤ}
    (hlt : cfg.levelType = .model_levels) {levels : List ℤ} (hL : cfg.levels = .list levels) {lay : LayerConfig K}
    (htwo : TwoLayers levels lay.boundary) {g : List K × List K} (h : Era5Complete cfg disk t levels g)
    (argsort : List K → List ℕ) (hsec : 0 < cfg.nseconds) (hp : MoistModelLevels cfg disk t levels g) :
    ∃ ds, prepEra5 argsort lay cfg disk t = .ok ds ∧ ds.latitude = g.1 ∧ ds.longitude = shiftedLongitudes g.2 ∧
      ds.vars = allVars ∧ MoistData ds := by
  have hsec' : (0 : K) < ofRat cfg.nseconds := by rw [ofRat_cast]; exact_mod_cast hsec
  have hne : levels ≠ [] := by
    obtain ⟨l, hl, -⟩ := htwo.upper
    exact List.ne_nil_of_mem hl
  obtain ⟨ds, hasTcw, h1, h2, hg⟩ := C83_era5_model_levels hlt hL hne htwo.table h argsort lay
  have hprep := h1
  unfold prepEra5 at h1
  cases hraw : getInputEra5 cfg disk t with
  | error e => rw [hraw] at h1; cases h1
  | ok raw =>
    rw [hraw] at h1
    have h1 : prepTime (prepCell argsort lay cfg) raw = .ok ds := h1
    obtain ⟨e1, e2⟩ := prepTime_grid h1
    have hgr := (era5_grid_tcw h hraw).1
    refine ⟨ds, hprep, hg.1, by rw [e2, hgr], e1, ?_⟩
    refine gridFrom_moist hg ?_
    rintro lat hlat lon hlon r p e ⟨hr, ⟨tp, ev, -, -, rfl⟩, ⟨ev', -, hev⟩⟩
    refine ⟨modelLayersFrom_pos htwo hr (hp.ps lat hlat lon hlon) (hp.q lat hlat lon hlon) (hp.tcw lat hlat lon hlon),
      (C50_era5_nonneg tp ev _ hsec').1, ?_⟩
    rw [hev 0]
    exact (C50_era5_nonneg 0 ev' _ hsec').2

/-- CMIP -/
theorem cmip_moist {cfg : InputConfig} {ord : Listing K} {glob : List Char → List (RawFile K K)} {t : ℤ}
    (hlt : cfg.levelType = .pressure_levels) (hfair : Listing.Fair ord) {g : List K × List K}
    (h : CmipComplete cfg glob t g) {argsort : List K → List ℕ} (ha : IsArgsort argsort) {lay : LayerConfig K}
    (hp : MoistCmip cfg glob t lay g) :
    ∃ ds, prepCmip argsort lay cfg ord glob t = .ok ds ∧ ds.latitude = g.1 ∧ ds.longitude = shiftedLongitudes g.2 ∧
      ds.vars = allVars ∧ MoistData ds := by
  obtain ⟨ds, ls, h1, h2, -, hg⟩ := C83_cmip hlt hfair h hp.level (fun l hl => (hp.levels l hl).le) ha (lay := lay)
    (fun lat hlat lon hlon x hx => by
      obtain ⟨a, b, c⟩ := hp.ps lat hlat lon hlon x hx
      exact ⟨a, b.le, c.le⟩)
  have hprep := h1
  obtain ⟨raw, hraw, hgr⟩ := C81_succeeds hlt hfair h
  unfold prepCmip at h1
  rw [hraw] at h1
  have h1 : prepTime (prepCell argsort lay cfg) raw = .ok ds := h1
  obtain ⟨e1, e2⟩ := prepTime_grid h1
  refine ⟨ds, hprep, hg.1, by rw [e2, ← hgr], e1, ?_⟩
  refine gridFrom_moist hg ?_
  rintro lat hlat lon hlon r p e ⟨hr, ⟨pr, hfls, -, hh, rfl⟩, ⟨hfls', -, hev⟩⟩
  refine ⟨layersFrom_pos hr ?_ (hp.ps lat hlat lon hlon) ?_ (hp.qs lat hlat lon hlon) (fun h => by cases h), ?_, ?_⟩
  · exact fun l hl => hp.levels l ((h2 l).1 hl).1
  · exact fun l _ x hx => hp.q lat hlat lon hlon l x hx
  · by_contra hn
    have := (C50_cmip_precip_negative_iff pr hfls).1 (not_le.1 hn)
    exact absurd (hp.hfls lat hlat lon hlon hfls hh) (not_le.2 this.1)
  · rw [hev 0]
    exact (C50_cmip_evap 0 hfls').2

end

/-- ARCO-ERA5 -/
theorem arco_moist {cfg : InputConfig} {s : ArcoStore ℝ ℝ} {t : ℤ} (hlt : cfg.levelType = .pressure_levels)
    (hcal : cfg.calendar = .prolepticGregorian) {levels : List ℤ} (hL : cfg.levels = .list levels) (hne : levels ≠ [])
    (hpos : ∀ l ∈ levels, 0 < l) (h : ArcoComplete s t levels) {argsort : List ℝ → List ℕ} (ha : IsArgsort argsort)
    {lay : LayerConfig ℝ} (hsec : 0 < cfg.nseconds) (hp : MoistArco s t lay levels) :
    ∃ ds, prepArco argsort lay cfg s t = .ok ds ∧ ds.latitude = s.latitude ∧ ds.longitude = shiftedLongitudes s.longitude ∧
      ds.vars = allVars ∧ MoistData ds := by
  have hsec' : (0 : ℝ) < ofRat cfg.nseconds := by rw [ofRat_cast]; exact_mod_cast hsec
  obtain ⟨ds, h1, hg⟩ := C83_arco hlt hcal hL hne (fun l hl => (hpos l hl).le) h ha (lay := lay)
    (fun lat hlat lon hlon x hx => by
      obtain ⟨a, b, c⟩ := hp.ps lat hlat lon hlon x hx
      exact ⟨a, b.le, c.le⟩)
  have hprep := h1
  unfold prepArco at h1
  cases hraw : getInputArco cfg s t with
  | error e => rw [hraw] at h1; cases h1
  | ok raw =>
    rw [hraw] at h1
    have h1 : prepTime (prepCell argsort lay cfg) raw = .ok ds := h1
    obtain ⟨e1, e2⟩ := prepTime_grid h1
    obtain ⟨-, -, -, -, r1, r2, -⟩ := C82_every_number_from_its_place hraw
    refine ⟨ds, hprep, hg.1, by rw [e2, r2], e1, ?_⟩
    refine gridFrom_moist hg ?_
    rintro lat hlat lon hlon r p e ⟨hr, ⟨tp, ev, -, -, rfl⟩, ⟨ev', -, hev⟩⟩
    refine ⟨layersFrom_pos hr ?_ (hp.ps lat hlat lon hlon) ?_ ?_ (fun _ x hx => hp.tcw lat hlat lon hlon x hx),
      (C50_era5_nonneg tp ev _ hsec').1, ?_⟩
    · intro l hl
      simp only [List.mem_map] at hl
      obtain ⟨m, hm, rfl⟩ := hl
      have : (0 : ℚ) < (m : ℚ) := by exact_mod_cast hpos m hm
      positivity
    · intro l hl x hx
      simp only [List.mem_map] at hl
      obtain ⟨m, hm, rfl⟩ := hl
      have hx' : ArcoStored s t "specific_humidity" (some ((m : ℚ) * 100 / 100)) lat lon x := hx
      rw [mul_div_cancel_right₀ _ (by norm_num)] at hx'
      exact hp.q lat hlat lon hlon m hm x hx'
    · rintro x ⟨T, p, hT, hp', rfl⟩
      exact ((C73_between_zero_and_one T p).2 (hp.dewpoint lat hlat lon hlon T p hT hp')).1
    · rw [hev 0]
      exact (C50_era5_nonneg 0 ev' _ hsec').2

/-- ERA5 on pressure levels: complete files without unphysical numbers, preprocessed over a period that covers the tracking
period, make a forward run that ends and writes sound files. -/
theorem C88_era5_forward {m n : ℕ} {P : Type} {cfg : InputConfig} {disk : List Char → Except Err (RawFile ℝ ℝ)}
    (hlt : cfg.levelType = .pressure_levels) {levels : List ℤ} (hL : cfg.levels = .list levels) (hne : levels ≠ [])
    (hpos : ∀ l ∈ levels, 0 < l) (hsec : 0 < cfg.nseconds) {g : List ℝ × List ℝ}
    {argsort : List ℝ → List ℕ} (ha : IsArgsort argsort) {lay : LayerConfig ℝ} {c : Calendar} (dir : List Char)
    {start stop freq last : ℤ} (hper : PrepPeriod c start stop freq last)
    (hdata : ∀ t ∈ inputDates start stop freq, Era5Complete cfg disk t levels g ∧ MoistEra5 cfg disk t lay levels g)
    (old : PrepDisk ℝ ℝ) {run : RunConfig ℝ} (hrun : TracksWithin run start last) {dom : Option (BoundingBox ℝ)} {tag : TaggingRegion ℝ ℝ}
    {lat lon : List ℝ} (hlat : lat.length = m + 2) (hlon : lon.length = n + 2)
    (hfit : ∀ t ∈ inputDates start stop freq, ∀ ds, prepEra5 argsort lay cfg disk t = .ok ds → FitsData dom tag ds lat lon) (path : ℤ → P) (out : P → Option (FwdOutput (m + 2) (n + 2) ℝ)) (hout : RestartFwd run path out) :
    ForwardWorks (prepEra5 argsort lay cfg disk) c dir start stop freq last old run dom tag path out :=
  (pipeline_works dir hper old hlat hlon
    (fun t ht => era5_moist hlt hL hne hpos (hdata t ht).1 ha hsec (hdata t ht).2) hrun hfit path).1 out hout

/-- the same for backward tracking -/
theorem C88_era5_backward {m n : ℕ} {P : Type} {cfg : InputConfig} {disk : List Char → Except Err (RawFile ℝ ℝ)}
    (hlt : cfg.levelType = .pressure_levels) {levels : List ℤ} (hL : cfg.levels = .list levels) (hne : levels ≠ [])
    (hpos : ∀ l ∈ levels, 0 < l) (hsec : 0 < cfg.nseconds) {g : List ℝ × List ℝ}
    {argsort : List ℝ → List ℕ} (ha : IsArgsort argsort) {lay : LayerConfig ℝ} {c : Calendar} (dir : List Char)
    {start stop freq last : ℤ} (hper : PrepPeriod c start stop freq last)
    (hdata : ∀ t ∈ inputDates start stop freq, Era5Complete cfg disk t levels g ∧ MoistEra5 cfg disk t lay levels g)
    (old : PrepDisk ℝ ℝ) {run : RunConfig ℝ} (hrun : TracksWithin run start last) {dom : Option (BoundingBox ℝ)} {tag : TaggingRegion ℝ ℝ}
    {lat lon : List ℝ} (hlat : lat.length = m + 2) (hlon : lon.length = n + 2)
    (hfit : ∀ t ∈ inputDates start stop freq, ∀ ds, prepEra5 argsort lay cfg disk t = .ok ds → FitsData dom tag ds lat lon) (path : ℤ → P) (out : P → Option (BwdOutput (m + 2) (n + 2) ℝ)) (hout : RestartBwd run path out) :
    BackwardWorks (prepEra5 argsort lay cfg disk) c dir start stop freq last old run dom tag path out :=
  (pipeline_works dir hper old hlat hlon
    (fun t ht => era5_moist hlt hL hne hpos (hdata t ht).1 ha hsec (hdata t ht).2) hrun hfit path).2 out hout

/-- ERA5 on model levels: the same, forward and backward. -/
theorem C88_era5_model_levels {K : Type} [Field K] [LinearOrder K] [IsStrictOrderedRing K] [FloorRing K] [NpExp K] [NpTrig K]
    {m n : ℕ} {P : Type} {cfg : InputConfig} {disk : List Char → Except Err (RawFile K K)}
    (hlt : cfg.levelType = .model_levels) {levels : List ℤ} (hL : cfg.levels = .list levels) {lay : LayerConfig K}
    (htwo : TwoLayers levels lay.boundary) (hsec : 0 < cfg.nseconds) {g : List K × List K}
    (argsort : List K → List ℕ) {c : Calendar} (dir : List Char)
    {start stop freq last : ℤ} (hper : PrepPeriod c start stop freq last)
    (hdata : ∀ t ∈ inputDates start stop freq, Era5Complete cfg disk t levels g ∧ MoistModelLevels cfg disk t levels g)
    (old : PrepDisk K K) {run : RunConfig K} (hrun : TracksWithin run start last) {dom : Option (BoundingBox K)} {tag : TaggingRegion K K}
    {lat lon : List K} (hlat : lat.length = m + 2) (hlon : lon.length = n + 2)
    (hfit : ∀ t ∈ inputDates start stop freq, ∀ ds, prepEra5 argsort lay cfg disk t = .ok ds → FitsData dom tag ds lat lon) (path : ℤ → P) :
    (∀ out : P → Option (FwdOutput (m + 2) (n + 2) K), RestartFwd run path out →
      ForwardWorks (prepEra5 argsort lay cfg disk) c dir start stop freq last old run dom tag path out) ∧
    (∀ out : P → Option (BwdOutput (m + 2) (n + 2) K), RestartBwd run path out →
      BackwardWorks (prepEra5 argsort lay cfg disk) c dir start stop freq last old run dom tag path out) :=
  pipeline_works dir hper old hlat hlon
    (fun t ht => era5_model_moist hlt hL htwo (hdata t ht).1 argsort hsec (hdata t ht).2) hrun hfit path

/-- ARCO-ERA5: the same, forward and backward. -/
theorem C88_arco {m n : ℕ} {P : Type} {cfg : InputConfig} {s : ArcoStore ℝ ℝ}
    (hlt : cfg.levelType = .pressure_levels) (hcal : cfg.calendar = .prolepticGregorian)
    {levels : List ℤ} (hL : cfg.levels = .list levels) (hne : levels ≠ [])
    (hpos : ∀ l ∈ levels, 0 < l) (hsec : 0 < cfg.nseconds)
    {argsort : List ℝ → List ℕ} (ha : IsArgsort argsort) {lay : LayerConfig ℝ} {c : Calendar} (dir : List Char)
    {start stop freq last : ℤ} (hper : PrepPeriod c start stop freq last)
    (hdata : ∀ t ∈ inputDates start stop freq, ArcoComplete s t levels ∧ MoistArco s t lay levels)
    (old : PrepDisk ℝ ℝ) {run : RunConfig ℝ} (hrun : TracksWithin run start last) {dom : Option (BoundingBox ℝ)} {tag : TaggingRegion ℝ ℝ}
    {lat lon : List ℝ} (hlat : lat.length = m + 2) (hlon : lon.length = n + 2)
    (hfit : ∀ t ∈ inputDates start stop freq, ∀ ds, prepArco argsort lay cfg s t = .ok ds → FitsData dom tag ds lat lon) (path : ℤ → P) :
    (∀ out : P → Option (FwdOutput (m + 2) (n + 2) ℝ), RestartFwd run path out →
      ForwardWorks (prepArco argsort lay cfg s) c dir start stop freq last old run dom tag path out) ∧
    (∀ out : P → Option (BwdOutput (m + 2) (n + 2) ℝ), RestartBwd run path out →
      BackwardWorks (prepArco argsort lay cfg s) c dir start stop freq last old run dom tag path out) :=
  pipeline_works dir hper old hlat hlon
    (fun t ht => arco_moist hlt hcal hL hne hpos (hdata t ht).1 ha hsec (hdata t ht).2) hrun hfit path

/-- CMIP: the same, forward and backward. -/
theorem C88_cmip {K : Type} [Field K] [LinearOrder K] [IsStrictOrderedRing K] [FloorRing K] [NpTrig K]
    {m n : ℕ} {P : Type} {cfg : InputConfig} {ord : Listing K} {glob : List Char → List (RawFile K K)}
    (hlt : cfg.levelType = .pressure_levels) (hfair : Listing.Fair ord) {g : List K × List K}
    {argsort : List K → List ℕ} (ha : IsArgsort argsort) {lay : LayerConfig K} {c : Calendar} (dir : List Char)
    {start stop freq last : ℤ} (hper : PrepPeriod c start stop freq last)
    (hdata : ∀ t ∈ inputDates start stop freq, CmipComplete cfg glob t g ∧ MoistCmip cfg glob t lay g)
    (old : PrepDisk K K) {run : RunConfig K} (hrun : TracksWithin run start last) {dom : Option (BoundingBox K)} {tag : TaggingRegion K K}
    {lat lon : List K} (hlat : lat.length = m + 2) (hlon : lon.length = n + 2)
    (hfit : ∀ t ∈ inputDates start stop freq, ∀ ds, prepCmip argsort lay cfg ord glob t = .ok ds → FitsData dom tag ds lat lon) (path : ℤ → P) :
    (∀ out : P → Option (FwdOutput (m + 2) (n + 2) K), RestartFwd run path out →
      ForwardWorks (prepCmip argsort lay cfg ord glob) c dir start stop freq last old run dom tag path out) ∧
    (∀ out : P → Option (BwdOutput (m + 2) (n + 2) K), RestartBwd run path out →
      BackwardWorks (prepCmip argsort lay cfg ord glob) c dir start stop freq last old run dom tag path out) :=
  pipeline_works dir hper old hlat hlon
    (fun t ht => cmip_moist hlt hfair (hdata t ht).1 ha (hdata t ht).2) hrun hfit path

end Wam
