import Verif.Props.Regions

/-! # C66: masks from shapefiles, C76: the tagging region and the grid of the data -/

set_option linter.unusedSectionVars false
set_option linter.unusedVariables false

namespace Wam
open Spec

section
variable {K : Type} [Field K] [LinearOrder K] [IsStrictOrderedRing K]

/-- the sorted axis without duplicates -/
theorem ensureMonotonic_spec (xs : List K) :
    (ensureMonotonic xs).Pairwise (· < ·) ∧ ∀ x, x ∈ ensureMonotonic xs ↔ x ∈ xs := by
  unfold ensureMonotonic
  set ys := if xs.Pairwise (· ≤ ·) then xs else xs.insertionSort (· ≤ ·) with hys
  have hp : ys.Perm xs := by
    rw [hys]
    split
    · exact List.Perm.refl _
    · exact List.perm_insertionSort _ _
  have hs : ys.Pairwise (· ≤ ·) := by
    rw [hys]
    split
    · assumption
    · exact List.pairwise_insertionSort _ _
  dsimp only
  split
  · rename_i hn
    exact ⟨(hs.and hn).imp fun h => lt_of_le_of_ne h.1 h.2, fun x => hp.mem_iff⟩
  · refine ⟨?_, fun x => by rw [List.mem_dedup, hp.mem_iff]⟩
    have h1 : ys.dedup.Pairwise (· ≤ ·) := hs.sublist (List.dedup_sublist _)
    exact (h1.and (List.nodup_dedup ys)).imp fun h => lt_of_le_of_ne h.1 h.2

theorem npMidpoints_gt (xs : List K) (x : K) (h : ∀ y ∈ xs, x < y) :
    (npMidpoints xs).countP (fun m => decide (m < x)) = 0 := by
  induction xs with
  | nil => rfl
  | cons a xs ih =>
    cases xs with
    | nil => rfl
    | cons b xs =>
      rw [npMidpoints, List.countP_cons, ih fun y hy => h y (by simp [hy])]
      have h1 := h a (by simp)
      have h2 := h b (by simp)
      rw [if_neg]
      simp only [ofRat_two, decide_eq_true_eq, not_lt]
      linarith

theorem npMidpoints_count (xs : List K) (hs : xs.Pairwise (· < ·)) (k : ℕ) (x : K)
    (hk : xs[k]? = some x) : (npMidpoints xs).countP (fun m => decide (m < x)) = k := by
  induction xs generalizing k with
  | nil => simp at hk
  | cons a xs ih =>
    cases xs with
    | nil =>
      cases k with
      | zero => rfl
      | succ k => simp at hk
    | cons b xs =>
      rw [List.pairwise_cons] at hs
      rw [npMidpoints, List.countP_cons]
      cases k with
      | zero =>
        simp only [List.getElem?_cons_zero, Option.some.injEq] at hk
        subst hk
        rw [npMidpoints_gt _ _ hs.1, if_neg]
        have := hs.1 b (by simp)
        simp only [ofRat_two, decide_eq_true_eq, not_lt]
        linarith
      | succ k =>
        rw [List.getElem?_cons_succ] at hk
        rw [ih hs.2 k hk, if_pos]
        have h1 := hs.1 b (by simp)
        have h2 : b ≤ x := by
          have hm := List.mem_of_getElem? hk
          rcases List.mem_cons.1 hm with rfl | h
          · exact le_rfl
          · exact ((List.pairwise_cons.1 hs.2).1 x h).le
        simp only [ofRat_two, decide_eq_true_eq]
        linarith

/-- nearest-neighbour interpolation at a point of the axis gives that point, outside nothing -/
theorem interpNearest_mem (xs : List K) (hs : xs.Pairwise (· < ·)) (k : ℕ) (x : K)
    (hk : xs[k]? = some x) : interpNearest xs x = some k := by
  have hne : xs ≠ [] := by rintro rfl; simp at hk
  unfold interpNearest
  rw [List.head?_eq_some_head hne, List.getLast?_eq_some_getLast hne]
  dsimp only
  rw [if_neg, npMidpoints_count xs hs k x hk]
  rw [List.pairwise_iff_getElem] at hs
  obtain ⟨hkl, hkx⟩ := List.getElem?_eq_some_iff.1 hk
  rintro (h | h)
  · rw [← hkx, List.head_eq_getElem] at h
    rcases Nat.eq_zero_or_pos k with h0 | h0
    · subst h0; exact lt_irrefl _ h
    · exact lt_asymm h (hs 0 k _ hkl h0)
  · rw [← hkx, List.getLast_eq_getElem] at h
    rcases Nat.lt_or_ge k (xs.length - 1) with h0 | h0
    · exact lt_asymm h (hs k _ hkl _ h0)
    · have : k = xs.length - 1 := by omega
      subst this; exact lt_irrefl _ h

theorem interpNearest_outside (xs : List K) (x : K)
    (h : (∀ y ∈ xs, x < y) ∨ ∀ y ∈ xs, y < x) : interpNearest xs x = none := by
  unfold interpNearest
  by_cases hne : xs = []
  · subst hne; rfl
  · rw [List.head?_eq_some_head hne, List.getLast?_eq_some_getLast hne]
    dsimp only
    rw [if_pos]
    rcases h with h | h
    · exact .inl (h _ (List.head_mem hne))
    · exact .inr (h _ (List.getLast_mem hne))

theorem flatMap_getD {β γ δ : Type} (xs : List β) (ys : List γ) (f : β → γ → δ) (d : δ) (a b : ℕ)
    (x : β) (y : γ) (hb : xs[b]? = some x) (ha : ys[a]? = some y) :
    (xs.flatMap fun x => ys.map fun y => f x y).getD (b * ys.length + a) d = f x y := by
  obtain ⟨hal, hay⟩ := List.getElem?_eq_some_iff.1 ha
  induction xs generalizing b with
  | nil => simp at hb
  | cons z xs ih =>
    rw [List.flatMap_cons]
    cases b with
    | zero =>
      simp only [List.getElem?_cons_zero, Option.some.injEq] at hb
      subst hb
      rw [Nat.zero_mul, Nat.zero_add, List.getD_append _ _ _ _ (by simpa using hal),
        List.getD_eq_getElem?_getD, List.getElem?_map, ha]
      rfl
    | succ b =>
      rw [List.getElem?_cons_succ] at hb
      rw [List.getD_append_right _ _ _ _ (by rw [List.length_map, Nat.add_mul]; omega),
        List.length_map]
      have : (b + 1) * ys.length + a - ys.length = b * ys.length + a := by
        rw [Nat.add_mul]; omega
      rw [this]
      exact ih b hb

/-- the subset of an axis near the polygon -/
theorem slice_axis (xs : List K) (lo hi : K) (h : lo ≤ hi) :
    ∃ is, labelSlice (ensureMonotonic xs) lo hi = .ok is ∧
      (is.filterMap fun i => (ensureMonotonic xs)[i]?).Pairwise (· < ·) ∧
      ∀ x, x ∈ (is.filterMap fun i => (ensureMonotonic xs)[i]?) ↔ x ∈ xs ∧ lo ≤ x ∧ x ≤ hi := by
  obtain ⟨hs, hm⟩ := ensureMonotonic_spec xs
  obtain ⟨is, h1, -, h3⟩ := labelSlice_increasing _ (hs.imp fun h => le_of_lt h) lo hi h
  refine ⟨is, h1, ?_, ?_⟩
  · rw [h3]; exact hs.sublist List.filter_sublist
  · intro x
    rw [h3, List.mem_filter, hm, decide_eq_true_eq]

theorem inferResolution_nonneg (xs : List K) : 0 ≤ inferResolution xs := by
  unfold inferResolution
  rw [np_abs]
  exact abs_nonneg _

theorem boxWeight_eq (poly : Polygon K) (a b x y : K) :
    boxWeight poly a b x y = coveredFraction poly a b y x := by
  simp only [boxWeight, coveredFraction, ofRat_half]
  have h1 : ∀ c : K, (1 / 2 : K) * c = c / 2 := fun c => by ring
  simp only [h1]
  congr 1
  ring

/-- The mask made from a shapefile: every cell of the grid gets the fraction of it that the polygon covers
(cells as large as the resolution of the axes), for any axes. -/
theorem C66_fraction (lat lon : List K) (poly : Polygon K) (hp : IsPolygon poly)
    (hlat : 0 < inferResolution lat) (hlon : 0 < inferResolution lon)
    (r : TagFile K K) (hr : createMask lat lon poly = .ok r) :
    r.latitude = lat ∧ r.longitude = lon ∧ r.time = none ∧
    ∀ t i j y x, lat[i]? = some y → lon[j]? = some x →
      r.mask t i j = coveredFraction poly (inferResolution lat) (inferResolution lon) y x := by
  set a := inferResolution lat with ha
  set b := inferResolution lon with hb
  obtain ⟨rows, h1, s1, m1⟩ := slice_axis lat (poly.miny - a) (poly.maxy + a) (by linarith [hp.y])
  obtain ⟨cols, h2, s2, m2⟩ := slice_axis lon (poly.minx - b) (poly.maxx + b) (by linarith [hp.x])
  unfold createMask at hr
  rw [← ha, ← hb] at hr
  simp only [h1, h2, bind, Except.bind] at hr
  split at hr
  · simp at hr
  · rename_i hne
    simp only [pure, Except.pure, Except.ok.injEq] at hr
    subst hr
    refine ⟨rfl, rfl, rfl, ?_⟩
    intro t i j y x hy hx
    simp only [List.getD_eq_getElem?_getD, hy, hx, Option.getD_some]
    set sublat := rows.filterMap fun i => (ensureMonotonic lat)[i]? with hsub1
    set sublon := cols.filterMap fun j => (ensureMonotonic lon)[j]? with hsub2
    have out : ∀ (xs : List K) (z lo hi : K), (∀ w, w ∈ xs → lo ≤ w ∧ w ≤ hi) →
        ¬ (lo ≤ z ∧ z ≤ hi) → interpNearest xs z = none := by
      intro xs z lo hi hw hz
      apply interpNearest_outside
      rcases not_and_or.1 hz with h | h
      · left; intro w hw'; have := (hw w hw').1; push Not at h; exact lt_of_lt_of_le h this
      · right; intro w hw'; have := (hw w hw').2; push Not at h; exact lt_of_le_of_lt this h
    by_cases hyin : poly.miny - a ≤ y ∧ y ≤ poly.maxy + a
    · by_cases hxin : poly.minx - b ≤ x ∧ x ≤ poly.maxx + b
      · obtain ⟨k, hk, hky⟩ := List.getElem_of_mem ((m1 y).2 ⟨List.mem_of_getElem? hy, hyin⟩)
        obtain ⟨l, hl, hlx⟩ := List.getElem_of_mem ((m2 x).2 ⟨List.mem_of_getElem? hx, hxin⟩)
        have hk' : sublat[k]? = some y := by rw [List.getElem?_eq_getElem hk, hky]
        have hl' : sublon[l]? = some x := by rw [List.getElem?_eq_getElem hl, hlx]
        rw [interpNearest_mem sublat s1 k y hk', interpNearest_mem sublon s2 l x hl']
        dsimp only
        rw [← List.getD_eq_getElem?_getD, flatMap_getD _ _ _ _ k l x y hl' hk', boxWeight_eq]
      · rw [out sublon x _ _ (fun w hw => ((m2 w).1 hw).2) hxin]
        have : coveredFraction poly a b y x = 0 := by
          unfold coveredFraction
          rw [hp.outside, zero_div]
          rcases not_and_or.1 hxin with h | h
          · left; push Not at h; linarith
          · right; left; push Not at h; linarith
        rw [this]
        cases interpNearest sublat y <;> simp
    · rw [out sublat y _ _ (fun w hw => ((m1 w).1 hw).2) hyin]
      have : coveredFraction poly a b y x = 0 := by
        unfold coveredFraction
        rw [hp.outside, zero_div]
        rcases not_and_or.1 hyin with h | h
        · right; right; left; push Not at h; linarith
        · right; right; right; push Not at h; linarith
      rw [this]
      simp

/-- Its values lie between 0 and 1, and are 0 for cells that do not meet the bounding box of the polygon. -/
theorem C66_range (lat lon : List K) (poly : Polygon K) (hp : IsPolygon poly)
    (hlat : 0 < inferResolution lat) (hlon : 0 < inferResolution lon)
    (r : TagFile K K) (hr : createMask lat lon poly = .ok r) (t i j : ℕ) (y x : K)
    (hy : lat[i]? = some y) (hx : lon[j]? = some x) :
    0 ≤ r.mask t i j ∧ r.mask t i j ≤ 1 ∧
    (x + inferResolution lon / 2 ≤ poly.minx ∨ poly.maxx ≤ x - inferResolution lon / 2 ∨
      y + inferResolution lat / 2 ≤ poly.miny ∨ poly.maxy ≤ y - inferResolution lat / 2 →
      r.mask t i j = 0) := by
  rw [(C66_fraction lat lon poly hp hlat hlon r hr).2.2.2 t i j y x hy hx]
  unfold coveredFraction
  have hpos : 0 < inferResolution lon * inferResolution lat := mul_pos hlon hlat
  refine ⟨div_nonneg (hp.nonneg _ _ _ _) hpos.le, ?_, ?_⟩
  · rw [div_le_one hpos]
    refine (hp.le_box _ _ _ _ (by linarith) (by linarith)).trans_eq ?_
    ring
  · intro h
    rw [hp.outside _ _ _ _ h, zero_div]

/-- It succeeds exactly if some latitude and some longitude of the grid are within one cell of the
bounding box of the polygon. -/
theorem C66_succeeds_iff (lat lon : List K) (poly : Polygon K) (hp : IsPolygon poly) :
    (∃ r, createMask lat lon poly = .ok r) ↔
      (∃ y ∈ lat, poly.miny - inferResolution lat ≤ y ∧ y ≤ poly.maxy + inferResolution lat) ∧
      (∃ x ∈ lon, poly.minx - inferResolution lon ≤ x ∧ x ≤ poly.maxx + inferResolution lon) := by
  have ha := inferResolution_nonneg lat
  have hb := inferResolution_nonneg lon
  obtain ⟨rows, h1, s1, m1⟩ := slice_axis lat (poly.miny - inferResolution lat)
    (poly.maxy + inferResolution lat) (by linarith [hp.y])
  obtain ⟨cols, h2, s2, m2⟩ := slice_axis lon (poly.minx - inferResolution lon)
    (poly.maxx + inferResolution lon) (by linarith [hp.x])
  have e1 : (∃ y ∈ lat, poly.miny - inferResolution lat ≤ y ∧ y ≤ poly.maxy + inferResolution lat) ↔
      (rows.filterMap fun i => (ensureMonotonic lat)[i]?) ≠ [] := by
    constructor
    · rintro ⟨y, hy, hin⟩ he
      have := (m1 y).2 ⟨hy, hin⟩
      rw [he] at this; simp at this
    · intro hne
      obtain ⟨y, hy⟩ := List.exists_mem_of_ne_nil _ hne
      exact ⟨y, ((m1 y).1 hy).1, ((m1 y).1 hy).2⟩
  have e2 : (∃ x ∈ lon, poly.minx - inferResolution lon ≤ x ∧ x ≤ poly.maxx + inferResolution lon) ↔
      (cols.filterMap fun i => (ensureMonotonic lon)[i]?) ≠ [] := by
    constructor
    · rintro ⟨y, hy, hin⟩ he
      have := (m2 y).2 ⟨hy, hin⟩
      rw [he] at this; simp at this
    · intro hne
      obtain ⟨y, hy⟩ := List.exists_mem_of_ne_nil _ hne
      exact ⟨y, ((m2 y).1 hy).1, ((m2 y).1 hy).2⟩
  rw [e1, e2]
  unfold createMask
  simp only [h1, h2, bind, Except.bind]
  split
  · rename_i h
    simp only [reduceCtorEq, exists_false, false_iff]
    tauto
  · rename_i h
    simp only [pure, Except.pure, Except.ok.injEq, exists_eq', true_iff]
    tauto

end

/-! ## C76 -/

section
variable {κ α β : Type} [LinearOrder κ]

/-- what `select_subdomain` selects depends on the axes only -/
theorem selectSubdomain_natural (ds : Dataset κ α) (ds₂ : Dataset κ β) (bbox : BoundingBox κ)
    (hlat : ds₂.latitude = ds.latitude) (hlon : ds₂.longitude = ds.longitude) :
    (∃ e, selectSubdomain ds bbox = .error e ∧ selectSubdomain ds₂ bbox = .error e) ∨
    ∃ (ds' : Dataset κ α) (ds₂' : Dataset κ β) (f g : ℕ → ℕ), selectSubdomain ds bbox = .ok ds' ∧ selectSubdomain ds₂ bbox = .ok ds₂' ∧
      ds₂'.latitude = ds'.latitude ∧ ds₂'.longitude = ds'.longitude ∧
      ∀ v i j, ds'.data v i j = ds.data v (f i) (g j) ∧ ds₂'.data v i j = ds₂.data v (f i) (g j) := by
  unfold selectSubdomain
  by_cases h : bbox.west < bbox.east
  · simp only [h, if_true, hlat, hlon]
    cases hc : labelSlice ds.longitude bbox.west bbox.east with
    | error e => left; exact ⟨e, rfl, rfl⟩
    | ok cols =>
      cases hr : labelSlice ds.latitude bbox.north bbox.south with
      | error e => left; exact ⟨e, rfl, rfl⟩
      | ok rows =>
        right
        refine ⟨_, _, fun i => rows.getD i 0, fun j => cols.getD j 0, rfl, rfl, ?_, ?_, ?_⟩
        · simp [Dataset.isel, hlat]
        · simp [Dataset.isel, hlon]
        · intro v i j; exact ⟨rfl, rfl⟩
  · simp only [h, if_false, hlat, hlon, Dataset.isel]
    cases hr : labelSlice (List.filterMap (fun i => ds.latitude[i]?) (List.range ds.latitude.length))
        bbox.north bbox.south with
    | error e => left; exact ⟨e, rfl, rfl⟩
    | ok rows =>
      right
      exact ⟨_, _, fun i => (List.range ds.latitude.length).getD (rows.getD i 0) 0, _, rfl, rfl, rfl, rfl,
        fun v i j => ⟨rfl, rfl⟩⟩

/-- If the tagging region is on the grid of the preprocessed data then, after the selection of the
tracking domain from both, it still is: the axes are the same, and cell by cell the region's value and
the data come from the same cell of the original grid. -/
theorem C76_aligned (ds : Dataset κ β) (r : TagFile κ α) (bbox : BoundingBox κ)
    (hlat : r.latitude = ds.latitude) (hlon : r.longitude = ds.longitude) (ds' : Dataset κ β)
    (h : selectSubdomain ds bbox = .ok ds') :
    ∃ r', loadTaggingRegion (.ok r) (some bbox) none = .ok r' ∧
      r'.latitude = ds'.latitude ∧ r'.longitude = ds'.longitude ∧ r'.time = r.time ∧
      ∀ i j, ∃ i0 j0, (∀ v, ds'.data v i j = ds.data v i0 j0) ∧ ∀ t, r'.mask t i j = r.mask t i0 j0 := by
  rcases selectSubdomain_natural ds
      (⟨r.latitude, r.longitude, [], fun _ i j => (i, j)⟩ : Dataset κ (ℕ × ℕ)) bbox hlat hlon with
    ⟨e, he, -⟩ | ⟨d, d₂, f, g, h1, h2, h3, h4, h5⟩
  · rw [h] at he; simp at he
  · rw [h] at h1
    injection h1 with h1
    subst h1
    refine ⟨{ r with
      latitude := d₂.latitude
      longitude := d₂.longitude
      mask := fun t i j => r.mask t (d₂.data .precip i j).1 (d₂.data .precip i j).2 },
      ?_, h3, h4, rfl, ?_⟩
    · unfold loadTaggingRegion
      simp only [bind, Except.bind]
      unfold selectRegion
      rw [h2]
      rfl
    · intro i j
      refine ⟨f i, g j, fun v => (h5 v i j).1, fun t => ?_⟩
      simp only [(h5 .precip i j).2]

/-- Without a tracking domain the region is used as it is. -/
theorem C76_no_domain (r : TagFile κ α) : loadTaggingRegion (.ok r) none none = .ok r := rfl

/-- A moving region at time `t`: the mask of the nearest time of the file, of two equally near ones the later;
a region without times cannot be used as a moving one. -/
theorem C76_moving (r : TagFile κ α) (t : ℤ) :
    (r.time = none → loadTaggingRegion (.ok r) none (some t) = .error .keyError) ∧
    ∀ times, r.time = some times → times ≠ [] → times.Pairwise (· < ·) →
      ∃ r' k tk, loadTaggingRegion (.ok r) none (some t) = .ok r' ∧ times[k]? = some tk ∧
        (∀ s ∈ times, |tk - t| < |s - t| ∨ (|tk - t| = |s - t| ∧ s ≤ tk)) ∧
        r'.latitude = r.latitude ∧ r'.longitude = r.longitude ∧ r'.time = none ∧
        ∀ q i j, r'.mask q i j = r.mask k i j := by
  constructor
  · intro h
    unfold loadTaggingRegion
    simp only [bind, Except.bind]
    unfold regionAt
    rw [h]
  · intro times ht hne hs
    have hfst : (times.zip (List.range times.length)).map Prod.fst = times := by
      rw [List.map_fst_zip]; simp
    obtain ⟨e, he, h1, h2⟩ := C43_nearest_region (times.zip (List.range times.length))
      (by intro hc; apply hne; rw [← hfst, hc]; rfl) (by rw [hfst]; exact hs) t
    obtain ⟨k, hk, hek⟩ := List.getElem_of_mem he
    have hkl : k < times.length := by simpa using hk
    rw [List.getElem_zip, List.getElem_range] at hek
    subst hek
    refine ⟨{ r with
      time := none
      mask := fun _ i j => r.mask k i j }, k, times[k], ?_, List.getElem?_eq_getElem hkl, ?_, rfl, rfl,
      rfl, fun q i j => rfl⟩
    · unfold loadTaggingRegion
      simp only [bind, Except.bind]
      unfold regionAt
      rw [ht]
      simp only [h1, bind, Except.bind, pure, Except.pure]
    · intro s hs'
      rw [← hfst] at hs'
      obtain ⟨y, hy, rfl⟩ := List.mem_map.1 hs'
      exact h2 y hy

/-- **C43** `load_tagging_region(config, t)`, with or without a tracking domain: the mask is that of the time nearest to `t` of the
region that is loaded without a time; of two equally near times it is the later one. -/
theorem C43_load_tagging_region (source : Except Err (TagFile κ α)) (domain : Option (BoundingBox κ)) (t : ℤ)
    {r : TagFile κ α} (h : loadTaggingRegion source domain none = .ok r) {times : List ℤ} (ht : r.time = some times)
    (hne : times ≠ []) (hs : times.Pairwise (· < ·)) :
    ∃ r' k tk, loadTaggingRegion source domain (some t) = .ok r' ∧ times[k]? = some tk ∧
      (∀ s ∈ times, |tk - t| < |s - t| ∨ (|tk - t| = |s - t| ∧ s ≤ tk)) ∧
      r'.latitude = r.latitude ∧ r'.longitude = r.longitude ∧ r'.time = none ∧
      ∀ q i j, r'.mask q i j = r.mask k i j := by
  have e : loadTaggingRegion source domain (some t) = loadTaggingRegion (.ok r) none (some t) := by
    unfold loadTaggingRegion at h ⊢
    cases source with
    | error e => simp [bind, Except.bind] at h
    | ok r0 =>
      cases domain with
      | none =>
        simp only [bind, Except.bind, Except.ok.injEq] at h ⊢
        rw [h]
      | some bbox =>
        cases h1 : selectRegion r0 bbox with
        | error e => simp [bind, Except.bind, h1] at h
        | ok r1 =>
          simp only [bind, Except.bind, h1, Except.ok.injEq] at h ⊢
          rw [h]
  rw [e]
  exact (C76_moving r t).2 times ht hne hs

end

/-- a region of two times inside a domain, between the two: the later one counts -/
example : (loadTaggingRegion (.ok ⟨[1, 0], [0, 1], some [0, 20], fun k i j => ((10 * k + i + j : ℕ) : ℚ)⟩)
    (some (⟨0, 0, 1, 1⟩ : BoundingBox ℚ)) (some 10)).toOption.map (fun r => r.mask 0 0 1) = some 11 := by
  decide +kernel

/-- the unit square around the origin, with exact areas -/
def demoPolygon : Polygon ℚ where
  minx := -1
  miny := -1
  maxx := 1
  maxy := 1
  inter := fun w s e n => max 0 (min e 1 - max w (-1)) * max 0 (min n 1 - max s (-1))

/-- the demo polygon is one -/
theorem demoPolygon_isPolygon : IsPolygon demoPolygon := by
  refine ⟨by decide +kernel, by decide +kernel, ?_, ?_, ?_⟩
  · intro w s e n
    exact mul_nonneg (le_max_left _ _) (le_max_left _ _)
  · intro w s e n hwe hsn
    apply mul_le_mul _ _ (le_max_left _ _) (by linarith)
    · apply max_le (by linarith)
      have := min_le_left e 1; have := le_max_left w (-1); linarith
    · apply max_le (by linarith)
      have := min_le_left n 1; have := le_max_left s (-1); linarith
  · intro w s e n h
    show max 0 (min e 1 - max w (-1)) * max 0 (min n 1 - max s (-1)) = 0
    have h' : e ≤ -1 ∨ 1 ≤ w ∨ n ≤ -1 ∨ 1 ≤ s := h
    rcases h' with h | h | h | h
    · have : max 0 (min e 1 - max w (-1)) = 0 := max_eq_left (by
        have := min_le_left e 1; have := le_max_right w (-1); linarith)
      rw [this, zero_mul]
    · have : max 0 (min e 1 - max w (-1)) = 0 := max_eq_left (by
        have := min_le_right e 1; have := le_max_left w (-1); linarith)
      rw [this, zero_mul]
    · have : max 0 (min n 1 - max s (-1)) = 0 := max_eq_left (by
        have := min_le_left n 1; have := le_max_right s (-1); linarith)
      rw [this, mul_zero]
    · have : max 0 (min n 1 - max s (-1)) = 0 := max_eq_left (by
        have := min_le_right n 1; have := le_max_left s (-1); linarith)
      rw [this, mul_zero]

example : ((createMask ([4, 2, 0, -2] : List ℚ) [-3, -1, 1, 3] demoPolygon).toOption.map fun r =>
    (r.mask 0 2 1, r.mask 0 1 1, r.mask 0 0 0, r.mask 0 2 3)) = some (1/2, 0, 0, 0) := by
  decide +kernel

end Wam
