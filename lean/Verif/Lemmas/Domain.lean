import Verif.Spec.Domain
import Verif.Lemmas.IO
import Verif.Lemmas.NumK

set_option linter.unusedSectionVars false
set_option linter.unusedVariables false

/-! # Loading a tracking domain is cutting a part out of the grid -/

namespace Wam.Domain
open Spec

section Lists
variable {κ : Type}

theorem countP_prefix (q : κ → Bool) (xs : List κ) (k : ℕ) (hk : k ≤ xs.length)
    (h : ∀ i (hi : i < xs.length), q xs[i] = true ↔ i < k) : xs.countP q = k := by
  rw [← List.take_append_drop k xs, List.countP_append]
  have h1 : (xs.take k).countP q = (xs.take k).length := by
    rw [List.countP_eq_length]
    intro a ha
    obtain ⟨i, hi, rfl⟩ := List.mem_iff_getElem.mp ha
    rw [List.length_take] at hi
    rw [List.getElem_take]
    exact (h i (by omega)).mpr (by omega)
  have h2 : (xs.drop k).countP q = 0 := by
    rw [List.countP_eq_zero]
    intro a ha
    obtain ⟨i, hi, rfl⟩ := List.mem_iff_getElem.mp ha
    rw [List.length_drop] at hi
    rw [List.getElem_drop]
    intro hq
    have := (h _ (by omega)).mp hq
    omega
  rw [h1, h2, List.length_take]
  omega

variable [LinearOrder κ]

theorem labelSlice_inc (xs : List κ) (hx : xs.Pairwise (· < ·)) (a b : κ) (l k : ℕ) (hk : 0 < k) (hlen : l + k ≤ xs.length)
    (h : ∀ j (hj : j < xs.length), (a ≤ xs[j] ∧ xs[j] ≤ b) ↔ (l ≤ j ∧ j < l + k)) :
    labelSlice xs a b = .ok (List.range' l k) := by
  have mono : ∀ i j (hi : i < xs.length) (hj : j < xs.length), i < j → xs[i] < xs[j] :=
    fun i j hi hj hij => List.pairwise_iff_getElem.mp hx i j hi hj hij
  have hl := (h l (by omega)).mpr ⟨le_rfl, by omega⟩
  have hr := (h (l + k - 1) (by omega)).mpr ⟨by omega, by omega⟩
  have h1 : xs.countP (fun x => decide (x < a)) = l := by
    refine countP_prefix _ xs l (by omega) fun i hi => ?_
    rw [decide_eq_true_eq]
    constructor
    · intro hlt
      by_contra hge
      rcases Nat.lt_or_ge l i with hc | hc
      · exact absurd (hl.1.trans (mono l i (by omega) hi hc).le) (not_le.mpr hlt)
      · have : i = l := by omega
        subst this
        exact absurd hl.1 (not_le.mpr hlt)
    · intro hlt
      by_contra hge
      have := (h i hi).mp ⟨not_lt.mp hge, (mono i l hi (by omega) hlt).le.trans hl.2⟩
      omega
  have h2 : xs.countP (fun x => decide (x ≤ b)) = l + k := by
    refine countP_prefix _ xs (l + k) (by omega) fun i hi => ?_
    rw [decide_eq_true_eq]
    constructor
    · intro hle
      by_contra hge
      have := (h i hi).mp ⟨hl.1.trans (mono l i (by omega) hi (by omega)).le, hle⟩
      omega
    · intro hlt
      rcases Nat.lt_or_ge i (l + k - 1) with hc | hc
      · exact (mono i _ hi (by omega) hc).le.trans hr.2
      · have : i = l + k - 1 := by omega
        subst this
        exact hr.2
  unfold labelSlice
  rw [if_pos (hx.imp fun h => h.le)]
  simp only
  rw [h1, h2, Nat.add_sub_cancel_left]

theorem labelSlice_dec (xs : List κ) (hx : xs.Pairwise (· > ·)) (h2 : 2 ≤ xs.length) (a b : κ) (l k : ℕ) (hk : 0 < k)
    (hlen : l + k ≤ xs.length)
    (h : ∀ j (hj : j < xs.length), (b ≤ xs[j] ∧ xs[j] ≤ a) ↔ (l ≤ j ∧ j < l + k)) :
    labelSlice xs a b = .ok (List.range' l k) := by
  have mono : ∀ i j (hi : i < xs.length) (hj : j < xs.length), i < j → xs[j] < xs[i] :=
    fun i j hi hj hij => List.pairwise_iff_getElem.mp hx i j hi hj hij
  have hl := (h l (by omega)).mpr ⟨le_rfl, by omega⟩
  have hr := (h (l + k - 1) (by omega)).mpr ⟨by omega, by omega⟩
  have h1 : xs.countP (fun x => decide (a < x)) = l := by
    refine countP_prefix _ xs l (by omega) fun i hi => ?_
    rw [decide_eq_true_eq]
    constructor
    · intro hlt
      by_contra hge
      rcases Nat.lt_or_ge l i with hc | hc
      · exact absurd ((mono l i (by omega) hi hc).le.trans hl.2) (not_le.mpr hlt)
      · have : i = l := by omega
        subst this
        exact absurd hl.2 (not_le.mpr hlt)
    · intro hlt
      by_contra hge
      have := (h i hi).mp ⟨hl.1.trans (mono i l hi (by omega) hlt).le, not_lt.mp hge⟩
      omega
  have h2' : xs.countP (fun x => decide (b ≤ x)) = l + k := by
    refine countP_prefix _ xs (l + k) (by omega) fun i hi => ?_
    rw [decide_eq_true_eq]
    constructor
    · intro hle
      by_contra hge
      have := (h i hi).mp ⟨hle, (mono l i (by omega) hi (by omega)).le.trans hl.2⟩
      omega
    · intro hlt
      rcases Nat.lt_or_ge i (l + k - 1) with hc | hc
      · exact hr.1.trans (mono i _ hi (by omega) hc).le
      · have : i = l + k - 1 := by omega
        subst this
        exact hr.1
  unfold labelSlice
  rw [if_neg, if_pos (hx.imp fun h => le_of_lt h)]
  · simp only
    rw [h1, h2', Nat.add_sub_cancel_left]
  · intro hp
    have := List.pairwise_iff_getElem.mp hp 0 1 (by omega) (by omega) (by omega)
    exact absurd this (not_le.mpr (mono 0 1 (by omega) (by omega) (by omega)))

end Lists

section
variable {m n M N : ℕ} {K : Type} [Field K] [LinearOrder K] [IsStrictOrderedRing K]

theorem spaced (xs : List K) (d : K) (h : ∀ i (h : i + 1 < xs.length), xs[i + 1] = xs[i] + d) :
    ∀ i k (hi : i + k < xs.length), xs[i + k] = xs[i]'(by omega) + k * d := by
  intro i k
  induction k with
  | zero => intro hi; simp
  | succ k ih =>
    intro hi
    have := h (i + k) (by omega)
    refine this.trans ?_
    rw [ih (by omega)]
    push_cast
    ring

theorem spaced_inc (xs : List K) (d : K) (hd : 0 < d) (h : ∀ i (h : i + 1 < xs.length), xs[i + 1] = xs[i] + d) :
    xs.Pairwise (· < ·) := by
  rw [List.pairwise_iff_getElem]
  intro i j hi hj hij
  obtain ⟨k, rfl⟩ := Nat.exists_eq_add_of_lt hij
  have := spaced xs d h i (k + 1) (by omega)
  have e : i + k + 1 = i + (k + 1) := by omega
  simp only [e]
  rw [this]
  have : (0 : K) < ((k + 1 : ℕ) : K) * d := by positivity
  linarith

theorem spaced_dec (xs : List K) (d : K) (hd : 0 < d) (h : ∀ i (h : i + 1 < xs.length), xs[i + 1] = xs[i] - d) :
    xs.Pairwise (· > ·) := by
  rw [List.pairwise_iff_getElem]
  intro i j hi hj hij
  obtain ⟨k, rfl⟩ := Nat.exists_eq_add_of_lt hij
  have := spaced xs (-d) (fun i h' => by rw [h i h']; ring) i (k + 1) (by omega)
  have e : i + k + 1 = i + (k + 1) := by omega
  simp only [e]
  rw [this]
  have : (0 : K) < ((k + 1 : ℕ) : K) * d := by positivity
  have e2 : ((k + 1 : ℕ) : K) * -d = - (((k + 1 : ℕ) : K) * d) := by ring
  rw [e2]
  show _ < _
  linarith

variable {files : List Char → Except Err (DataFile K K)} {lat lon : List K} {dy dx : K}

/-- cutting the box out of a dataset on the grid -/
theorem select {β : Type} (p : Place m n M N) {box : BoundingBox K} (hg : OneGrid files lat lon M N dy dx)
    (hb : IsBox p box lat lon) (ds : Dataset K β) (hlat : ds.latitude = lat) (hlon : ds.longitude = lon) :
    selectSubdomain ds box = .ok (ds.isel (List.range' p.row (m + 2)) (List.range' p.col (n + 2))) := by
  have hp := p.rows
  have hq := p.cols
  have hr := hg.rows
  have hc := hg.cols
  unfold selectSubdomain
  rw [if_pos hb.plain, hlat, hlon,
    labelSlice_inc lon (spaced_inc _ _ hg.dx_pos hg.lon_spaced) _ _ p.col (n + 2) (by omega) (by omega) hb.cols,
    labelSlice_dec lat (spaced_dec _ _ hg.dy_pos hg.lat_spaced) (by omega) _ _ p.row (m + 2) (by omega) (by omega) hb.rows]
  rfl

theorem range'_getD (l k i : ℕ) (hi : i < k) : (List.range' l k).getD i 0 = l + i := by
  rw [List.getD_eq_getElem?_getD, List.getElem?_range' hi]
  simp

/-- the rows and columns of the small grid -/
def trim {β : Type} (p : Place m n M N) (ds : Dataset K β) : Dataset K β :=
  ds.isel (List.range' p.row (m + 2)) (List.range' p.col (n + 2))

theorem selectTime_grid (hg : OneGrid files lat lon M N dy dx) {name} {file : DataFile K K} (hf : files name = .ok file)
    {time : List Char} {ds : Dataset K K} (h : selectTime file time = .ok ds) : ds.latitude = lat ∧ ds.longitude = lon := by
  unfold selectTime at h
  split at h
  · next e he =>
    injection h with h
    subst h
    refine hg.same _ _ hf e ?_
    have : e ∈ [e] := List.mem_singleton.mpr rfl
    rw [← he] at this
    exact (List.mem_filter.mp this).1
  · exact nomatch h

theorem readSlice_domain (p : Place m n M N) {box : BoundingBox K} (hg : OneGrid files lat lon M N dy dx)
    (hb : IsBox p box lat lon) (name time : List Char) (sub : Subset) :
    readSlice files ⟨name, time, sub, some box⟩ = (readSlice files ⟨name, time, sub, none⟩).map (trim p) ∧
      ∀ ds, readSlice files ⟨name, time, sub, none⟩ = .ok ds → ds.latitude = lat ∧ ds.longitude = lon := by
  unfold readSlice
  simp only
  rcases hf : files name with e | file
  · exact ⟨rfl, fun ds h => nomatch h⟩
  simp only [bind, Except.bind]
  rcases hs : selectTime file time with e | ds
  · exact ⟨rfl, fun ds h => nomatch h⟩
  simp only
  have hgrid := selectTime_grid hg hf hs
  rcases hv : ds.getVars sub.variables with e | dv
  · exact ⟨rfl, fun ds h => nomatch h⟩
  simp only
  have hdv : dv.latitude = lat ∧ dv.longitude = lon := by
    unfold Dataset.getVars at hv
    split at hv
    · injection hv with hv
      subst hv
      exact hgrid
    · exact nomatch hv
  rw [select p hg hb dv hdv.1 hdv.2]
  refine ⟨rfl, fun ds h => ?_⟩
  injection h with h
  subst h
  exact hdv

theorem loadData_domain (p : Place m n M N) {box : BoundingBox K} (hg : OneGrid files lat lon M N dy dx)
    (hb : IsBox p box lat lon) (io : IOConfig K) (t : ℤ) (sub : Subset) :
    loadData files { io with tracking_domain := some box } t sub =
      (loadData files { io with tracking_domain := none } t sub).map (trim p) ∧
      ∀ ds, loadData files { io with tracking_domain := none } t sub = .ok ds → ds.latitude = lat ∧ ds.longitude = lon := by
  have key := fun s => readSlice_domain p hg hb (inputPath io.calendar s io.preprocessed_data_folder)
    (isoSecondString (dateTimeOf io.calendar s)) sub
  unfold loadData loadDataWith
  simp only [sliceKey]
  split
  · exact ⟨(key t).1, (key t).2⟩
  · rw [(key _).1, (key (ceilTime t io.input_frequency)).1]
    have k0 := (key (floorTime t io.input_frequency)).2
    rcases h0 : readSlice files ⟨inputPath io.calendar (floorTime t io.input_frequency) io.preprocessed_data_folder,
        isoSecondString (dateTimeOf io.calendar (floorTime t io.input_frequency)), sub, none⟩ with e | d0
    · exact ⟨rfl, fun ds h => nomatch h⟩
    rcases h1 : readSlice files ⟨inputPath io.calendar (ceilTime t io.input_frequency) io.preprocessed_data_folder,
        isoSecondString (dateTimeOf io.calendar (ceilTime t io.input_frequency)), sub, none⟩ with e | d1
    · exact ⟨rfl, fun ds h => nomatch h⟩
    refine ⟨rfl, fun ds h => ?_⟩
    injection h with h
    subst h
    exact k0 d0 h0

theorem trim_data (p : Place m n M N) (ds : Dataset K K) (v : Var) (i : Fin (m + 2)) (j : Fin (n + 2)) :
    (trim p ds).data v i j = ds.data v (p.r i) (p.c j) := by
  show ds.data v ((List.range' p.row (m + 2)).getD i 0) ((List.range' p.col (n + 2)).getD j 0) = _
  rw [range'_getD _ _ _ i.isLt, range'_getD _ _ _ j.isLt]
  rfl

theorem drop_take_getD (xs : List K) (l k i : ℕ) (hi : i < k) (d : K) : ((xs.drop l).take k).getD i d = xs.getD (l + i) d := by
  rw [List.getD_eq_getElem?_getD, List.getElem?_take_of_lt hi, List.getElem?_drop, List.getD_eq_getElem?_getD]

theorem getD_mem (xs : List K) (d : K) {l : ℕ} (h : l < xs.length) : xs.getD l d = xs[l] := by
  rw [List.getD_eq_getElem?_getD, List.getElem?_eq_getElem h, Option.getD_some]

theorem trim_lat (p : Place m n M N) {β : Type} (ds : Dataset K β) : (trim p ds).latitude = (ds.latitude.drop p.row).take (m + 2) :=
  filterMap_range' _ _ _

theorem trim_lon (p : Place m n M N) {β : Type} (ds : Dataset K β) : (trim p ds).longitude = (ds.longitude.drop p.col).take (n + 2) :=
  filterMap_range' _ _ _

/-- the grid information of the part -/
theorem grid_cut [NpTrig K] (p : Place m n M N) (hg : OneGrid files lat lon M N dy dx) :
    getGridInfo (fun i : Fin (m + 2) => ((lat.drop p.row).take (m + 2)).getD i (ofRat 0))
      (fun j : Fin (n + 2) => ((lon.drop p.col).take (n + 2)).getD j (ofRat 0)) =
      p.cutGrid (getGridInfo (fun i : Fin (M + 2) => lat.getD i (ofRat 0)) fun j : Fin (N + 2) => lon.getD j (ofRat 0)) := by
  have hp := p.rows
  have hq := p.cols
  have hr := hg.rows
  have hc := hg.cols
  have e1 : (fun i : Fin (m + 2) => ((lat.drop p.row).take (m + 2)).getD i (ofRat 0)) =
      fun i => lat.getD (p.r i) (ofRat 0 : K) := funext fun i => drop_take_getD _ _ _ _ i.isLt _
  have e2 : (fun j : Fin (n + 2) => ((lon.drop p.col).take (n + 2)).getD j (ofRat 0)) =
      fun j => lon.getD (p.c j) (ofRat 0 : K) := funext fun i => drop_take_getD _ _ _ _ i.isLt _
  have ex : ∀ l, l + 1 < lon.length → lon.getD (l + 1) (ofRat 0) - lon.getD l (ofRat 0) = dx := by
    intro l hl
    rw [getD_mem _ _ hl, getD_mem _ _ (by omega : l < lon.length), hg.lon_spaced l hl]
    ring
  have ey : ∀ l, l + 1 < lat.length → lat.getD (l + 1) (ofRat 0) - lat.getD l (ofRat 0) = - dy := by
    intro l hl
    rw [getD_mem _ _ hl, getD_mem _ _ (by omega : l < lat.length), hg.lat_spaced l hl]
    ring
  have x1 : lon.getD (p.c 1) (ofRat 0) - lon.getD (p.c 0) (ofRat 0) = dx := ex p.col (by omega)
  have x2 : lon.getD (1 : Fin (N + 2)) (ofRat 0) - lon.getD (0 : Fin (N + 2)) (ofRat 0) = dx := ex 0 (by omega)
  have y1 : lat.getD (p.r 1) (ofRat 0) - lat.getD (p.r 0) (ofRat 0) = - dy := ey p.row (by omega)
  have y2 : lat.getD (1 : Fin (M + 2)) (ofRat 0) - lat.getD (0 : Fin (M + 2)) (ofRat 0) = - dy := ey 0 (by omega)
  rw [e1, e2]
  unfold getGridInfo Place.cutGrid
  simp only [x1, x2, y1, y2]

/-- the tagging region of the part -/
theorem region_cut (p : Place m n M N) {box : BoundingBox K} (hg : OneGrid files lat lon M N dy dx)
    (hb : IsBox p box lat lon) (tag : TaggingRegion K K) (ht : RegionOn tag lat lon) :
    (trackingRegion (some box) tag ((lat.drop p.row).take (m + 2)) ((lon.drop p.col).take (n + 2)) :
      Except Err (Region (m + 2) (n + 2) K)) = (trackingRegion none tag lat lon).map p.cutRegion := by
  cases tag with
  | box b =>
    unfold trackingRegion
    simp only [Except.map]
    congr 2
    funext i j
    rw [drop_take_getD _ _ _ _ i.isLt, drop_take_getD _ _ _ _ j.isLt]
    rfl
  | file content =>
    rcases content with e | r
    · rfl
    · obtain ⟨hlat, hlon⟩ := ht r rfl
      have hsel : selectRegion r box = .ok { r with
          latitude := (lat.drop p.row).take (m + 2)
          longitude := (lon.drop p.col).take (n + 2)
          mask := fun t i j => r.mask t ((List.range' p.row (m + 2)).getD i 0) ((List.range' p.col (n + 2)).getD j 0) } := by
        unfold selectRegion
        rw [select p hg hb _ hlat hlon]
        simp only [bind, Except.bind, pure, Except.pure]
        congr 2
        · rw [← hlat]; exact trim_lat p (⟨r.latitude, r.longitude, [], fun _ i j => (i, j)⟩ : Dataset K (ℕ × ℕ))
        · rw [← hlon]; exact trim_lon p (⟨r.latitude, r.longitude, [], fun _ i j => (i, j)⟩ : Dataset K (ℕ × ℕ))
      have hmask : ∀ k, (fun (i : Fin (m + 2)) (j : Fin (n + 2)) => r.mask k ((List.range' p.row (m + 2)).getD i 0)
          ((List.range' p.col (n + 2)).getD j 0)) = p.cut fun I J => r.mask k I J := by
        intro k
        funext i j
        rw [range'_getD _ _ _ i.isLt, range'_getD _ _ _ j.isLt]
        rfl
      unfold trackingRegion loadTaggingRegion
      simp only [bind, Except.bind, hsel]
      rcases hr : r.time with _ | times
      · simp only [regionOnGrid, hlat, hlon, and_self, if_true, Except.map]
        congr 2
        exact hmask 0
      · simp only [Except.map]
        congr 2
        funext t
        unfold regionAt
        simp only [hr]
        rcases nearestMask (times.zip (List.range times.length)) t with e | k
        · rfl
        · simp only [bind, Except.bind, pure, Except.pure, regionOnGrid, hlat, hlon, and_self, if_true]
          congr 1
          exact hmask k

/-- Everything a run with the tracking domain reads is the part of what the run without reads. -/
theorem experiment_cut [NpTrig K] (p : Place m n M N) {box : BoundingBox K} (hg : OneGrid files lat lon M N dy dx)
    (hb : IsBox p box lat lon) (io : IOConfig K) (tag : TaggingRegion K K) (ht : RegionOn tag lat lon) (first : ℤ)
    (hfirst : ∃ ds, loadData files { io with tracking_domain := none } first .states = .ok ds) :
    (experimentSource files { io with tracking_domain := some box } tag first : Source m n K) =
      p.cutSource (experimentSource files { io with tracking_domain := none } tag first) := by
  obtain ⟨ds, hds⟩ := hfirst
  have hl := loadData_domain p hg hb io
  have hst : ∀ t, (loadData files { io with tracking_domain := some box } t .states).map (Dataset.toStates (m := m) (n := n)) =
      ((loadData files { io with tracking_domain := none } t .states).map Dataset.toStates).map p.cutStates := by
    intro t
    rw [(hl t .states).1]
    rcases loadData files { io with tracking_domain := none } t .states with e | d
    · rfl
    · simp only [Except.map, Dataset.toStates, Place.cutStates, trim_data]
      rfl
  have hfl : ∀ t, (loadData files { io with tracking_domain := some box } t .fluxes).map (Dataset.toFluxes (m := m) (n := n)) =
      ((loadData files { io with tracking_domain := none } t .fluxes).map Dataset.toFluxes).map p.cutFluxes := by
    intro t
    rw [(hl t .fluxes).1]
    rcases loadData files { io with tracking_domain := none } t .fluxes with e | d
    · rfl
    · simp only [Except.map, Dataset.toFluxes, Place.cutFluxes, trim_data]
      rfl
  obtain ⟨e1, e2⟩ := (hl first .states).2 ds hds
  have hd' : loadData files { io with tracking_domain := some box } first .states = .ok (trim p ds) := by
    rw [(hl first .states).1, hds]
    rfl
  unfold experimentSource archiveSource Place.cutSource
  simp only [hds, hd', trim_lat, trim_lon, e1, e2]
  congr 1
  · funext t; exact hst t
  · funext t; exact hfl t
  · exact grid_cut p hg
  · exact region_cut p hg hb tag ht
  · funext i
    rw [drop_take_getD _ _ _ _ i.isLt]
    rfl

end

end Wam.Domain
