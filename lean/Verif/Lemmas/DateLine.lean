import Verif.Lemmas.Domain
import Verif.Spec.DateLine

set_option linter.unusedSectionVars false
set_option linter.unusedVariables false

/-! # Loading a tracking domain across the date line -/

namespace Wam.DateLine
open Spec Domain

section
variable {m n M N : ℕ} {K : Type} [Field K] [LinearOrder K] [IsStrictOrderedRing K]
  {files : List Char → Except Err (DataFile K K)} {lat lon : List K} {dy dx : K} {l k : ℕ}

theorem argmin_first (bs : List Bool) (k : ℕ) (hk : k < bs.length) (h : ∀ i (hi : i < bs.length), i < k → bs[i] = true)
    (hf : bs[k] = false) : argminBool bs = k := by
  unfold argminBool
  rw [if_pos (by rw [← hf]; exact List.getElem_mem hk)]
  apply le_antisymm
  · by_contra hc
    have hlt : k < bs.idxOf false := by omega
    have := List.not_of_lt_findIdx (p := (· == false)) (xs := bs) (i := k) hlt
    simp [hf] at this
  · by_contra hc
    have hlt : bs.idxOf false < bs.length := by omega
    have e := List.getElem_idxOf hlt
    have := h _ hlt (by omega)
    rw [this] at e
    exact Bool.noConfusion e

theorem filter_range_ge (a s : ℕ) (ha : a ≤ s) (q : ℕ → Bool) (h : ∀ j < s, q j = decide (a ≤ j)) :
    (List.range s).filter q = List.range' a (s - a) := by
  have e : List.range s = List.range a ++ List.range' a (s - a) := by
    have h := List.range'_append_1 (s := 0) (m := a) (n := s - a)
    rw [Nat.zero_add, Nat.add_sub_cancel' ha] at h
    rw [List.range_eq_range', List.range_eq_range', h]
  rw [e, List.filter_append]
  have h1 : (List.range a).filter q = [] := by
    rw [List.filter_eq_nil_iff]
    intro j hj
    rw [List.mem_range] at hj
    rw [h j (by omega)]
    simp; omega
  have h2 : (List.range' a (s - a)).filter q = List.range' a (s - a) := by
    rw [List.filter_eq_self]
    intro j hj
    rw [List.mem_range'_1] at hj
    rw [h j (by omega)]
    simp; omega
  rw [h1, h2, List.nil_append]

/-- the rows and columns of the small grid, the columns counted around the globe from the western end of the box -/
def arc {β : Type} (p : Place m n M N) (l : ℕ) (ds : Dataset K β) : Dataset K β :=
  (ds.isel (List.range ds.latitude.length) ((List.range ds.longitude.length).rotate (n + 2 - l))).isel
    (List.range' p.row (m + 2)) (List.range' (N - n) (n + 2))

/-- cutting the box out of a dataset on the grid -/
theorem select {β : Type} (p : Place m n M N) {box : BoundingBox K} (hg : OneGrid files lat lon M N dy dx)
    (hb : AcrossDateLine p box lat lon l k) (ds : Dataset K β) (hlat : ds.latitude = lat) (hlon : ds.longitude = lon) :
    selectSubdomain ds box = .ok (arc p l ds) := by
  have hp := p.rows
  have hr := hg.rows
  have hc := hg.cols
  have hsz := hb.size
  have hout := hb.outside
  have hk : n + 2 - l = k := by omega
  have hroll : argminBool (lon.map (inBox box.west box.east)) = k := by
    refine argmin_first _ k (by rw [List.length_map]; omega) ?_ ?_
    · intro i hi hik
      rw [List.getElem_map]
      unfold inBox
      rw [List.length_map] at hi
      rw [decide_eq_true ((hb.east i hi).mpr hik), Bool.true_or]
    · rw [List.getElem_map]
      unfold inBox
      have h1 := hb.east k (by omega)
      have h2 := hb.west k (by omega)
      rw [decide_eq_false (fun h => absurd (h1.mp h) (by omega)), decide_eq_false (fun h => absurd (h2.mp h) (by omega))]
      rfl
  unfold selectSubdomain
  rw [if_neg (not_lt.mpr hb.crosses)]
  simp only [hlon, hroll]
  have e1 : (ds.isel (List.range ds.latitude.length) ((List.range lon.length).rotate k)).longitude = lon.rotate k := by
    show ((List.range lon.length).rotate k).filterMap (fun j => ds.longitude[j]?) = _
    rw [hlon]; exact filterMap_rotate _ _
  have e2 : (ds.isel (List.range ds.latitude.length) ((List.range lon.length).rotate k)).latitude = lat := by
    show (List.range ds.latitude.length).filterMap (fun j => ds.latitude[j]?) = _
    rw [hlat, List.range_eq_range', filterMap_range']
    simp
  rw [e1, e2, labelSlice_dec lat (spaced_dec _ _ hg.dy_pos hg.lat_spaced) (by omega) _ _ p.row (m + 2) (by omega) (by omega) hb.rows]
  have e3 : (List.range ((lon.rotate k).map (inBox box.west box.east)).length).filter
      (fun j => ((lon.rotate k).map (inBox box.west box.east)).getD j false) = List.range' (N - n) (n + 2) := by
    rw [filter_range_ge (N - n)]
    · rw [List.length_map, List.length_rotate]; congr 1; omega
    · rw [List.length_map, List.length_rotate]; omega
    · intro j hj
      rw [List.length_map, List.length_rotate] at hj
      rw [List.getD_eq_getElem?_getD, List.getElem?_eq_getElem (by rw [List.length_map, List.length_rotate]; exact hj), Option.getD_some,
        List.getElem_map, List.getElem_rotate]
      have hlt : (j + k) % lon.length < lon.length := Nat.mod_lt _ (by omega)
      have h1 := hb.east _ hlt
      have h2 := hb.west _ hlt
      unfold inBox
      by_cases hj' : j + k < lon.length
      · have hm : (j + k) % lon.length = j + k := Nat.mod_eq_of_lt hj'
        by_cases ha : N - n ≤ j
        · rw [decide_eq_true (h2.mpr (by rw [hm]; omega)), Bool.or_true, decide_eq_true ha]
        · rw [decide_eq_false (fun h => absurd (h1.mp h) (by rw [hm]; omega)),
            decide_eq_false (fun h => absurd (h2.mp h) (by rw [hm]; omega)), decide_eq_false ha]
          rfl
      · have hm : (j + k) % lon.length = j + k - lon.length := by
          rw [Nat.mod_eq_sub_mod (by omega), Nat.mod_eq_of_lt (by omega)]
        rw [decide_eq_true (h1.mpr (by rw [hm]; omega)), Bool.true_or, decide_eq_true (by omega)]
  simp only [bind, Except.bind, pure, Except.pure, e3]
  unfold arc
  rw [hlon, hk]

theorem readSlice_across (p : Place m n M N) {box : BoundingBox K} (hg : OneGrid files lat lon M N dy dx)
    (hb : AcrossDateLine p box lat lon l k) (name time : List Char) (sub : Subset) :
    readSlice files ⟨name, time, sub, some box⟩ = (readSlice files ⟨name, time, sub, none⟩).map (arc p l) ∧
      ∀ ds, readSlice files ⟨name, time, sub, none⟩ = .ok ds → ds.latitude = lat ∧ ds.longitude = lon := by
  unfold readSlice
  simp only
  rcases hf : files name with e | file
  · exact ⟨rfl, fun ds h => nomatch h⟩
  simp only [bind, Except.bind]
  rcases hs : selectTime file time with e | ds
  · exact ⟨rfl, fun ds h => nomatch h⟩
  simp only
  have hgrid := selectTime_grid hg hf hs
  rcases hv : ds.getVars sub.variables with e | dv
  · exact ⟨rfl, fun ds h => nomatch h⟩
  simp only
  have hdv : dv.latitude = lat ∧ dv.longitude = lon := by
    unfold Dataset.getVars at hv
    split at hv
    · injection hv with hv
      subst hv
      exact hgrid
    · exact nomatch hv
  rw [select p hg hb dv hdv.1 hdv.2]
  refine ⟨rfl, fun ds h => ?_⟩
  injection h with h
  subst h
  exact hdv

theorem lerp_arc (p : Place m n M N) (w : K) (d0 d1 : Dataset K K) (h : d0.latitude = d1.latitude ∧ d0.longitude = d1.longitude) :
    Dataset.lerp w (arc p l d0) (arc p l d1) = arc p l (Dataset.lerp w d0 d1) := by
  unfold Dataset.lerp arc Dataset.isel
  simp only [h.1, h.2]

theorem loadData_across (p : Place m n M N) {box : BoundingBox K} (hg : OneGrid files lat lon M N dy dx)
    (hb : AcrossDateLine p box lat lon l k) (io : IOConfig K) (t : ℤ) (sub : Subset) :
    loadData files { io with tracking_domain := some box } t sub =
      (loadData files { io with tracking_domain := none } t sub).map (arc p l) ∧
      ∀ ds, loadData files { io with tracking_domain := none } t sub = .ok ds → ds.latitude = lat ∧ ds.longitude = lon := by
  have key := fun s => readSlice_across p hg hb (inputPath io.calendar s io.preprocessed_data_folder)
    (isoSecondString (dateTimeOf io.calendar s)) sub
  unfold loadData loadDataWith
  simp only [sliceKey]
  split
  · exact ⟨(key t).1, (key t).2⟩
  · rw [(key _).1, (key (ceilTime t io.input_frequency)).1]
    have k0 := (key (floorTime t io.input_frequency)).2
    have k1 := (key (ceilTime t io.input_frequency)).2
    rcases h0 : readSlice files ⟨inputPath io.calendar (floorTime t io.input_frequency) io.preprocessed_data_folder,
        isoSecondString (dateTimeOf io.calendar (floorTime t io.input_frequency)), sub, none⟩ with e | d0
    · exact ⟨rfl, fun ds h => nomatch h⟩
    rcases h1 : readSlice files ⟨inputPath io.calendar (ceilTime t io.input_frequency) io.preprocessed_data_folder,
        isoSecondString (dateTimeOf io.calendar (ceilTime t io.input_frequency)), sub, none⟩ with e | d1
    · exact ⟨rfl, fun ds h => nomatch h⟩
    refine ⟨?_, fun ds h => ?_⟩
    · have a := k0 d0 h0
      have b := k1 d1 h1
      exact congrArg Except.ok (lerp_arc p _ d0 d1 ⟨a.1.trans b.1.symm, a.2.trans b.2.symm⟩)
    · injection h with h
      subst h
      exact k0 d0 h0

/-- position of column `j` of the domain in the rolled data -/
theorem roll_getD (s r j : ℕ) (hj : j < s) : ((List.range s).rotate r).getD j 0 = (j + r) % s := by
  rw [List.getD_eq_getElem?_getD, List.getElem?_eq_getElem (by simpa using hj), Option.getD_some, List.getElem_rotate, List.getElem_range,
    List.length_range]

theorem column (p : Place m n M N) (hfirst : p.col = 0) (hl : l ≤ n + 2) (hn : n < N) (j : Fin (n + 2)) :
    (p.c j + firstColumn N l).val = (N - n + j + (n + 2 - l)) % (N + 2) := by
  rw [Fin.val_add]
  show (p.col + j.val + (N + 2 - l) % (N + 2)) % (N + 2) = _
  rw [hfirst, Nat.zero_add, Nat.add_mod_mod]
  congr 1
  omega

theorem arc_data (p : Place m n M N) (hg : OneGrid files lat lon M N dy dx) (hfirst : p.col = 0) (hl : l ≤ n + 2) (hn : n < N)
    {β : Type} (ds : Dataset K β) (hlat : ds.latitude = lat) (hlon : ds.longitude = lon) (v : Var) (i : Fin (m + 2)) (j : Fin (n + 2)) :
    (arc p l ds).data v i j = ds.data v (p.r i) (p.c j + firstColumn N l).val := by
  have hp := p.rows
  have hr := hg.rows
  have hc := hg.cols
  show ds.data v ((List.range ds.latitude.length).getD ((List.range' p.row (m + 2)).getD i 0) 0)
    (((List.range ds.longitude.length).rotate (n + 2 - l)).getD ((List.range' (N - n) (n + 2)).getD j 0) 0) = _
  have hi := i.isLt
  have hj := j.isLt
  rw [range'_getD _ _ _ hi, range'_getD _ _ _ hj, hlat, hlon, hr, hc, roll_getD _ _ _ (by omega), column p hfirst hl hn]
  congr 1
  rw [List.getD_eq_getElem?_getD, List.getElem?_eq_getElem (by rw [List.length_range]; omega), Option.getD_some, List.getElem_range]
  rfl

theorem arc_lat (p : Place m n M N) {β : Type} (ds : Dataset K β) (hlat : ds.latitude = lat) :
    (arc p l ds).latitude = (lat.drop p.row).take (m + 2) := by
  have e : (ds.isel (List.range ds.latitude.length) ((List.range ds.longitude.length).rotate (n + 2 - l))).latitude = lat := by
    show (List.range ds.latitude.length).filterMap (fun j => ds.latitude[j]?) = _
    rw [hlat, List.range_eq_range', filterMap_range']
    simp
  show (List.range' p.row (m + 2)).filterMap (fun i => (Dataset.latitude _)[i]?) = _
  rw [e]
  exact filterMap_range' _ _ _

theorem arc_lon (p : Place m n M N) {β : Type} (ds : Dataset K β) (hlon : ds.longitude = lon) :
    (arc p l ds).longitude = ((lon.rotate (n + 2 - l)).drop (N - n)).take (n + 2) := by
  have e : (ds.isel (List.range ds.latitude.length) ((List.range ds.longitude.length).rotate (n + 2 - l))).longitude =
      lon.rotate (n + 2 - l) := by
    show ((List.range ds.longitude.length).rotate (n + 2 - l)).filterMap (fun j => ds.longitude[j]?) = _
    rw [hlon]; exact filterMap_rotate _ _
  show (List.range' (N - n) (n + 2)).filterMap (fun i => (Dataset.longitude _)[i]?) = _
  rw [e]
  exact filterMap_range' _ _ _

/-- longitude of column `j` of the domain -/
theorem arc_lon_getD (p : Place m n M N) (hg : OneGrid files lat lon M N dy dx) (hfirst : p.col = 0) (hl : l ≤ n + 2) (hn : n < N)
    (j : Fin (n + 2)) (d : K) :
    (((lon.rotate (n + 2 - l)).drop (N - n)).take (n + 2)).getD j d = lon.getD (p.c j + firstColumn N l).val d := by
  have hc := hg.cols
  have hj := j.isLt
  rw [drop_take_getD _ _ _ _ j.isLt, List.getD_eq_getElem?_getD, List.getElem?_eq_getElem (by rw [List.length_rotate]; omega),
    Option.getD_some, List.getElem_rotate, column p hfirst hl hn, List.getD_eq_getElem?_getD]
  have h : (N - n + j + (n + 2 - l)) % lon.length < lon.length := Nat.mod_lt _ (by omega)
  rw [hc] at h
  rw [List.getElem?_eq_getElem (by rw [hc]; exact h), Option.getD_some]
  simp only [hc]

/-- the grid information of the domain, unless it has exactly one column west of the date line -/
theorem grid_across [NpTrig K] (p : Place m n M N) (hg : OneGrid files lat lon M N dy dx) (hfirst : p.col = 0) (hl : l ≤ n + 2)
    (hn : n < N) (h1 : l ≠ 1) :
    getGridInfo (fun i : Fin (m + 2) => ((lat.drop p.row).take (m + 2)).getD i (ofRat 0))
      (fun j : Fin (n + 2) => (((lon.rotate (n + 2 - l)).drop (N - n)).take (n + 2)).getD j (ofRat 0)) =
      p.cutGrid (getGridInfo (fun i : Fin (M + 2) => lat.getD i (ofRat 0)) fun j : Fin (N + 2) => lon.getD j (ofRat 0)) := by
  have hp := p.rows
  have hr := hg.rows
  have hc := hg.cols
  have e1 : (fun i : Fin (m + 2) => ((lat.drop p.row).take (m + 2)).getD i (ofRat 0)) =
      fun i => lat.getD (p.r i) (ofRat 0 : K) := funext fun i => drop_take_getD _ _ _ _ i.isLt _
  have e2 : (fun j : Fin (n + 2) => (((lon.rotate (n + 2 - l)).drop (N - n)).take (n + 2)).getD j (ofRat 0)) =
      fun j => lon.getD (p.c j + firstColumn N l).val (ofRat 0 : K) := funext fun j => arc_lon_getD p hg hfirst hl hn j _
  have ex : ∀ l, l + 1 < lon.length → lon.getD (l + 1) (ofRat 0) - lon.getD l (ofRat 0) = dx := by
    intro l hl
    rw [getD_mem _ _ hl, getD_mem _ _ (by omega : l < lon.length), hg.lon_spaced l hl]
    ring
  have ey : ∀ l, l + 1 < lat.length → lat.getD (l + 1) (ofRat 0) - lat.getD l (ofRat 0) = - dy := by
    intro l hl
    rw [getD_mem _ _ hl, getD_mem _ _ (by omega : l < lat.length), hg.lat_spaced l hl]
    ring
  have c0 : (p.c 0 + firstColumn N l).val = (N + 2 - l) % (N + 2) := by
    rw [column p hfirst hl hn]; congr 1; show N - n + 0 + _ = _; omega
  have c1 : (p.c 1 + firstColumn N l).val = (N + 2 - l) % (N + 2) + 1 := by
    rw [column p hfirst hl hn]
    show (N - n + 1 + (n + 2 - l)) % (N + 2) = _
    have : N - n + 1 + (n + 2 - l) = (N + 2 - l) + 1 := by omega
    rw [this]
    by_cases h0 : l = 0
    · subst h0
      rw [Nat.sub_zero, Nat.mod_self, Nat.add_mod_left, Nat.mod_eq_of_lt (by omega)]
    · rw [Nat.mod_eq_of_lt (by omega), Nat.mod_eq_of_lt (by omega)]
  have x1 : lon.getD (p.c 1 + firstColumn N l).val (ofRat 0) - lon.getD (p.c 0 + firstColumn N l).val (ofRat 0) = dx := by
    rw [c0, c1]
    refine ex _ ?_
    have := (p.c 1 + firstColumn N l).isLt
    omega
  have x2 : lon.getD (1 : Fin (N + 2)) (ofRat 0) - lon.getD (0 : Fin (N + 2)) (ofRat 0) = dx := ex 0 (by omega)
  have y1 : lat.getD (p.r 1) (ofRat 0) - lat.getD (p.r 0) (ofRat 0) = - dy := ey p.row (by omega)
  have y2 : lat.getD (1 : Fin (M + 2)) (ofRat 0) - lat.getD (0 : Fin (M + 2)) (ofRat 0) = - dy := ey 0 (by omega)
  rw [e1, e2]
  unfold getGridInfo Place.cutGrid
  simp only [x1, x2, y1, y2]

/-- the grid information of a domain with one column west of the date line -/
theorem grid_across_one [NpTrig K] (p : Place m n M N) (hg : OneGrid files lat lon M N dy dx) (hfirst : p.col = 0)
    (hn : n < N) :
    getGridInfo (fun i : Fin (m + 2) => ((lat.drop p.row).take (m + 2)).getD i (ofRat 0))
      (fun j : Fin (n + 2) => (((lon.rotate (n + 2 - 1)).drop (N - n)).take (n + 2)).getD j (ofRat 0)) =
      p.cutGrid (getGridInfo (fun i : Fin (M + 2) => lat.getD i (ofRat 0)) fun j : Fin (N + 2) => ((N : K) + 1) * dx * (j.val : K)) := by
  have hp := p.rows
  have hr := hg.rows
  have hc := hg.cols
  have e1 : (fun i : Fin (m + 2) => ((lat.drop p.row).take (m + 2)).getD i (ofRat 0)) =
      fun i => lat.getD (p.r i) (ofRat 0 : K) := funext fun i => drop_take_getD _ _ _ _ i.isLt _
  have e2 : (fun j : Fin (n + 2) => (((lon.rotate (n + 2 - 1)).drop (N - n)).take (n + 2)).getD j (ofRat 0)) =
      fun j => lon.getD (p.c j + firstColumn N 1).val (ofRat 0 : K) := funext fun j => arc_lon_getD p hg hfirst (by omega) hn j _
  have ey : ∀ l, l + 1 < lat.length → lat.getD (l + 1) (ofRat 0) - lat.getD l (ofRat 0) = - dy := by
    intro l hl
    rw [getD_mem _ _ hl, getD_mem _ _ (by omega : l < lat.length), hg.lat_spaced l hl]
    ring
  have c0 : (p.c 0 + firstColumn N 1).val = N + 1 := by
    rw [column p hfirst (by omega) hn]
    show (N - n + 0 + (n + 2 - 1)) % (N + 2) = _
    rw [Nat.mod_eq_of_lt (by omega)]; omega
  have c1 : (p.c 1 + firstColumn N 1).val = 0 := by
    rw [column p hfirst (by omega) hn]
    show (N - n + 1 + (n + 2 - 1)) % (N + 2) = _
    have : N - n + 1 + (n + 2 - 1) = N + 2 := by omega
    rw [this, Nat.mod_self]
  have hs := spaced lon dx hg.lon_spaced
  have x1 : absolute (lon.getD (p.c 1 + firstColumn N 1).val (ofRat 0) - lon.getD (p.c 0 + firstColumn N 1).val (ofRat 0)) = ((N : K) + 1) * dx := by
    rw [c0, c1, getD_mem _ _ (by omega : N + 1 < lon.length), getD_mem _ _ (by omega : 0 < lon.length)]
    have h := hs 0 (N + 1) (by omega)
    simp only [Nat.zero_add] at h
    rw [h, np_abs, sub_add_cancel_left, abs_neg, abs_of_nonneg (by have := hg.dx_pos; positivity)]
    push_cast
    rfl
  have x2 : absolute (((N : K) + 1) * dx * ((1 : Fin (N + 2)).val : K) - ((N : K) + 1) * dx * ((0 : Fin (N + 2)).val : K)) = ((N : K) + 1) * dx := by
    rw [np_abs]
    show |((N : K) + 1) * dx * ((1 : ℕ) : K) - ((N : K) + 1) * dx * ((0 : ℕ) : K)| = _
    rw [Nat.cast_one, Nat.cast_zero, mul_one, mul_zero, sub_zero, abs_of_nonneg (by have := hg.dx_pos; positivity)]
  have y1 : lat.getD (p.r 1) (ofRat 0) - lat.getD (p.r 0) (ofRat 0) = - dy := ey p.row (by omega)
  have y2 : lat.getD (1 : Fin (M + 2)) (ofRat 0) - lat.getD (0 : Fin (M + 2)) (ofRat 0) = - dy := ey 0 (by omega)
  rw [e1, e2]
  unfold getGridInfo Place.cutGrid
  simp only [x1, x2, y1, y2]

/-- the tagging region of the domain -/
theorem region_across (p : Place m n M N) {box : BoundingBox K} (hg : OneGrid files lat lon M N dy dx)
    (hb : AcrossDateLine p box lat lon l k) (tag : TaggingRegion K K) (ht : RegionOn tag lat lon) :
    (trackingRegion (some box) tag ((lat.drop p.row).take (m + 2)) (((lon.rotate (n + 2 - l)).drop (N - n)).take (n + 2)) :
      Except Err (Region (m + 2) (n + 2) K)) =
      ((trackingRegion none tag lat lon).map (turnRegion (firstColumn N l))).map p.cutRegion := by
  have hf := hb.first
  have hl : l ≤ n + 2 := by have := hb.size; omega
  have hn := hb.outside
  cases tag with
  | box b =>
    unfold trackingRegion
    simp only [Except.map]
    congr 2
    funext i j
    rw [drop_take_getD _ _ _ _ i.isLt, arc_lon_getD p hg hf hl hn]
    rfl
  | file content =>
    rcases content with e | r
    · rfl
    · obtain ⟨hlat, hlon⟩ := ht r rfl
      have hsel : selectRegion r box = .ok { r with
          latitude := (lat.drop p.row).take (m + 2)
          longitude := ((lon.rotate (n + 2 - l)).drop (N - n)).take (n + 2)
          mask := fun t i j => (fun ij : ℕ × ℕ => r.mask t ij.1 ij.2)
            ((arc p l (⟨r.latitude, r.longitude, [], fun _ i j => (i, j)⟩ : Dataset K (ℕ × ℕ))).data .evap i j) } := by
        unfold selectRegion
        rw [select p hg hb _ hlat hlon]
        simp only [bind, Except.bind, pure, Except.pure]
        congr 2
        · exact arc_lat p _ hlat
        · exact arc_lon p _ hlon
      have hmask : ∀ t, (fun (i : Fin (m + 2)) (j : Fin (n + 2)) => (fun ij : ℕ × ℕ => r.mask t ij.1 ij.2)
            ((arc p l (⟨r.latitude, r.longitude, [], fun _ i j => (i, j)⟩ : Dataset K (ℕ × ℕ))).data .evap i j)) =
          p.cut (rot (firstColumn N l) fun I J => r.mask t I J) := by
        intro t
        funext i j
        rw [arc_data p hg hf hl hn _ hlat hlon]
        rfl
      unfold trackingRegion loadTaggingRegion
      simp only [bind, Except.bind, hsel]
      rcases hr : r.time with _ | times
      · simp only [regionOnGrid, hlat, hlon, and_self, if_true, Except.map]
        congr 2
        have := hmask 0
        rw [hlat, hlon] at this
        exact this
      · simp only [Except.map]
        congr 2
        funext t
        unfold regionAt
        simp only [hr]
        rcases nearestMask (times.zip (List.range times.length)) t with e | k
        · rfl
        · simp only [bind, Except.bind, pure, Except.pure, regionOnGrid, hlat, hlon, and_self, if_true]
          congr 1
          have := hmask k
          rw [hlat, hlon] at this
          exact this

/-- what a run with the domain reads, apart from the grid information -/
theorem experiment_across [NpTrig K] (p : Place m n M N) {box : BoundingBox K} (hg : OneGrid files lat lon M N dy dx)
    (hb : AcrossDateLine p box lat lon l k) (io : IOConfig K) (tag : TaggingRegion K K) (ht : RegionOn tag lat lon) (first : ℤ)
    (hfirst : ∃ ds, loadData files { io with tracking_domain := none } first .states = .ok ds) :
    (experimentSource files { io with tracking_domain := some box } tag first : Source m n K) =
      { p.cutSource (turnSource (firstColumn N l) (experimentSource files { io with tracking_domain := none } tag first)) with
        grid := getGridInfo (fun i : Fin (m + 2) => ((lat.drop p.row).take (m + 2)).getD i (ofRat 0))
          (fun j : Fin (n + 2) => (((lon.rotate (n + 2 - l)).drop (N - n)).take (n + 2)).getD j (ofRat 0)) } ∧
    (experimentSource files { io with tracking_domain := none } tag first : Source M N K).grid =
      getGridInfo (fun i : Fin (M + 2) => lat.getD i (ofRat 0)) fun j : Fin (N + 2) => lon.getD j (ofRat 0) := by
  obtain ⟨ds, hds⟩ := hfirst
  have hf := hb.first
  have hle : l ≤ n + 2 := by have := hb.size; omega
  have hn := hb.outside
  have hl := loadData_across p hg hb io
  have hst : ∀ t, (loadData files { io with tracking_domain := some box } t .states).map (Dataset.toStates (m := m) (n := n)) =
      (((loadData files { io with tracking_domain := none } t .states).map Dataset.toStates).map (turnStates (firstColumn N l))).map
        p.cutStates := by
    intro t
    rw [(hl t .states).1]
    have hg' := (hl t .states).2
    rcases hq : loadData files { io with tracking_domain := none } t .states with e | d
    · rfl
    · obtain ⟨a, b⟩ := hg' d hq
      simp only [Except.map, Dataset.toStates, Place.cutStates, arc_data p hg hf hle hn d a b]
      rfl
  have hfl : ∀ t, (loadData files { io with tracking_domain := some box } t .fluxes).map (Dataset.toFluxes (m := m) (n := n)) =
      (((loadData files { io with tracking_domain := none } t .fluxes).map Dataset.toFluxes).map (turnFluxes (firstColumn N l))).map
        p.cutFluxes := by
    intro t
    rw [(hl t .fluxes).1]
    have hg' := (hl t .fluxes).2
    rcases hq : loadData files { io with tracking_domain := none } t .fluxes with e | d
    · rfl
    · obtain ⟨a, b⟩ := hg' d hq
      simp only [Except.map, Dataset.toFluxes, Place.cutFluxes, arc_data p hg hf hle hn d a b]
      rfl
  obtain ⟨e1, e2⟩ := (hl first .states).2 ds hds
  have hd' : loadData files { io with tracking_domain := some box } first .states = .ok (arc p l ds) := by
    rw [(hl first .states).1, hds]
    rfl
  unfold experimentSource archiveSource Place.cutSource turnSource
  simp only [hds, hd', arc_lat p ds e1, arc_lon p ds e2, e1, e2, and_true]
  congr 1
  · funext t; exact hst t
  · funext t; exact hfl t
  · exact region_across p hg hb tag ht
  · funext i
    rw [drop_take_getD _ _ _ _ i.isLt]
    rfl

end

end Wam.DateLine
