import Verif.Spec.Regions
import Verif.Props.PrepGrid
import Verif.Props.Select
import Verif.Props.Bounds
import Verif.Lemmas.XF

/-! # C64: regions by number, C65: squares -/

set_option linter.unusedSectionVars false
set_option linter.unusedVariables false

namespace Wam
open Spec

section
variable {K : Type} [Field K] [LinearOrder K] [IsStrictOrderedRing K]

theorem foldl_boolMask (bs : List Bool) (a : K) :
    (bs.map (boolMask (α := K))).foldl (· + ·) a = a + (bs.count true : K) := by
  induction bs generalizing a with
  | nil => simp
  | cons b bs ih =>
    rw [List.map_cons, List.foldl_cons, ih]
    cases b <;> simp [boolMask, ofRat_zero, ofRat_one] <;> ring

theorem meanMask_eq (bs : List Bool) : (meanMask bs : K) = (bs.count true : K) / bs.length := by
  unfold meanMask
  rw [foldl_boolMask, ofRat_zero, zero_add, ofRat_cast]
  push_cast
  rfl

/-- the region that a number stands for -/
def regionOf (masks : List (ℕ → ℕ → Bool)) (oneBased : Bool) (k : ℤ) : ℕ → ℕ → Bool :=
  masks.getD (k - if oneBased then 1 else 0).toNat fun _ _ => false

/-- a valid region number -/
def ValidRegion (masks : List (ℕ → ℕ → Bool)) (oneBased : Bool) (k : ℤ) : Prop :=
  (if oneBased then 1 else 0) ≤ k ∧ k - (if oneBased then 1 else 0) < masks.length

theorem npIndex_nonneg {β : Type} (l : List β) (i : ℕ) (h : i < l.length) :
    npIndex l (i : ℤ) = .ok l[i] := by
  unfold npIndex
  simp only
  rw [if_neg (show ¬ ((i : ℤ) < 0) by omega), if_neg (show ¬ ((i : ℤ) < 0) by omega)]
  simp [List.getElem?_eq_getElem h]

/-- The exported mask: the number of selected regions that contain the cell divided by the number of
selected regions. -/
theorem C64_value (κ : Type) (lat lon : List κ) (masks : List (ℕ → ℕ → Bool)) (oneBased : Bool)
    (regions : List ℤ) (hv : ∀ k ∈ regions, ValidRegion masks oneBased k) :
    ∃ r : TagFile κ K, maskWithRegions lat lon masks oneBased regions = .ok r ∧
      r.latitude = lat ∧ r.longitude = lon ∧ r.time = none ∧
      ∀ t i j, r.mask t i j =
        (regions.countP fun k => regionOf masks oneBased k i j : K) / regions.length := by
  have hids : regionIds oneBased regions = regions.map fun k => k - if oneBased then 1 else 0 := by
    unfold regionIds
    cases oneBased <;> simp
  have hm : (regionIds oneBased regions).mapM (fun k => npIndex masks k) =
      .ok (regions.map (regionOf masks oneBased)) := by
    rw [hids]
    clear hids
    induction regions with
    | nil => rfl
    | cons k l ih =>
      rw [List.map_cons, List.mapM_cons, ih fun k hk => hv k (by simp [hk])]
      obtain ⟨h1, h2⟩ := hv k (by simp)
      obtain ⟨q, hq⟩ : ∃ q : ℕ, k - (if oneBased then 1 else 0) = (q : ℤ) :=
        ⟨(k - if oneBased then 1 else 0).toNat, by omega⟩
      have hql : q < masks.length := by rw [hq] at h2; exact_mod_cast h2
      rw [hq, npIndex_nonneg masks q hql]
      have : regionOf masks oneBased k = masks[q] := by
        unfold regionOf
        rw [hq, Int.toNat_natCast, List.getD_eq_getElem _ _ hql]
      rw [List.map_cons, this]
      rfl
  refine ⟨⟨lat, lon, none, _⟩, by unfold maskWithRegions; rw [hm]; rfl, rfl, rfl, rfl, ?_⟩
  intro t i j
  show (meanMask _ : K) = _
  rw [meanMask_eq]
  simp only [List.map_map, List.length_map]
  congr 2
  rw [List.count, List.countP_map]
  apply List.countP_congr
  intro k hk
  simp

/-- So values lie between 0 and 1; 0 means in none and 1 in *all* of the selected regions. -/
theorem C64_range (κ : Type) (lat lon : List κ) (masks : List (ℕ → ℕ → Bool)) (oneBased : Bool)
    (regions : List ℤ) (hne : regions ≠ []) (hv : ∀ k ∈ regions, ValidRegion masks oneBased k)
    (r : TagFile κ K) (hr : maskWithRegions lat lon masks oneBased regions = .ok r) (t i j : ℕ) :
    0 ≤ r.mask t i j ∧ r.mask t i j ≤ 1 ∧
    (r.mask t i j = 0 ↔ ∀ k ∈ regions, regionOf masks oneBased k i j = false) ∧
    (r.mask t i j = 1 ↔ ∀ k ∈ regions, regionOf masks oneBased k i j = true) := by
  obtain ⟨r', hr', -, -, -, hm⟩ := C64_value (K := K) κ lat lon masks oneBased regions hv
  rw [hr] at hr'
  injection hr' with hr'
  subst hr'
  rw [hm]
  set p := fun k => regionOf masks oneBased k i j with hp
  have hlen : (0 : K) < regions.length := by
    have := List.length_pos_iff.2 hne
    exact_mod_cast this
  have hle : (regions.countP p : K) ≤ regions.length := by exact_mod_cast List.countP_le_length
  refine ⟨by positivity, by rw [div_le_one hlen]; exact hle, ?_, ?_⟩
  · rw [div_eq_zero_iff, or_iff_left hlen.ne', Nat.cast_eq_zero, List.countP_eq_zero]
    simp [hp]
  · rw [div_eq_one_iff_eq hlen.ne']
    rw [Nat.cast_inj, List.countP_eq_length]

/-- A single region gives its indicator. -/
theorem C64_single (κ : Type) (lat lon : List κ) (masks : List (ℕ → ℕ → Bool)) (oneBased : Bool)
    (k : ℤ) (hv : ValidRegion masks oneBased k)
    (r : TagFile κ K) (hr : maskWithRegions lat lon masks oneBased [k] = .ok r) (t i j : ℕ) :
    r.mask t i j = if regionOf masks oneBased k i j then 1 else 0 := by
  obtain ⟨-, -, h0, h1⟩ := C64_range κ lat lon masks oneBased [k] (by simp) (by simpa using hv) r hr t i j
  cases h : regionOf masks oneBased k i j
  · simpa using h0.2 (by simpa using h)
  · simpa using h1.2 (by simpa using h)

/-- Several regions without common cells: no cell gets more than `1/n`; in particular (`n ≥ 2`) the mask is
not the union of the regions. -/
theorem C64_disjoint (κ : Type) (lat lon : List κ) (masks : List (ℕ → ℕ → Bool)) (oneBased : Bool)
    (regions : List ℤ) (hne : regions ≠ []) (hv : ∀ k ∈ regions, ValidRegion masks oneBased k)
    (hd : regions.Pairwise fun k l => ∀ i j,
      ¬ (regionOf masks oneBased k i j = true ∧ regionOf masks oneBased l i j = true))
    (r : TagFile κ K) (hr : maskWithRegions lat lon masks oneBased regions = .ok r) (t i j : ℕ) :
    r.mask t i j ≤ 1 / regions.length := by
  obtain ⟨r', hr', -, -, -, hm⟩ := C64_value (K := K) κ lat lon masks oneBased regions hv
  rw [hr] at hr'
  injection hr' with hr'
  subst hr'
  rw [hm]
  have hlen : (0 : K) < regions.length := by
    have := List.length_pos_iff.2 hne
    exact_mod_cast this
  rw [div_le_div_iff_of_pos_right hlen]
  have : (regions.countP fun k => regionOf masks oneBased k i j) ≤ 1 := by
    clear hne hv hr hm hlen
    induction regions with
    | nil => simp
    | cons k l ih =>
      rw [List.pairwise_cons] at hd
      rw [List.countP_cons]
      cases hk : regionOf masks oneBased k i j
      · simpa using ih hd.2
      · have : (l.countP fun k => regionOf masks oneBased k i j) = 0 := by
          rw [List.countP_eq_zero]
          intro l' hl' h
          exact hd.1 l' hl' i j ⟨hk, h⟩
        rw [this]; simp
  exact_mod_cast this

/-- Numbers that are too large raise an `IndexError`; region number 0 of a source that counts from one is
silently the last region. -/
theorem C64_bad_numbers (κ : Type) (lat lon : List κ) (masks : List (ℕ → ℕ → Bool)) (hne : masks ≠ [])
    (oneBased : Bool) (k : ℤ) :
    (masks.length ≤ k - (if oneBased then 1 else 0) →
      (maskWithRegions lat lon masks oneBased [k] : Except Err (TagFile κ K)) = .error .indexError) ∧
    ∃ r : TagFile κ K, maskWithRegions lat lon masks true [0] = .ok r ∧
      ∀ t i j, r.mask t i j = if masks.getLast hne i j then 1 else 0 := by
  have hpos := List.length_pos_iff.2 hne
  constructor
  · intro h
    have hk : regionIds oneBased [k] = [k - if oneBased then 1 else 0] := by
      cases oneBased <;> simp [regionIds]
    unfold maskWithRegions
    rw [hk, List.mapM_cons]
    have : npIndex masks (k - if oneBased then 1 else 0) = .error .indexError := by
      unfold npIndex
      simp only
      rw [if_neg (show ¬ (k - (if oneBased then 1 else 0) < 0) by omega),
        if_neg (show ¬ (k - (if oneBased then 1 else 0) < 0) by omega)]
      rw [List.getElem?_eq_none (by omega)]
    rw [this]
    rfl
  · have hid : regionIds true [0] = [-1] := by simp [regionIds]
    have hi : npIndex masks (-1) = .ok (masks.getLast hne) := by
      unfold npIndex
      simp only
      rw [if_pos (show (-1 : ℤ) < 0 by decide), if_neg (by omega)]
      have : (-1 + (masks.length : ℤ)).toNat = masks.length - 1 := by omega
      rw [this, List.getElem?_eq_getElem (by omega), List.getLast_eq_getElem]
    refine ⟨⟨lat, lon, none, _⟩, by unfold maskWithRegions; rw [hid, List.mapM_cons, hi]; rfl, ?_⟩
    intro t i j
    show (meanMask _ : K) = _
    rw [meanMask_eq]
    cases h : masks.getLast hne i j <;> simp [h]

/-- An empty list of regions gives a mask of NaN. -/
theorem C64_no_region (κ : Type) (lat lon : List κ) (masks : List (ℕ → ℕ → Bool)) (oneBased : Bool) :
    ∃ r : TagFile κ (XF K), maskWithRegions lat lon masks oneBased [] = .ok r ∧
      ∀ t i j, r.mask t i j = .nan := by
  refine ⟨⟨lat, lon, none, _⟩, by unfold maskWithRegions; simp [regionIds]; rfl, ?_⟩
  intro t i j
  simp [meanMask, XF.fin_div_zero]

/-- `mask_with_shapefile` without a choice of regions takes the first shape. -/
theorem C64_shapes_default (κ : Type) (lat lon : List κ) (masks : List (ℕ → ℕ → Bool)) (mk : ℕ → ℕ → Bool)
    (h0 : masks[0]? = some mk) :
    ∃ r : TagFile κ K, maskWithShapes lat lon masks none = .ok r ∧
      ∀ t i j, r.mask t i j = if mk i j then 1 else 0 := by
  have hlen : 0 < masks.length := by
    by_contra h
    rw [List.getElem?_eq_none (by omega)] at h0
    simp at h0
  have hv : ValidRegion masks false 0 := ⟨by simp, by simpa using hlen⟩
  obtain ⟨r, hr, -⟩ := C64_value (K := K) κ lat lon masks false [0] (by simpa using hv)
  refine ⟨r, hr, fun t i j => ?_⟩
  rw [C64_single κ lat lon masks false 0 hv r hr]
  have : regionOf masks false 0 = mk := by
    unfold regionOf
    simp [List.getD_eq_getElem?_getD, h0]
  rw [this]

/-! ## C65 -/

/-- The square mask is 1 exactly on the cells whose latitude and longitude both differ by at most the radius
from those of the centre, and 0 elsewhere. -/
theorem C65_square (lat lon : List K) (c : K × K) (radius : K) (t i j : ℕ) (y x : K)
    (hy : lat[i]? = some y) (hx : lon[j]? = some x) :
    (maskAroundPoint lat lon c radius).mask t i j =
      if |y - c.1| ≤ radius ∧ |x - c.2| ≤ radius then 1 else 0 := by
  simp only [maskAroundPoint, List.getD_eq_getElem?_getD, hy, hx, Option.getD_some, squareAt, np_le,
    np_abs, ofRat_zero, ofRat_one, Bool.and_eq_true, decide_eq_true_eq]

/-- It is the mask of the bounding box with the centre in its middle (same cells as
`initialize_tagging_region`). -/
theorem C65_square_is_box (c : K × K) (radius : K) (hr : 0 ≤ radius) (y x : K) :
    squareAt c.1 c.2 radius y x =
      (taggingBoxAt ⟨c.2 - radius, c.1 - radius, c.2 + radius, c.1 + radius⟩ y x : K) := by
  simp only [squareAt, taggingBoxAt, np_le, np_abs, ofRat_zero, ofRat_one]
  have h : decide (c.2 + radius < c.2 - radius) = false := by
    rw [decide_eq_false_iff_not]; linarith
  rw [h]
  simp only [Bool.false_eq_true, if_false, Bool.and_eq_true, decide_eq_true_eq]
  have e1 : |y - c.1| ≤ radius ↔ c.1 - radius ≤ y ∧ y ≤ c.1 + radius := by
    rw [abs_le]; constructor <;> rintro ⟨h1, h2⟩ <;> constructor <;> linarith
  have e2 : |x - c.2| ≤ radius ↔ c.2 - radius ≤ x ∧ x ≤ c.2 + radius := by
    rw [abs_le]; constructor <;> rintro ⟨h1, h2⟩ <;> constructor <;> linarith
  simp only [e1, e2]
  split <;> simp

/-- There is no wrapping at the date line: a cell on the same parallel beyond it is not marked, however close,
unless its longitude is numerically close. -/
theorem C65_no_wrapping (lat lon : List K) (c : K × K) (radius : K) (t i j : ℕ) (y x : K)
    (hy : lat[i]? = some y) (hx : lon[j]? = some x) (h1 : x < 0) (h2 : 0 < c.2)
    (h3 : radius < c.2 - x) : (maskAroundPoint lat lon c radius).mask t i j = 0 := by
  rw [C65_square lat lon c radius t i j y x hy hx, if_neg]
  rintro ⟨-, h⟩
  rw [abs_le] at h
  linarith [h.1]

/-- The mask of a track at time `k` is the square around its centre `k`; another number of times than of
centres is rejected. -/
theorem C65_track (lat lon : List K) (centers : List (K × K)) (times : List ℤ) (radius : K) :
    (times.length ≠ centers.length →
      maskAroundTrack lat lon centers times radius = .error .valueError) ∧
    (times.length = centers.length → ∃ r, maskAroundTrack lat lon centers times radius = .ok r ∧
      r.time = some times ∧ r.latitude = lat ∧ r.longitude = lon ∧
      ∀ k c, centers[k]? = some c → ∀ i j y x, lat[i]? = some y → lon[j]? = some x →
        r.mask k i j = if |y - c.1| ≤ radius ∧ |x - c.2| ≤ radius then 1 else 0) := by
  unfold maskAroundTrack
  constructor
  · intro h; rw [if_pos h]
  · intro h
    rw [if_neg (by simpa using h)]
    refine ⟨_, rfl, rfl, rfl, rfl, ?_⟩
    intro k c hc i j y x hy hx
    simp only [hc]
    exact C65_square lat lon c radius 0 i j y x hy hx

/-- Tracking with a track mask: at time `t` the square around the centre whose time is nearest to `t` is
used. -/
theorem C65_track_in_use (lat lon : List K) (centers : List (K × K)) (times : List ℤ) (radius : K)
    (hl : times.length = centers.length) (hne : times ≠ []) (hs : times.Pairwise (· < ·)) (t : ℤ) :
    ∃ (r : TagFile K K) (k : ℕ) (tk : ℤ) (c : K × K),
      loadTaggingRegion (maskAroundTrack lat lon centers times radius) none (some t) = .ok r ∧
      times[k]? = some tk ∧ centers[k]? = some c ∧ (∀ s ∈ times, |tk - t| ≤ |s - t|) ∧
      ∀ q i j y x, lat[i]? = some y → lon[j]? = some x →
        r.mask q i j = if |y - c.1| ≤ radius ∧ |x - c.2| ≤ radius then 1 else 0 := by
  obtain ⟨r, hr, ht, hlat, hlon, hm⟩ := (C65_track lat lon centers times radius).2 hl
  have hfst : (times.zip (List.range times.length)).map Prod.fst = times := by
    rw [List.map_fst_zip]; simp
  obtain ⟨e, he, h1, h2⟩ := C43_nearest_region (times.zip (List.range times.length))
    (by intro hc; apply hne; rw [← hfst, hc]; rfl) (by rw [hfst]; exact hs) t
  obtain ⟨k, hk, hek⟩ := List.getElem_of_mem he
  have hkl : k < times.length := by simpa using hk
  rw [List.getElem_zip, List.getElem_range] at hek
  subst hek
  refine ⟨{ r with time := none, mask := fun _ i j => r.mask k i j }, k, times[k],
    centers[k]'(by omega), ?_, List.getElem?_eq_getElem hkl, List.getElem?_eq_getElem (by omega), ?_, ?_⟩
  · unfold loadTaggingRegion
    rw [hr]
    simp only [bind, Except.bind]
    unfold regionAt
    rw [ht]
    simp only [h1, bind, Except.bind, pure, Except.pure]
  · intro s hs'
    rw [← hfst] at hs'
    obtain ⟨y, hy, rfl⟩ := List.mem_map.1 hs'
    rcases h2 y hy with h | ⟨h, -⟩
    · exact h.le
    · exact h.le
  · intro q i j y x hy hx
    exact hm k _ (List.getElem?_eq_getElem (by omega)) i j y x hy hx

end

example : ((maskWithRegions [(0 : ℚ)] [0, 1, 2] [fun _ j => j == 0, fun _ j => j == 1] true [1, 2] :
      Except Err (TagFile ℚ ℚ)).toOption.map fun r => (r.mask 0 0 0, r.mask 0 0 1, r.mask 0 0 2)) =
    some (1/2, 1/2, 0) := by
  decide +kernel

example : (maskAroundPoint ([50, 51] : List ℚ) [179, -179] (50, 179) 2).mask 0 0 0 = 1 ∧
    (maskAroundPoint ([50, 51] : List ℚ) [179, -179] (50, 179) 2).mask 0 0 1 = 0 := by
  decide +kernel

end Wam
