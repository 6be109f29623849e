import Verif.Spec.PrepInput
import Verif.Props.InputComplete
import Verif.Props.PrepGrid
import Verif.Props.ColumnMore
import Verif.Props.ModelLayers

/-!
# From the raw data to the preprocessed data: C83
-/

set_option linter.unusedSectionVars false
set_option linter.unusedVariables false

namespace Wam
open Spec

section
variable {K : Type} [Field K] [LinearOrder K] [IsStrictOrderedRing K] [FloorRing K]

/-- a preprocessed grid whose column computation is described by `R` -/
theorem gridFrom_of_cells {cell : RawInput K K → ℕ → ℕ → Except Err (LayerSums K)} {raw : RawInput K K}
    {R : K → K → LayerSums K → K → K → Prop}
    (h : ∀ i j lat lon, raw.latitude[i]? = some lat → raw.longitude[j]? = some lon →
      ∃ r, cell raw i j = .ok r ∧ R lat lon r (raw.precip i j) (raw.evap i j)) :
    ∃ ds, prepTime cell raw = .ok ds ∧ GridFrom (raw.latitude, raw.longitude) R ds := by
  obtain ⟨ds, hds⟩ := (C75_succeeds_iff cell raw).2 fun i hi j hj => by
    obtain ⟨r, hr, -⟩ := h i j _ _ (List.getElem?_eq_getElem hi) (List.getElem?_eq_getElem hj)
    exact ⟨r, hr⟩
  obtain ⟨order, hp, hlat, hlen, hv, hc⟩ := C75_cells cell raw ds hds
  refine ⟨ds, hds, hlat, hlen, hv, order, hp, ?_⟩
  intro i lat j j0 hi hj
  have hi' : i < raw.latitude.length := (List.getElem?_eq_some_iff.mp hi).1
  have hj' : j < raw.longitude.length := by
    have := (List.getElem?_eq_some_iff.mp hj).1
    rw [hp.length_eq, List.length_range] at this
    exact this
  obtain ⟨j0', x, x0, s, a1, a2, a3, a4, a5, a6⟩ := hc i hi' j hj'
  rw [hj] at a1
  injection a1 with a1
  subst a1
  obtain ⟨r, hr, hR⟩ := h i j0 lat x0 hi a3
  rw [hr] at a5
  injection a5 with a5
  subst a5
  exact ⟨x, x0, a2, a3, a4, r, _, _, hR, a6⟩

/-- the levels of a column as a list of levels -/
theorem column_of_profiles {P : String → Option ℚ → K → K → K → Prop} {lat lon : K} : ∀ {ls : List ℚ} {q u v : List K},
    ProfileFrom (P "q") ls lat lon q → ProfileFrom (P "u") ls lat lon u → ProfileFrom (P "v") ls lat lon v →
    ∃ levels : List (Level K), List.Forall₂ (LevelFrom P lat lon) ls levels ∧
      column levels = ⟨ls.map fun l => NpOps.ofRat l, q, u, v⟩
  | [], q, u, v, hq, hu, hv => by
    refine ⟨[], .nil, ?_⟩
    rw [List.length_eq_zero_iff.mp hq.1, List.length_eq_zero_iff.mp hu.1, List.length_eq_zero_iff.mp hv.1]
    rfl
  | l :: ls, q, u, v, hq, hu, hv => by
    match q, u, v, hq, hu, hv with
    | [], _, _, hq, _, _ => cases hq.1
    | _ :: _, [], _, _, hu, _ => cases hu.1
    | _ :: _, _ :: _, [], _, _, hv => cases hv.1
    | a :: q, b :: u, c :: v, hq, hu, hv =>
      have tail : ∀ {P : Option ℚ → K → K → K → Prop} {a : K} {q : List K}, ProfileFrom P (l :: ls) lat lon (a :: q) →
          ProfileFrom P ls lat lon q := fun h =>
        ⟨by simpa using h.1, fun k l' x h1 h2 => h.2 (k + 1) l' x (by simpa using h1) (by simpa using h2)⟩
      obtain ⟨L, h1, h2⟩ := column_of_profiles (tail hq) (tail hu) (tail hv)
      refine ⟨⟨(l : K), a, b, c⟩ :: L, .cons ⟨rfl, (hq.2 0 l a rfl rfl).1, (hu.2 0 l b rfl rfl).1,
        (hv.2 0 l c rfl rfl).1⟩ h1, ?_⟩
      simp only [column, Column.mk.injEq] at h2
      obtain ⟨e1, e2, e3, e4⟩ := h2
      simp only [column, List.map_cons, e1, e2, e3, e4]
      rfl

/-- what the column computation makes of raw data from `P` -/
theorem layers_of_cell {P : String → Option ℚ → K → K → K → Prop} {ls : List ℚ} {lat lon : K}
    {raw : RawInput K K} {i j : ℕ} (h : CellFrom P ls lat lon raw i j) (hne : ls ≠ []) (hpos : ∀ l ∈ ls, 0 ≤ l)
    {argsort : List K → List ℕ} (ha : IsArgsort argsort) {lay : LayerConfig K} {cfg : InputConfig}
    (hlt : cfg.levelType = .pressure_levels)
    (hps : ∀ x, P "ps" none lat lon x → 0 < x ∧ 0 ≤ lay.factor * x + lay.offset ∧ lay.factor * x + lay.offset ≤ x) :
    ∃ r, prepCell argsort lay cfg raw i j = .ok r ∧ LayersFrom P ls lay lat lon raw.tcw.isSome r := by
  obtain ⟨levels, hl, hcol⟩ := column_of_profiles h.q h.u h.v
  let S : Level K := ⟨(raw.surface i j).ps, (raw.surface i j).qs, (raw.surface i j).us, (raw.surface i j).vs⟩
  have hS : SurfaceFrom P lat lon S := ⟨h.ps.1, h.qs.1, h.us.1, h.vs.1⟩
  have hraw : raw.column i j = column levels := by
    rw [hcol, ← h.p]
  have hsurf : raw.surface i j = surface S := rfl
  obtain ⟨p1, p2, p3⟩ := hps S.p hS.p
  have hlne : levels ≠ [] := by
    rintro rfl
    cases hl
    exact hne rfl
  have h0 : ∀ L ∈ levels, 0 ≤ L.p := by
    have : ∀ (ls : List ℚ) (levels : List (Level K)), List.Forall₂ (LevelFrom P lat lon) ls levels → (∀ l ∈ ls, 0 ≤ l) →
        ∀ L ∈ levels, 0 ≤ L.p := by
      intro ls levels hf hp
      induction hf with
      | nil => intro L hL; cases hL
      | cons h1 _ ih =>
        intro L hL
        rcases List.mem_cons.mp hL with rfl | hL
        · rw [h1.p]; exact_mod_cast hp _ List.mem_cons_self
        · exact ih (fun l hl => hp l (List.mem_cons_of_mem _ hl)) L hL
    exact this ls levels hl hpos
  obtain ⟨E, hE, hr, ht⟩ := C52_layer_integrals argsort ha lay.factor lay.offset levels hlne h0 S p1 p2 p3
  have hcell : prepCell argsort lay cfg raw i j = preprocessPressure argsort lay.factor lay.offset (column levels)
      (surface S) (raw.tcw.map fun g => g i j) := by
    unfold prepCell
    rw [hlt, ← hraw, ← hsurf]
  rw [hcell]
  cases htcw : raw.tcw with
  | none => exact ⟨_, hr, levels, S, E, hl, hS, hE, fun _ => rfl, fun h => by cases h⟩
  | some g =>
    exact ⟨_, ht (g i j), levels, S, E, hl, hS, hE, fun h => (by cases h), fun _ => ⟨g i j, (h.tcw g htcw).1, rfl⟩⟩

/-- **C83** Pressure levels, from raw data to preprocessed data, for any source whose numbers come from where `P` says.
If the surface pressure is positive and the layer boundary lies between the top of the atmosphere and the surface, then
preprocessing succeeds and every cell of the result holds the layer integrals of the raw column at its latitude and
meridian, and the precipitation and evaporation of that place. -/
theorem prep_pressure_levels {P : String → Option ℚ → K → K → K → Prop} {ls : List ℚ} {raw : RawInput K K}
    (h : ∀ i j lat lon, raw.latitude[i]? = some lat → raw.longitude[j]? = some lon → CellFrom P ls lat lon raw i j)
    (hne : ls ≠ []) (hpos : ∀ l ∈ ls, 0 ≤ l)
    {argsort : List K → List ℕ} (ha : IsArgsort argsort) {lay : LayerConfig K} {cfg : InputConfig}
    (hlt : cfg.levelType = .pressure_levels)
    (hps : ∀ lat ∈ raw.latitude, ∀ lon ∈ raw.longitude, ∀ x, P "ps" none lat lon x →
      0 < x ∧ 0 ≤ lay.factor * x + lay.offset ∧ lay.factor * x + lay.offset ≤ x) :
    ∃ ds, prepTime (prepCell argsort lay cfg) raw = .ok ds ∧
      GridFrom (raw.latitude, raw.longitude) (fun lat lon r precip evap =>
        LayersFrom P ls lay lat lon raw.tcw.isSome r ∧ P "precip" none lat lon precip ∧ P "evap" none lat lon evap) ds := by
  apply gridFrom_of_cells
  intro i j lat lon hi hj
  have hc := h i j lat lon hi hj
  obtain ⟨r, hr, hL⟩ := layers_of_cell hc hne hpos ha hlt
    (hps lat (List.mem_of_getElem? hi) lon (List.mem_of_getElem? hj))
  exact ⟨r, hr, hL, hc.precip.1, hc.evap.1⟩

/-! ### Columns that are not dry -/

theorem pairSum_water_pos (l : List (Level K)) (a : Level K) (hs : (a :: l).Pairwise fun a b => a.p ≤ b.p)
    (hq : ∀ e ∈ a :: l, 0 ≤ e.q) (hpos : ∀ e ∈ l, a.p < e.p → 0 < e.q) :
    0 ≤ pairSum water (a :: l) ∧ ((∃ e ∈ l, a.p < e.p) → 0 < pairSum water (a :: l)) := by
  have hg : (0 : K) < grav := by unfold grav; norm_num
  induction l generalizing a with
  | nil => exact ⟨le_rfl, fun ⟨e, he, _⟩ => by cases he⟩
  | cons b l ih =>
    rw [List.pairwise_cons] at hs
    have hab := hs.1 b List.mem_cons_self
    obtain ⟨i1, i2⟩ := ih b hs.2 (fun e he => hq e (List.mem_cons_of_mem _ he)) (fun e he hbe =>
      hpos e (List.mem_cons_of_mem _ he) (lt_of_le_of_lt hab hbe))
    have hqa := hq a List.mem_cons_self
    have hqb := hq b (by simp)
    have hw : 0 ≤ water a b := by
      unfold water
      have : 0 ≤ b.p - a.p := by linarith
      positivity
    refine ⟨add_nonneg hw i1, ?_⟩
    rintro ⟨e, he, hae⟩
    show 0 < water a b + pairSum water (b :: l)
    rcases lt_or_eq_of_le hab with h | h
    · have h1 := hpos b List.mem_cons_self h
      have : 0 < water a b := by
        unfold water
        have : 0 < b.p - a.p := by linarith
        positivity
      linarith
    · have : 0 < pairSum water (b :: l) := by
        apply i2
        rcases List.mem_cons.mp he with rfl | he
        · exact absurd h (ne_of_lt hae)
        · exact ⟨e, he, by rw [← h]; exact hae⟩
      linarith

/-- a column with positive humidity at all levels (above pressure zero) and at the surface is not dry -/
theorem water_pos {levels : List (Level K)} {S : Level K} {pb : K} {E : List (Level K)}
    (hE : IsExtended levels S pb E) (hps : 0 < S.p) (hlo : 0 ≤ pb) (h0 : ∀ l ∈ levels, 0 < l.p)
    (hq : ∀ l ∈ levels, 0 < l.q) (hqs : 0 < S.q) : 0 < pairSum water (between 0 S.p E) := by
  obtain ⟨f0, fb, ⟨es, hes, hesp⟩, ft⟩ := extended_facts (fun l hl => (h0 l hl).le) hps.le hlo hE
  obtain ⟨hs, top, htop, bdy, hmin, hb, hi, hperm⟩ := hE
  have hS : ∀ l ∈ S :: (⟨0, 0, top.u, top.v⟩ : Level K) :: levels, 0 ≤ l.p ∧ 0 ≤ l.q ∧ (0 < l.p → 0 < l.q) := by
    intro l hl
    simp only [List.mem_cons] at hl
    rcases hl with rfl | rfl | h
    · exact ⟨hps.le, hqs.le, fun _ => hqs⟩
    · exact ⟨le_rfl, le_rfl, fun h => absurd h (lt_irrefl _)⟩
    · exact ⟨(h0 l h).le, (hq l h).le, fun _ => hq l h⟩
  have hbdy : 0 ≤ bdy.q ∧ (0 < bdy.p → 0 < bdy.q) := by
    rcases hi with ⟨l, hl, rfl⟩ | ⟨l, hl, h, hh, h1, h2, -, h3, -, -⟩
    · exact (hS _ hl).2
    · obtain ⟨a1, a2, a3⟩ := hS l hl
      obtain ⟨b1, b2, b3⟩ := hS h hh
      have hbp : 0 < bdy.p := lt_of_le_of_lt a1 h1
      have hhq := b3 (lt_of_lt_of_le hbp h2)
      have : 0 < bdy.q := by
        rw [h3]
        unfold line
        have d : 0 < h.p - l.p := by linarith
        have e : l.q + (h.q - l.q) * (bdy.p - l.p) / (h.p - l.p) =
            (l.q * (h.p - bdy.p) + h.q * (bdy.p - l.p)) / (h.p - l.p) := by
          field_simp; ring
        rw [e]
        apply div_pos _ d
        have := mul_nonneg a2 (sub_nonneg.mpr h2)
        have := mul_pos hhq (sub_pos.mpr h1)
        linarith
      exact ⟨this.le, fun _ => this⟩
  have hqE : ∀ e ∈ E, 0 ≤ e.q ∧ (0 < e.p → 0 < e.q) := by
    intro e he
    have := hperm.mem_iff.1 he
    rw [List.mem_cons] at this
    rcases this with rfl | h
    · exact hbdy
    · exact (hS e h).2
  obtain ⟨et, het, hetp⟩ := ft
  have hmem : ∀ e, e ∈ between 0 S.p E ↔ e ∈ E ∧ 0 ≤ e.p ∧ e.p ≤ S.p := by
    intro e
    unfold between
    rw [List.mem_filter]
    simp
  have hbs : (between 0 S.p E).Pairwise fun a b => a.p ≤ b.p := hs.filter _
  have m1 : es ∈ between 0 S.p E := (hmem es).2 ⟨hes, by rw [hesp]; exact hps.le, by rw [hesp]⟩
  have m2 : et ∈ between 0 S.p E := (hmem et).2 ⟨het, by rw [hetp], by rw [hetp]; exact hps.le⟩
  generalize hB : between 0 S.p E = B at *
  cases B with
  | nil => cases m1
  | cons a l =>
    have ha : a.p = 0 := by
      have h1 : 0 ≤ a.p := ((hmem a).1 List.mem_cons_self).2.1
      rcases List.mem_cons.mp m2 with rfl | m2
      · exact hetp
      · have := (List.pairwise_cons.mp hbs).1 et m2
        linarith
    refine (pairSum_water_pos l a hbs (fun e he => (hqE e ((hmem e).1 he).1).1) (fun e he hlt =>
      (hqE e ((hmem e).1 (List.mem_cons_of_mem _ he)).1).2 (by rw [← ha]; exact hlt))).2 ⟨es, ?_, by rw [ha, hesp]; exact hps⟩
    rcases List.mem_cons.mp m1 with rfl | m1
    · rw [hesp] at ha; exact absurd ha (ne_of_gt hps)
    · exact m1

/-- with positive humidity the two storages add up to the total column water -/
theorem layersFrom_total {P : String → Option ℚ → K → K → K → Prop} {ls : List ℚ} {lay : LayerConfig K} {lat lon : K}
    {r : LayerSums K} (h : LayersFrom P ls lay lat lon true r) (hls : ∀ l ∈ ls, 0 < l)
    (hps : ∀ x, P "ps" none lat lon x → 0 < x ∧ 0 ≤ lay.factor * x + lay.offset ∧ lay.factor * x + lay.offset ≤ x)
    (hq : ∀ l ∈ ls, ∀ x, P "q" (some l) lat lon x → 0 < x) (hqs : ∀ x, P "qs" none lat lon x → 0 < x) :
    ∃ w, P "tcw" none lat lon w ∧ r.s_upper + r.s_lower = w := by
  obtain ⟨levels, S, E, hl, hS, hE, -, ht⟩ := h
  obtain ⟨w, hw, rfl⟩ := ht rfl
  obtain ⟨p1, p2, p3⟩ := hps S.p hS.p
  have hlev : ∀ L ∈ levels, 0 < L.p ∧ 0 < L.q := by
    have : ∀ (ls : List ℚ) (levels : List (Level K)), List.Forall₂ (LevelFrom P lat lon) ls levels → (∀ l ∈ ls, 0 < l) →
        (∀ l ∈ ls, ∀ x, P "q" (some l) lat lon x → 0 < x) → ∀ L ∈ levels, 0 < L.p ∧ 0 < L.q := by
      intro ls levels hf hp hq
      induction hf with
      | nil => intro L hL; cases hL
      | cons h1 _ ih =>
        intro L hL
        rcases List.mem_cons.mp hL with rfl | hL
        · exact ⟨by rw [h1.p]; exact_mod_cast hp _ List.mem_cons_self, hq _ List.mem_cons_self _ h1.q⟩
        · exact ih (fun l hl => hp l (List.mem_cons_of_mem _ hl)) (fun l hl => hq l (List.mem_cons_of_mem _ hl)) L hL
    exact this ls levels hl hls hq
  have hpos := water_pos hE p1 p2 (fun l hl => (hlev l hl).1) (fun l hl => (hlev l hl).2) (hqs _ hS.q)
  obtain ⟨f0, fb, fs, ft⟩ := extended_facts (fun l hl => ((hlev l hl).1).le) p1.le p2 hE
  have hw' := pairSum_between water water_eq_zero S.p _ p3 E hE.1 f0 fb fs
  refine ⟨w, hw, ?_⟩
  simp only [scale, layerIntegrals]
  rw [← mul_add, hw', div_mul_cancel₀ _ hpos.ne']

/-! ### ERA5 -/

section era5
variable [NpExp K] {cfg : InputConfig} {disk : List Char → Except Err (RawFile K K)} {t : ℤ}

theorem cellFrom_era5 (hlt : cfg.levelType = .pressure_levels) {raw : RawInput K K} {ls : List ℚ} {lat lon : K}
    {i j : ℕ} (h : CellFromDisk cfg disk t ls lat lon raw i j)
    (hp : (raw.column i j).p = ls.map fun l => NpOps.ofRat (l * 100)) :
    CellFrom (Era5Origin cfg disk t) (ls.map fun l => l * 100) lat lon raw i j := by
  have prof : ∀ (name var : String), (∀ l x, OnDisk cfg disk var t l lat lon x →
      Era5Origin cfg disk t name (l.map fun l => l * 100) lat lon x) → ∀ xs, ProfileOnDisk cfg disk var t ls lat lon xs →
      ProfileFrom (Era5Origin cfg disk t name) (ls.map fun l => l * 100) lat lon xs := by
    intro name var hv xs hx
    refine ⟨by rw [List.length_map]; exact hx.1, fun k l x hl hk => ⟨?_, rfl⟩⟩
    rw [List.getElem?_map, Option.map_eq_some_iff] at hl
    obtain ⟨l0, hl0, rfl⟩ := hl
    exact hv (some l0) x (hx.2 k l0 x hl0 hk)
  have cancel : ∀ l : Option ℚ, (l.map fun l => l * 100).map (fun p => p / 100) = l := by
    intro l; cases l with
    | none => rfl
    | some l => simp
  refine ⟨by rw [hp, List.map_map]; rfl, prof "q" "q" ?_ _ h.q, prof "u" "u" ?_ _ h.u, prof "v" "v" ?_ _ h.v,
    ⟨h.ps, rfl⟩, ⟨?_, rfl⟩, ⟨h.us hlt, rfl⟩, ⟨h.vs hlt, rfl⟩, ⟨h.precip, rfl⟩, ⟨h.evap, rfl⟩, fun g hg => ⟨h.tcw g hg, rfl⟩⟩
  · intro l x hx
    show OnDisk cfg disk "q" t _ lat lon x
    rw [cancel]; exact hx
  · intro l x hx
    show OnDisk cfg disk "u" t _ lat lon x
    rw [cancel]; exact hx
  · intro l x hx
    show OnDisk cfg disk "v" t _ lat lon x
    rw [cancel]; exact hx
  · obtain ⟨d, p, h1, h2, h3⟩ := h.qs hlt
    exact ⟨d, p, h1, h2, h3⟩

/-- the grid and the total column water of complete ERA5 data -/
theorem era5_grid_tcw {levels : List ℤ} {g : List K × List K} (h : Era5Complete cfg disk t levels g) {raw : RawInput K K}
    (hraw : getInputEra5 cfg disk t = .ok raw) : g = (raw.latitude, raw.longitude) ∧
      (raw.tcw.isSome = true ↔ ∃ file, Era5File cfg disk "tcw" t file) := by
  obtain ⟨⟨file, hfile, r1, r2⟩, -⟩ := C79_every_number_from_its_place hraw
  have hg : g = (raw.latitude, raw.longitude) := by
    obtain ⟨file', ⟨path', hp', hd'⟩, hgq⟩ := h.grid
    obtain ⟨path, hp, hd⟩ := hfile
    rw [hp] at hp'; injection hp' with hp'; subst hp'
    rw [hd] at hd'; injection hd' with hd'; subst hd'
    rw [hgq, r1, r2]
  have htcw : raw.tcw.isSome = true ↔ ∃ file, Era5File cfg disk "tcw" t file := by
    obtain ⟨a, b⟩ := C79_total_column_water hraw
    refine ⟨a, ?_⟩
    rintro ⟨file, hf⟩
    rcases h.tcw with ⟨path, hp, hd⟩ | ⟨file', h1, -, h3⟩
    · obtain ⟨path', hp', hd'⟩ := hf
      rw [hp] at hp'; injection hp' with hp'; subst hp'
      rw [hd] at hd'; cases hd'
    · exact b file' h1 h3
  exact ⟨hg, htcw⟩

/-- **C83** ERA5 on pressure levels, from the files to the preprocessed data.  If the files are complete, every surface pressure in them
is positive and the layer boundary is between the top of the atmosphere and the surface, then preprocessing succeeds.
Each cell of the result holds the integrals over the two layers of the column that the files hold for its latitude and
meridian, and the precipitation and evaporation of that place.  Total column water is used exactly if there is a file of it. -/
theorem C83_era5_pressure_levels (hlt : cfg.levelType = .pressure_levels) {levels : List ℤ}
    (hL : cfg.levels = .list levels) (hne : levels ≠ []) (hpos : ∀ l ∈ levels, 0 ≤ l) {g : List K × List K}
    (h : Era5Complete cfg disk t levels g) {argsort : List K → List ℕ} (ha : IsArgsort argsort) {lay : LayerConfig K}
    (hps : ∀ lat ∈ g.1, ∀ lon ∈ g.2, ∀ x, OnDisk cfg disk "sp" t none lat lon x →
      0 < x ∧ 0 ≤ lay.factor * x + lay.offset ∧ lay.factor * x + lay.offset ≤ x) :
    ∃ ds hasTcw, prepEra5 argsort lay cfg disk t = .ok ds ∧
      (hasTcw = true ↔ ∃ file, Era5File cfg disk "tcw" t file) ∧
      GridFrom g (fun lat lon r precip evap =>
        LayersFrom (Era5Origin cfg disk t) (levels.map fun l : ℤ => (l : ℚ) * 100) lay lat lon hasTcw r ∧
        Era5Origin cfg disk t "precip" none lat lon precip ∧ Era5Origin cfg disk t "evap" none lat lon evap) ds := by
  obtain ⟨raw, hraw⟩ := C79_succeeds hL (fun h => by rw [hlt] at h; cases h) h
  obtain ⟨-, ls, hls, hcell⟩ := C79_every_number_from_its_place hraw
  unfold UsedLevels at hls
  rw [hL] at hls
  simp only at hls
  obtain ⟨hg, htcw⟩ := era5_grid_tcw h hraw
  subst hg
  obtain ⟨ds, hds, hgrid⟩ := prep_pressure_levels (P := Era5Origin cfg disk t) (ls := ls.map fun l => l * 100) (raw := raw)
    (fun i j lat lon hi hj => by
      obtain ⟨c1, c2⟩ := hcell i j lat lon hi hj
      exact cellFrom_era5 hlt c1 (c2 hlt))
    (by rw [hls]; simpa using hne)
    (by
      intro l hl
      rw [hls] at hl
      simp only [List.map_map, List.mem_map] at hl
      obtain ⟨m, hm, rfl⟩ := hl
      have : (0 : ℚ) ≤ (m : ℚ) := by exact_mod_cast hpos m hm
      simp only [Function.comp]
      positivity) ha hlt
    (fun lat hlat lon hlon x hx => hps lat hlat lon hlon x hx)
  refine ⟨ds, raw.tcw.isSome, ?_, htcw, ?_⟩
  · unfold prepEra5
    simp only [hraw, bind, Except.bind]
    exact hds
  · rw [hls, List.map_map] at hgrid
    exact hgrid

/-- the levels of a column as a list of model levels -/
theorem model_levels_of_profiles {t : ℤ} {lat lon : K} : ∀ {levels : List ℤ} {dp q u v : List K},
    dp.length = levels.length →
    ProfileOnDisk cfg disk "q" t (levels.map fun l : ℤ => (l : ℚ)) lat lon q →
    ProfileOnDisk cfg disk "u" t (levels.map fun l : ℤ => (l : ℚ)) lat lon u →
    ProfileOnDisk cfg disk "v" t (levels.map fun l : ℤ => (l : ℚ)) lat lon v →
    ∃ ls : List (ModelLevel K), ls.map ModelLevel.number = levels ∧ ls.map ModelLevel.dp = dp ∧ ls.map ModelLevel.q = q ∧
      ls.map ModelLevel.u = u ∧ ls.map ModelLevel.v = v ∧
      ∀ l ∈ ls, OnDisk cfg disk "q" t (some (l.number : ℚ)) lat lon l.q ∧
        OnDisk cfg disk "u" t (some (l.number : ℚ)) lat lon l.u ∧ OnDisk cfg disk "v" t (some (l.number : ℚ)) lat lon l.v
  | [], dp, q, u, v, hd, hq, hu, hv => by
    refine ⟨[], rfl, ?_, ?_, ?_, ?_, fun l hl => by cases hl⟩
    · exact (List.length_eq_zero_iff.mp hd).symm
    · exact (List.length_eq_zero_iff.mp hq.1).symm
    · exact (List.length_eq_zero_iff.mp hu.1).symm
    · exact (List.length_eq_zero_iff.mp hv.1).symm
  | n :: levels, dp, q, u, v, hd, hq, hu, hv => by
    match dp, q, u, v, hd, hq, hu, hv with
    | [], _, _, _, hd, _, _, _ => cases hd
    | _ :: _, [], _, _, _, hq, _, _ => cases hq.1
    | _ :: _, _ :: _, [], _, _, _, hu, _ => cases hu.1
    | _ :: _, _ :: _, _ :: _, [], _, _, _, hv => cases hv.1
    | d :: dp, a :: q, b :: u, c :: v, hd, hq, hu, hv =>
      have tail : ∀ {var : String} {a : K} {q : List K},
          ProfileOnDisk cfg disk var t ((n :: levels).map fun l : ℤ => (l : ℚ)) lat lon (a :: q) →
          OnDisk cfg disk var t (some (n : ℚ)) lat lon a ∧
          ProfileOnDisk cfg disk var t (levels.map fun l : ℤ => (l : ℚ)) lat lon q := fun h =>
        ⟨h.2 0 n _ rfl rfl, by simpa using h.1,
          fun k l' x h1 h2 => h.2 (k + 1) l' x (by simpa using h1) (by simpa using h2)⟩
      obtain ⟨ls, e1, e2, e3, e4, e5, e6⟩ := model_levels_of_profiles (by simpa using hd) (tail hq).2 (tail hu).2 (tail hv).2
      refine ⟨⟨n, d, a, b, c⟩ :: ls, by rw [List.map_cons, e1], by rw [List.map_cons, e2], by rw [List.map_cons, e3],
        by rw [List.map_cons, e4], by rw [List.map_cons, e5], ?_⟩
      intro l hl
      rcases List.mem_cons.mp hl with rfl | hl
      · exact ⟨(tail hq).1, (tail hu).1, (tail hv).1⟩
      · exact e6 l hl

/-- **C83** ERA5 on model levels, from the files to the preprocessed data.  If the files are complete and the levels are numbers
of the table, then preprocessing succeeds, and each cell holds the integrals over the two layers of the column that the files
hold for its latitude and meridian, and the precipitation and evaporation of that place. -/
theorem C83_era5_model_levels (hlt : cfg.levelType = .model_levels) {levels : List ℤ}
    (hL : cfg.levels = .list levels) (hne : levels ≠ []) (htab : ∀ l ∈ levels, 1 ≤ l ∧ l ≤ 137) {g : List K × List K}
    (h : Era5Complete cfg disk t levels g) (argsort : List K → List ℕ) (lay : LayerConfig K) :
    ∃ ds hasTcw, prepEra5 argsort lay cfg disk t = .ok ds ∧
      (hasTcw = true ↔ ∃ file, Era5File cfg disk "tcw" t file) ∧
      GridFrom g (fun lat lon r precip evap =>
        ModelLayersFrom cfg disk t levels lay.boundary lat lon hasTcw r ∧
        Era5Origin cfg disk t "precip" none lat lon precip ∧ Era5Origin cfg disk t "evap" none lat lon evap) ds := by
  obtain ⟨raw, hraw⟩ := C79_succeeds hL (fun _ => ⟨hne, htab⟩) h
  obtain ⟨hg, htcw⟩ := era5_grid_tcw h hraw
  obtain ⟨-, ls0, hls, hcell⟩ := C79_every_number_from_its_place hraw
  unfold UsedLevels at hls
  rw [hL] at hls
  simp only at hls
  subst hg
  subst hls
  obtain ⟨ds, hds, hgrid⟩ := gridFrom_of_cells (cell := prepCell argsort lay cfg) (raw := raw)
    (R := fun lat lon r precip evap => ModelLayersFrom cfg disk t levels lay.boundary lat lon raw.tcw.isSome r ∧
        Era5Origin cfg disk t "precip" none lat lon precip ∧ Era5Origin cfg disk t "evap" none lat lon evap) (by
    intro i j lat lon hi hj
    obtain ⟨c, -⟩ := hcell i j lat lon hi hj
    obtain ⟨dp, edges, d1, d2, d3, d4⟩ := C54_edges (era5A K) (era5B K) (by rw [era5A_length, era5B_length])
      (by rw [era5A_length]; omega) (raw.surface i j).ps levels hne (fun l hl => by
        have := htab l hl
        rw [era5A_length]
        constructor <;> push_cast <;> omega)
    obtain ⟨ls, e1, e2, e3, e4, e5, e6⟩ := model_levels_of_profiles d3 c.q c.u c.v
    obtain ⟨f1, f2⟩ := C54_layer_integrals (era5A K) (era5B K) lay.boundary ls (raw.column i j).p (raw.surface i j).ps
      (by rw [e1, e2]; exact d1)
    rw [e1, e3, e4, e5] at f1 f2
    have hcol : (⟨(raw.column i j).p, (raw.column i j).q, (raw.column i j).u, (raw.column i j).v⟩ : Column K) =
        raw.column i j := rfl
    rw [hcol] at f1 f2
    have hpc : prepCell argsort lay cfg raw i j = preprocessModel (era5A K) (era5B K) levels lay.boundary (raw.column i j)
        (raw.surface i j).ps (raw.tcw.map fun g => g i j) := by
      unfold prepCell
      rw [hlt, hL]
    rw [hpc]
    cases htw : raw.tcw with
    | none => exact ⟨_, f1, ⟨ls, _, edges, e1, c.ps, e6, d2, by rw [e2]; exact d4, fun _ => rfl, fun h => by cases h⟩,
        c.precip, c.evap⟩
    | some gw => exact ⟨_, f2 (gw i j), ⟨ls, _, edges, e1, c.ps, e6, d2, by rw [e2]; exact d4, fun h => (by cases h),
        fun _ => ⟨gw i j, c.tcw gw htw, rfl⟩⟩, c.precip, c.evap⟩)
  refine ⟨ds, raw.tcw.isSome, ?_, htcw, hgrid⟩
  unfold prepEra5
  simp only [hraw, bind, Except.bind]
  exact hds

/-- model levels, with or without total column water: the two storages add up to the total column water in its file if there is
one (and the column is not dry), and to humidity times thickness over gravity otherwise -/
theorem modelLayersFrom_total {levels : List ℤ} {boundary : ℤ} {lat lon : K} {hasTcw : Bool} {r : LayerSums K}
    (h : ModelLayersFrom cfg disk t levels boundary lat lon hasTcw r) :
    (hasTcw = true → r.s_upper + r.s_lower ≠ 0 → OnDisk cfg disk "tcw" t none lat lon (r.s_upper + r.s_lower)) := by
  obtain ⟨ls, sp, edges, e1, e2, e3, e4, e5, -, e6⟩ := h
  intro ht hnz
  obtain ⟨w, hw, rfl⟩ := e6 ht
  simp only [scale, modelIntegrals] at hnz ⊢
  rw [← mul_add, upper_add_lower] at hnz ⊢
  have : (ls.map ModelLevel.water).sum ≠ 0 := right_ne_zero_of_mul hnz
  rw [div_mul_cancel₀ _ this]
  exact hw

end era5

/-! ### ARCO-ERA5 -/

/-- **C83** ARCO-ERA5: the same, from the store; total column water is always used. -/
theorem C83_arco [NpExp K] {cfg : InputConfig} {s : ArcoStore K K} {t : ℤ} (hlt : cfg.levelType = .pressure_levels)
    (hcal : cfg.calendar = .prolepticGregorian) {levels : List ℤ}
    (hL : cfg.levels = .list levels) (hne : levels ≠ []) (hpos : ∀ l ∈ levels, 0 ≤ l)
    (h : ArcoComplete s t levels) {argsort : List K → List ℕ} (ha : IsArgsort argsort) {lay : LayerConfig K}
    (hps : ∀ lat ∈ s.latitude, ∀ lon ∈ s.longitude, ∀ x, ArcoStored s t "surface_pressure" none lat lon x →
      0 < x ∧ 0 ≤ lay.factor * x + lay.offset ∧ lay.factor * x + lay.offset ≤ x) :
    ∃ ds, prepArco argsort lay cfg s t = .ok ds ∧
      GridFrom (s.latitude, s.longitude) (fun lat lon r precip evap =>
        LayersFrom (ArcoOrigin cfg s t) (levels.map fun l : ℤ => (l : ℚ) * 100) lay lat lon true r ∧
        ArcoOrigin cfg s t "precip" none lat lon precip ∧ ArcoOrigin cfg s t "evap" none lat lon evap) ds := by
  obtain ⟨raw, hraw⟩ := C82_succeeds hlt hcal hL h
  obtain ⟨-, -, -, -, r1, r2, htcw, levels', hL', hcell⟩ := C82_every_number_from_its_place hraw
  rw [hL] at hL'
  injection hL' with hL'
  subst hL'
  obtain ⟨ds, hds, hgrid⟩ := prep_pressure_levels hcell (by simpa using hne)
    (by
      intro l hl
      simp only [List.mem_map] at hl
      obtain ⟨m, hm, rfl⟩ := hl
      have : (0 : ℚ) ≤ (m : ℚ) := by exact_mod_cast hpos m hm
      positivity) ha hlt
    (fun lat hlat lon hlon x hx => hps lat (r1 ▸ hlat) lon (r2 ▸ hlon) x hx)
  refine ⟨ds, ?_, ?_⟩
  · unfold prepArco
    simp only [hraw, bind, Except.bind]
    exact hds
  · rw [htcw, r1, r2] at hgrid
    exact hgrid

/-! ### CMIP -/

section cmip
variable {cfg : InputConfig} {ord : Listing K} {glob : List Char → List (RawFile K K)} {t : ℤ}

/-- **C83** CMIP: the same, from the files in any order; total column water is not used. -/
theorem C83_cmip (hlt : cfg.levelType = .pressure_levels) (hfair : Listing.Fair ord) {g : List K × List K}
    (h : CmipComplete cfg glob t g)
    (hne : ∃ l, SomeFileHas cfg glob "hus" RawFile.levels l ∧ SomeFileHas cfg glob "ua" RawFile.levels l ∧
      SomeFileHas cfg glob "va" RawFile.levels l)
    (hpos : ∀ l, SomeFileHas cfg glob "hus" RawFile.levels l → 0 ≤ l)
    {argsort : List K → List ℕ} (ha : IsArgsort argsort) {lay : LayerConfig K}
    (hps : ∀ lat ∈ g.1, ∀ lon ∈ g.2, ∀ x, CmipStored cfg glob "ps" t none lat lon x →
      0 < x ∧ 0 ≤ lay.factor * x + lay.offset ∧ lay.factor * x + lay.offset ≤ x) :
    ∃ ds ls, prepCmip argsort lay cfg ord glob t = .ok ds ∧
      (∀ l, l ∈ ls ↔ SomeFileHas cfg glob "hus" RawFile.levels l ∧ SomeFileHas cfg glob "ua" RawFile.levels l ∧
        SomeFileHas cfg glob "va" RawFile.levels l) ∧ ls.Nodup ∧
      GridFrom g (fun lat lon r precip evap =>
        LayersFrom (CmipOrigin cfg glob t) ls lay lat lon false r ∧
        CmipOrigin cfg glob t "precip" none lat lon precip ∧ CmipOrigin cfg glob t "evap" none lat lon evap) ds := by
  obtain ⟨raw, hraw, hgr⟩ := C81_succeeds hlt hfair h
  subst hgr
  have h3 : ∀ var ∈ ["pr", "hfls"], ∀ file, CmipFile cfg glob var file → ThreeHourlyFile file := by
    rintro var hv file ⟨path, hp, hf⟩
    obtain ⟨files, axes, h1, -, -, h2⟩ := h.fluxes var hv
    obtain ⟨path', hp', hg⟩ := h1.path
    rw [hp] at hp'
    injection hp' with hp'
    subst hp'
    rw [hg] at hf
    exact (h2 file hf).1
  obtain ⟨r1, r2, htcw, ls, hnd, hls, hcell⟩ := C81_every_number_from_its_place hfair (h3 "pr" (by simp)) (h3 "hfls" (by simp)) hraw
  obtain ⟨ds, hds, hgrid⟩ := prep_pressure_levels hcell
    (by obtain ⟨l, hl⟩ := hne; exact List.ne_nil_of_mem ((hls l).2 hl))
    (fun l hl => hpos l ((hls l).1 hl).1) ha hlt
    (fun lat hlat lon hlon x hx => hps lat hlat lon hlon x hx)
  refine ⟨ds, ls, ?_, hls, hnd, ?_⟩
  · unfold prepCmip
    simp only [hraw, bind, Except.bind]
    exact hds
  · rw [htcw] at hgrid
    exact hgrid

end cmip

end

/-! ### With real numbers: the water of the preprocessed data is the water of the files -/

/-- **C83** ERA5 on pressure levels with total column water: the two storages of every cell of the preprocessed data add up to
the total column water that its file holds for that latitude and meridian. -/
theorem C83_era5_total_column_water {cfg : InputConfig} {disk : List Char → Except Err (RawFile ℝ ℝ)} {t : ℤ}
    (hlt : cfg.levelType = .pressure_levels) {levels : List ℤ}
    (hL : cfg.levels = .list levels) (hne : levels ≠ []) (hpos : ∀ l ∈ levels, 0 < l) {g : List ℝ × List ℝ}
    (h : Era5Complete cfg disk t levels g) (htcw : ∃ file, Era5File cfg disk "tcw" t file)
    {argsort : List ℝ → List ℕ} (ha : IsArgsort argsort) {lay : LayerConfig ℝ} (hp : PhysicalEra5 cfg disk t lay levels g) :
    ∃ ds, prepEra5 argsort lay cfg disk t = .ok ds ∧ ds.latitude = g.1 ∧ ds.longitude.length = g.2.length ∧
      ∀ i lat j x, ds.latitude[i]? = some lat → ds.longitude[j]? = some x →
        ∃ lon ∈ g.2, SameMeridian x lon ∧
          OnDisk cfg disk "tcw" t none lat lon (ds.data .s_upper i j + ds.data .s_lower i j) := by
  obtain ⟨ds, hasTcw, h1, h2, g1, g2, g3, order, g4, g5⟩ :=
    C83_era5_pressure_levels hlt hL hne (fun l hl => (hpos l hl).le) h ha hp.ps
  have : hasTcw = true := h2.2 htcw
  subst this
  refine ⟨ds, h1, g1, g2, ?_⟩
  intro i lat j x hi hj
  rw [g1] at hi
  have hjo : j < order.length := by
    rw [g4.length_eq, List.length_range, ← g2]
    exact (List.getElem?_eq_some_iff.mp hj).1
  obtain ⟨x', lon, a1, a2, a3, r, precip, evap, ⟨a4, -, -⟩, a5⟩ := g5 i lat j _ hi (List.getElem?_eq_getElem hjo)
  rw [hj] at a1
  injection a1 with a1
  subst a1
  have hlat := List.mem_of_getElem? hi
  have hlon := List.mem_of_getElem? a2
  obtain ⟨w, hw, hsum⟩ := layersFrom_total a4
    (by
      intro l hl
      simp only [List.mem_map] at hl
      obtain ⟨m, hm, rfl⟩ := hl
      have : (0 : ℚ) < (m : ℚ) := by exact_mod_cast hpos m hm
      positivity)
    (fun x hx => hp.ps lat hlat lon hlon x hx)
    (by
      intro l hl x hx
      simp only [List.mem_map] at hl
      obtain ⟨m, hm, rfl⟩ := hl
      have hx' : OnDisk cfg disk "q" t (some ((m : ℚ) * 100 / 100)) lat lon x := hx
      rw [mul_div_cancel_right₀ _ (by norm_num)] at hx'
      exact hp.q lat hlat lon hlon m hm x hx')
    (by
      rintro x ⟨T, p, hT, hp', rfl⟩
      exact ((C73_between_zero_and_one T p).2 (hp.dewpoint lat hlat lon hlon T p hT hp')).1)
  refine ⟨lon, hlon, a3, ?_⟩
  rw [a5.s_upper, a5.s_lower, hsum]
  exact hw

end Wam
