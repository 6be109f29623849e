import Verif.Props.PrepInput
import Verif.Props.PrepInputDemo

/-!
# The preprocessed data depend on the numbers in the files, not on their order: C84
-/

set_option linter.unusedSectionVars false
set_option linter.unusedVariables false

namespace Wam
open Spec

section
variable {K : Type} [Field K] [LinearOrder K] [IsStrictOrderedRing K] [FloorRing K]

theorem SameMeridian.symm {x y : K} (h : SameMeridian x y) : SameMeridian y x := by
  obtain ⟨k, rfl⟩ := h
  exact ⟨-k, by push_cast; ring⟩

theorem SameMeridian.trans {x y z : K} (h : SameMeridian x y) (h' : SameMeridian y z) : SameMeridian x z := by
  obtain ⟨k, rfl⟩ := h
  obtain ⟨m, rfl⟩ := h'
  exact ⟨m + k, by push_cast; ring⟩

/-- the relation between places and numbers holds for one number at most -/
def OneValue (P : String → Option ℚ → K → K → K → Prop) (lat lon : K) : Prop :=
  ∀ name l x y, P name l lat lon x → P name l lat lon y → x = y

/-- one list of levels for a list of pressures -/
theorem levels_unique {P : String → Option ℚ → K → K → K → Prop} {lat lon : K} (hP : OneValue P lat lon) :
    ∀ {ls : List ℚ} {levels levels' : List (Level K)}, List.Forall₂ (LevelFrom P lat lon) ls levels →
      List.Forall₂ (LevelFrom P lat lon) ls levels' → levels = levels'
  | [], _, _, .nil, .nil => rfl
  | l :: ls, L :: levels, L' :: levels', .cons h t, .cons h' t' => by
    rw [levels_unique hP t t']
    congr 1
    cases L; cases L'
    simp only [Level.mk.injEq]
    exact ⟨h.p.trans h'.p.symm, hP _ _ _ _ h.q h'.q, hP _ _ _ _ h.u h'.u, hP _ _ _ _ h.v h'.v⟩

/-- the same levels in another order -/
theorem levels_perm {P : String → Option ℚ → K → K → K → Prop} {lat lon : K} {ls ls' : List ℚ} (hp : ls.Perm ls') :
    ∀ {levels : List (Level K)}, List.Forall₂ (LevelFrom P lat lon) ls levels →
      ∃ levels', levels.Perm levels' ∧ List.Forall₂ (LevelFrom P lat lon) ls' levels' := by
  induction hp with
  | nil => intro levels h; exact ⟨levels, .refl _, h⟩
  | cons a _ ih =>
    rintro _ (_ | ⟨h, t⟩)
    obtain ⟨l', h1, h2⟩ := ih t
    exact ⟨_, h1.cons _, .cons h h2⟩
  | swap a b l =>
    rintro _ (_ | ⟨h, _ | ⟨h', t⟩⟩)
    exact ⟨_, .swap _ _ _, .cons h' (.cons h t)⟩
  | trans _ _ ih1 ih2 =>
    intro levels h
    obtain ⟨l1, a1, a2⟩ := ih1 h
    obtain ⟨l2, b1, b2⟩ := ih2 a2
    exact ⟨l2, a1.trans b1, b2⟩

theorem levels_pressures {P : String → Option ℚ → K → K → K → Prop} {lat lon : K} {ls : List ℚ} {levels : List (Level K)}
    (h : List.Forall₂ (LevelFrom P lat lon) ls levels) : levels.map Level.p = ls.map fun l : ℚ => (l : K) := by
  induction h with
  | nil => rfl
  | cons h _ ih => rw [List.map_cons, List.map_cons, ih, h.p]

/-- The layer sums are determined by the numbers of a place, whatever the order of the levels is -/
theorem layersFrom_unique {P : String → Option ℚ → K → K → K → Prop} {lat lon : K} (hP : OneValue P lat lon) {ls ls' : List ℚ}
    (hp : ls.Perm ls') (hn : ls.Nodup) (hpos : ∀ l ∈ ls, 0 < l) {lay : LayerConfig K}
    (hps : ∀ x, P "ps" none lat lon x → 0 < x ∧ ∀ l ∈ ls, (l : K) ≠ x) {hasTcw : Bool} {r r' : LayerSums K}
    (h : LayersFrom P ls lay lat lon hasTcw r) (h' : LayersFrom P ls' lay lat lon hasTcw r') : r = r' := by
  obtain ⟨levels, S, E, a1, a2, a3, a4, a5⟩ := h
  obtain ⟨levels', S', E', b1, b2, b3, b4, b5⟩ := h'
  have hS : S = S' := by
    cases S; cases S'
    simp only [Level.mk.injEq]
    exact ⟨hP _ _ _ _ a2.p b2.p, hP _ _ _ _ a2.q b2.q, hP _ _ _ _ a2.u b2.u, hP _ _ _ _ a2.v b2.v⟩
  subst hS
  obtain ⟨m, c1, c2⟩ := levels_perm hp a1
  have := levels_unique hP c2 b1
  subst this
  have hpr := levels_pressures a1
  have hd : DistinctPressures levels S.p := by
    refine ⟨?_, ?_⟩
    · rw [hpr]
      exact hn.map (fun a b h => by exact_mod_cast h)
    · intro L hL
      have : L.p ∈ levels.map Level.p := List.mem_map.mpr ⟨L, hL, rfl⟩
      rw [hpr, List.mem_map] at this
      obtain ⟨l, hl, e⟩ := this
      rw [← e]
      exact ⟨by exact_mod_cast hpos l hl, (hps S.p a2.p).2 l hl⟩
  have hE := extended_unique (hps S.p a2.p).1 hd c1 a3 b3
  subst hE
  cases hasTcw with
  | false => rw [a4 rfl, b4 rfl]
  | true =>
    obtain ⟨w, hw, rfl⟩ := a5 rfl
    obtain ⟨w', hw', rfl⟩ := b5 rfl
    rw [hP _ _ _ _ hw hw']

/-- two grids whose cells are determined by their latitude and longitude hold the same numbers at the same place -/
theorem gridFrom_unique {g g' : List K × List K} {R R' : K → K → LayerSums K → K → K → Prop} {ds ds' : Dataset K K}
    (h : GridFrom g R ds) (h' : GridFrom g' R' ds')
    (hlon : ∀ x ∈ g.2, ∀ y ∈ g'.2, SameMeridian x y → x = y)
    (hR : ∀ lat ∈ g.1, ∀ lon ∈ g.2, ∀ r r' p p' e e', R lat lon r p e → R' lat lon r' p' e' → r = r' ∧ p = p' ∧ e = e')
    {i j i' j' : ℕ} {lat x x' : K} (hi : ds.latitude[i]? = some lat) (hj : ds.longitude[j]? = some x)
    (hi' : ds'.latitude[i']? = some lat) (hj' : ds'.longitude[j']? = some x') (hx : SameMeridian x x') (v : Var) :
    ds'.data v i' j' = ds.data v i j := by
  obtain ⟨g1, g2, -, order, g3, g4⟩ := h
  obtain ⟨g1', g2', -, order', g3', g4'⟩ := h'
  rw [g1] at hi
  rw [g1'] at hi'
  have hjo : j < order.length := by
    rw [g3.length_eq, List.length_range, ← g2]; exact (List.getElem?_eq_some_iff.mp hj).1
  have hjo' : j' < order'.length := by
    rw [g3'.length_eq, List.length_range, ← g2']; exact (List.getElem?_eq_some_iff.mp hj').1
  obtain ⟨y, lon, a1, a2, a3, r, p, e, a4, a5⟩ := g4 i lat j _ hi (List.getElem?_eq_getElem hjo)
  obtain ⟨y', lon', b1, b2, b3, r', p', e', b4, b5⟩ := g4' i' lat j' _ hi' (List.getElem?_eq_getElem hjo')
  rw [hj] at a1; injection a1 with a1; subst a1
  rw [hj'] at b1; injection b1 with b1; subst b1
  have : lon = lon' := hlon lon (List.mem_of_getElem? a2) lon' (List.mem_of_getElem? b2)
    ((a3.symm.trans hx).trans b3)
  subst this
  obtain ⟨rfl, rfl, rfl⟩ := hR lat (List.mem_of_getElem? hi) lon (List.mem_of_getElem? a2) r r' p p' e e' a4 b4
  cases v
  all_goals first
    | rw [a5.s_upper, b5.s_upper] | rw [a5.s_lower, b5.s_lower] | rw [a5.fx_upper, b5.fx_upper] | rw [a5.fx_lower, b5.fx_lower]
    | rw [a5.fy_upper, b5.fy_upper] | rw [a5.fy_lower, b5.fy_lower] | rw [a5.precip, b5.precip]
    | rw [a5.evap, b5.evap]

/-! ### ERA5 -/

section era5
variable [NpExp K] {cfg cfg' : InputConfig} {disk disk' : List Char → Except Err (RawFile K K)} {t : ℤ}

theorem era5_oneValue (huniq : ∀ var l lat lon x y, OnDisk cfg disk var t l lat lon x → OnDisk cfg disk var t l lat lon y → x = y)
    (lat lon : K) : OneValue (Era5Origin cfg disk t) lat lon := by
  intro n l x y hx hy
  unfold Era5Origin at hx hy
  split at hx <;> simp only at hy
  any_goals exact huniq _ _ _ _ _ _ hx hy
  · obtain ⟨p, e, hp, he, rfl⟩ := hx
    obtain ⟨p', e', hp', he', rfl⟩ := hy
    rw [huniq _ _ _ _ _ _ hp hp', huniq _ _ _ _ _ _ he he']
  · obtain ⟨p, e, hp, he, rfl⟩ := hx
    obtain ⟨p', e', hp', he', rfl⟩ := hy
    rw [huniq _ _ _ _ _ _ hp hp', huniq _ _ _ _ _ _ he he']
  · obtain ⟨e, he, hx⟩ := hx
    obtain ⟨e', he', hy⟩ := hy
    rw [hx (NpOps.ofRat 0), hy (NpOps.ofRat 0), huniq _ _ _ _ _ _ he he']

/-- **C84** ERA5 on pressure levels: the layout of the files does not matter.  Two sets of files (or configurations with the levels
in different orders) that hold the same numbers for the same variables, levels, latitudes and longitudes lead to
preprocessed data with the same numbers at the same latitude and meridian, whatever the order of the axes in the files,
the names of the files, the template and the sorting routine are. -/
theorem C84_era5_file_layout (hlt : cfg.levelType = .pressure_levels) (hlt' : cfg'.levelType = .pressure_levels)
    {levels levels' : List ℤ} (hL : cfg.levels = .list levels) (hL' : cfg'.levels = .list levels') (hperm : levels.Perm levels')
    (hne : levels ≠ []) (hnd : levels.Nodup) (hpos : ∀ l ∈ levels, 0 < l) (hdt : cfg'.nseconds = cfg.nseconds)
    {g g' : List K × List K} (h : Era5Complete cfg disk t levels g) (h' : Era5Complete cfg' disk' t levels' g')
    (hsame : ∀ var l lat lon x, OnDisk cfg' disk' var t l lat lon x ↔ OnDisk cfg disk var t l lat lon x)
    (htcw : (∃ file, Era5File cfg' disk' "tcw" t file) ↔ ∃ file, Era5File cfg disk "tcw" t file)
    (huniq : ∀ var l lat lon x y, OnDisk cfg disk var t l lat lon x → OnDisk cfg disk var t l lat lon y → x = y)
    (hgrid : (∀ lat, lat ∈ g'.1 ↔ lat ∈ g.1) ∧ ∀ lon, lon ∈ g'.2 ↔ lon ∈ g.2)
    (hlon : ∀ x ∈ g.2, ∀ y ∈ g.2, SameMeridian x y → x = y)
    {argsort argsort' : List K → List ℕ} (ha : IsArgsort argsort) (ha' : IsArgsort argsort') {lay : LayerConfig K}
    (hps : ∀ lat ∈ g.1, ∀ lon ∈ g.2, ∀ x, OnDisk cfg disk "sp" t none lat lon x →
      (0 < x ∧ 0 ≤ lay.factor * x + lay.offset ∧ lay.factor * x + lay.offset ≤ x) ∧ ∀ l ∈ levels, (l : K) * 100 ≠ x) :
    ∃ ds ds', prepEra5 argsort lay cfg disk t = .ok ds ∧ prepEra5 argsort' lay cfg' disk' t = .ok ds' ∧
      ∀ i j i' j' lat x x', ds.latitude[i]? = some lat → ds.longitude[j]? = some x → ds'.latitude[i']? = some lat →
        ds'.longitude[j']? = some x' → SameMeridian x x' → ∀ v, ds'.data v i' j' = ds.data v i j := by
  obtain ⟨ds, b, a1, a2, a3⟩ := C83_era5_pressure_levels hlt hL hne (fun l hl => (hpos l hl).le) h ha
    (fun lat h1 lon h2 x hx => (hps lat h1 lon h2 x hx).1)
  obtain ⟨ds', b', a1', a2', a3'⟩ := C83_era5_pressure_levels hlt' hL' (fun e => hne (by rw [e] at hperm; exact hperm.eq_nil))
    (fun l hl => (hpos l (hperm.mem_iff.2 hl)).le) h' ha' (lay := lay)
    (fun lat h1 lon h2 x hx => (hps lat ((hgrid.1 _).1 h1) lon ((hgrid.2 _).1 h2) x ((hsame _ _ _ _ _).1 hx)).1)
  have hb : b' = b := by
    have := (a2'.trans htcw).trans a2.symm
    cases b <;> cases b' <;> simp_all
  subst hb
  have ho : Era5Origin cfg' disk' t = Era5Origin cfg disk t := by
    funext n l lat lon x
    unfold Era5Origin
    simp only [hsame, hdt]
  rw [ho] at a3'
  refine ⟨ds, ds', a1, a1', ?_⟩
  intro i j i' j' lat x x' hi hj hi' hj' hx v
  refine gridFrom_unique a3 a3' (fun x hx y hy => hlon x hx y ((hgrid.2 y).1 hy)) ?_ hi hj hi' hj' hx v
  rintro lat h1 lon h2 r r' p p' e e' ⟨c1, c2, c3⟩ ⟨d1, d2, d3⟩
  have hP := era5_oneValue huniq lat lon
  refine ⟨layersFrom_unique hP (hperm.map _) ?_ ?_ ?_ c1 d1, hP _ _ _ _ c2 d2, hP _ _ _ _ c3 d3⟩
  · exact hnd.map (fun a b h => by
      have : (a : ℚ) = b := by simpa using h
      exact_mod_cast this)
  · intro l hl
    simp only [List.mem_map] at hl
    obtain ⟨m, hm, rfl⟩ := hl
    have : (0 : ℚ) < (m : ℚ) := by exact_mod_cast hpos m hm
    positivity
  · intro x hx
    obtain ⟨q1, q2⟩ := hps lat h1 lon h2 x hx
    refine ⟨q1.1, ?_⟩
    intro l hl
    simp only [List.mem_map] at hl
    obtain ⟨m, hm, rfl⟩ := hl
    have := q2 m hm
    push_cast
    exact this

end era5

/-! ### CMIP -/

section cmip
variable {cfg : InputConfig} {ord ord' : Listing K} {glob glob' : List Char → List (RawFile K K)} {t : ℤ}

theorem cmip_oneValue (huniq : ∀ var t l lat lon x y, CmipStored cfg glob var t l lat lon x →
      CmipStored cfg glob var t l lat lon y → x = y) (lat lon : K) : OneValue (CmipOrigin cfg glob t) lat lon := by
  have uniqMean : ∀ {var l lat lon x y}, SixHourMean cfg glob var t l lat lon x →
      SixHourMean cfg glob var t l lat lon y → x = y := by
    rintro var l lat lon x y ⟨a, b, ha, hb, rfl⟩ ⟨a', b', ha', hb', rfl⟩
    rw [huniq _ _ _ _ _ _ _ ha ha', huniq _ _ _ _ _ _ _ hb hb']
  intro n l x y hx hy
  unfold CmipOrigin at hx hy
  split at hx <;> simp only at hy
  any_goals exact huniq _ _ _ _ _ _ _ hx hy
  · obtain ⟨p, e, hp, he, rfl⟩ := hx
    obtain ⟨p', e', hp', he', rfl⟩ := hy
    rw [uniqMean hp hp', uniqMean he he']
  · obtain ⟨e, he, hx⟩ := hx
    obtain ⟨e', he', hy⟩ := hy
    rw [hx (NpOps.ofRat 0), hy (NpOps.ofRat 0), uniqMean he he']

/-- **C84** CMIP: the order in which the files of a variable are found, the order in which the libraries list labels, and the sorting
routine do not matter: the preprocessed data hold the same numbers at the same latitude and meridian. -/
theorem C84_cmip_file_order (hlt : cfg.levelType = .pressure_levels) (hfair : Listing.Fair ord) (hfair' : Listing.Fair ord')
    {g g' : List K × List K} (h : CmipComplete cfg glob t g) (h' : CmipComplete cfg glob' t g')
    (hsame : ∀ path file, file ∈ glob' path ↔ file ∈ glob path)
    (huniq : ∀ var t l lat lon x y, CmipStored cfg glob var t l lat lon x → CmipStored cfg glob var t l lat lon y → x = y)
    (hne : ∃ l, SomeFileHas cfg glob "hus" RawFile.levels l ∧ SomeFileHas cfg glob "ua" RawFile.levels l ∧
      SomeFileHas cfg glob "va" RawFile.levels l)
    (hpos : ∀ l, SomeFileHas cfg glob "hus" RawFile.levels l → 0 < l)
    (hgrid : (∀ lat, lat ∈ g'.1 ↔ lat ∈ g.1) ∧ ∀ lon, lon ∈ g'.2 ↔ lon ∈ g.2)
    (hlon : ∀ x ∈ g.2, ∀ y ∈ g.2, SameMeridian x y → x = y)
    {argsort argsort' : List K → List ℕ} (ha : IsArgsort argsort) (ha' : IsArgsort argsort') {lay : LayerConfig K}
    (hps : ∀ lat ∈ g.1, ∀ lon ∈ g.2, ∀ x, CmipStored cfg glob "ps" t none lat lon x →
      (0 < x ∧ 0 ≤ lay.factor * x + lay.offset ∧ lay.factor * x + lay.offset ≤ x) ∧
      ∀ l, SomeFileHas cfg glob "hus" RawFile.levels l → (l : K) ≠ x) :
    ∃ ds ds', prepCmip argsort lay cfg ord glob t = .ok ds ∧ prepCmip argsort' lay cfg ord' glob' t = .ok ds' ∧
      ∀ i j i' j' lat x x', ds.latitude[i]? = some lat → ds.longitude[j]? = some x → ds'.latitude[i']? = some lat →
        ds'.longitude[j']? = some x' → SameMeridian x x' → ∀ v, ds'.data v i' j' = ds.data v i j := by
  have hfile : ∀ var file, CmipFile cfg glob' var file ↔ CmipFile cfg glob var file := by
    intro var file
    unfold CmipFile
    simp only [hsame]
  have hst : CmipStored cfg glob' = CmipStored cfg glob := by
    funext var t l lat lon x
    unfold CmipStored
    simp only [hfile]
  have hmean : SixHourMean cfg glob' = SixHourMean cfg glob := by
    funext var t l lat lon x
    unfold SixHourMean
    simp only [hst]
  have hor : CmipOrigin cfg glob' t = CmipOrigin cfg glob t := by
    funext n l lat lon x
    unfold CmipOrigin
    simp only [hst, hmean]
  have hsome : ∀ {ι : Type} var (ax : RawFile K K → List ι) x,
      SomeFileHas cfg glob' var ax x ↔ SomeFileHas cfg glob var ax x := by
    intro ι var ax x
    unfold SomeFileHas
    simp only [hfile]
  obtain ⟨ds, ls, a1, a4, a5, a6⟩ := C83_cmip hlt hfair h hne (fun l hl => (hpos l hl).le) ha
    (fun lat h1 lon h2 x hx => (hps lat h1 lon h2 x hx).1)
  obtain ⟨ds', ls', b1, b4, b5, b6⟩ := C83_cmip (lay := lay) hlt hfair' h' (by simpa only [hsome] using hne)
    (fun l hl => (hpos l ((hsome _ _ _).1 hl)).le) ha'
    (fun lat h1 lon h2 x hx => (hps lat ((hgrid.1 _).1 h1) lon ((hgrid.2 _).1 h2) x (hst ▸ hx)).1)
  rw [hor] at b6
  have hp : ls.Perm ls' := (List.perm_ext_iff_of_nodup a5 b5).mpr fun l => by rw [a4, b4, hsome, hsome, hsome]
  refine ⟨ds, ds', a1, b1, ?_⟩
  intro i j i' j' lat x x' hi hj hi' hj' hx v
  refine gridFrom_unique a6 b6 (fun x hx y hy => hlon x hx y ((hgrid.2 y).1 hy)) ?_ hi hj hi' hj' hx v
  rintro lat h1 lon h2 r r' p p' e e' ⟨c1, c2, c3⟩ ⟨d1, d2, d3⟩
  have hP := cmip_oneValue (t := t) huniq lat lon
  refine ⟨layersFrom_unique hP hp a5 (fun l hl => hpos l ((a4 l).1 hl).1) ?_ c1 d1, hP _ _ _ _ c2 d2, hP _ _ _ _ c3 d3⟩
  intro x hx
  obtain ⟨q1, q2⟩ := hps lat h1 lon h2 x hx
  exact ⟨q1.1, fun l hl => q2 l ((a4 l).1 hl).1⟩

end cmip

end

namespace PrepDemo

section
variable {K : Type} [Field K] [LinearOrder K] [IsStrictOrderedRing K] [FloorRing K]

theorem meridians : ∀ x ∈ ([4, 5] : List K), ∀ y ∈ ([4, 5] : List K), SameMeridian x y → x = y := by
  rintro x hx y hy ⟨k, hk⟩
  simp only [List.mem_cons, List.not_mem_nil, or_false] at hx hy
  rcases hx with rfl | rfl <;> rcases hy with rfl | rfl
  · rfl
  · exfalso
    have : (4 : ℤ) = 5 + 360 * k := by exact_mod_cast hk
    omega
  · exfalso
    have : (5 : ℤ) = 4 + 360 * k := by exact_mod_cast hk
    omega
  · rfl

theorem same_numbers {lt : LevelType} {levels levels' : List ℤ} (hp : levels.Perm levels') (var : String) (l : Option ℚ)
    (lat lon x : K) : OnDisk (cfg lt levels') (disk levels') var 0 l lat lon x ↔ OnDisk (cfg lt levels) (disk levels) var 0 l lat lon x := by
  have key : ∀ {levels levels' : List ℤ}, levels.Perm levels' → OnDisk (cfg lt levels) (disk levels) var 0 l lat lon x →
      OnDisk (cfg lt levels') (disk levels') var 0 l lat lon x := by
    rintro levels levels' hp ⟨f, ⟨path, h1, h2⟩, n, k, i, j, a1, a2, a3, a4, rfl⟩
    injection h2 with h2
    subst h2
    refine ⟨file levels' path, ⟨path, h1, rfl⟩, ?_⟩
    cases l with
    | none => exact ⟨n, 0, i, j, a1, a2, a3, ⟨a4.1, rfl⟩, rfl⟩
    | some l =>
      have hm : l ∈ levels'.map fun l : ℤ => (l : ℚ) := ((hp.map _).mem_iff).1 (List.mem_of_getElem? a4)
      obtain ⟨k', hk', e⟩ := List.getElem_of_mem hm
      exact ⟨n, k', i, j, a1, a2, a3, List.getElem?_eq_some_iff.mpr ⟨hk', e⟩, rfl⟩
  exact ⟨key hp.symm, key hp⟩

theorem one_number {lt : LevelType} {levels : List ℤ} (var : String) (l : Option ℚ) (lat lon x y : K)
    (hx : OnDisk (cfg lt levels) (disk levels) var 0 l lat lon x) (hy : OnDisk (cfg lt levels) (disk levels) var 0 l lat lon y) :
    x = y := by
  obtain ⟨f, ⟨path, h1, h2⟩, n, k, i, j, -, -, -, -, rfl⟩ := hx
  obtain ⟨f', ⟨path', h1', h2'⟩, n', k', i', j', -, -, -, -, rfl⟩ := hy
  rw [h1] at h1'
  injection h1' with h1'
  subst h1'
  rw [h2] at h2'
  injection h2' with h2'
  subst h2'
  injection h2 with h2
  subst h2
  rfl

/-- `C84_era5_file_layout` applies: the levels in the configuration and in the files in two orders -/
example [NpExp K] : ∃ ds ds', prepEra5 demoArgsort lay (cfg .pressure_levels [850, 500]) (disk (K := K) [850, 500]) 0 = .ok ds ∧
    prepEra5 demoArgsort lay (cfg .pressure_levels [500, 850]) (disk (K := K) [500, 850]) 0 = .ok ds' ∧
      ∀ i j i' j' lat x x', ds.latitude[i]? = some lat → ds.longitude[j]? = some x → ds'.latitude[i']? = some lat →
        ds'.longitude[j']? = some x' → SameMeridian x x' → ∀ v, ds'.data v i' j' = ds.data v i j := by
  have hp : ([850, 500] : List ℤ).Perm [500, 850] := .swap _ _ _
  refine C84_era5_file_layout (cfg := cfg .pressure_levels [850, 500]) (cfg' := cfg .pressure_levels [500, 850]) rfl rfl rfl rfl hp (by simp) (by decide) (by decide) rfl
    (complete .pressure_levels [850, 500] (by decide)) (complete .pressure_levels [500, 850] (by decide))
    (same_numbers hp) ?_ one_number ⟨fun _ => Iff.rfl, fun _ => Iff.rfl⟩ meridians demoArgsort_isArgsort demoArgsort_isArgsort ?_
  · exact ⟨fun _ => ⟨_, _, path_eq _ _ _ "tcw" (by simp), rfl⟩, fun _ => ⟨_, _, path_eq _ _ _ "tcw" (by simp), rfl⟩⟩
  · intro lat _ lon _ x hx
    refine ⟨boundary hx, ?_⟩
    have : x = ((100000 : ℚ) : K) := onDisk (by simp) hx
    subst this
    intro l hl
    simp only [List.mem_cons, List.not_mem_nil, or_false] at hl
    rcases hl with rfl | rfl <;> norm_num

end

end PrepDemo

namespace CmipDemo

theorem files_of (rev : Bool) {path : List Char} {f : RawFile ℚ ℚ} (h : f ∈ demoGlob rev path) :
    ∃ level times levels lat lon, f = file level times levels lat lon ∧ (level = none → levels = []) := by
  have both : ∀ level (times : ℤ → List ℤ) levels lat lon, f ∈ (if rev then [file level (times 1) levels lat lon, file level (times 0) levels lat lon]
      else [file level (times 0) levels lat lon, file level (times 1) levels lat lon]) →
      ∃ d : ℤ, f = file level (times d) levels lat lon := by
    intro level times levels lat lon hg
    cases rev <;> simp at hg <;> rcases hg with h | h <;> exact ⟨_, h⟩
  unfold demoGlob at h
  simp only at h
  split at h
  · obtain ⟨d, rfl⟩ := both _ sixHours _ _ _ h
    exact ⟨_, _, _, _, _, rfl, fun h => by cases h⟩
  split at h
  · obtain ⟨d, rfl⟩ := both _ sixHours _ _ _ h
    exact ⟨_, _, _, _, _, rfl, fun h => by cases h⟩
  split at h
  · obtain ⟨d, rfl⟩ := both _ sixHours _ _ _ h
    exact ⟨_, _, _, _, _, rfl, fun h => by cases h⟩
  split at h
  · obtain ⟨d, rfl⟩ := both _ threeHours _ _ _ h
    exact ⟨_, _, _, _, _, rfl, fun _ => rfl⟩
  split at h
  · obtain ⟨d, rfl⟩ := both _ sixHours _ _ _ h
    exact ⟨_, _, _, _, _, rfl, fun _ => rfl⟩
  · cases h

/-- the number tells its place -/
theorem stored_value {rev : Bool} {var : String} {t : ℤ} {l : Option ℚ} {lat lon x : ℚ}
    (h : CmipStored demoCfg (demoGlob rev) var t l lat lon x) :
    x = (t : ℚ) / 3600000000 + 1000 * l.getD 0 + 1000000000 * lat + 10000000000000 * lon := by
  obtain ⟨f, ⟨path, hp, hf⟩, n, k, i, j, h1, h2, h3, h4, rfl⟩ := h
  obtain ⟨level, times, levels, lats, lons, rfl, hl⟩ := files_of rev hf
  show (times.getD n 0 : ℚ) / 3600000000 + 1000 * levels.getD k 0 + 1000000000 * lats.getD i 0 +
      10000000000000 * lons.getD j 0 = _
  have e1 : times[n]? = some t := h1
  have e2 : lats[i]? = some lat := h2
  have e3 : lons[j]? = some lon := h3
  rw [List.getD_eq_getElem?_getD, List.getD_eq_getElem?_getD, List.getD_eq_getElem?_getD, List.getD_eq_getElem?_getD, e1, e2, e3]
  cases l with
  | none =>
    have : levels = [] := hl h4.1
    subst this
    rfl
  | some l =>
    have e4 : levels[k]? = some l := h4
    rw [e4]
    rfl

theorem same_files (path : List Char) (f : RawFile ℚ ℚ) : f ∈ demoGlob true path ↔ f ∈ demoGlob false path := by
  have both : ∀ a b : RawFile ℚ ℚ, f ∈ [a, b] ↔ f ∈ [b, a] := by
    intro a b; simp only [List.mem_cons, List.not_mem_nil, or_false]; tauto
  unfold demoGlob
  simp only [if_true, Bool.false_eq_true, if_false]
  split
  · exact both _ _
  split
  · exact both _ _
  split
  · exact both _ _
  split
  · exact both _ _
  split
  · exact both _ _
  · rfl

theorem hus_levels {rev : Bool} {l : ℚ} (h : SomeFileHas demoCfg (demoGlob rev) "hus" RawFile.levels l) :
    l ∈ ([85000, 50000, 10000] : List ℚ) := by
  have hhus : formatCmip demoCfg.template "hus".toList = .ok "cmip/hus_*.nc".toList := by decide +kernel
  obtain ⟨f, ⟨path, hp, hf⟩, hl⟩ := h
  rw [hhus] at hp
  injection hp with hp
  subst hp
  have : f.levels = [85000, 50000, 10000] := by
    have hf' : f ∈ (if rev then [file (some "plev") (sixHours 1) [85000, 50000, 10000] [51, 50] [4, 5],
      file (some "plev") (sixHours 0) [85000, 50000, 10000] [51, 50] [4, 5]] else
      [file (some "plev") (sixHours 0) [85000, 50000, 10000] [51, 50] [4, 5],
      file (some "plev") (sixHours 1) [85000, 50000, 10000] [51, 50] [4, 5]]) := hf
    cases rev <;> simp at hf' <;> rcases hf' with rfl | rfl <;> rfl
  rwa [this] at hl

/-- `C84_cmip_file_order` applies: the files, and the labels, in two orders -/
example : ∃ ds ds', prepCmip demoArgsort ⟨1 / 2, 0, 111⟩ demoCfg plain (demoGlob false) (30 * hour) = .ok ds ∧
    prepCmip demoArgsort ⟨1 / 2, 0, 111⟩ demoCfg flipped (demoGlob true) (30 * hour) = .ok ds' ∧
      ∀ i j i' j' lat x x', ds.latitude[i]? = some lat → ds.longitude[j]? = some x → ds'.latitude[i']? = some lat →
        ds'.longitude[j']? = some x' → SameMeridian x x' → ∀ v, ds'.data v i' j' = ds.data v i j := by
  have hhus : formatCmip demoCfg.template "hus".toList = .ok "cmip/hus_*.nc".toList := by decide +kernel
  have hua : formatCmip demoCfg.template "ua".toList = .ok "cmip/ua_*.nc".toList := by decide +kernel
  have hva : formatCmip demoCfg.template "va".toList = .ok "cmip/va_*.nc".toList := by decide +kernel
  refine C84_cmip_file_order rfl plain_fair flipped_fair (demo_complete false) (demo_complete true) same_files
    (fun var t l lat lon x y hx hy => (stored_value hx).trans (stored_value hy).symm) ⟨85000, ?_, ?_, ?_⟩ ?_
    ⟨fun _ => Iff.rfl, fun _ => Iff.rfl⟩ PrepDemo.meridians demoArgsort_isArgsort demoArgsort_isArgsort ?_
  · exact ⟨file (some "plev") (sixHours 0) [85000, 50000, 10000] [51, 50] [4, 5], ⟨_, hhus, List.mem_cons_self⟩, by
      show (85000 : ℚ) ∈ ([85000, 50000, 10000] : List ℚ); decide +kernel⟩
  · exact ⟨file (some "plev") (sixHours 0) [50000, 85000] [50, 51] [5, 4], ⟨_, hua, List.mem_cons_self⟩, by
      show (85000 : ℚ) ∈ ([50000, 85000] : List ℚ); decide +kernel⟩
  · exact ⟨file (some "plev") (sixHours 0) [50000, 85000, 100000] [50, 51] [4, 5], ⟨_, hva, List.mem_cons_self⟩, by
      show (85000 : ℚ) ∈ ([50000, 85000, 100000] : List ℚ); decide +kernel⟩
  · intro l hl
    have p3 : ∀ x ∈ ([85000, 50000, 10000] : List ℚ), 0 < x := by decide +kernel
    exact p3 l (hus_levels hl)
  · intro lat hlat lon hlon x hx
    have hx := stored_value hx
    have p1 : ∀ x ∈ ([51, 50] : List ℚ), 50 ≤ x := by decide +kernel
    have p2 : ∀ x ∈ ([4, 5] : List ℚ), 4 ≤ x := by decide +kernel
    have l1 := p1 lat hlat
    have l2 := p2 lon hlon
    have l3 : 1000000 < x := by
      rw [hx]
      simp [hour]
      linarith
    refine ⟨⟨by linarith, by simp only; linarith, by simp only; linarith⟩, ?_⟩
    intro l hl
    have p3 : ∀ x ∈ ([85000, 50000, 10000] : List ℚ), x ≤ 85000 := by decide +kernel
    have := p3 l (hus_levels hl)
    intro h
    have e : l = x := (Rat.cast_id l).symm.trans h
    linarith

end CmipDemo

end Wam
