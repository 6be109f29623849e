import Verif.Lemmas.InputMore
import Verif.Props.Surface

set_option linter.unusedSectionVars false
set_option linter.unusedVariables false

namespace Wam
open Spec

variable {κ α : Type} [DecidableEq κ] [Add α] [Sub α] [Mul α] [Div α] [NpOps α]

section cmip
variable {cfg : InputConfig} {ord : Listing κ} {glob : List Char → List (RawFile κ α)} {t : ℤ}

/-- before precipitation and evaporation are combined -/
def CmipLoaded (cfg : InputConfig) (glob : List Char → List (RawFile κ α)) (t : ℤ) (name : String)
    (level : Option ℚ) (lat lon : κ) (x : α) : Prop :=
  match name with
  | "precip" => SixHourMean cfg glob "pr" t level lat lon x
  | "evap" => SixHourMean cfg glob "hfls" t level lat lon x
  | n => CmipOrigin cfg glob t n level lat lon x

theorem cmip_has {name var : String} (hv : wam2cmip.lookup name = some var) (hn : var ∉ threeHourly)
    {f : DataField κ α} (h : loadCmip cfg ord glob name t = .ok f) {l φ θ x} (hf : f.Has l φ θ x) :
    CmipStored cfg glob var t l φ θ x := by
  obtain ⟨var', hv', h1, -⟩ := loadCmip_spec h
  rw [hv] at hv'
  injection hv' with hv'; subst hv'
  exact h1 hn l φ θ x hf

theorem cmip_has_mean {name var : String} (hv : wam2cmip.lookup name = some var) (hn : var ∈ threeHourly)
    (h3 : ∀ file, CmipFile cfg glob var file → ThreeHourlyFile file)
    {f : DataField κ α} (h : loadCmip cfg ord glob name t = .ok f) {l φ θ x} (hf : f.Has l φ θ x) :
    SixHourMean cfg glob var t l φ θ x := by
  obtain ⟨var', hv', -, h1, -⟩ := loadCmip_spec h
  rw [hv] at hv'
  injection hv' with hv'; subst hv'
  exact h1 hn h3 l φ θ x hf

theorem cmip_axes {name var : String} (hv : wam2cmip.lookup name = some var) (hfair : Listing.Fair ord)
    {f : DataField κ α} (h : loadCmip cfg ord glob name t = .ok f) :
    (∀ φ, φ ∈ f.latitude ↔ SomeFileHas cfg glob var RawFile.latitude φ) ∧
      (∀ θ, θ ∈ f.longitude ↔ SomeFileHas cfg glob var RawFile.longitude θ) ∧
      ∀ ls, f.levels = some ls → ∀ l, l ∈ ls ↔ SomeFileHas cfg glob var RawFile.levels l := by
  obtain ⟨var', hv', -, -, h1⟩ := loadCmip_spec h
  rw [hv] at hv'
  injection hv' with hv'; subst hv'
  exact h1 hfair

theorem cmipLevels_spec {d : InputData κ α} (h : cmipLevels cfg ord glob t = .ok d) :
    d.Prov (CmipLoaded cfg glob t) ∧ d.vars.map Prod.fst = ["q", "u", "v"] ∧
      (Listing.Fair ord → ∃ g ls, d.grid = some g ∧ d.levels = some ls ∧ ls.Nodup ∧
        (∀ φ, φ ∈ g.1 ↔ SomeFileHas cfg glob "hus" RawFile.latitude φ) ∧
        (∀ θ, θ ∈ g.2 ↔ SomeFileHas cfg glob "hus" RawFile.longitude θ) ∧
        ∀ l, l ∈ ls ↔ SomeFileHas cfg glob "hus" RawFile.levels l ∧
          SomeFileHas cfg glob "ua" RawFile.levels l ∧ SomeFileHas cfg glob "va" RawFile.levels l) := by
  unfold cmipLevels at h
  obtain ⟨q, hq, h⟩ := Except.bind_ok h
  obtain ⟨u, hu, h⟩ := Except.bind_ok h
  obtain ⟨v, hv, h⟩ := Except.bind_ok h
  obtain ⟨lq, hlq, h⟩ := Except.bind_ok h
  obtain ⟨lu, hlu, h⟩ := Except.bind_ok h
  obtain ⟨lv, hlv, h⟩ := Except.bind_ok h
  simp only at h
  obtain ⟨q', hq', h⟩ := Except.bind_ok h
  obtain ⟨d1, h1, h⟩ := Except.bind_ok h
  obtain ⟨u', hu', h⟩ := Except.bind_ok h
  obtain ⟨d2, h2, h⟩ := Except.bind_ok h
  obtain ⟨v', hv', h3⟩ := Except.bind_ok h
  obtain ⟨q1, q2, q3, q4⟩ := selLevels_spec hq'
  obtain ⟨u1, u2, u3, u4⟩ := selLevels_spec hu'
  obtain ⟨v1, v2, v3, v4⟩ := selLevels_spec hv'
  have p1 := InputData.prov_assign (P := CmipLoaded cfg glob t) (InputData.prov_empty _) h1 (by
    intro l φ θ x hx
    exact cmip_has (var := "hus") (by decide) (by decide) hq (q4 _ _ _ _ hx))
  have p2 := InputData.prov_assign p1 h2 (by
    intro l φ θ x hx
    exact cmip_has (var := "ua") (by decide) (by decide) hu (u4 _ _ _ _ hx))
  have p3 := InputData.prov_assign p2 h3 (by
    intro l φ θ x hx
    exact cmip_has (var := "va") (by decide) (by decide) hv (v4 _ _ _ _ hx))
  obtain ⟨f1, a1, a2, a3, a4, a5, a6, -⟩ := InputData.assign_spec h1
  obtain ⟨f2, b1, b2, b3, b4, b5, b6, -⟩ := InputData.assign_spec h2
  obtain ⟨f3, c1, c2, c3, c4, c5, c6, -⟩ := InputData.assign_spec h3
  refine ⟨p3, by rw [c1, b1, a1]; rfl, fun hfair => ?_⟩
  have hg := c3 _ (b3 _ (a6 rfl))
  have hls : d.levels = some (commonLevels ord.levels lq [lu, lv]) := by
    have : d1.levels = some (commonLevels ord.levels lq [lu, lv]) := by
      rw [a4, a5, q3]; rfl
    rw [c4, b4, this]; rfl
  obtain ⟨x1, x2, x3⟩ := cmip_axes (var := "hus") (by decide) hfair hq
  obtain ⟨_, _, y3⟩ := cmip_axes (var := "ua") (by decide) hfair hu
  obtain ⟨_, _, z3⟩ := cmip_axes (var := "va") (by decide) hfair hv
  have coord : ∀ {f : DataField κ α} {ls : List ℚ}, f.levelCoord = .ok ls → f.levels = some ls := by
    intro f ls h
    unfold DataField.levelCoord at h
    split at h
    · next hl => injection h with h; subst h; exact hl
    · cases h
  obtain ⟨k1, k2⟩ := C70_common_levels ord.levels hfair.levels hfair.levelsNodup lq [lu, lv]
  refine ⟨_, _, hg, hls, k2, ?_, ?_, ?_⟩
  · simp only [q1]; exact x1
  · simp only [q2]; exact x2
  · intro l
    rw [k1, x3 _ (coord hlq), ← y3 _ (coord hlu), ← z3 _ (coord hlv)]
    simp

theorem cmipSurface_spec {d d' : InputData κ α} (h : cmipSurface cfg ord glob t d = .ok d')
    (hpr : ∀ file, CmipFile cfg glob "pr" file → ThreeHourlyFile file)
    (hhf : ∀ file, CmipFile cfg glob "hfls" file → ThreeHourlyFile file)
    (hd : d.Prov (CmipLoaded cfg glob t)) :
    d'.Prov (CmipLoaded cfg glob t) ∧ (∀ g, d.grid = some g → d'.grid = some g) ∧
      (∀ ls, d.levels = some ls → d'.levels = some ls) ∧
      d'.vars.map Prod.fst = d.vars.map Prod.fst ++ ["ps", "qs", "us", "vs", "precip", "evap"] := by
  unfold cmipSurface at h
  obtain ⟨x1, hx1, h⟩ := Except.bind_ok h
  obtain ⟨d1, h1, h⟩ := Except.bind_ok h
  obtain ⟨x2, hx2, h⟩ := Except.bind_ok h
  obtain ⟨d2, h2, h⟩ := Except.bind_ok h
  obtain ⟨x3, hx3, h⟩ := Except.bind_ok h
  obtain ⟨d3, h3, h⟩ := Except.bind_ok h
  obtain ⟨x4, hx4, h⟩ := Except.bind_ok h
  obtain ⟨d4, h4, h⟩ := Except.bind_ok h
  obtain ⟨x5, hx5, h⟩ := Except.bind_ok h
  obtain ⟨d5, h5, h⟩ := Except.bind_ok h
  obtain ⟨x6, hx6, h6⟩ := Except.bind_ok h
  have p1 := InputData.prov_assign hd h1 (by
    intro l φ θ x hx; exact cmip_has (var := "ps") (by decide) (by decide) hx1 hx)
  have p2 := InputData.prov_assign p1 h2 (by
    intro l φ θ x hx; exact cmip_has (var := "huss") (by decide) (by decide) hx2 hx)
  have p3 := InputData.prov_assign p2 h3 (by
    intro l φ θ x hx; exact cmip_has (var := "uas") (by decide) (by decide) hx3 hx)
  have p4 := InputData.prov_assign p3 h4 (by
    intro l φ θ x hx; exact cmip_has (var := "vas") (by decide) (by decide) hx4 hx)
  have p5 := InputData.prov_assign p4 h5 (by
    intro l φ θ x hx; exact cmip_has_mean (var := "pr") (by decide) (by decide) hpr hx5 hx)
  have p6 := InputData.prov_assign p5 h6 (by
    intro l φ θ x hx; exact cmip_has_mean (var := "hfls") (by decide) (by decide) hhf hx6 hx)
  obtain ⟨_, v1, _, g1, l1, _⟩ := InputData.assign_spec h1
  obtain ⟨_, v2, _, g2, l2, _⟩ := InputData.assign_spec h2
  obtain ⟨_, v3, _, g3, l3, _⟩ := InputData.assign_spec h3
  obtain ⟨_, v4, _, g4, l4, _⟩ := InputData.assign_spec h4
  obtain ⟨_, v5, _, g5, l5, _⟩ := InputData.assign_spec h5
  obtain ⟨_, v6, _, g6, l6, _⟩ := InputData.assign_spec h6
  refine ⟨p6, fun g hg => g6 _ (g5 _ (g4 _ (g3 _ (g2 _ (g1 _ hg))))), fun ls hls => ?_, ?_⟩
  · rw [l6, l5, l4, l3, l2, l1, hls]; rfl
  · rw [v6, v5, v4, v3, v2, v1]; simp

theorem zip_axes {op : α → α → α} {f g z : DataField κ α} (h : DataField.zip op f g = .ok z)
    (h1 : f.latitude = g.latitude) (h2 : f.longitude = g.longitude) :
    z.latitude = f.latitude ∧ z.longitude = f.longitude := by
  unfold DataField.zip at h
  simp only [h1, h2, joinAxis, if_true] at h
  split at h
  · cases h
  · simp only [bind, Except.bind, pure, Except.pure] at h
    split at h
    · cases h
    · split at h
      · cases h
      · have h := Except.ok.inj h
        subst h
        exact ⟨h1.symm, h2.symm⟩

theorem cmipFluxes_spec {d d' : InputData κ α} (h : cmipFluxes d = .ok d')
    (hd : d.Prov (CmipLoaded cfg glob t)) : d'.Prov (CmipOrigin cfg glob t) ∧ d'.grid = d.grid ∧
      d'.levels = d.levels ∧ d'.vars.map Prod.fst = d.vars.map Prod.fst := by
  unfold cmipFluxes at h
  obtain ⟨pr, hpr, h⟩ := Except.bind_ok h
  obtain ⟨hf, hhf, h⟩ := Except.bind_ok h
  obtain ⟨z, hz, h⟩ := Except.bind_ok h
  have h := Except.ok.inj h
  obtain ⟨a1, a2, a3⟩ := hd _ _ (InputData.get_mem hpr)
  obtain ⟨b1, b2, b3⟩ := hd _ _ (InputData.get_mem hhf)
  have hax : (pr.latitude, pr.longitude) = (hf.latitude, hf.longitude) := by
    rw [a1] at b1; injection b1
  injection hax with e1 e2
  obtain ⟨z1, z2⟩ := zip_axes hz e1 e2
  obtain ⟨z3, z4⟩ := DataField.zip_spec hz
  have hfl : hf.levels = none := by
    unfold DataField.zip at hz
    cases hb : hf.levels with
    | none => rfl
    | some ls => simp [hb, bind, Except.bind, throw, throwThe, MonadExceptOf.throw] at hz
  -- the provenance in between: precipitation is combined, evaporation not yet
  let mid : String → Option ℚ → κ → κ → α → Prop := fun n l φ θ x =>
    if n = "evap" then SixHourMean cfg glob "hfls" t l φ θ x else CmipOrigin cfg glob t n l φ θ x
  have m1 : (d.replace "precip" z).Prov mid := by
    refine prov_replace hd ?_ z3 ?_ ?_
    · rw [a1, z1, z2]
    · intro l φ θ x hx
      obtain ⟨a, b, ha, hb, rfl⟩ := z4 l φ θ x hx
      exact ⟨a, b, a3 _ _ _ _ ha, b3 _ _ _ _ hb, rfl⟩
    · intro n l φ θ x hn hx
      simp only [mid]
      split
      · next he => subst he; exact hx
      · next he =>
        unfold CmipLoaded at hx
        split at hx
        · exact absurd rfl hn
        · exact absurd rfl he
        · exact hx
  have m2 : ((d.replace "precip" z).replace "evap" (hf.map fun e => (precipEvapCmip (ofRat 0) e).2)).Prov
      (CmipOrigin cfg glob t) := by
    refine prov_replace m1 ?_ hfl ?_ ?_
    · exact b1
    · intro l φ θ x hx
      obtain ⟨a, ha, rfl⟩ := DataField.map_spec hx
      exact ⟨a, b3 _ _ _ _ ha, fun pr => rfl⟩
    · intro n l φ θ x hn hx
      simp only [mid, if_neg hn] at hx
      exact hx
  subst h
  refine ⟨m2, rfl, rfl, ?_⟩
  have hrep : ∀ (d : InputData κ α) (name : String) (f : DataField κ α),
      (d.replace name f).vars.map Prod.fst = d.vars.map Prod.fst := by
    intro d name f
    simp only [InputData.replace, List.map_map]
    apply List.map_congr_left
    rintro ⟨m, g⟩ _
    simp only [Function.comp]
    split <;> rfl
  rw [hrep, hrep]

/-- **C81** Every number that the preprocessing of CMIP data uses for a grid cell comes from the files of its
variable, at the time that is preprocessed and at the latitude, longitude and level of that number, in whatever
order the files are listed and whatever the order of their axes; precipitation and evaporation are computed
from the mean of the two three-hourly samples of the six hours before.  The levels are those that
humidity and wind have in common; no number is missing. -/
theorem C81_every_number_from_its_place (hfair : Listing.Fair ord)
    (hpr : ∀ file, CmipFile cfg glob "pr" file → ThreeHourlyFile file)
    (hhf : ∀ file, CmipFile cfg glob "hfls" file → ThreeHourlyFile file) {raw : RawInput κ α}
    (h : getInputCmip cfg ord glob t = .ok raw) :
    (∀ lat, lat ∈ raw.latitude ↔ SomeFileHas cfg glob "hus" RawFile.latitude lat) ∧
    (∀ lon, lon ∈ raw.longitude ↔ SomeFileHas cfg glob "hus" RawFile.longitude lon) ∧
    raw.tcw = none ∧
    ∃ ls : List ℚ, ls.Nodup ∧
      (∀ l, l ∈ ls ↔ SomeFileHas cfg glob "hus" RawFile.levels l ∧
        SomeFileHas cfg glob "ua" RawFile.levels l ∧ SomeFileHas cfg glob "va" RawFile.levels l) ∧
      ∀ i j lat lon, raw.latitude[i]? = some lat → raw.longitude[j]? = some lon →
        CellFrom (CmipOrigin cfg glob t) ls lat lon raw i j := by
  unfold getInputCmip at h
  obtain ⟨d, hd, h⟩ := Except.bind_ok h
  unfold cmipInput at hd
  split at hd
  · cases hd
  · next hlt =>
    simp only [ne_eq, not_not] at hlt
    rw [hlt] at h
    obtain ⟨d1, h1, hd⟩ := Except.bind_ok hd
    obtain ⟨d2, h2, h3⟩ := Except.bind_ok hd
    obtain ⟨p1, n1, hax⟩ := cmipLevels_spec h1
    obtain ⟨g, ls, hg, hls, hnd, e1, e2, e3⟩ := hax hfair
    obtain ⟨p2, g2, l2, n2⟩ := cmipSurface_spec h2 hpr hhf p1
    obtain ⟨p3, g3, l3, n3⟩ := cmipFluxes_spec h3 p2
    obtain ⟨g', ls', hg', hls', r1, r2, htcw, hcell⟩ := validated_cells p3 h
    have : g' = g := by rw [g3, g2 _ hg] at hg'; injection hg' with hg'; exact hg'.symm
    subst this
    have : ls' = ls := by rw [l3, l2 _ hls] at hls'; injection hls' with hls'; exact hls'.symm
    subst this
    refine ⟨fun φ => by rw [r1]; exact e1 φ, fun θ => by rw [r2]; exact e2 θ, ?_, ls', hnd, e3, hcell⟩
    cases ht : raw.tcw with
    | none => rfl
    | some x =>
      exfalso
      obtain ⟨f, hf, -⟩ := htcw.mp (by rw [ht]; rfl)
      have := List.mem_map_of_mem (f := Prod.fst) (field_mem hf)
      rw [n3, n2, n1] at this
      exact absurd this (by show "tcw" ∉ _; decide)

/-- **C81** The order in which the files of a variable are listed, and the order in which the libraries list labels,
do not matter: two runs that see the same files in different orders use the same numbers at the same
latitude, longitude and level. -/
theorem C81_file_order {ord ord' : Listing κ} (hfair : Listing.Fair ord) (hfair' : Listing.Fair ord')
    {glob' : List Char → List (RawFile κ α)} (hsame : ∀ path file, file ∈ glob' path ↔ file ∈ glob path)
    (hpr : ∀ file, CmipFile cfg glob "pr" file → ThreeHourlyFile file)
    (hhf : ∀ file, CmipFile cfg glob "hfls" file → ThreeHourlyFile file)
    (huniq : ∀ var t l lat lon x y, CmipStored cfg glob var t l lat lon x →
      CmipStored cfg glob var t l lat lon y → x = y)
    {raw raw' : RawInput κ α} (h : getInputCmip cfg ord glob t = .ok raw)
    (h' : getInputCmip cfg ord' glob' t = .ok raw') :
    (∀ lat, lat ∈ raw'.latitude ↔ lat ∈ raw.latitude) ∧ (∀ lon, lon ∈ raw'.longitude ↔ lon ∈ raw.longitude) ∧
    ∃ ls ls' : List ℚ, ls'.Perm ls ∧ ls.Nodup ∧ ∀ i j i' j' lat lon, raw.latitude[i]? = some lat →
      raw.longitude[j]? = some lon → raw'.latitude[i']? = some lat → raw'.longitude[j']? = some lon →
      raw'.surface i' j' = raw.surface i j ∧ raw'.precip i' j' = raw.precip i j ∧
      raw'.evap i' j' = raw.evap i j ∧
      (raw.column i j).p = ls.map (fun l => NpOps.ofRat l) ∧ (raw'.column i' j').p = ls'.map (fun l => NpOps.ofRat l) ∧
      ∀ (k k' : ℕ) (l : ℚ), ls[k]? = some l → ls'[k']? = some l →
        (raw'.column i' j').q[k']? = (raw.column i j).q[k]? ∧
        (raw'.column i' j').u[k']? = (raw.column i j).u[k]? ∧
        (raw'.column i' j').v[k']? = (raw.column i j).v[k]? := by
  have hfile : ∀ var file, CmipFile cfg glob' var file ↔ CmipFile cfg glob var file := by
    intro var file
    unfold CmipFile
    simp only [hsame]
  have hst : CmipStored cfg glob' = CmipStored cfg glob := by
    funext var t l lat lon x
    unfold CmipStored
    simp only [hfile]
  have hmean : SixHourMean cfg glob' = SixHourMean cfg glob := by
    funext var t l lat lon x
    unfold SixHourMean
    simp only [hst]
  have hor : CmipOrigin cfg glob' t = CmipOrigin cfg glob t := by
    funext n l lat lon x
    unfold CmipOrigin
    simp only [hst, hmean]
  have hsome : ∀ {ι : Type} var (ax : RawFile κ α → List ι) x,
      SomeFileHas cfg glob' var ax x ↔ SomeFileHas cfg glob var ax x := by
    intro ι var ax x
    unfold SomeFileHas
    simp only [hfile]
  obtain ⟨a1, a2, a3, ls, hnd, hls, hc⟩ := C81_every_number_from_its_place hfair hpr hhf h
  obtain ⟨b1, b2, b3, ls', hnd', hls', hc'⟩ := C81_every_number_from_its_place hfair'
    (fun file hf => hpr file ((hfile _ _).mp hf)) (fun file hf => hhf file ((hfile _ _).mp hf)) h'
  rw [hor] at hc'
  have uniqMean : ∀ {var l lat lon x y}, SixHourMean cfg glob var t l lat lon x →
      SixHourMean cfg glob var t l lat lon y → x = y := by
    rintro var l lat lon x y ⟨a, b, ha, hb, rfl⟩ ⟨a', b', ha', hb', rfl⟩
    rw [huniq _ _ _ _ _ _ _ ha ha', huniq _ _ _ _ _ _ _ hb hb']
  have uniq : ∀ {n l lat lon x y}, CmipOrigin cfg glob t n l lat lon x →
      CmipOrigin cfg glob t n l lat lon y → x = y := by
    intro n l lat lon x y hx hy
    unfold CmipOrigin at hx hy
    split at hx <;> simp only at hy
    any_goals exact huniq _ _ _ _ _ _ _ hx hy
    · obtain ⟨p, e, hp, he, rfl⟩ := hx
      obtain ⟨p', e', hp', he', rfl⟩ := hy
      rw [uniqMean hp hp', uniqMean he he']
    · obtain ⟨e, he, hx⟩ := hx
      obtain ⟨e', he', hy⟩ := hy
      rw [hx (NpOps.ofRat 0), hy (NpOps.ofRat 0), uniqMean he he']
  refine ⟨fun lat => by rw [b1, a1, hsome], fun lon => by rw [b2, a2, hsome], ls, ls',
    (List.perm_ext_iff_of_nodup hnd' hnd).mpr fun l => by rw [hls', hls, hsome, hsome, hsome], hnd, ?_⟩
  intro i j i' j' lat lon hi hj hi' hj'
  have c := hc i j lat lon hi hj
  have c' := hc' i' j' lat lon hi' hj'
  have prof : ∀ {n xs xs'}, ProfileFrom (CmipOrigin cfg glob t n) ls lat lon xs →
      ProfileFrom (CmipOrigin cfg glob t n) ls' lat lon xs' → ∀ (k k' : ℕ) (l : ℚ), ls[k]? = some l → ls'[k']? = some l →
      xs'[k']? = xs[k]? := by
    intro n xs xs' hx hx' k k' l hk hk'
    have h1 : k < xs.length := by rw [hx.1]; exact (List.getElem?_eq_some_iff.mp hk).1
    have h2 : k' < xs'.length := by rw [hx'.1]; exact (List.getElem?_eq_some_iff.mp hk').1
    have e1 := List.getElem?_eq_getElem h1
    have e2 := List.getElem?_eq_getElem h2
    rw [e1, e2, uniq (hx'.2 _ _ _ hk' e2).1 (hx.2 _ _ _ hk e1).1]
  refine ⟨?_, uniq c'.precip.1 c.precip.1, uniq c'.evap.1 c.evap.1, c.p, c'.p, ?_⟩
  · have e1 := uniq c'.ps.1 c.ps.1
    have e2 := uniq c'.qs.1 c.qs.1
    have e3 := uniq c'.us.1 c.us.1
    have e4 := uniq c'.vs.1 c.vs.1
    cases hs : raw.surface i j
    cases hs' : raw'.surface i' j'
    simp only [hs, hs'] at e1 e2 e3 e4
    rw [e1, e2, e3, e4]
  · intro k k' l hk hk'
    exact ⟨prof c.q c'.q k k' l hk hk', prof c.u c'.u k k' l hk hk', prof c.v c'.v k k' l hk hk'⟩

end cmip

section arco
variable [NpExp α] {cfg : InputConfig} {s : ArcoStore κ α} {t : ℤ}

/-- the same with levels in hPa -/
def ArcoHpa (cfg : InputConfig) (s : ArcoStore κ α) (t : ℤ) (name : String) (hpa : Option ℚ) (lat lon : κ)
    (x : α) : Prop :=
  ArcoOrigin cfg s t name (hpa.map fun p => p * 100) lat lon x

theorem hpa_pascal (l : Option ℚ) : (l.map fun p => p * 100).map (fun p => p / 100) = l := by
  cases l with
  | none => rfl
  | some l => simp

theorem arco_surface_has {n : ℕ} {var : String} (hn : s.times[n]? = some t) {l φ θ x}
    (h : (s.surface n var).Has l φ θ x) : ArcoStored s t var l φ θ x := by
  obtain ⟨k, i, j, hv, hi, hj, hk⟩ := h
  injection hv with hv
  cases l with
  | none => exact ⟨n, 0, i, j, hn, hi, hj, rfl, hv⟩
  | some l => exact hk.elim

theorem arco_profile_has {n : ℕ} {var : String} (hn : s.times[n]? = some t) {l φ θ x}
    (h : (s.profile n var).Has l φ θ x) : ArcoStored s t var l φ θ x := by
  obtain ⟨k, i, j, hv, hi, hj, hk⟩ := h
  injection hv with hv
  cases l with
  | none => exact hk.elim
  | some l => exact ⟨n, k, i, j, hn, hi, hj, hk, hv⟩

theorem arcoVars_spec {n : ℕ} (hn : s.times[n]? = some t) {levels : List ℚ} {d : InputData κ α}
    (h : arcoVars cfg s n levels = .ok d) :
    d.Prov (ArcoHpa cfg s t) ∧ d.grid = some (s.latitude, s.longitude) ∧ d.levels = some levels ∧
      ∃ f, d.vars.lookup "tcw" = some f ∧ f.levels = none := by
  unfold arcoVars at h
  simp only at h
  obtain ⟨x1, hx1, h⟩ := Except.bind_ok h
  obtain ⟨d1, h1, h⟩ := Except.bind_ok h
  obtain ⟨x2, hx2, h⟩ := Except.bind_ok h
  obtain ⟨d2, h2, h⟩ := Except.bind_ok h
  obtain ⟨x3, hx3, h⟩ := Except.bind_ok h
  obtain ⟨d3, h3, h⟩ := Except.bind_ok h
  obtain ⟨d4, h4, h⟩ := Except.bind_ok h
  obtain ⟨d5, h5, h⟩ := Except.bind_ok h
  obtain ⟨d6, h6, h⟩ := Except.bind_ok h
  obtain ⟨d7, h7, h⟩ := Except.bind_ok h
  obtain ⟨x8, hx8, h⟩ := Except.bind_ok h
  obtain ⟨d8, h8, h⟩ := Except.bind_ok h
  obtain ⟨x9, hx9, h⟩ := Except.bind_ok h
  obtain ⟨d9, h9, h10⟩ := Except.bind_ok h
  obtain ⟨s1, s2, s3, s4⟩ := selLevels_spec hx1
  obtain ⟨t1, t2, t3, t4⟩ := selLevels_spec hx2
  obtain ⟨u1, u2, u3, u4⟩ := selLevels_spec hx3
  have conv : ∀ {var l φ θ x}, ArcoStored s t var l φ θ x →
      ArcoStored s t var ((l.map fun p => p * 100).map fun p => p / 100) φ θ x := by
    intro var l φ θ x h; rw [hpa_pascal]; exact h
  have p1 := InputData.prov_assign (P := ArcoHpa cfg s t) (InputData.prov_empty _) h1 (by
    intro l φ θ x hx; exact conv (arco_profile_has hn (s4 _ _ _ _ hx)))
  have p2 := InputData.prov_assign p1 h2 (by
    intro l φ θ x hx; exact conv (arco_profile_has hn (t4 _ _ _ _ hx)))
  have p3 := InputData.prov_assign p2 h3 (by
    intro l φ θ x hx; exact conv (arco_profile_has hn (u4 _ _ _ _ hx)))
  have p4 := InputData.prov_assign p3 h4 (by
    intro l φ θ x hx; exact conv (arco_surface_has hn hx))
  have p5 := InputData.prov_assign p4 h5 (by
    intro l φ θ x hx; exact conv (arco_surface_has hn hx))
  have p6 := InputData.prov_assign p5 h6 (by
    intro l φ θ x hx; exact conv (arco_surface_has hn hx))
  have p7 := InputData.prov_assign p6 h7 (by
    intro l φ θ x hx; exact conv (arco_surface_has hn hx))
  have p8 := InputData.prov_assign p7 h8 (by
    intro l φ θ x hx
    obtain ⟨a, b, ha, hb, rfl⟩ := (DataField.zip_spec hx8).2 _ _ _ _ hx
    exact ⟨a, b, conv (arco_surface_has hn ha), conv (arco_surface_has hn hb), rfl⟩)
  have p9 := InputData.prov_assign p8 h9 (by
    intro l φ θ x hx
    obtain ⟨a, b, ha, hb, rfl⟩ := (DataField.zip_spec hx9).2 _ _ _ _ hx
    exact ⟨a, b, conv (arco_surface_has hn ha), conv (arco_surface_has hn hb), rfl⟩)
  have p10 := InputData.prov_assign p9 h10 (by
    intro l φ θ x hx
    obtain ⟨a, ha, rfl⟩ := DataField.map_spec hx
    exact ⟨a, conv (arco_surface_has hn ha), fun tp => rfl⟩)
  obtain ⟨f1, v1, _, g1, l1, k1, e1, _⟩ := InputData.assign_spec h1
  obtain ⟨f2, v2, _, g2, l2, _⟩ := InputData.assign_spec h2
  obtain ⟨f3, v3, _, g3, l3, _⟩ := InputData.assign_spec h3
  obtain ⟨f4, v4, _, g4, l4, _⟩ := InputData.assign_spec h4
  obtain ⟨f5, v5, _, g5, l5, _⟩ := InputData.assign_spec h5
  obtain ⟨f6, v6, _, g6, l6, _⟩ := InputData.assign_spec h6
  obtain ⟨f7, v7, _, g7, l7, k7, _⟩ := InputData.assign_spec h7
  obtain ⟨f8, v8, _, g8, l8, _⟩ := InputData.assign_spec h8
  obtain ⟨f9, v9, _, g9, l9, _⟩ := InputData.assign_spec h9
  obtain ⟨f10, v10, _, g10, l10, _⟩ := InputData.assign_spec h10
  refine ⟨p10, ?_, ?_, f7, ?_, by rw [k7]; rfl⟩
  · refine g10 _ (g9 _ (g8 _ (g7 _ (g6 _ (g5 _ (g4 _ (g3 _ (g2 _ ?_))))))))
    rw [e1 rfl, s1, s2]; rfl
  · have : d1.levels = some levels := by rw [l1, k1, s3]; rfl
    rw [l10, l9, l8, l7, l6, l5, l4, l3, l2, this]; rfl
  · rw [v10, v9, v8, v7, v6, v5, v4, v3, v2, v1]; rfl

/-- **C82** ARCO-ERA5: only pressure levels, the proleptic Gregorian calendar and a list of levels are accepted; the
time must be among the valid times of the store.  Then every number that is used for a grid cell is the one
that the store holds for that time, level, latitude and longitude; total column water is always used, the
levels are those of the configuration in Pa, no number is missing. -/
theorem C82_every_number_from_its_place {raw : RawInput κ α} (h : getInputArco cfg s t = .ok raw) :
    cfg.levelType = .pressure_levels ∧ cfg.calendar = .prolepticGregorian ∧ s.validStart ≤ t ∧
    t ≤ s.validStop ∧ raw.latitude = s.latitude ∧ raw.longitude = s.longitude ∧ raw.tcw.isSome ∧
    ∃ levels : List ℤ, cfg.levels = .list levels ∧
      ∀ i j lat lon, raw.latitude[i]? = some lat → raw.longitude[j]? = some lon →
        CellFrom (ArcoOrigin cfg s t) (levels.map fun l : ℤ => (l : ℚ) * 100) lat lon raw i j := by
  unfold getInputArco at h
  obtain ⟨d, hd, h⟩ := Except.bind_ok h
  unfold arcoInput at hd
  split at hd
  · cases hd
  · next hlt =>
    split at hd
    · cases hd
    · next hcal =>
      simp only [ne_eq, not_not] at hlt hcal
      rw [hlt] at h
      obtain ⟨n, hn, hd⟩ := Except.bind_ok hd
      unfold ArcoStore.position at hn
      split at hn
      · cases hn
      · next hval =>
        push Not at hval
        split at hd
        · cases hd
        · next levels hlev =>
          obtain ⟨d0, hd0, hd⟩ := Except.bind_ok hd
          have hd := Except.ok.inj hd
          obtain ⟨p, g, l, f, hf, hfl⟩ := arcoVars_spec (selLabel_spec hn) hd0
          have p' := prov_toPascal p
          rw [hd] at p'
          have hP : (fun n (l : Option ℚ) => ArcoHpa cfg s t n (l.map fun p => p / 100)) = ArcoOrigin cfg s t := by
            funext n l φ θ x
            unfold ArcoHpa
            congr 1
            cases l with
            | none => rfl
            | some l => simp
          rw [hP] at p'
          obtain ⟨g', ls', hg', hls', r1, r2, htcw, hcell⟩ := validated_cells p' h
          have e1 : g' = (s.latitude, s.longitude) := by
            rw [← hd] at hg'
            simp only [InputData.toPascal, g] at hg'
            injection hg' with hg'; exact hg'.symm
          have e2 : ls' = levels.map fun l : ℤ => (l : ℚ) * 100 := by
            rw [← hd] at hls'
            simp only [InputData.toPascal, l, Option.map_some] at hls'
            injection hls' with hls'
            rw [← hls', levelLabels, List.map_map]; rfl
          subst e1 e2
          refine ⟨hlt, hcal, hval.1, hval.2, r1, r2, ?_, levels, hlev, hcell⟩
          rw [htcw]
          refine ⟨{ f with levels := f.levels.map fun ls => ls.map fun l => l * 100 }, ?_, by simp [hfl]⟩
          rw [← hd, lookup_toPascal, hf]; rfl

end arco
end Wam
