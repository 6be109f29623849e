import Verif.Lemmas.Input

set_option linter.unusedSectionVars false
set_option linter.unusedVariables false

namespace Wam
open Spec

variable {κ α : Type} [DecidableEq κ] [Add α] [Sub α] [Mul α] [Div α] [NpOps α]

/-- where the numbers of a variable come from -/
def Origin [NpExp α] (cfg : InputConfig) (disk : List Char → Except Err (RawFile κ α)) (t : ℤ) (n : String)
    (l : Option ℚ) (φ θ : κ) (x : α) : Prop :=
  (n = "q" → OnDisk cfg disk "q" t l φ θ x) ∧ (n = "u" → OnDisk cfg disk "u" t l φ θ x) ∧
  (n = "v" → OnDisk cfg disk "v" t l φ θ x) ∧ (n = "ps" → OnDisk cfg disk "sp" t l φ θ x) ∧
  (n = "us" → OnDisk cfg disk "u10" t l φ θ x) ∧ (n = "vs" → OnDisk cfg disk "v10" t l φ θ x) ∧
  (n = "tcw" → OnDisk cfg disk "tcw" t l φ θ x) ∧
  (n = "qs" → ∃ d p, OnDisk cfg disk "d2m" t l φ θ d ∧ OnDisk cfg disk "sp" t l φ θ p ∧
    x = calculateHumidity d p) ∧
  (n = "precip" → ∃ tp e, OnDisk cfg disk "tp" t l φ θ tp ∧ OnDisk cfg disk "e" t l φ θ e ∧
    x = (precipEvapEra5 tp e (ofRat cfg.nseconds)).1) ∧
  (n = "evap" → ∃ e, OnDisk cfg disk "e" t l φ θ e ∧
    ∀ tp, x = (precipEvapEra5 tp e (ofRat cfg.nseconds)).2)

variable [NpExp α] {cfg : InputConfig} {disk : List Char → Except Err (RawFile κ α)} {t : ℤ}

theorem loaded_on_disk {var : String} {f : DataField κ α} (h : loadEra5 cfg disk var t = .ok f) {l φ θ x}
    (hf : f.Has l φ θ x) : OnDisk cfg disk var t l φ θ x := by
  obtain ⟨file, h1, _, _, h2, _⟩ := loadEra5_spec h
  exact ⟨file, h1, h2 _ _ _ _ hf⟩

theorem era5Levels_spec {d : InputData κ α} (h : era5Levels cfg disk t = .ok d) :
    d.Prov (Origin cfg disk t) ∧ (∀ ls, cfg.levels = .list ls → d.levels = some (levelLabels ls)) ∧
      (cfg.levels = .all → ∀ ls f, d.vars.lookup "q" = some f → f.levels = some ls →
        ∃ file, Era5File cfg disk "q" t file ∧ d.levels = some file.levels) ∧
      (∃ q u v ps, d.vars = [("q", q), ("u", u), ("v", v), ("ps", ps)]) ∧
      ∃ file, Era5File cfg disk "q" t file ∧ d.grid = some (file.latitude, file.longitude) := by
  unfold era5Levels at h
  obtain ⟨q, hq, h⟩ := Except.bind_ok h
  obtain ⟨d1, h1, h⟩ := Except.bind_ok h
  obtain ⟨u, hu, h⟩ := Except.bind_ok h
  obtain ⟨d2, h2, h⟩ := Except.bind_ok h
  obtain ⟨v, hv, h⟩ := Except.bind_ok h
  obtain ⟨d3, h3, h⟩ := Except.bind_ok h
  obtain ⟨ps, hps, h4⟩ := Except.bind_ok h
  have p1 := InputData.prov_assign (P := Origin cfg disk t) (InputData.prov_empty _) h1 (by
    intro l φ θ x hx; have := loaded_on_disk hq hx; simp [Origin, this])
  have p2 := InputData.prov_assign p1 h2 (by
    intro l φ θ x hx; have := loaded_on_disk hu hx; simp [Origin, this])
  have p3 := InputData.prov_assign p2 h3 (by
    intro l φ θ x hx; have := loaded_on_disk hv hx; simp [Origin, this])
  have p4 := InputData.prov_assign p3 h4 (by
    intro l φ θ x hx; have := loaded_on_disk hps hx; simp [Origin, this])
  obtain ⟨f1, a1, a2, a3, a4, a5, a6, -⟩ := InputData.assign_spec h1
  obtain ⟨f2, b1, b2, b3, b4, b5, b6, -⟩ := InputData.assign_spec h2
  obtain ⟨f3, c1, c2, c3, c4, c5, c6, -⟩ := InputData.assign_spec h3
  obtain ⟨f4, e1, e2, e3, e4, e5, e6, -⟩ := InputData.assign_spec h4
  obtain ⟨file, g1, g2, g3, _, g4, g5⟩ := loadEra5_spec hq
  have hvars : d.vars = [("q", f1), ("u", f2), ("v", f3), ("ps", f4)] := by
    rw [e1, c1, b1, a1]; rfl
  have hmono : ∀ ls, d1.levels = some ls → d.levels = some ls := by
    intro ls hls; rw [e4, c4, b4, hls]; rfl
  have hd1 : d1.levels = q.levels := by
    rw [a4, a5]; simp
  refine ⟨p4, ?_, ?_, ⟨_, _, _, _, hvars⟩, file, g1, ?_⟩
  · intro ls hls
    exact hmono _ (by rw [hd1, g4 ls hls (by decide)])
  · intro hall ls f hf hfl
    rw [hvars] at hf
    simp only [List.lookup, beq_self_eq_true, Option.some.injEq] at hf
    subst hf
    rw [a5] at hfl
    simp only [Option.map_eq_some_iff] at hfl
    obtain ⟨s, hs, -⟩ := hfl
    refine ⟨file, g1, hmono _ ?_⟩
    rw [hd1]
    have := g5 (.inl hall)
    rw [this] at hs ⊢
    cases hn : file.levelName <;> simp [hn] at hs ⊢
  · rw [← g2, ← g3]
    exact e3 _ (c3 _ (b3 _ (a6 rfl)))

omit [NpExp α] in
theorem InputData.get_mem {d : InputData κ α} {n : String} {f : DataField κ α} (h : d.get n = .ok f) :
    (n, f) ∈ d.vars := by
  unfold InputData.get at h
  split at h
  · next g hg =>
    injection h with h; subst h
    have : ∀ l : List (String × DataField κ α), l.lookup n = some g → (n, g) ∈ l := by
      intro l
      induction l with
      | nil => intro h; cases h
      | cons a l ih =>
        intro h
        obtain ⟨m, x⟩ := a
        rw [List.lookup_cons] at h
        split at h
        · next e => injection h with h; subst h; have := beq_iff_eq.mp e; subst this; exact List.mem_cons_self
        · exact List.mem_cons_of_mem _ (ih h)
    exact this _ hg
  · cases h

theorem era5LevelType_spec {d d' : InputData κ α} (h : era5LevelType cfg disk t d = .ok d')
    (hd : d.Prov (Origin cfg disk t)) :
    d'.Prov (Origin cfg disk t) ∧ (∀ ls, d.levels = some ls → d'.levels = some ls) ∧
      (∀ g, d.grid = some g → d'.grid = some g) ∧
      ∃ l, d'.vars = d.vars ++ l ∧ ∀ n f, (n, f) ∈ l → n = "qs" ∨ n = "us" ∨ n = "vs" ∨ n = "dp" := by
  unfold era5LevelType at h
  split at h
  · obtain ⟨d2m, hd2m, h⟩ := Except.bind_ok h
    obtain ⟨ps, hps, h⟩ := Except.bind_ok h
    obtain ⟨qs, hqs, h⟩ := Except.bind_ok h
    obtain ⟨d1, h1, h⟩ := Except.bind_ok h
    obtain ⟨us, hus, h⟩ := Except.bind_ok h
    obtain ⟨d2, h2, h⟩ := Except.bind_ok h
    obtain ⟨vs, hvs, h3⟩ := Except.bind_ok h
    have p1 := InputData.prov_assign hd h1 (by
      intro l φ θ x hx
      obtain ⟨a, b, ha, hb, rfl⟩ := (DataField.zip_spec hqs).2 _ _ _ _ hx
      have := ((hd _ _ (InputData.get_mem hps)).2.2 _ _ _ _ hb).2.2.2.1 rfl
      have h0 := loaded_on_disk hd2m ha
      simp only [Origin]
      refine ⟨?_, ?_, ?_, ?_, ?_, ?_, ?_, fun _ => ⟨a, b, h0, this, rfl⟩, ?_, ?_⟩ <;>
        · intro h; exact absurd h (by decide))
    have p2 := InputData.prov_assign p1 h2 (by
      intro l φ θ x hx; have := loaded_on_disk hus hx; simp [Origin, this])
    have p3 := InputData.prov_assign p2 h3 (by
      intro l φ θ x hx; have := loaded_on_disk hvs hx; simp [Origin, this])
    obtain ⟨f1, a1, a2, a3, a4, -⟩ := InputData.assign_spec h1
    obtain ⟨f2, b1, b2, b3, b4, -⟩ := InputData.assign_spec h2
    obtain ⟨f3, c1, c2, c3, c4, -⟩ := InputData.assign_spec h3
    refine ⟨p3, ?_, ?_, [("qs", f1), ("us", f2), ("vs", f3)], ?_, ?_⟩
    · intro ls hls; rw [c4, b4, a4, hls]; rfl
    · intro g hg; exact c3 _ (b3 _ (a3 _ hg))
    · rw [c1, b1, a1]; simp
    · intro n f hf; simp at hf; rcases hf with ⟨rfl, -⟩ | ⟨rfl, -⟩ | ⟨rfl, -⟩ <;> simp
  · split at h
    · next ls hls =>
      obtain ⟨ps, hps, h⟩ := Except.bind_ok h
      obtain ⟨dp, hdp, h1⟩ := Except.bind_ok h
      have p1 := InputData.prov_assign hd h1 (by
        intro l φ θ x hx; simp [Origin])
      obtain ⟨f1, a1, a2, a3, a4, -⟩ := InputData.assign_spec h1
      refine ⟨p1, ?_, a3, [("dp", f1)], a1, ?_⟩
      · intro ls hls; rw [a4, hls]; rfl
      · intro n f hf; simp at hf; simp [hf.1]
    · cases h

theorem era5Fluxes_spec {d d' : InputData κ α} (h : era5Fluxes cfg disk t d = .ok d')
    (hd : d.Prov (Origin cfg disk t)) :
    d'.Prov (Origin cfg disk t) ∧ (∀ ls, d.levels = some ls → d'.levels = some ls) ∧
      (∀ g, d.grid = some g → d'.grid = some g) ∧
      ∃ p e l, d'.vars = d.vars ++ [("precip", p), ("evap", e)] ++ l ∧
        ((∃ f, l = [("tcw", f)] ∧ ∃ f', loadEra5 cfg disk "tcw" t = .ok f' ∧
            (f'.levels = none → f.levels = none)) ∨
          (l = [] ∧ loadEra5 cfg disk "tcw" t = .error .fileNotFound)) := by
  unfold era5Fluxes at h
  obtain ⟨⟨precip, evap⟩, hpe, h⟩ := Except.bind_ok h
  unfold loadPrecipEvapEra5 at hpe
  obtain ⟨e, he, hpe⟩ := Except.bind_ok hpe
  obtain ⟨tp, htp, hpe⟩ := Except.bind_ok hpe
  obtain ⟨pr, hpr, hpe⟩ := Except.bind_ok hpe
  injection hpe with hpe
  injection hpe with hp1 hp2
  subst hp1 hp2
  simp only at h
  obtain ⟨d1, h1, h⟩ := Except.bind_ok h
  obtain ⟨d2, h2, h⟩ := Except.bind_ok h
  have p1 := InputData.prov_assign hd h1 (by
    intro l φ θ x hx
    obtain ⟨a, b, ha, hb, rfl⟩ := (DataField.zip_spec hpr).2 _ _ _ _ hx
    have h0 := loaded_on_disk htp ha
    have h0' := loaded_on_disk he hb
    simp only [Origin]
    refine ⟨?_, ?_, ?_, ?_, ?_, ?_, ?_, ?_, fun _ => ⟨a, b, h0, h0', rfl⟩, ?_⟩ <;>
      · intro h; exact absurd h (by decide))
  have p2 := InputData.prov_assign p1 h2 (by
    intro l φ θ x hx
    obtain ⟨a, ha, rfl⟩ := DataField.map_spec hx
    have h0 := loaded_on_disk he ha
    simp only [Origin]
    refine ⟨?_, ?_, ?_, ?_, ?_, ?_, ?_, ?_, ?_, fun _ => ⟨a, h0, fun tp => rfl⟩⟩ <;>
      · intro h; exact absurd h (by decide))
  obtain ⟨f1, a1, a2, a3, a4, -⟩ := InputData.assign_spec h1
  obtain ⟨f2, b1, b2, b3, b4, -⟩ := InputData.assign_spec h2
  split at h
  · next tcw htcw =>
    have p3 := InputData.prov_assign p2 h (by
      intro l φ θ x hx; have := loaded_on_disk htcw hx; simp [Origin, this])
    obtain ⟨f3, c1, c2, c3, c4, c5, -⟩ := InputData.assign_spec h
    refine ⟨p3, ?_, ?_, f1, f2, [("tcw", f3)], ?_, .inl ⟨f3, rfl, _, htcw, fun hn => by rw [c5, hn]; rfl⟩⟩
    · intro ls hls; rw [c4, b4, a4, hls]; rfl
    · intro g hg; exact c3 _ (b3 _ (a3 _ hg))
    · rw [c1, b1, a1]; simp
  · next htcw =>
    injection h with h; subst h
    refine ⟨p2, ?_, ?_, f1, f2, [], ?_, .inr ⟨rfl, htcw⟩⟩
    · intro ls hls; rw [b4, a4, hls]; rfl
    · intro g hg; exact b3 _ (a3 _ hg)
    · rw [b1, a1]; simp
  · cases h

omit [NpExp α] in
theorem toPascal_toXDataset (d : InputData κ α) : d.toPascal.toXDataset = d.toXDataset := by
  unfold InputData.toPascal InputData.toXDataset
  have h1 : ∀ f : DataField κ α, DataField.dims
      { f with levels := f.levels.map fun ls => ls.map fun l => l * 100 } = f.dims := by
    intro f; unfold DataField.dims; cases f.levels <;> rfl
  have h2 : ∀ f : DataField κ α, DataField.values
      { f with levels := f.levels.map fun ls => ls.map fun l => l * 100 } = f.values := by
    intro f; unfold DataField.values; cases h : f.levels <;> simp
  congr 1
  · cases d.levels <;> rfl
  · simp only [List.map_map]
    apply List.map_congr_left
    rintro ⟨n, f⟩ _
    simp only [Function.comp, h1, h2]

omit [NpExp α] in
theorem lookup_toPascal (d : InputData κ α) (n : String) : d.toPascal.vars.lookup n =
    (d.vars.lookup n).map fun f => { f with levels := f.levels.map fun ls => ls.map fun l => l * 100 } := by
  unfold InputData.toPascal
  simp only
  induction d.vars with
  | nil => rfl
  | cons a l ih =>
    obtain ⟨m, f⟩ := a
    simp only [List.map_cons, List.lookup_cons]
    split
    · rfl
    · exact ih

omit [NpExp α] in
theorem number_toPascal (d : InputData κ α) (n : String) (k i j : ℕ) :
    d.toPascal.number n k i j = d.number n k i j := by
  unfold InputData.number
  rw [lookup_toPascal]
  cases d.vars.lookup n <;> rfl

omit [NpExp α] in
theorem field_mem {d : InputData κ α} {n : String} {f : DataField κ α} (h : d.vars.lookup n = some f) :
    (n, f) ∈ d.vars := InputData.get_mem (by unfold InputData.get; rw [h])

omit [NpExp α] in
theorem hasVar_lookup {d : InputData κ α} {n : String} {dims : List String}
    (h : HasVar d.toXDataset n dims) :
    ∃ f, d.vars.lookup n = some f ∧ ∀ x, x ∈ f.dims ↔ x ∈ dims := by
  obtain ⟨x, hx, hd⟩ := h
  unfold XDataset.get InputData.toXDataset at hx
  simp only at hx
  have : ∀ l : List (String × DataField κ α),
      (l.map fun (a : String × DataField κ α) => (a.1, (⟨a.2.dims, a.2.values⟩ : XVar (Option α)))).lookup n =
        (l.lookup n).map fun f => ⟨f.dims, f.values⟩ := by
    intro l
    induction l with
    | nil => rfl
    | cons a l ih =>
      obtain ⟨m, f⟩ := a
      simp only [List.map_cons, List.lookup_cons]
      split
      · rfl
      · exact ih
  rw [this] at hx
  cases hl : d.vars.lookup n with
  | none => simp [hl] at hx
  | some f =>
    simp [hl] at hx
    subst hx
    exact ⟨f, rfl, hd⟩

omit [NpExp α] in
theorem complete_value {d : InputData κ α} (hc : ∀ e ∈ d.toXDataset.dataVars, ∀ y ∈ e.2.values,
    NpOps.isnan y = false) {n : String} {f : DataField κ α} (hf : (n, f) ∈ d.vars) {k i j : ℕ}
    (hk : k < f.levels.elim 1 List.length) (hi : i < f.latitude.length) (hj : j < f.longitude.length) :
    ∃ x, f.value k i j = some x ∧ NpOps.isnan x = false := by
  have := hc (n, ⟨f.dims, f.values⟩) (by
    unfold InputData.toXDataset
    exact List.mem_map.mpr ⟨(n, f), hf, rfl⟩) (f.value k i j) (by
    simp only [DataField.values, List.mem_flatMap, List.mem_map, List.mem_range]
    exact ⟨k, hk, i, hi, j, hj, rfl⟩)
  cases hv : f.value k i j with
  | none => rw [hv] at this; cases this
  | some x => rw [hv] at this; exact ⟨x, rfl, this⟩

omit [NpExp α] in
theorem surface_number {d : InputData κ α} {P : String → Option ℚ → κ → κ → α → Prop} (hd : d.Prov P)
    (hc : ∀ e ∈ d.toXDataset.dataVars, ∀ y ∈ e.2.values, NpOps.isnan y = false) {n : String}
    {f : DataField κ α} (hf : d.vars.lookup n = some f) (hl : f.levels = none) {g : List κ × List κ}
    (hg : d.grid = some g) {i j : ℕ} {φ θ : κ} (hi : g.1[i]? = some φ) (hj : g.2[j]? = some θ) :
    P n none φ θ (d.number n 0 i j) ∧ NpOps.isnan (d.number n 0 i j) = false := by
  have hm := field_mem hf
  obtain ⟨h1, -, h3⟩ := hd n f hm
  rw [hg] at h1
  injection h1 with h1
  have e1 : g.1 = f.latitude := by rw [h1]
  have e2 : g.2 = f.longitude := by rw [h1]
  rw [e1] at hi; rw [e2] at hj
  obtain ⟨x, hx, hn⟩ := complete_value hc hm (k := 0) (by rw [hl]; exact Nat.one_pos)
    (List.getElem?_eq_some_iff.mp hi).1 (List.getElem?_eq_some_iff.mp hj).1
  have hnum : d.number n 0 i j = x := by
    unfold InputData.number; rw [hf, Option.bind_some, hx]; rfl
  rw [hnum]
  exact ⟨h3 _ _ _ _ ⟨0, i, j, hx, hi, hj, by rw [hl]; rfl⟩, hn⟩

omit [NpExp α] in
theorem level_number {d : InputData κ α} {P : String → Option ℚ → κ → κ → α → Prop} (hd : d.Prov P)
    (hc : ∀ e ∈ d.toXDataset.dataVars, ∀ y ∈ e.2.values, NpOps.isnan y = false) {n : String}
    {f : DataField κ α} (hf : d.vars.lookup n = some f) {ls : List ℚ} (hl : f.levels.isSome)
    (hls : d.levels = some ls) {g : List κ × List κ}
    (hg : d.grid = some g) {k i j : ℕ} {l : ℚ} {φ θ : κ} (hk : ls[k]? = some l)
    (hi : g.1[i]? = some φ) (hj : g.2[j]? = some θ) :
    P n (some l) φ θ (d.number n k i j) ∧ NpOps.isnan (d.number n k i j) = false := by
  have hm := field_mem hf
  obtain ⟨h1, h2, h3⟩ := hd n f hm
  obtain ⟨ls', hl'⟩ := Option.isSome_iff_exists.mp hl
  have := h2 ls' hl'
  rw [hls] at this
  injection this with this
  subst this
  rw [hg] at h1
  injection h1 with h1
  have e1 : g.1 = f.latitude := by rw [h1]
  have e2 : g.2 = f.longitude := by rw [h1]
  rw [e1] at hi; rw [e2] at hj
  obtain ⟨x, hx, hn⟩ := complete_value hc hm (k := k) (by
      rw [hl']; exact (List.getElem?_eq_some_iff.mp hk).1)
    (List.getElem?_eq_some_iff.mp hi).1 (List.getElem?_eq_some_iff.mp hj).1
  have hnum : d.number n k i j = x := by
    unfold InputData.number; rw [hf, Option.bind_some, hx]; rfl
  rw [hnum]
  exact ⟨h3 _ _ _ _ ⟨k, i, j, hx, hi, hj, by rw [hl']; exact hk⟩, hn⟩

omit [NpExp α] in
theorem dims_surface {f : DataField κ α} (h : ∀ x, x ∈ f.dims ↔ x ∈ ["latitude", "longitude"]) :
    f.levels = none := by
  cases hl : f.levels with
  | none => rfl
  | some ls =>
    have := (h "level").mp (by simp [DataField.dims, hl])
    simp at this

omit [NpExp α] in
theorem dims_level {f : DataField κ α} (h : ∀ x, x ∈ f.dims ↔ x ∈ ["latitude", "longitude", "level"]) :
    f.levels.isSome := by
  cases hl : f.levels with
  | some ls => rfl
  | none =>
    have := (h "level").mpr (by simp)
    simp [DataField.dims, hl] at this

omit [NpExp α] in
theorem pascal_levels (d : InputData κ α) :
    d.toPascal.levels = d.levels.map fun ls => ls.map fun l => l * 100 := rfl

/-- what a successful `get_input_data` of the ERA5 loader has built, before the conversion to Pa -/
theorem getInputEra5_data {raw : RawInput κ α} (h : getInputEra5 cfg disk t = .ok raw) :
    ∃ (d : InputData κ α) (ls : List ℚ) (g : List κ × List κ), d.Prov (Origin cfg disk t) ∧
      ValidInput d.toXDataset cfg.levelType ∧
      raw = (if cfg.levelType = .pressure_levels then d.toPascal else d).toRaw ∧
      d.levels = some ls ∧ UsedLevels cfg disk t ls ∧ d.grid = some g ∧
      (∃ file, Era5File cfg disk "q" t file ∧ g = (file.latitude, file.longitude)) ∧
      ((∃ f, d.vars.lookup "tcw" = some f ∧ ∃ f', loadEra5 cfg disk "tcw" t = .ok f' ∧
          (f'.levels = none → f.levels = none)) ∨
        (d.vars.lookup "tcw" = none ∧ loadEra5 cfg disk "tcw" t = .error .fileNotFound)) := by
  unfold getInputEra5 at h
  obtain ⟨D, hD, h⟩ := Except.bind_ok h
  unfold era5Input at hD
  obtain ⟨d1, h1, hD⟩ := Except.bind_ok hD
  obtain ⟨d2, h2, hD⟩ := Except.bind_ok hD
  obtain ⟨d3, h3, hD⟩ := Except.bind_ok hD
  have hD := Except.ok.inj hD
  obtain ⟨p1, l1, l1', ⟨q, u, v, ps, v1⟩, file, hfile, g1⟩ := era5Levels_spec h1
  obtain ⟨p2, l2, g2, vs2, v2, n2⟩ := era5LevelType_spec h2 p1
  obtain ⟨p3, l3, g3, pr, ev, vs3, v3, hv3⟩ := era5Fluxes_spec h3 p2
  have hX : D.toXDataset = d3.toXDataset := by
    rw [← hD]; split
    · exact toPascal_toXDataset d3
    · rfl
  unfold validated at h
  split at h
  · next hval =>
    have h := Except.ok.inj h
    rw [C60_accepts_iff, hX] at hval
    obtain ⟨fq, hfq, hdq⟩ := hasVar_lookup hval.q
    have hq3 : d1.vars.lookup "q" = some fq := by
      rw [v3, v2, v1] at hfq
      simp only [List.cons_append, List.lookup, beq_self_eq_true] at hfq
      rw [v1]; simp only [List.lookup, beq_self_eq_true]; exact hfq
    have hlev : ∃ ls, d3.levels = some ls ∧ UsedLevels cfg disk t ls := by
      cases hL : cfg.levels with
      | list L =>
        exact ⟨levelLabels L, l3 _ (l2 _ (l1 L hL)), by unfold UsedLevels; rw [hL]; rfl⟩
      | all =>
        obtain ⟨ls0, hls0⟩ := Option.isSome_iff_exists.mp (dims_level hdq)
        obtain ⟨file', hf', hl'⟩ := l1' hL ls0 fq hq3 hls0
        exact ⟨file'.levels, l3 _ (l2 _ hl'), by unfold UsedLevels; rw [hL]; exact ⟨file', hf', rfl⟩⟩
    obtain ⟨ls, hls, hu⟩ := hlev
    refine ⟨d3, ls, (file.latitude, file.longitude), p3, hval, ?_, hls, hu, g3 _ (g2 _ g1),
      ⟨file, hfile, rfl⟩, ?_⟩
    · rw [hD, h]
    · have hne : ∀ n f, (n, f) ∈ d2.vars → n ≠ "tcw" := by
        intro n f hm
        rw [v2, v1, List.mem_append] at hm
        rcases hm with hm | hm
        · simp at hm; rcases hm with ⟨rfl, -⟩ | ⟨rfl, -⟩ | ⟨rfl, -⟩ | ⟨rfl, -⟩ <;> decide
        · rcases n2 n f hm with rfl | rfl | rfl | rfl <;> decide
      have hlk : ∀ l l' : List (String × DataField κ α), (∀ n f, (n, f) ∈ l → n ≠ "tcw") →
          (l ++ l').lookup "tcw" = l'.lookup "tcw" := by
        intro l l' hl
        induction l with
        | nil => rfl
        | cons a l ih =>
          obtain ⟨n, f⟩ := a
          have hn : n ≠ "tcw" := hl n f List.mem_cons_self
          rw [List.cons_append, List.lookup_cons]
          have : ("tcw" == n) = false := by simp [Ne.symm hn]
          rw [this]
          exact ih fun n f h => hl n f (List.mem_cons_of_mem _ h)
      have hd3 : d3.vars.lookup "tcw" = vs3.lookup "tcw" := by
        rw [v3, hlk]
        intro n f hm
        rw [List.mem_append] at hm
        rcases hm with hm | hm
        · exact hne n f hm
        · simp at hm; rcases hm with ⟨rfl, -⟩ | ⟨rfl, -⟩ <;> decide
      rcases hv3 with ⟨f, rfl, hf⟩ | ⟨rfl, hf⟩
      · exact .inl ⟨f, by rw [hd3]; rfl, hf⟩
      · exact .inr ⟨by rw [hd3]; rfl, hf⟩
  · cases h

/-- **C79** Every number that the preprocessing of ERA5 data uses for a grid cell comes from the files that the
template names for the time that is preprocessed, at the latitude and longitude of that cell and at the
requested levels, in whatever order the files store them.  The grid is that of the humidity file; the levels
are those of the configuration, in Pa. -/
theorem C79_every_number_from_its_place {raw : RawInput κ α} (h : getInputEra5 cfg disk t = .ok raw) :
    (∃ file, Era5File cfg disk "q" t file ∧ raw.latitude = file.latitude ∧
      raw.longitude = file.longitude) ∧
    ∃ ls, UsedLevels cfg disk t ls ∧ ∀ i j lat lon, raw.latitude[i]? = some lat →
      raw.longitude[j]? = some lon → CellFromDisk cfg disk t ls lat lon raw i j ∧
        (cfg.levelType = .pressure_levels → (raw.column i j).p = ls.map fun l => NpOps.ofRat (l * 100)) := by
  obtain ⟨d, ls, g, hp, hv, hr, hls, hu, hg, ⟨file, hf, hgf⟩, htcw⟩ := getInputEra5_data h
  have hlat : raw.latitude = g.1 := by
    rw [hr]; split <;> simp [InputData.toRaw, InputData.toPascal, hg]
  have hlon : raw.longitude = g.2 := by
    rw [hr]; split <;> simp [InputData.toRaw, InputData.toPascal, hg]
  refine ⟨⟨file, hf, by rw [hlat, hgf], by rw [hlon, hgf]⟩, ls, hu, ?_⟩
  intro i j lat lon hi hj
  rw [hlat] at hi; rw [hlon] at hj
  have hcol : (raw.column i j).q = (List.range ls.length).map (fun k => d.number "q" k i j) ∧
      (raw.column i j).u = (List.range ls.length).map (fun k => d.number "u" k i j) ∧
      (raw.column i j).v = (List.range ls.length).map (fun k => d.number "v" k i j) ∧
      raw.surface i j = ⟨d.number "ps" 0 i j, d.number "qs" 0 i j, d.number "us" 0 i j, d.number "vs" 0 i j⟩ ∧
      raw.precip i j = d.number "precip" 0 i j ∧ raw.evap i j = d.number "evap" 0 i j := by
    rw [hr]; split <;>
      simp [InputData.toRaw, number_toPascal, hls, pascal_levels]
  obtain ⟨c1, c2, c3, c4, c5, c6⟩ := hcol
  have prof : ∀ n, HasVar d.toXDataset n ["latitude", "longitude", "level"] →
      ∀ k l, ls[k]? = some l → Origin cfg disk t n (some l) lat lon (d.number n k i j) := by
    intro n hn k l hk
    obtain ⟨f, hf, hd⟩ := hasVar_lookup hn
    exact (level_number hp hv.complete hf (dims_level hd) hls hg hk hi hj).1
  have surf : ∀ n, HasVar d.toXDataset n ["latitude", "longitude"] →
      Origin cfg disk t n none lat lon (d.number n 0 i j) := by
    intro n hn
    obtain ⟨f, hf, hd⟩ := hasVar_lookup hn
    exact (surface_number hp hv.complete hf (dims_surface hd) hg hi hj).1
  have list : ∀ n, (∀ (k : ℕ) l, ls[k]? = some l → OnDisk cfg disk n t (some l) lat lon (d.number n k i j)) →
      ProfileOnDisk cfg disk n t ls lat lon ((List.range ls.length).map fun k => d.number n k i j) := by
    intro n hn
    refine ⟨by simp, ?_⟩
    intro k l x hk hx
    have hlt := (List.getElem?_eq_some_iff.mp hk).1
    rw [List.getElem?_map, List.getElem?_range hlt] at hx
    simp only [Option.map_some, Option.some.injEq] at hx
    subst hx
    exact hn k l hk
  refine ⟨⟨?_, ?_, ?_, ?_, ?_, ?_, ?_, ?_, ?_, ?_⟩, ?_⟩
  · rw [c1]; exact list "q" fun k l hk => (prof "q" hv.q k l hk).1 rfl
  · rw [c2]; exact list "u" fun k l hk => (prof "u" hv.u k l hk).2.1 rfl
  · rw [c3]; exact list "v" fun k l hk => (prof "v" hv.v k l hk).2.2.1 rfl
  · rw [c4]; exact (surf "ps" hv.ps).2.2.2.1 rfl
  · intro hpl; rw [c4]; exact (surf "us" (hv.surface hpl).2.1).2.2.2.2.1 rfl
  · intro hpl; rw [c4]; exact (surf "vs" (hv.surface hpl).2.2).2.2.2.2.2.1 rfl
  · intro hpl; rw [c4]; exact (surf "qs" (hv.surface hpl).1).2.2.2.2.2.2.2.1 rfl
  · rw [c5]; exact (surf "precip" hv.precip).2.2.2.2.2.2.2.2.1 rfl
  · rw [c6]; exact (surf "evap" hv.evap).2.2.2.2.2.2.2.2.2 rfl
  · intro gt hgt
    have : ∃ f, d.vars.lookup "tcw" = some f ∧ f.levels = none ∧ gt = fun i j => d.number "tcw" 0 i j := by
      rw [hr] at hgt
      cases hlk : d.vars.lookup "tcw" with
      | none =>
        split at hgt <;> simp [InputData.toRaw, lookup_toPascal, hlk] at hgt
      | some f =>
        refine ⟨f, rfl, ?_⟩
        split at hgt <;> simp [InputData.toRaw, lookup_toPascal, number_toPascal, hlk] at hgt <;>
          exact ⟨hgt.1, hgt.2.symm⟩
    obtain ⟨f, hf, hl, rfl⟩ := this
    exact (surface_number hp hv.complete hf hl hg hi hj).1.2.2.2.2.2.2.1 rfl
  · intro hpl
    rw [hr, if_pos hpl]
    simp [InputData.toRaw, pascal_levels, hls]

/-- **C79** No number that the preprocessing uses is missing. -/
theorem C79_no_missing_values {raw : RawInput κ α} (h : getInputEra5 cfg disk t = .ok raw) {i j : ℕ}
    (hi : i < raw.latitude.length) (hj : j < raw.longitude.length) :
    (∀ x, x ∈ (raw.column i j).q ∨ x ∈ (raw.column i j).u ∨ x ∈ (raw.column i j).v →
      NpOps.isnan x = false) ∧
    NpOps.isnan (raw.surface i j).ps = false ∧ NpOps.isnan (raw.precip i j) = false ∧
    NpOps.isnan (raw.evap i j) = false ∧
    (cfg.levelType = .pressure_levels → NpOps.isnan (raw.surface i j).qs = false ∧
      NpOps.isnan (raw.surface i j).us = false ∧ NpOps.isnan (raw.surface i j).vs = false) ∧
    ∀ g, raw.tcw = some g → NpOps.isnan (g i j) = false := by
  obtain ⟨d, ls, g, hp, hv, hr, hls, hu, hg, ⟨file, hf, hgf⟩, htcw⟩ := getInputEra5_data h
  have hlat : raw.latitude = g.1 := by
    rw [hr]; split <;> simp [InputData.toRaw, InputData.toPascal, hg]
  have hlon : raw.longitude = g.2 := by
    rw [hr]; split <;> simp [InputData.toRaw, InputData.toPascal, hg]
  rw [hlat] at hi; rw [hlon] at hj
  have hi := List.getElem?_eq_getElem hi
  have hj := List.getElem?_eq_getElem hj
  have hcol : (raw.column i j).q = (List.range ls.length).map (fun k => d.number "q" k i j) ∧
      (raw.column i j).u = (List.range ls.length).map (fun k => d.number "u" k i j) ∧
      (raw.column i j).v = (List.range ls.length).map (fun k => d.number "v" k i j) ∧
      raw.surface i j = ⟨d.number "ps" 0 i j, d.number "qs" 0 i j, d.number "us" 0 i j, d.number "vs" 0 i j⟩ ∧
      raw.precip i j = d.number "precip" 0 i j ∧ raw.evap i j = d.number "evap" 0 i j := by
    rw [hr]; split <;>
      simp [InputData.toRaw, number_toPascal, hls, pascal_levels]
  obtain ⟨c1, c2, c3, c4, c5, c6⟩ := hcol
  have prof : ∀ n, HasVar d.toXDataset n ["latitude", "longitude", "level"] →
      ∀ x ∈ (List.range ls.length).map (fun k => d.number n k i j), NpOps.isnan x = false := by
    intro n hn x hx
    obtain ⟨f, hf, hd⟩ := hasVar_lookup hn
    obtain ⟨k, hk, rfl⟩ := List.mem_map.mp hx
    rw [List.mem_range] at hk
    exact (level_number hp hv.complete hf (dims_level hd) hls hg (List.getElem?_eq_getElem hk) hi hj).2
  have surf : ∀ n, HasVar d.toXDataset n ["latitude", "longitude"] →
      NpOps.isnan (d.number n 0 i j) = false := by
    intro n hn
    obtain ⟨f, hf, hd⟩ := hasVar_lookup hn
    exact (surface_number hp hv.complete hf (dims_surface hd) hg hi hj).2
  rw [c1, c2, c3, c4, c5, c6]
  refine ⟨?_, surf _ hv.ps, surf _ hv.precip, surf _ hv.evap, ?_, ?_⟩
  · rintro x (hx | hx | hx)
    · exact prof _ hv.q x hx
    · exact prof _ hv.u x hx
    · exact prof _ hv.v x hx
  · intro hpl
    obtain ⟨h1, h2, h3⟩ := hv.surface hpl
    exact ⟨surf _ h1, surf _ h2, surf _ h3⟩
  · intro gt hgt
    have : ∃ f, d.vars.lookup "tcw" = some f ∧ f.levels = none ∧ gt = fun i j => d.number "tcw" 0 i j := by
      rw [hr] at hgt
      cases hlk : d.vars.lookup "tcw" with
      | none =>
        split at hgt <;> simp [InputData.toRaw, lookup_toPascal, hlk] at hgt
      | some f =>
        refine ⟨f, rfl, ?_⟩
        split at hgt <;> simp [InputData.toRaw, lookup_toPascal, number_toPascal, hlk] at hgt <;>
          exact ⟨hgt.1, hgt.2.symm⟩
    obtain ⟨f, hf, hl, rfl⟩ := this
    exact (surface_number hp hv.complete hf hl hg hi hj).2

theorem parseTemplate_error {m : ParseMode} {s : List Char} {e : Err} (h : parseTemplate m s = .error e) :
    e = .valueError := by
  have bind : ∀ {x : Except Err (List Piece)} {p : Piece}, (do return p :: (← x)) = .error e →
      x = .error e := by
    intro x p hx; cases x with
    | error e' => exact hx
    | ok b => cases hx
  induction m, s using parseTemplate.induct <;> rw [parseTemplate] at h <;> try assumption
  all_goals first
    | (cases h; done)
    | (injection h with h; exact h.symm)
    | (next ih => exact ih (bind h))
    | (next ih => exact ih h)
    | (next ih => exact (ih (bind h)))

theorem renderPieces_error {a : TemplateArgs} {ps : List Piece} {e : Err}
    (h : renderPieces a ps = .error e) : e ≠ .fileNotFound := by
  have nat : ∀ n spec e, formatNat n spec = .error e → e ≠ .fileNotFound := by
    intro n spec e h; unfold formatNat at h; split at h <;> cases h; simp
  have str : ∀ n spec e, formatStr n spec = .error e → e ≠ .fileNotFound := by
    intro n spec e h; unfold formatStr at h; split at h <;> cases h; simp
  induction ps with
  | nil => cases h
  | cons p ps ih =>
    unfold renderPieces at h
    cases hp : renderPiece a p with
    | error e' =>
      rw [hp] at h; cases h
      unfold renderPiece at hp
      split at hp
      · cases hp
      · repeat' split at hp
        all_goals first
          | exact nat _ _ _ hp
          | exact str _ _ _ hp
          | (cases hp; simp)
    | ok s =>
      rw [hp] at h
      cases hq : renderPieces a ps with
      | error e' => rw [hq] at h; cases h; exact ih hq
      | ok s' => rw [hq] at h; cases h

/-- an existing file is found -/
theorem loadEra5_found {var : String} (h : loadEra5 cfg disk var t = .error .fileNotFound)
    (file : RawFile κ α) : ¬ Era5File cfg disk var t file := by
  rintro ⟨path, hp, hd⟩
  unfold loadEra5 openDa at h
  simp only [hp, hd, bind, Except.bind, pure, Except.pure] at h
  have sel : ∀ {ι : Type} [DecidableEq ι] (axis : List ι) (x : ι), selLabel axis x ≠ .error .fileNotFound := by
    intro ι _ axis x hx; unfold selLabel at hx; split at hx <;> cases hx
  have selM : ∀ (axis ls : List ℚ), ls.mapM (fun l => selLabel axis l) ≠ .error .fileNotFound := by
    intro axis ls
    induction ls with
    | nil => intro h; cases h
    | cons a ls ih =>
      intro h
      rw [List.mapM_cons] at h
      cases ha : selLabel axis a with
      | error e => rw [ha] at h; cases h; exact sel _ _ ha
      | ok b =>
        rw [ha] at h
        cases hb : ls.mapM (fun l => selLabel axis l) with
        | error e => simp only [hb, bind, Except.bind] at h; cases h; exact ih hb
        | ok bs => simp only [hb, bind, Except.bind] at h; cases h
  have att : ∀ (file : RawFile κ α), file.atTime t ≠ .error .fileNotFound := by
    intro file he
    unfold RawFile.atTime at he
    split at he
    · cases he
    · cases hs : selLabel file.times t with
      | error e => rw [hs] at he; cases he; exact sel _ _ hs
      | ok n => rw [hs] at he; cases he
  have chk : ∀ n, checkLevelName n ≠ .error .fileNotFound := by
    intro n hn; unfold checkLevelName at hn; repeat' split at hn
    all_goals cases hn
  split at h
  · next e he =>
    injection h with h; subst h
    exact att _ he
  · next r hr =>
    obtain ⟨ln, f⟩ := r
    simp only at h
    split at h
    · split at h
      · unfold DataField.selLevels at h
        split at h
        · cases h
        · split at h
          · cases h
          · simp only [bind, Except.bind, pure, Except.pure] at h
            split at h
            · next e he => injection h with h; subst h; exact selM _ _ he
            · cases h
      · split at h
        · next e he => injection h with h; subst h; exact chk _ he
        · cases h
    · split at h
      · next e he => injection h with h; subst h; exact chk _ he
      · cases h

/-- **C79** Total column water is used exactly if its file exists (a file for it with levels, which makes no
sense, is read but not used). -/
theorem C79_total_column_water {raw : RawInput κ α} (h : getInputEra5 cfg disk t = .ok raw) :
    (raw.tcw.isSome → ∃ file, Era5File cfg disk "tcw" t file) ∧
    ∀ file, Era5File cfg disk "tcw" t file → file.levelName = none → raw.tcw.isSome := by
  obtain ⟨d, ls, g, hp, hv, hr, hls, hu, hg, ⟨file, hf, hgf⟩, htcw⟩ := getInputEra5_data h
  have key : raw.tcw.isSome ↔ ∃ f, d.vars.lookup "tcw" = some f ∧ f.levels = none := by
    rw [hr]
    cases hlk : d.vars.lookup "tcw" with
    | none => split <;> simp [InputData.toRaw, lookup_toPascal, hlk]
    | some f =>
      split <;> cases hfl : f.levels <;> simp [InputData.toRaw, lookup_toPascal, hlk, hfl]
  constructor
  · intro hs
    obtain ⟨f, hf, -⟩ := key.mp hs
    rcases htcw with ⟨-, -, f', hf', -⟩ | ⟨hn, -⟩
    · obtain ⟨file, hfile, -⟩ := loadEra5_spec hf'
      exact ⟨file, hfile⟩
    · rw [hn] at hf; cases hf
  · intro file hfile hln
    rcases htcw with ⟨f, hf, f', hf', hlv⟩ | ⟨-, he⟩
    · refine key.mpr ⟨f, hf, hlv ?_⟩
      obtain ⟨file', ⟨path', hp', hd'⟩, -, -, -, -, hl⟩ := loadEra5_spec hf'
      obtain ⟨path, hp0, hd0⟩ := hfile
      rw [hp0] at hp'
      injection hp' with hp'; subst hp'
      rw [hd0] at hd'
      injection hd' with hd'; subst hd'
      rw [hl (.inr (by decide)), hln]; rfl
    · exact absurd hfile (loadEra5_found he file)

/-- **C79** In a file without repeated labels a time, level, latitude and longitude determine the number: so
the numbers above are fully determined by the files, whatever the order of the axes in each of them. -/
theorem C79_labels_determine_number {κ α : Type} {file : RawFile κ α} (h1 : file.times.Nodup)
    (h2 : file.levels.Nodup) (h3 : file.latitude.Nodup) (h4 : file.longitude.Nodup) {t : ℤ} {l : Option ℚ}
    {lat lon : κ} {x y : α} (hx : StoredAt file t l lat lon x) (hy : StoredAt file t l lat lon y) : x = y := by
  have inj : ∀ {ι : Type} (axis : List ι), axis.Nodup → ∀ {i j : ℕ} {a : ι}, axis[i]? = some a →
      axis[j]? = some a → i = j := by
    intro ι axis hn i j a hi hj
    have h : axis[i]? = axis[j]? := by rw [hi, hj]
    exact (List.getElem?_inj (List.getElem?_eq_some_iff.mp hi).1 hn).mp h
  obtain ⟨n, k, i, j, a1, a2, a3, a4, rfl⟩ := hx
  obtain ⟨n', k', i', j', b1, b2, b3, b4, rfl⟩ := hy
  rw [inj _ h1 a1 b1, inj _ h3 a2 b2, inj _ h4 a3 b3]
  cases l with
  | none => rw [a4.2, b4.2]
  | some l => rw [inj _ h2 a4 b4]

/-! ### Examples: the hypotheses are met -/

namespace InputDemo

/-- some function in place of `np.exp` on the rationals (no theorem of this file looks at it) -/
local instance : NpExp ℚ := ⟨fun x => x⟩

/-- pressure levels 500 and 850 hPa, daily files -/
def demoCfg : InputConfig :=
  { calendar := .standard, template := "d/{year}-{month:02}-{day:02}{levtype}_{variable}.nc".toList
    levelType := .pressure_levels, levels := .list [850, 500], nseconds := 3600 }

/-- latitude 50, 51, longitude 4, 5, 6; the number in the file tells its place -/
def file (off : ℚ) (level : Option String) (levels : List ℚ) (lat lon : List ℚ) : RawFile ℚ ℚ :=
  { timeName := "valid_time", levelName := level, times := [0, 3600000000], levels := levels
    latitude := lat, longitude := lon
    value := fun n k i j => off + n + levels.getD k 0 + 10000 * lat.getD i 0 + lon.getD j 0 / 10 }

/-- every file has its own order of the axes -/
def demoDisk (tcw : Bool) (path : List Char) : Except Err (RawFile ℚ ℚ) :=
  if path = "d/1970-01-01_pl_q.nc".toList then
    .ok (file 0 (some "pressure_level") [1000, 850, 500] [51, 50] [4, 5, 6])
  else if path = "d/1970-01-01_pl_u.nc".toList then .ok (file 0 (some "lev") [500, 850] [50, 51] [6, 5, 4])
  else if path = "d/1970-01-01_pl_v.nc".toList then .ok (file 0 (some "level") [500, 850] [50, 51, 52] [6, 5, 4])
  else if path = "d/1970-01-01_tcw.nc".toList ∧ ¬ tcw then .error .fileNotFound
  else if path ∈ ["d/1970-01-01_sp.nc".toList, "d/1970-01-01_d2m.nc".toList, "d/1970-01-01_u10.nc".toList,
      "d/1970-01-01_v10.nc".toList, "d/1970-01-01_e.nc".toList, "d/1970-01-01_tp.nc".toList,
      "d/1970-01-01_tcw.nc".toList] then .ok (file 0 none [] [50, 51] [5, 4, 6])
  else .error .fileNotFound

/-- what is read for the cell at latitude 51, longitude 6 and 01:00, although the files differ in their order -/
example : (getInputEra5 demoCfg (demoDisk true) 3600000000).toOption.map (fun r =>
    [r.latitude, r.longitude, (r.column 0 2).p, (r.column 0 2).q, (r.column 0 2).u, (r.column 0 2).v]) =
    some [[51, 50], [4, 5, 6], [85000, 50000], [510851 + 6 / 10, 510501 + 6 / 10], [510851 + 6 / 10, 510501 + 6 / 10],
      [510851 + 6 / 10, 510501 + 6 / 10]] := by
  decide +kernel

example : (getInputEra5 demoCfg (demoDisk true) 3600000000).toOption.map (fun r =>
    ((r.surface 0 2).ps, (r.surface 0 2).us, r.tcw.isSome)) = some (510001 + 6 / 10, 510001 + 6 / 10, true) := by
  decide +kernel

/-- without the file of total column water -/
example : (getInputEra5 demoCfg (demoDisk false) 3600000000).toOption.map (fun r => r.tcw.isSome) = some false := by
  decide +kernel

/-- a time that is not in the file of its day is an error -/
example : (getInputEra5 demoCfg (demoDisk true) 7200000000).toOption.map (fun r => r.latitude) = none := by
  decide +kernel

/-- a file that lacks a part of the grid is an error -/
example : (getInputEra5 demoCfg (fun path => if path = "d/1970-01-01_sp.nc".toList then
    .ok (file 0 none [] [50] [5, 4, 6]) else demoDisk true path) 3600000000).toOption.map (fun r => r.latitude) = none := by
  decide +kernel

end InputDemo

end Wam
