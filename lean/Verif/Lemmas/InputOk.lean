import Verif.Lemmas.InputMore

set_option linter.unusedSectionVars false
set_option linter.unusedVariables false

/-! # Loading complete data succeeds -/

namespace Wam
open Spec

section axes
variable {ι : Type} [DecidableEq ι]

theorem idxOf?_of_mem {l : List ι} {x : ι} (h : x ∈ l) : ∃ i, l.idxOf? x = some i ∧ i < l.length := by
  induction l with
  | nil => cases h
  | cons y l ih =>
    rw [List.idxOf?_cons]
    by_cases hy : y = x
    · exact ⟨0, by simp [hy], by simp⟩
    · obtain ⟨i, hi, hlt⟩ := ih (by rcases List.mem_cons.mp h with rfl | h; exact absurd rfl hy; exact h)
      exact ⟨i + 1, by simp [hy, hi], by simpa using hlt⟩

theorem alignAxis_ok {target source : List ι} (hn : source.Nodup) (h : ∀ x ∈ target, x ∈ source) :
    ∃ g, alignAxis target source = .ok g ∧ ∀ i < target.length, ∃ i', g i = some i' ∧ i' < source.length := by
  unfold alignAxis
  by_cases he : source = target
  · rw [if_pos he]
    exact ⟨some, rfl, fun i hi => ⟨i, rfl, by rw [he]; exact hi⟩⟩
  · rw [if_neg he, if_pos hn]
    refine ⟨_, rfl, fun i hi => ?_⟩
    obtain ⟨i', h1, h2⟩ := idxOf?_of_mem (h _ (List.getElem_mem hi))
    exact ⟨i', by rw [List.getElem?_eq_getElem hi, Option.bind_some, h1], h2⟩

theorem joinAxis_ok {a b : List ι} (ha : a.Nodup) (hb : b.Nodup) :
    ∃ c, joinAxis a b = .ok c ∧ c.Nodup ∧ ∀ x, x ∈ c ↔ x ∈ a ∧ x ∈ b := by
  unfold joinAxis
  by_cases he : a = b
  · rw [if_pos he]
    exact ⟨a, rfl, ha, fun x => by subst he; simp⟩
  · rw [if_neg he, if_pos ⟨ha, hb⟩]
    exact ⟨_, rfl, ha.filter _, fun x => by simp⟩

theorem selLabel_ok {axis : List ι} {x : ι} (h : axis.count x = 1) :
    ∃ n, selLabel axis x = .ok n ∧ n < axis.length := by
  unfold selLabel
  rw [if_pos h]
  exact ⟨_, rfl, List.idxOf_lt_length_of_mem (List.count_pos_iff.mp (by omega))⟩

end axes

variable {κ α : Type} [DecidableEq κ]

/-- no number of the array is missing, and its axes have no repeated labels -/
structure DataField.Full (f : DataField κ α) : Prop where
  lat : f.latitude.Nodup
  lon : f.longitude.Nodup
  value : ∀ k i j, k < f.levels.elim 1 List.length → i < f.latitude.length → j < f.longitude.length →
    (f.value k i j).isSome

/-- the array covers the grid -/
def DataField.Covers (f : DataField κ α) (g : List κ × List κ) : Prop :=
  (∀ φ ∈ g.1, φ ∈ f.latitude) ∧ ∀ θ ∈ g.2, θ ∈ f.longitude

theorem reindex_full {f : DataField κ α} (hf : f.Full) {g : List κ × List κ} (hc : f.Covers g) (h1 : g.1.Nodup)
    (h2 : g.2.Nodup) {L : Option (List ℚ)} (hL : L = none ∨ f.levels = none ∨ f.levels = L) :
    ∃ f', f.reindex L g.1 g.2 = .ok f' ∧ f'.Full ∧ f'.levels = f.levels ∧ f'.latitude = g.1 ∧
      f'.longitude = g.2 := by
  obtain ⟨rows, hr, hr'⟩ := alignAxis_ok hf.lat hc.1
  obtain ⟨cols, hcl, hcl'⟩ := alignAxis_ok hf.lon hc.2
  have hlev : alignLevels L f.levels = .ok some := by
    rcases hL with rfl | h | h
    · rfl
    · rw [h]; cases L <;> rfl
    · rw [h]
      cases L with
      | none => rfl
      | some ls => simp [alignLevels, alignAxis]
  have hmap : f.levels.map (fun source => L.getD source) = f.levels := by
    rcases hL with rfl | h | h
    · simp
    · rw [h]; rfl
    · rw [h]; cases L <;> rfl
  unfold DataField.reindex
  rw [hr, hcl, hlev]
  refine ⟨_, rfl, ⟨h1, h2, ?_⟩, hmap, rfl, rfl⟩
  intro k i j hk hi hj
  simp only at hk hi hj ⊢
  rw [hmap] at hk
  obtain ⟨i', e1, e2⟩ := hr' i hi
  obtain ⟨j', e3, e4⟩ := hcl' j hj
  rw [e1, e3]
  exact hf.value k i' j' hk e2 e4

theorem zip_full {op : α → α → α} {f g : DataField κ α} (hf : f.Full) (hg : g.Full) (h1 : f.levels = none)
    (h2 : g.levels = none) {grid : List κ × List κ} (hc : f.Covers grid) (hc' : g.Covers grid) :
    ∃ z, DataField.zip op f g = .ok z ∧ z.Full ∧ z.levels = none ∧ z.Covers grid := by
  obtain ⟨la, ha, na, ma⟩ := joinAxis_ok hf.lat hg.lat
  obtain ⟨lo, ho, no, mo⟩ := joinAxis_ok hf.lon hg.lon
  obtain ⟨f', r1, r2, r3, r4, r5⟩ := reindex_full hf (g := (la, lo)) (L := none)
    ⟨fun φ h => ((ma φ).mp h).1, fun θ h => ((mo θ).mp h).1⟩ na no (.inl rfl)
  obtain ⟨g', s1, s2, s3, s4, s5⟩ := reindex_full hg (g := (la, lo)) (L := none)
    ⟨fun φ h => ((ma φ).mp h).2, fun θ h => ((mo θ).mp h).2⟩ na no (.inl rfl)
  simp only at r1 s1 r4 r5 s4 s5
  unfold DataField.zip
  simp only [h1, h2, Option.isSome_none, Bool.or_self, Bool.false_eq_true, if_false]
  rw [ha, ho]
  simp only [bind, Except.bind, pure, Except.pure, r1, s1]
  refine ⟨_, rfl, ⟨na, no, ?_⟩, by simp only [r3, h1], ?_, ?_⟩
  · intro k i j hk hi hj
    simp only at hk hi hj ⊢
    have e1 := r2.value k i j hk (by rw [r4]; exact hi) (by rw [r5]; exact hj)
    have e2 := s2.value k i j (by rw [s3, h2]; rw [r3, h1] at hk; exact hk) (by rw [s4]; exact hi)
      (by rw [s5]; exact hj)
    obtain ⟨a, ha⟩ := Option.isSome_iff_exists.mp e1
    obtain ⟨b, hb⟩ := Option.isSome_iff_exists.mp e2
    rw [ha, hb]; rfl
  · exact fun φ h => (ma φ).mpr ⟨hc.1 φ h, hc'.1 φ h⟩
  · exact fun θ h => (mo θ).mpr ⟨hc.2 θ h, hc'.2 θ h⟩

theorem map_full {op : α → α} {f : DataField κ α} (hf : f.Full) : (f.map op).Full := by
  refine ⟨hf.lat, hf.lon, fun k i j hk hi hj => ?_⟩
  have := hf.value k i j hk hi hj
  simp only [DataField.map, Option.isSome_map]
  exact this

theorem selLevels_full {f : DataField κ α} (hf : f.Full) {axis : List ℚ} (ha : f.levels = some axis) {n : Option String}
    (hn : n = some "level") {levels : List ℚ} (hl : ∀ l ∈ levels, axis.count l = 1) :
    ∃ f', f.selLevels n levels = .ok f' ∧ f'.Full ∧ f'.levels = some levels ∧ f'.latitude = f.latitude ∧
      f'.longitude = f.longitude := by
  have : ∀ ls : List ℚ, (∀ l ∈ ls, axis.count l = 1) → ∃ ks, ls.mapM (fun l => selLabel axis l) = .ok ks ∧
      ks.length = ls.length ∧ ∀ k ∈ ks, k < axis.length := by
    intro ls
    induction ls with
    | nil => intro _; exact ⟨[], rfl, rfl, by simp⟩
    | cons a ls ih =>
      intro h
      obtain ⟨k, hk, hlt⟩ := selLabel_ok (h a List.mem_cons_self)
      obtain ⟨ks, h1, h2, h3⟩ := ih fun l hl => h l (List.mem_cons_of_mem _ hl)
      refine ⟨k :: ks, ?_, by simp [h2], ?_⟩
      · rw [List.mapM_cons, hk, h1]; rfl
      · intro m hm; rcases List.mem_cons.mp hm with rfl | hm
        · exact hlt
        · exact h3 m hm
  obtain ⟨ks, h1, h2, h3⟩ := this levels hl
  unfold DataField.selLevels
  rw [ha]
  simp only [hn, ne_eq, not_true_eq_false, if_false]
  rw [h1]
  refine ⟨_, rfl, ⟨hf.lat, hf.lon, ?_⟩, rfl, rfl, rfl⟩
  intro k i j hk hi hj
  simp only [Option.elim_some] at hk hi hj ⊢
  have hk' : k < ks.length := by rw [h2]; exact hk
  rw [List.getElem?_eq_getElem hk', Option.bind_some]
  exact hf.value _ i j (by rw [ha]; exact h3 _ (List.getElem_mem hk')) hi hj

/-- the dataset has these variables, in this order, with or without levels, complete, on the grid `g` with levels `ls` -/
structure InputData.Complete (d : InputData κ α) (g : List κ × List κ) (ls : List ℚ)
    (names : List (String × Bool)) : Prop where
  grid : d.grid = some g
  levels : d.levels = some ls
  names : d.vars.map (fun v => (v.1, v.2.levels.isSome)) = names
  vars : ∀ v ∈ d.vars, v.2.Full ∧ v.2.latitude = g.1 ∧ v.2.longitude = g.2 ∧
    (v.2.levels = none ∨ v.2.levels = some ls)

theorem assign_first {f : DataField κ α} (hf : f.Full) {ls : List ℚ} (hl : f.levels = some ls) (name : String) :
    ∃ d, ({} : InputData κ α).assign name f = .ok d ∧
      d.Complete (f.latitude, f.longitude) ls [(name, true)] := by
  obtain ⟨f', r1, r2, r3, r4, r5⟩ := reindex_full hf (g := (f.latitude, f.longitude)) (L := none)
    ⟨fun _ h => h, fun _ h => h⟩ hf.lat hf.lon (.inl rfl)
  unfold InputData.assign
  simp only [Option.getD_none, r1]
  refine ⟨_, rfl, rfl, ?_, ?_, ?_⟩
  · simp [r3, hl]
  · simp [r3, hl]
  · intro v hv
    simp at hv; subst hv
    exact ⟨r2, r4, r5, .inr (by rw [r3, hl])⟩

theorem assign_next {d : InputData κ α} {g : List κ × List κ} {ls : List ℚ} {names : List (String × Bool)}
    (hd : d.Complete g ls names) (h1 : g.1.Nodup) (h2 : g.2.Nodup) {f : DataField κ α} (hf : f.Full)
    (hc : f.Covers g) (hl : f.levels = none ∨ f.levels = some ls) (name : String) :
    ∃ d', d.assign name f = .ok d' ∧ d'.Complete g ls (names ++ [(name, f.levels.isSome)]) := by
  obtain ⟨f', r1, r2, r3, r4, r5⟩ := reindex_full hf hc h1 h2 (L := d.levels) (by
    rcases hl with h | h
    · exact .inr (.inl h)
    · exact .inr (.inr (by rw [h, hd.levels])))
  unfold InputData.assign
  simp only [hd.grid, Option.getD_some, r1]
  refine ⟨_, rfl, rfl, ?_, ?_, ?_⟩
  · simp [hd.levels]
  · simp [hd.names, r3]
  · intro v hv
    rcases List.mem_append.mp hv with hv | hv
    · exact hd.vars v hv
    · simp at hv; subst hv
      exact ⟨r2, r4, r5, by rw [r3]; exact hl⟩

variable [Add α] [Sub α] [Mul α] [Div α] [NpOps α]

/-- complete data with all variables are accepted -/
theorem validated_ok (hnan : ∀ x : α, NpOps.isnan x = false) {d : InputData κ α} {g : List κ × List κ}
    {ls : List ℚ} {names : List (String × Bool)} (hd : d.Complete g ls names) (lt : LevelType)
    (hq : names.lookup "q" = some true) (hu : names.lookup "u" = some true) (hv : names.lookup "v" = some true)
    (hps : names.lookup "ps" = some false) (hpr : names.lookup "precip" = some false)
    (hev : names.lookup "evap" = some false)
    (hp : lt = .pressure_levels → names.lookup "qs" = some false ∧ names.lookup "us" = some false ∧
      names.lookup "vs" = some false)
    (hm : lt = .model_levels → names.lookup "dp" = some true) : ∃ raw, validated lt d = .ok raw := by
  have hlk : ∀ n b, names.lookup n = some b → ∃ f, d.vars.lookup n = some f ∧ f.levels.isSome = b := by
    intro n b h
    rw [← hd.names] at h
    have : ∀ l : List (String × DataField κ α), (l.map fun v => (v.1, v.2.levels.isSome)).lookup n =
        (l.lookup n).map fun f => f.levels.isSome := by
      intro l
      induction l with
      | nil => rfl
      | cons a l ih =>
        obtain ⟨m, f⟩ := a
        simp only [List.map_cons, List.lookup_cons]
        split
        · rfl
        · exact ih
    rw [this, Option.map_eq_some_iff] at h
    exact h
  have hget : ∀ n f, d.vars.lookup n = some f → d.toXDataset.get n = some ⟨f.dims, f.values⟩ := by
    intro n f h
    unfold XDataset.get InputData.toXDataset
    simp only
    have : ∀ l : List (String × DataField κ α),
        (l.map fun (a : String × DataField κ α) => (a.1, (⟨a.2.dims, a.2.values⟩ : XVar (Option α)))).lookup n =
          (l.lookup n).map fun f => ⟨f.dims, f.values⟩ := by
      intro l
      induction l with
      | nil => rfl
      | cons a l ih =>
        obtain ⟨m, f⟩ := a
        simp only [List.map_cons, List.lookup_cons]
        split
        · rfl
        · exact ih
    rw [this, h]; rfl
  have hsurf : ∀ n, names.lookup n = some false → HasVar d.toXDataset n ["latitude", "longitude"] := by
    intro n h
    obtain ⟨f, h1, h2⟩ := hlk n _ h
    refine ⟨_, hget n f h1, ?_⟩
    cases hl : f.levels with
    | none => intro x; simp [DataField.dims, hl]
    | some ls => rw [hl] at h2; cases h2
  have hlev : ∀ n, names.lookup n = some true → HasVar d.toXDataset n ["latitude", "longitude", "level"] := by
    intro n h
    obtain ⟨f, h1, h2⟩ := hlk n _ h
    refine ⟨_, hget n f h1, ?_⟩
    cases hl : f.levels with
    | none => rw [hl] at h2; cases h2
    | some ls =>
      intro x
      simp only [DataField.dims, hl, List.mem_append, List.mem_cons, List.not_mem_nil, or_false]
      tauto
  have hval : ValidInput d.toXDataset lt := by
    refine ⟨?_, hlev _ hq, hlev _ hu, hlev _ hv, hsurf _ hps, hsurf _ hpr, hsurf _ hev,
      fun h => ⟨hsurf _ (hp h).1, hsurf _ (hp h).2.1, hsurf _ (hp h).2.2⟩, fun h => hlev _ (hm h), ?_⟩
    · simp [InputData.toXDataset, hd.grid, hd.levels]
    · intro e he y hy
      simp only [InputData.toXDataset, List.mem_map] at he
      obtain ⟨⟨n, f⟩, hm, rfl⟩ := he
      simp only [DataField.values, List.mem_flatMap, List.mem_map, List.mem_range] at hy
      obtain ⟨k, hk, i, hi, j, hj, rfl⟩ := hy
      obtain ⟨x, hx⟩ := Option.isSome_iff_exists.mp ((hd.vars _ hm).1.value k i j hk hi hj)
      rw [hx]; exact hnan x
  unfold validated
  rw [(C60_accepts_iff _ _).mpr hval]
  exact ⟨_, rfl⟩

end Wam
