import Verif.Spec.Input
import Verif.Props.Validate

set_option linter.unusedSectionVars false
set_option linter.unusedVariables false

namespace Wam
open Spec

section axes
variable {ι : Type} [DecidableEq ι]

theorem idxOf?_get {l : List ι} {x : ι} {i : ℕ} (h : l.idxOf? x = some i) : l[i]? = some x := by
  induction l generalizing i with
  | nil => simp at h
  | cons y l ih =>
    rw [List.idxOf?_cons] at h
    by_cases hy : y = x
    · subst hy; simp at h; subst h; rfl
    · simp [hy] at h
      obtain ⟨a, ha, rfl⟩ := h
      simpa using ih ha

theorem alignAxis_spec {target source : List ι} {g : ℕ → Option ℕ} (h : alignAxis target source = .ok g)
    {i i' : ℕ} {x : ι} (hg : g i = some i') (hx : target[i]? = some x) : source[i']? = some x := by
  unfold alignAxis at h
  split at h
  · next e => injection h with h; subst h; subst e; injection hg with hg; subst hg; exact hx
  · split at h
    · injection h with h; subst h
      simp only [hx, Option.bind_some] at hg
      exact idxOf?_get hg
    · cases h

theorem selLabel_spec {axis : List ι} {x : ι} {n : ℕ} (h : selLabel axis x = .ok n) :
    axis[n]? = some x := by
  unfold selLabel at h
  split at h
  · next e =>
    injection h with h; subst h
    have hx : x ∈ axis := List.count_pos_iff.mp (by omega)
    rw [List.getElem?_eq_getElem (List.idxOf_lt_length_of_mem hx)]
    simp
  · cases h

end axes

variable {κ α : Type} [DecidableEq κ]

/-- position `k` is the level `l` -/
def LevelIs : Option (List ℚ) → ℕ → Option ℚ → Prop
  | none, k, none => k = 0
  | some ls, k, some l => ls[k]? = some l
  | _, _, _ => False

/-- the array has the number `x` at these labels -/
def DataField.Has (f : DataField κ α) (l : Option ℚ) (lat lon : κ) (x : α) : Prop :=
  ∃ k i j, f.value k i j = some x ∧ f.latitude[i]? = some lat ∧ f.longitude[j]? = some lon ∧
    LevelIs f.levels k l

theorem DataField.reindex_spec {f f' : DataField κ α} {L : Option (List ℚ)} {lat lon : List κ}
    (h : f.reindex L lat lon = .ok f') :
    f'.latitude = lat ∧ f'.longitude = lon ∧ f'.levels = f.levels.map (fun s => L.getD s) ∧
      ∀ l φ θ x, f'.Has l φ θ x → f.Has l φ θ x := by
  unfold DataField.reindex at h
  cases hr : alignAxis lat f.latitude with
  | error e => simp [hr, bind, Except.bind] at h
  | ok rows =>
    cases hc : alignAxis lon f.longitude with
    | error e => simp [hr, hc, bind, Except.bind] at h
    | ok cols =>
      cases hl : alignLevels L f.levels with
      | error e => simp [hr, hc, hl, bind, Except.bind] at h
      | ok levs =>
        simp only [hr, hc, hl, bind, Except.bind, pure, Except.pure] at h
        injection h with h; subst h
        refine ⟨rfl, rfl, rfl, ?_⟩
        rintro l φ θ x ⟨k, i, j, hv, hi, hj, hk⟩
        simp only at hv hi hj hk
        simp only [Option.bind_eq_some_iff] at hv
        obtain ⟨k', hk', i', hi', j', hj', hv⟩ := hv
        refine ⟨k', i', j', hv, alignAxis_spec hr hi' hi, alignAxis_spec hc hj' hj, ?_⟩
        cases L <;> cases hf : f.levels <;> simp only [hf, alignLevels] at hl hk ⊢
        · injection hl with hl; subst hl; injection hk' with hk'; subst hk'; exact hk
        · injection hl with hl; subst hl; injection hk' with hk'; subst hk'; exact hk
        · injection hl with hl; subst hl; injection hk' with hk'; subst hk'; exact hk
        · cases l with
          | none => exact hk
          | some l => exact alignAxis_spec hl hk' hk

theorem DataField.zip_spec {op : α → α → α} {f g z : DataField κ α} (h : DataField.zip op f g = .ok z) :
    z.levels = none ∧ ∀ l φ θ x, z.Has l φ θ x → ∃ a b, f.Has l φ θ a ∧ g.Has l φ θ b ∧ x = op a b := by
  unfold DataField.zip at h
  cases hb : (f.levels.isSome || g.levels.isSome) with
  | true => simp [hb, bind, Except.bind, throw, throwThe, MonadExceptOf.throw] at h
  | false =>
    simp only [Bool.or_eq_false_iff, Option.isSome_eq_false_iff, Option.isNone_iff_eq_none] at hb
    cases h1 : joinAxis f.latitude g.latitude with
    | error e => simp [hb, h1, bind, Except.bind, pure, Except.pure] at h
    | ok lat =>
      cases h2 : joinAxis f.longitude g.longitude with
      | error e => simp [hb, h1, h2, bind, Except.bind, pure, Except.pure] at h
      | ok lon =>
        cases h3 : f.reindex none lat lon with
        | error e => simp [hb, h1, h2, h3, bind, Except.bind, pure, Except.pure] at h
        | ok f' =>
          cases h4 : g.reindex none lat lon with
          | error e => simp [hb, h1, h2, h3, h4, bind, Except.bind, pure, Except.pure] at h
          | ok g' =>
            simp only [hb, h1, h2, h3, h4, bind, Except.bind, pure, Except.pure, Option.isSome_none,
              Bool.or_self, Bool.false_eq_true, if_false] at h
            injection h with h; subst h
            obtain ⟨f1, f2, f3, f4⟩ := DataField.reindex_spec h3
            obtain ⟨g1, g2, g3, g4⟩ := DataField.reindex_spec h4
            rw [hb.1] at f3; rw [hb.2] at g3
            refine ⟨f3, ?_⟩
            rintro l φ θ x ⟨k, i, j, hv, hi, hj, hk⟩
            simp only at hv hi hj hk
            simp only [Option.bind_eq_some_iff, Option.map_eq_some_iff] at hv
            obtain ⟨a, ha, b, hb', rfl⟩ := hv
            refine ⟨a, b, f4 _ _ _ _ ⟨k, i, j, ha, by rw [f1]; exact hi, by rw [f2]; exact hj, hk⟩,
              g4 _ _ _ _ ⟨k, i, j, hb', by rw [g1]; exact hi, by rw [g2]; exact hj, ?_⟩, rfl⟩
            rw [g3]; rw [f3] at hk; exact hk

theorem DataField.map_spec {op : α → α} {f : DataField κ α} {l φ θ x} (h : (f.map op).Has l φ θ x) :
    ∃ a, f.Has l φ θ a ∧ x = op a := by
  obtain ⟨k, i, j, hv, hi, hj, hk⟩ := h
  simp only [DataField.map, Option.map_eq_some_iff] at hv hi hj hk
  obtain ⟨a, ha, rfl⟩ := hv
  exact ⟨a, ⟨k, i, j, ha, hi, hj, hk⟩, rfl⟩

theorem InputData.assign_spec {d d' : InputData κ α} {name : String} {f : DataField κ α}
    (h : d.assign name f = .ok d') :
    ∃ f' : DataField κ α, d'.vars = d.vars ++ [(name, f')] ∧ d'.grid = some (f'.latitude, f'.longitude) ∧
      (∀ g, d.grid = some g → d'.grid = some g) ∧ d'.levels = (d.levels <|> f'.levels) ∧
      f'.levels = f.levels.map (fun s => d.levels.getD s) ∧
      (d.grid = none → d'.grid = some (f.latitude, f.longitude)) ∧
      ∀ l φ θ x, f'.Has l φ θ x → f.Has l φ θ x := by
  unfold InputData.assign at h
  cases hr : f.reindex d.levels (d.grid.getD (f.latitude, f.longitude)).1
      (d.grid.getD (f.latitude, f.longitude)).2 with
  | error e => simp [hr, bind, Except.bind] at h
  | ok f' =>
    simp only [hr, bind, Except.bind] at h
    injection h with h; subst h
    obtain ⟨f1, f2, f3, f4⟩ := DataField.reindex_spec hr
    refine ⟨f', rfl, ?_, ?_, rfl, f3, ?_, f4⟩
    · simp [f1, f2]
    · intro g hg; simp [hg]
    · intro hg; simp [hg]

theorem Except.bind_ok {ε β γ : Type} {x : Except ε β} {f : β → Except ε γ} {c : γ}
    (h : (x >>= f) = .ok c) : ∃ b, x = .ok b ∧ f b = .ok c := by
  cases x with
  | error e => cases h
  | ok b => exact ⟨b, rfl, h⟩

theorem loadEra5_spec {cfg : InputConfig} {disk : List Char → Except Err (RawFile κ α)} {var : String}
    {t : ℤ} {f : DataField κ α} (h : loadEra5 cfg disk var t = .ok f) :
    ∃ file, Era5File cfg disk var t file ∧ f.latitude = file.latitude ∧ f.longitude = file.longitude ∧
      (∀ l φ θ x, f.Has l φ θ x → StoredAt file t l φ θ x) ∧
      (∀ L, cfg.levels = .list L → var ∈ levelVariables → f.levels = some (levelLabels L)) ∧
      (cfg.levels = .all ∨ var ∉ levelVariables → f.levels = file.levelName.map fun _ => file.levels) := by
  unfold loadEra5 at h
  obtain ⟨path, hp, h1⟩ := Except.bind_ok h
  clear h
  obtain ⟨file', hf0, h2⟩ := Except.bind_ok h1
  clear h1
  unfold openDa at hf0
  obtain ⟨file, hfile, hf⟩ := Except.bind_ok hf0
  clear hf0
  have hf := Except.ok.inj hf
  obtain ⟨⟨ln, f0⟩, ha, h⟩ := Except.bind_ok h2
  clear h2
  unfold RawFile.atTime at ha
  split at ha
  · cases ha
  obtain ⟨n, hn, ha⟩ := Except.bind_ok ha
  injection ha with ha
  injection ha with hln hf0
  have hsel := selLabel_spec hn
  subst hf
  simp only at hsel hf0 hln
  have base : ∀ l φ θ x, f0.Has l φ θ x → StoredAt file t l φ θ x := by
    rintro l φ θ x ⟨k, i, j, hv, hi, hj, hk⟩
    subst hf0
    simp only [Option.some.injEq] at hv hi hj hk
    refine ⟨n, k, i, j, hsel, hi, hj, ?_, hv⟩
    cases hl : file.levelName <;> cases l <;> simp only [hl, Option.map_none, Option.map_some, LevelIs] at hk ⊢
    · exact ⟨trivial, hk⟩
    · exact hk
  have hlat : f0.latitude = file.latitude := by subst hf0; rfl
  have hlon : f0.longitude = file.longitude := by subst hf0; rfl
  have hlev : f0.levels = file.levelName.map fun _ => file.levels := by
    subst hf0; rw [Option.map_map]; rfl
  refine ⟨file, ⟨path, hp, hfile⟩, ?_⟩
  simp only at h
  cases hL : cfg.levels with
  | all =>
    rw [hL] at h
    obtain ⟨_, _, h⟩ := Except.bind_ok h
    have h := Except.ok.inj (h : Except.ok f0 = Except.ok f)
    subst h
    exact ⟨hlat, hlon, base, fun L hL' => (by cases hL'), fun _ => hlev⟩
  | list L =>
    rw [hL] at h
    simp only at h
    split at h
    · next hv =>
      unfold DataField.selLevels at h
      split at h
      · cases h
      · next axis hax =>
        split at h
        · cases h
        · obtain ⟨ks, hks, h⟩ := Except.bind_ok h
          injection h with h; subst h
          refine ⟨hlat, hlon, ?_, fun L' hL' _ => (by cases hL'; rfl), fun h => (by rcases h with h | h; exact absurd h (by simp); exact absurd hv h)⟩
          rintro l φ θ x ⟨k, i, j, hv, hi, hj, hk⟩
          simp only [Option.bind_eq_some_iff] at hv hi hj hk
          obtain ⟨k', hk', hv⟩ := hv
          cases l with
          | none => exact hk.elim
          | some l =>
            refine base _ _ _ _ ⟨k', i, j, hv, hi, hj, ?_⟩
            rw [hax]
            have hk : (levelLabels L)[k]? = some l := hk
            have : ∀ (ls : List ℚ) (ks : List ℕ), ls.mapM (fun l => selLabel axis l) = .ok ks →
                ∀ (k : ℕ) l (k' : ℕ), ls[k]? = some l → ks[k]? = some k' → axis[k']? = some l := by
              intro ls
              induction ls with
              | nil => intro ks h k l k' hl; simp at hl
              | cons a ls ih =>
                intro ks h k l k' hl hk'
                rw [List.mapM_cons] at h
                obtain ⟨b, hb, h⟩ := Except.bind_ok h
                obtain ⟨bs, hbs, h⟩ := Except.bind_ok h
                injection h with h; subst h
                cases k with
                | zero =>
                  simp at hl hk'; subst hl hk'
                  exact selLabel_spec hb
                | succ k => exact ih bs hbs k l k' (by simpa using hl) (by simpa using hk')
            exact this _ _ hks k l k' hk hk'
    · next hv =>
      obtain ⟨_, _, h⟩ := Except.bind_ok h
      have h := Except.ok.inj (h : Except.ok f0 = Except.ok f)
      subst h
      exact ⟨hlat, hlon, base, fun L' _ h => absurd h hv, fun _ => hlev⟩

/-- where the numbers of the variables of a dataset come from -/
def InputData.Prov (d : InputData κ α) (P : String → Option ℚ → κ → κ → α → Prop) : Prop :=
  ∀ n f, (n, f) ∈ d.vars → d.grid = some (f.latitude, f.longitude) ∧
    (∀ ls, f.levels = some ls → d.levels = some ls) ∧ ∀ l φ θ x, f.Has l φ θ x → P n l φ θ x

theorem InputData.prov_empty (P : String → Option ℚ → κ → κ → α → Prop) :
    InputData.Prov ({} : InputData κ α) P := by
  intro n f h; cases h

theorem InputData.prov_assign {d d' : InputData κ α} {P : String → Option ℚ → κ → κ → α → Prop}
    {name : String} {f : DataField κ α} (hd : d.Prov P) (h : d.assign name f = .ok d')
    (hP : ∀ l φ θ x, f.Has l φ θ x → P name l φ θ x) : d'.Prov P := by
  obtain ⟨f', hv, hg, hg', hl, hl', _, hh⟩ := InputData.assign_spec h
  intro n x hx
  rw [hv, List.mem_append] at hx
  rcases hx with hx | hx
  · obtain ⟨h1, h2, h3⟩ := hd n x hx
    refine ⟨hg' _ h1, ?_, h3⟩
    intro ls hls
    rw [hl, h2 ls hls]; rfl
  · simp only [List.mem_singleton, Prod.mk.injEq] at hx
    obtain ⟨rfl, rfl⟩ := hx
    refine ⟨hg, ?_, fun l φ θ y hy => hP _ _ _ _ (hh _ _ _ _ hy)⟩
    intro ls hls
    rw [hl]
    cases hdl : d.levels with
    | none => simpa using hls
    | some ls' =>
      rw [hl', hdl] at hls
      cases hfl : f.levels <;> simp [hfl] at hls
      subst hls; rfl

end Wam
