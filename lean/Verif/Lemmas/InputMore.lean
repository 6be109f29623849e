import Verif.Spec.InputMore
import Verif.Props.Input

set_option linter.unusedSectionVars false
set_option linter.unusedVariables false

namespace Wam
open Spec

variable {κ α : Type} [DecidableEq κ] [Add α] [Sub α] [Mul α] [Div α] [NpOps α]

/-- the numbers of a validated dataset come from where its variables come from -/
theorem validated_cells {d : InputData κ α} {P : String → Option ℚ → κ → κ → α → Prop} (hd : d.Prov P)
    {raw : RawInput κ α} (h : validated .pressure_levels d = .ok raw) :
    ∃ g ls, d.grid = some g ∧ d.levels = some ls ∧ raw.latitude = g.1 ∧ raw.longitude = g.2 ∧
      (raw.tcw.isSome ↔ ∃ f, d.vars.lookup "tcw" = some f ∧ f.levels = none) ∧
      ∀ i j lat lon, raw.latitude[i]? = some lat → raw.longitude[j]? = some lon →
        CellFrom P ls lat lon raw i j := by
  unfold validated at h
  split at h
  · next hval =>
    have h := Except.ok.inj h
    rw [C60_accepts_iff] at hval
    subst h
    obtain ⟨fq, hfq, dq⟩ := hasVar_lookup hval.q
    obtain ⟨fu, hfu, du⟩ := hasVar_lookup hval.u
    obtain ⟨fv, hfv, dv⟩ := hasVar_lookup hval.v
    obtain ⟨fps, hfps, dps⟩ := hasVar_lookup hval.ps
    obtain ⟨fpr, hfpr, dpr⟩ := hasVar_lookup hval.precip
    obtain ⟨fev, hfev, dev⟩ := hasVar_lookup hval.evap
    obtain ⟨vqs, vus, vvs⟩ := hval.surface rfl
    obtain ⟨fqs, hfqs, dqs⟩ := hasVar_lookup vqs
    obtain ⟨fus, hfus, dus⟩ := hasVar_lookup vus
    obtain ⟨fvs, hfvs, dvs⟩ := hasVar_lookup vvs
    obtain ⟨hg, hlq, -⟩ := hd _ _ (field_mem hfq)
    obtain ⟨ls, hls⟩ := Option.isSome_iff_exists.mp (dims_level dq)
    have hL := hlq ls hls
    refine ⟨_, ls, hg, hL, by simp [InputData.toRaw, hg], by simp [InputData.toRaw, hg], ?_, ?_⟩
    · cases hlk : d.vars.lookup "tcw" with
      | none => simp [InputData.toRaw, hlk]
      | some f => cases hfl : f.levels <;> simp [InputData.toRaw, hlk, hfl]
    · intro i j lat lon hi hj
      have hi' : fq.latitude[i]? = some lat := by simpa [InputData.toRaw, hg] using hi
      have hj' : fq.longitude[j]? = some lon := by simpa [InputData.toRaw, hg] using hj
      have prof : ∀ n f, d.vars.lookup n = some f →
          (∀ x, x ∈ f.dims ↔ x ∈ ["latitude", "longitude", "level"]) →
          ProfileFrom (P n) ls lat lon ((List.range ls.length).map fun k => d.number n k i j) := by
        intro n f hf hdim
        refine ⟨by simp, ?_⟩
        intro k l x hk hx
        have hk' := (List.getElem?_eq_some_iff.mp hk).1
        have : x = d.number n k i j := by
          simp [List.getElem?_map, List.getElem?_range hk'] at hx; exact hx.symm
        rw [this]
        exact level_number hd hval.complete hf (dims_level hdim) hL hg hk hi' hj'
      have surf : ∀ n f, d.vars.lookup n = some f → (∀ x, x ∈ f.dims ↔ x ∈ ["latitude", "longitude"]) →
          NumberFrom (P n) lat lon (d.number n 0 i j) := by
        intro n f hf hdim
        exact surface_number hd hval.complete hf (dims_surface hdim) hg hi' hj'
      have hlev : (d.levels.getD []) = ls := by rw [hL]; rfl
      constructor
      · simp [InputData.toRaw, hL]
      · simpa [InputData.toRaw, hL] using prof _ _ hfq dq
      · simpa [InputData.toRaw, hL] using prof _ _ hfu du
      · simpa [InputData.toRaw, hL] using prof _ _ hfv dv
      · exact surf _ _ hfps dps
      · exact surf _ _ hfqs dqs
      · exact surf _ _ hfus dus
      · exact surf _ _ hfvs dvs
      · exact surf _ _ hfpr dpr
      · exact surf _ _ hfev dev
      · intro g hgt
        simp only [InputData.toRaw] at hgt
        cases hlk : d.vars.lookup "tcw" with
        | none => simp [hlk] at hgt
        | some f =>
          rw [hlk, Option.bind_some] at hgt
          split at hgt
          · cases hgt
          · next hn =>
            injection hgt with hgt; subst hgt
            exact surface_number hd hval.complete hlk (by simpa using hn) hg hi' hj'
  · cases h

theorem prov_toPascal {d : InputData κ α} {P : String → Option ℚ → κ → κ → α → Prop} (hd : d.Prov P) :
    d.toPascal.Prov fun n l => P n (l.map fun p => p / 100) := by
  intro n f hf
  simp only [InputData.toPascal, List.mem_map] at hf
  obtain ⟨⟨m, f0⟩, hm, he⟩ := hf
  simp only [Prod.mk.injEq] at he
  obtain ⟨rfl, rfl⟩ := he
  obtain ⟨h1, h2, h3⟩ := hd _ _ hm
  refine ⟨h1, ?_, ?_⟩
  · intro ls hls
    simp only [Option.map_eq_some_iff] at hls
    obtain ⟨l0, hl0, rfl⟩ := hls
    simp [InputData.toPascal, h2 _ hl0]
  · rintro l φ θ x ⟨k, i, j, hv, hi, hj, hk⟩
    refine h3 _ _ _ _ ⟨k, i, j, hv, hi, hj, ?_⟩
    simp only at hk
    cases hl : f0.levels with
    | none => rw [hl] at hk; cases l with
      | none => exact hk
      | some l => exact hk.elim
    | some ls =>
      rw [hl] at hk
      cases l with
      | none => exact hk.elim
      | some l =>
        have hk : (ls.map fun l => l * 100)[k]? = some l := hk
        rw [List.getElem?_map, Option.map_eq_some_iff] at hk
        obtain ⟨m, hm, rfl⟩ := hk
        show ls[k]? = some (m * 100 / 100)
        rw [hm, mul_div_cancel_right₀ _ (by norm_num)]

theorem selLevels_spec {f f' : DataField κ α} {n : Option String} {levels : List ℚ}
    (h : f.selLevels n levels = .ok f') :
    f'.latitude = f.latitude ∧ f'.longitude = f.longitude ∧ f'.levels = some levels ∧
      ∀ l φ θ x, f'.Has l φ θ x → f.Has l φ θ x := by
  unfold DataField.selLevels at h
  split at h
  · cases h
  · next axis hax =>
    split at h
    · cases h
    · obtain ⟨ks, hks, h⟩ := Except.bind_ok h
      injection h with h; subst h
      refine ⟨rfl, rfl, rfl, ?_⟩
      rintro l φ θ x ⟨k, i, j, hv, hi, hj, hk⟩
      simp only [Option.bind_eq_some_iff] at hv hi hj hk
      obtain ⟨k', hk', hv⟩ := hv
      cases l with
      | none => exact hk.elim
      | some l =>
        refine ⟨k', i, j, hv, hi, hj, ?_⟩
        rw [hax]
        have hk : levels[k]? = some l := hk
        have : ∀ (ls : List ℚ) (ks : List ℕ), ls.mapM (fun l => selLabel axis l) = .ok ks →
            ∀ (k : ℕ) l (k' : ℕ), ls[k]? = some l → ks[k]? = some k' → axis[k']? = some l := by
          intro ls
          induction ls with
          | nil => intro ks h k l k' hl; simp at hl
          | cons a ls ih =>
            intro ks h k l k' hl hk'
            rw [List.mapM_cons] at h
            obtain ⟨b, hb, h⟩ := Except.bind_ok h
            obtain ⟨bs, hbs, h⟩ := Except.bind_ok h
            injection h with h; subst h
            cases k with
            | zero =>
              simp at hl hk'; subst hl hk'
              exact selLabel_spec hb
            | succ k => exact ih bs hbs k l k' (by simpa using hl) (by simpa using hk')
        exact this _ _ hks k l k' hk hk'

theorem prov_replace {d : InputData κ α} {P Q : String → Option ℚ → κ → κ → α → Prop} (hd : d.Prov P)
    {name : String} {f : DataField κ α} (hg : d.grid = some (f.latitude, f.longitude)) (hl : f.levels = none)
    (hf : ∀ l φ θ x, f.Has l φ θ x → Q name l φ θ x)
    (hPQ : ∀ n l φ θ x, n ≠ name → P n l φ θ x → Q n l φ θ x) : (d.replace name f).Prov Q := by
  intro n g hm
  simp only [InputData.replace, List.mem_map] at hm
  obtain ⟨⟨m, g0⟩, hm, he⟩ := hm
  by_cases hn : m = name
  · simp only [hn, if_true, Prod.mk.injEq] at he
    obtain ⟨rfl, rfl⟩ := he
    exact ⟨hg, (by rw [hl]; intro _ h; cases h), hf⟩
  · simp only [hn, if_false, Prod.mk.injEq] at he
    obtain ⟨rfl, rfl⟩ := he
    obtain ⟨h1, h2, h3⟩ := hd _ _ hm
    exact ⟨h1, h2, fun l φ θ x hx => hPQ _ _ _ _ _ hn (h3 _ _ _ _ hx)⟩

/-! ### CMIP files -/

/-- the numbers of a sample are in one of the files -/
def GoodSample (files : List (RawFile κ α)) (levels : Option (List ℚ)) (lat lon : List κ) (s : ℤ × (ℕ → ℕ → ℕ → Option α)) :
    Prop :=
  ∀ k i j v l φ θ, s.2 k i j = some v → lat[i]? = some φ → lon[j]? = some θ → LevelIs levels k l →
    ∃ file ∈ files, StoredAt file s.1 l φ θ v

theorem outerAxis_spec {ι : Type} [DecidableEq ι] {order : List ι → List ι} (ho : ∀ l x, x ∈ order l ↔ x ∈ l)
    {first : List ι} {others : List (List ι)} {axis : List ι} (h : outerAxis order first others = .ok axis)
    (x : ι) : x ∈ axis ↔ ∃ a ∈ first :: others, x ∈ a := by
  unfold outerAxis at h
  split at h
  · next hall =>
    injection h with h; subst h
    rw [List.all_eq_true] at hall
    constructor
    · intro hx; exact ⟨_, List.mem_cons_self, hx⟩
    · rintro ⟨a, ha, hx⟩
      rcases List.mem_cons.mp ha with rfl | ha
      · exact hx
      · have := of_decide_eq_true (hall a ha); subst this; exact hx
  · split at h
    · injection h with h; subst h
      rw [ho, List.mem_dedup, List.mem_flatten]
    · cases h

theorem fileSamples_good {files : List (RawFile κ α)} {levels : Option (List ℚ)} {lat lon : List κ}
    {file : RawFile κ α} (hm : file ∈ files) (hl : levels.isSome ↔ file.levelName.isSome)
    {r : List (ℤ × (ℕ → ℕ → ℕ → Option α))} (h : fileSamples levels lat lon file = .ok r) :
    (∀ s ∈ r, GoodSample files levels lat lon s) ∧ r.map Prod.fst = file.times := by
  unfold fileSamples at h
  obtain ⟨rows, hr, h⟩ := Except.bind_ok h
  obtain ⟨cols, hc, h⟩ := Except.bind_ok h
  obtain ⟨levs, hlv, h⟩ := Except.bind_ok h
  have h := Except.ok.inj h
  subst h
  constructor
  · intro s hs
    rw [List.mem_map] at hs
    obtain ⟨⟨t, n⟩, htn, rfl⟩ := hs
    have htn := List.mem_zipIdx_iff_getElem?.mp htn
    intro k i j v l φ θ hv hi hj hk
    simp only [Option.bind_eq_some_iff, Option.map_eq_some_iff] at hv
    obtain ⟨k', hk', i', hi', j', hj', rfl⟩ := hv
    refine ⟨file, hm, n, k', i', j', htn, alignAxis_spec hr hi' hi, alignAxis_spec hc hj' hj, ?_, rfl⟩
    cases hln : file.levelName with
    | none =>
      rw [hln] at hl
      have : levels = none := by cases levels <;> simp_all
      subst this
      rw [hln] at hlv
      simp only [alignLevels, Option.map_none] at hlv
      injection hlv with hlv; subst hlv
      injection hk' with hk'; subst hk'
      cases l with
      | none => exact ⟨rfl, hk⟩
      | some l => exact hk.elim
    | some nm =>
      rw [hln] at hl hlv
      obtain ⟨ls, rfl⟩ := Option.isSome_iff_exists.mp (hl.mpr rfl)
      simp only [alignLevels, Option.map_some] at hlv
      cases l with
      | none => exact hk.elim
      | some l => exact alignAxis_spec hlv hk' hk
  · rw [List.map_map]
    have : (Prod.fst ∘ fun x : ℤ × ℕ => ((x.1, fun k i j => (levs k).bind fun k => (rows i).bind fun i =>
        (cols j).map fun j => file.value x.2 k i j) : ℤ × (ℕ → ℕ → ℕ → Option α))) = Prod.fst := rfl
    exact (congrArg (fun g => List.map g file.times.zipIdx) this).trans (List.zipIdx_map_fst 0 file.times)

theorem mapM_parts {files all : List (RawFile κ α)} {levels : Option (List ℚ)} {lat lon : List κ}
    (hsub : ∀ f ∈ files, f ∈ all) (hl : ∀ f ∈ files, levels.isSome ↔ f.levelName.isSome)
    {parts : List (List (ℤ × (ℕ → ℕ → ℕ → Option α)))}
    (h : files.mapM (fun g => fileSamples levels lat lon g) = .ok parts) :
    (∀ r ∈ parts, (∀ s ∈ r, GoodSample all levels lat lon s) ∧ ∃ file ∈ files, r.map Prod.fst = file.times) := by
  induction files generalizing parts with
  | nil => injection h with h; subst h; intro r hr; cases hr
  | cons f fs ih =>
    rw [List.mapM_cons] at h
    obtain ⟨p, hp, h⟩ := Except.bind_ok h
    obtain ⟨ps, hps, h⟩ := Except.bind_ok h
    have h := Except.ok.inj h
    subst h
    intro r hr
    rcases List.mem_cons.mp hr with rfl | hr
    · obtain ⟨h1, h2⟩ := fileSamples_good (hsub f List.mem_cons_self) (hl f List.mem_cons_self) hp
      exact ⟨h1, f, List.mem_cons_self, h2⟩
    · obtain ⟨h1, file, hf, h2⟩ := ih (fun f hf => hsub f (List.mem_cons_of_mem _ hf))
        (fun f hf => hl f (List.mem_cons_of_mem _ hf)) hps r hr
      exact ⟨h1, file, List.mem_cons_of_mem _ hf, h2⟩

theorem openVar_spec {ord : Listing κ} {files : List (RawFile κ α)} {ln : Option String} {s : Stack κ α}
    (h : openVar ord files = .ok (ln, s)) :
    files ≠ [] ∧ (∀ x ∈ s.samples, GoodSample files s.levels s.latitude s.longitude x) ∧
      (∃ parts : List (List (ℤ × (ℕ → ℕ → ℕ → Option α))), s.samples = parts.flatten ∧
        ∀ r ∈ parts, ∃ file ∈ files, r.map Prod.fst = file.times) ∧
      (Listing.Fair ord →
        (∀ φ, φ ∈ s.latitude ↔ ∃ file ∈ files, φ ∈ file.latitude) ∧
        (∀ θ, θ ∈ s.longitude ↔ ∃ file ∈ files, θ ∈ file.longitude) ∧
        ∀ ls, s.levels = some ls → ∀ l, l ∈ ls ↔ ∃ file ∈ files, l ∈ file.levels) := by
  unfold openVar at h
  split at h
  · cases h
  · next f fs =>
    split at h
    · cases h
    · next hall =>
      have hall : ∀ g ∈ f :: fs, g.timeName = "time" ∧ g.levelName = f.levelName := by
        intro g hg
        simp at hall
        rcases List.mem_cons.mp hg with rfl | hg
        · exact ⟨hall.1, rfl⟩
        · exact hall.2 g hg
      obtain ⟨lat, hlat, h⟩ := Except.bind_ok h
      obtain ⟨lon, hlon, h⟩ := Except.bind_ok h
      obtain ⟨lev, hlev, h⟩ := Except.bind_ok h
      obtain ⟨parts, hparts, h⟩ := Except.bind_ok h
      have h := Except.ok.inj h
      injection h with h1 h2
      subst h1 h2
      have hlevs : lev.isSome ↔ f.levelName.isSome := by
        unfold outerLevels at hlev
        split at hlev
        · next hn => injection hlev with hlev; subst hlev; simp [hn]
        · next n hn =>
          cases ho : outerAxis ord.levels f.levels (fs.map fun g => g.levels) with
          | error e => rw [ho] at hlev; cases hlev
          | ok a => rw [ho] at hlev; injection hlev with hlev; subst hlev; simp [hn]
      have key := mapM_parts (all := f :: fs) (fun _ h => h)
        (fun g hg => by rw [hlevs, (hall g hg).2]) hparts
      refine ⟨List.cons_ne_nil _ _, ?_, ⟨parts, rfl, fun r hr => (key r hr).2⟩, ?_⟩
      · intro x hx
        obtain ⟨r, hr, hx⟩ := List.mem_flatten.mp hx
        exact (key r hr).1 x hx
      · intro hf
        have trans : ∀ {ι : Type} (ax : RawFile κ α → List ι) (x : ι),
            (∃ a ∈ ax f :: fs.map ax, x ∈ a) ↔ ∃ file ∈ f :: fs, x ∈ ax file := by
          intro ι ax x
          rw [← List.map_cons]
          simp only [List.mem_map]
          constructor
          · rintro ⟨_, ⟨g, hg, rfl⟩, hx⟩; exact ⟨g, hg, hx⟩
          · rintro ⟨g, hg, hx⟩; exact ⟨_, ⟨g, hg, rfl⟩, hx⟩
        refine ⟨fun φ => (outerAxis_spec hf.grid hlat φ).trans (trans _ φ),
          fun θ => (outerAxis_spec hf.grid hlon θ).trans (trans _ θ), ?_⟩
        intro ls hls l
        simp only at hls
        unfold outerLevels at hlev
        split at hlev
        · injection hlev with hlev; subst hlev; cases hls
        · cases ho : outerAxis ord.levels f.levels (fs.map fun g => g.levels) with
          | error e => rw [ho] at hlev; cases hlev
          | ok a =>
            rw [ho] at hlev
            injection hlev with hlev
            rw [← hlev] at hls
            injection hls with hls; subst hls
            exact (outerAxis_spec hf.levels ho l).trans (trans _ l)

/-- a list of pairs that are related -/
def Paired {β : Type} (R : β → β → Prop) : List β → Prop
  | [] => True
  | [_] => False
  | x :: y :: l => R x y ∧ Paired R l

theorem Paired.append {β : Type} {R : β → β → Prop} : ∀ {a b : List β}, Paired R a → Paired R b → Paired R (a ++ b)
  | [], _, _, hb => hb
  | [_], _, ha, _ => ha.elim
  | x :: y :: l, b, ha, hb => ⟨ha.1, Paired.append ha.2 hb⟩

theorem Paired.flatten {β : Type} {R : β → β → Prop} {ps : List (List β)} (h : ∀ p ∈ ps, Paired R p) :
    Paired R ps.flatten := by
  induction ps with
  | nil => exact trivial
  | cons p ps ih =>
    rw [List.flatten_cons]
    exact (h p List.mem_cons_self).append (ih fun q hq => h q (List.mem_cons_of_mem _ hq))

theorem Paired.of_consecutive {β : Type} {R : β → β → Prop} : ∀ (l : List β), Even l.length →
    (∀ (n : ℕ) a b, l[n]? = some a → l[n + 1]? = some b → R a b) → Paired R l
  | [], _, _ => trivial
  | [_], he, _ => by simp at he
  | x :: y :: l, he, h => by
    refine ⟨h 0 x y rfl rfl, Paired.of_consecutive l ?_ fun n a b ha hb => h (n + 2) a b (by simpa using ha) (by simpa using hb)⟩
    simp only [List.length_cons] at he
    rcases he with ⟨m, hm⟩
    exact ⟨m - 1, by omega⟩

theorem pairSamples_spec {G : ℤ × (ℕ → ℕ → ℕ → Option α) → Prop} :
    ∀ {l r : List (ℤ × (ℕ → ℕ → ℕ → Option α))}, (∀ x ∈ l, G x) → Paired (fun a b => b.1 = a.1 + minutes 180) l →
      pairSamples l = .ok r → ∀ z ∈ r, ∃ a b, G a ∧ G b ∧ a.1 = z.1 - minutes 270 ∧ b.1 = z.1 - minutes 90 ∧
        z.2 = sampleMean a.2 b.2
  | [], r, _, _, h => by injection h with h; subst h; intro z hz; cases hz
  | [_], r, _, hp, h => hp.elim
  | (t, x) :: (t', y) :: l, r, hG, hp, h => by
    unfold pairSamples at h
    obtain ⟨r', hr', h⟩ := Except.bind_ok h
    have h := Except.ok.inj h
    subst h
    intro z hz
    rcases List.mem_cons.mp hz with rfl | hz
    · refine ⟨(t, x), (t', y), hG _ List.mem_cons_self, hG _ (List.mem_cons_of_mem _ List.mem_cons_self), ?_, ?_, rfl⟩
      · simp [minutes]
      · have : t' = t + minutes 180 := hp.1
        simp only [this, minutes]; ring
    · exact pairSamples_spec (fun x hx => hG x (List.mem_cons_of_mem _ (List.mem_cons_of_mem _ hx))) hp.2 hr' z hz

theorem atTime_spec {s : Stack κ α} {t : ℤ} {f : DataField κ α} (h : s.atTime t = .ok f) :
    f.levels = s.levels ∧ f.latitude = s.latitude ∧ f.longitude = s.longitude ∧ (t, f.value) ∈ s.samples := by
  unfold Stack.atTime at h
  split at h
  · next x hx =>
    have hm : x ∈ s.samples.filter fun x => decide (x.1 = t) := by rw [hx]; exact List.mem_cons_self
    rw [List.mem_filter] at hm
    injection h with h; subst h
    refine ⟨rfl, rfl, rfl, ?_⟩
    have : x.1 = t := of_decide_eq_true hm.2
    rw [← this]; exact hm.1
  · cases h

/-- what `load_cmip_var` returns -/
theorem loadCmip_spec {cfg : InputConfig} {ord : Listing κ} {glob : List Char → List (RawFile κ α)}
    {name : String} {t : ℤ} {f : DataField κ α} (h : loadCmip cfg ord glob name t = .ok f) :
    ∃ var, wam2cmip.lookup name = some var ∧
      (var ∉ threeHourly → ∀ l φ θ x, f.Has l φ θ x → CmipStored cfg glob var t l φ θ x) ∧
      (var ∈ threeHourly → (∀ file, CmipFile cfg glob var file → ThreeHourlyFile file) →
        ∀ l φ θ x, f.Has l φ θ x → SixHourMean cfg glob var t l φ θ x) ∧
      (Listing.Fair ord → (∀ φ, φ ∈ f.latitude ↔ SomeFileHas cfg glob var RawFile.latitude φ) ∧
        (∀ θ, θ ∈ f.longitude ↔ SomeFileHas cfg glob var RawFile.longitude θ) ∧
        ∀ ls, f.levels = some ls → ∀ l, l ∈ ls ↔ SomeFileHas cfg glob var RawFile.levels l) := by
  unfold loadCmip at h
  split at h
  · cases h
  · next var hvar =>
    obtain ⟨path, hp, h⟩ := Except.bind_ok h
    obtain ⟨⟨ln, s⟩, hs, h⟩ := Except.bind_ok h
    simp only at h
    obtain ⟨d, hd, h⟩ := Except.bind_ok h
    unfold Stack.sixHourly at hd
    obtain ⟨f', hf, h⟩ := Except.bind_ok h
    obtain ⟨_, _, h⟩ := Except.bind_ok h
    have h := Except.ok.inj h
    subst h
    obtain ⟨hne, hgood, ⟨parts, hparts, hfile⟩, hax⟩ := openVar_spec hs
    obtain ⟨a1, a2, a3, a4⟩ := atTime_spec hf
    have hsame : d.levels = s.levels ∧ d.latitude = s.latitude ∧ d.longitude = s.longitude := by
      split at hd
      · unfold Stack.resample at hd
        split at hd
        · cases hd
        · split at hd
          · cases hd
          · obtain ⟨_, _, hd⟩ := Except.bind_ok hd
            have hd := Except.ok.inj hd
            subst hd; exact ⟨rfl, rfl, rfl⟩
      · have hd := Except.ok.inj hd
        subst hd; exact ⟨rfl, rfl, rfl⟩
    obtain ⟨e1, e2, e3⟩ := hsame
    refine ⟨var, hvar, ?_, ?_, ?_⟩
    · intro hn l φ θ x ⟨k, i, j, hv, hi, hj, hk⟩
      rw [if_neg hn] at hd
      have hd := Except.ok.inj hd
      subst hd
      rw [a1] at hk; rw [a2] at hi; rw [a3] at hj
      obtain ⟨file, hm, hst⟩ := hgood _ a4 k i j x l φ θ hv hi hj hk
      exact ⟨file, ⟨path, hp, hm⟩, hst⟩
    · intro hn h3 l φ θ x ⟨k, i, j, hv, hi, hj, hk⟩
      rw [if_pos hn] at hd
      rw [a1, e1] at hk; rw [a2, e2] at hi; rw [a3, e3] at hj
      have hpair : Paired (fun a b : ℤ × (ℕ → ℕ → ℕ → Option α) => b.1 = a.1 + minutes 180) s.samples := by
        rw [hparts]
        refine Paired.flatten fun r hr => ?_
        obtain ⟨file, hm, ht⟩ := hfile r hr
        obtain ⟨he, hc⟩ := h3 file ⟨path, hp, hm⟩
        refine Paired.of_consecutive r ?_ ?_
        · rw [← ht, List.length_map] at he; exact he
        · intro n a b ha hb
          refine hc n a.1 b.1 ?_ ?_ <;> rw [← ht, List.getElem?_map]
          · rw [ha]; rfl
          · rw [hb]; rfl
      have hmem : ∃ r, pairSamples s.samples = .ok r ∧ (t, f'.value) ∈ r := by
        unfold Stack.resample at hd
        split at hd
        · cases hd
        · split at hd
          · cases hd
          · obtain ⟨r, hr, hd⟩ := Except.bind_ok hd
            have hd := Except.ok.inj hd
            subst hd; exact ⟨r, hr, a4⟩
      obtain ⟨r, hr, hmem⟩ := hmem
      obtain ⟨a, b, ga, gb, ta, tb, hz⟩ := pairSamples_spec hgood hpair hr _ hmem
      simp only at ta tb hz
      rw [hz] at hv
      simp only [sampleMean, Option.bind_eq_some_iff, Option.map_eq_some_iff] at hv
      obtain ⟨xa, hxa, xb, hxb, rfl⟩ := hv
      obtain ⟨fa, ma, sa⟩ := ga k i j xa l φ θ hxa hi hj hk
      obtain ⟨fb, mb, sb⟩ := gb k i j xb l φ θ hxb hi hj hk
      rw [ta] at sa; rw [tb] at sb
      exact ⟨xa, xb, ⟨fa, ⟨path, hp, ma⟩, sa⟩, ⟨fb, ⟨path, hp, mb⟩, sb⟩, rfl⟩
    · intro hfair
      obtain ⟨b1, b2, b3⟩ := hax hfair
      have conv : ∀ {ι : Type} (ax : RawFile κ α → List ι) (x : ι),
          (∃ file ∈ glob path, x ∈ ax file) ↔ SomeFileHas cfg glob var ax x := by
        intro ι ax x
        constructor
        · rintro ⟨file, hm, hx⟩; exact ⟨file, ⟨path, hp, hm⟩, hx⟩
        · rintro ⟨file, ⟨path', hp', hm⟩, hx⟩
          rw [hp] at hp'
          injection hp' with hp'; subst hp'
          exact ⟨file, hm, hx⟩
      refine ⟨fun φ => ?_, fun θ => ?_, fun ls hls l => ?_⟩
      · rw [a2, e2, b1]; exact conv _ φ
      · rw [a3, e3, b2]; exact conv _ θ
      · rw [a1, e1] at hls; rw [b3 ls hls]; exact conv _ l

end Wam
