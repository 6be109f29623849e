import Verif.Lemmas.InputCmipOk
import Verif.Props.InputOk

/-!
# Complete input is accepted: C81, C82

Together with `C79_succeeds` this shows that the theorems about where the numbers come from are about data that exist.
-/

set_option linter.unusedSectionVars false
set_option linter.unusedVariables false

namespace Wam
open Spec

section
variable {κ α : Type} [DecidableEq κ] [Add α] [Sub α] [Mul α] [Div α] [NpOps α]

theorem complete_get {d : InputData κ α} {g : List κ × List κ} {ls : List ℚ} {names : List (String × Bool)}
    (hd : d.Complete g ls names) {n : String} (hn : names.lookup n = some false) :
    ∃ f, d.get n = .ok f ∧ f.Full ∧ f.latitude = g.1 ∧ f.longitude = g.2 ∧ f.levels = none := by
  have hlk : ∀ l : List (String × DataField κ α), (l.map fun v => (v.1, v.2.levels.isSome)).lookup n =
      (l.lookup n).map fun f => f.levels.isSome := by
    intro l
    induction l with
    | nil => rfl
    | cons a l ih =>
      obtain ⟨m, f⟩ := a
      simp only [List.map_cons, List.lookup_cons]
      split
      · rfl
      · exact ih
  have h0 := hlk d.vars
  rw [hd.names, hn] at h0
  obtain ⟨f, hf, hfl⟩ := Option.map_eq_some_iff.mp h0.symm
  obtain ⟨a1, a2, a3, a4⟩ := hd.vars _ (field_mem hf)
  exact ⟨f, by unfold InputData.get; rw [hf], a1, a2, a3, by simpa using hfl⟩

theorem complete_replace {d : InputData κ α} {g : List κ × List κ} {ls : List ℚ} {names : List (String × Bool)}
    (hd : d.Complete g ls names) {n : String} (hn : ∀ b, (n, b) ∈ names → b = false) {f : DataField κ α} (hf : f.Full)
    (h1 : f.latitude = g.1) (h2 : f.longitude = g.2) (h3 : f.levels = none) :
    (d.replace n f).Complete g ls names := by
  refine ⟨hd.grid, hd.levels, ?_, ?_⟩
  · rw [← hd.names]
    simp only [InputData.replace, List.map_map]
    apply List.map_congr_left
    rintro ⟨m, g0⟩ hm
    simp only [Function.comp]
    split
    · next he =>
      subst he
      have := hn g0.levels.isSome (by
        rw [← hd.names]
        exact List.mem_map.mpr ⟨_, hm, rfl⟩)
      rw [this, h3]; rfl
    · rfl
  · intro v hv
    simp only [InputData.replace, List.mem_map] at hv
    obtain ⟨⟨m, g0⟩, hm, rfl⟩ := hv
    split
    · exact ⟨hf, h1, h2, .inl h3⟩
    · exact hd.vars _ hm

end

section
variable {κ K : Type} [DecidableEq κ] [Field K] [LinearOrder K] [IsStrictOrderedRing K]

/-- **C81** Complete CMIP input is accepted, whatever the order in which the files are listed: if the files of every variable
exist, cover the grid of the humidity files and hold the time (the three-hourly ones the two samples of the six hours before,
starting at 01:30 with an even number per file), then loading succeeds. -/
theorem C81_succeeds {cfg : InputConfig} (hlt : cfg.levelType = .pressure_levels) {ord : Listing κ}
    (hfair : Listing.Fair ord) {glob : List Char → List (RawFile κ K)} {t : ℤ} {g : List κ × List κ}
    (h : CmipComplete cfg glob t g) :
    ∃ raw, getInputCmip cfg ord glob t = .ok raw ∧ (raw.latitude, raw.longitude) = g := by
  have hprof : ∀ name var, wam2cmip.lookup name = some var → var ∈ ["hus", "ua", "va"] → ∃ f : DataField κ K,
      loadCmip cfg ord glob name t = .ok f ∧ f.Full ∧ f.Covers g ∧ ∃ ls : List ℚ, ls.Nodup ∧ f.levels = some ls := by
    intro name var hv hmem
    obtain ⟨files, axes, h1, h2, ls, h3, nm, h4, h5⟩ := h.profile var hmem
    obtain ⟨f, a1, a2, a3, a4, -, -⟩ := loadCmip_ok (κ := κ) (α := K) ord hv h1 (ln := some nm) (ls := ls)
      (fun f hf => ⟨(h5 f hf).1, fun _ => (h5 f hf).2⟩) (.inr ⟨nm, h4, rfl⟩)
      (.inl ⟨by simp at hmem; rcases hmem with rfl | rfl | rfl <;> decide, h2⟩)
    exact ⟨f, a1, a2, a3, ls, h3, a4⟩
  have hsurf : ∀ name var, wam2cmip.lookup name = some var → var ∈ ["ps", "huss", "uas", "vas"] → ∃ f : DataField κ K,
      loadCmip cfg ord glob name t = .ok f ∧ f.Full ∧ f.Covers g ∧ f.levels = none := by
    intro name var hv hmem
    obtain ⟨files, axes, h1, h2, h3⟩ := h.surface var hmem
    obtain ⟨f, a1, a2, a3, a4, -, -⟩ := loadCmip_ok (κ := κ) (α := K) ord hv h1 (ln := none) (ls := [])
      (fun f hf => ⟨h3 f hf, fun hn => by cases hn⟩) (.inl rfl)
      (.inl ⟨by simp at hmem; rcases hmem with rfl | rfl | rfl | rfl <;> decide, h2⟩)
    exact ⟨f, a1, a2, a3, a4⟩
  have hflux : ∀ name var, wam2cmip.lookup name = some var → var ∈ ["pr", "hfls"] → ∃ f : DataField κ K,
      loadCmip cfg ord glob name t = .ok f ∧ f.Full ∧ f.Covers g ∧ f.levels = none := by
    intro name var hv hmem
    obtain ⟨files, axes, h1, h2, h3, h4⟩ := h.fluxes var hmem
    obtain ⟨f, a1, a2, a3, a4, -, -⟩ := loadCmip_ok (κ := κ) (α := K) ord hv h1 (ln := none) (ls := [])
      (fun f hf => ⟨h3 f hf, fun hn => by cases hn⟩) (.inl rfl)
      (.inr ⟨by simp at hmem; rcases hmem with rfl | rfl <;> decide, h.sixHourly, h2, h4⟩)
    exact ⟨f, a1, a2, a3, a4⟩
  -- the grid is that of the humidity files
  obtain ⟨q, hq, fq, cq, lq, nlq, elq⟩ := hprof "q" "hus" (by decide) (by simp)
  obtain ⟨u, hu, fu, cu, lu, nlu, elu⟩ := hprof "u" "ua" (by decide) (by simp)
  obtain ⟨v, hv, fv, cv, lv, nlv, elv⟩ := hprof "v" "va" (by decide) (by simp)
  have hqg : (q.latitude, q.longitude) = g := by
    obtain ⟨files, hax⟩ := h.grid
    obtain ⟨files', axes, h1, h2, ls, h3, nm, h4, h5⟩ := h.profile "hus" (by simp)
    obtain ⟨p, hp, hg⟩ := hax.path
    obtain ⟨p', hp', hg'⟩ := h1.path
    rw [hp] at hp'; injection hp' with hp'; subst hp'
    rw [hg] at hg'; subst hg'
    have hfair' := hfair
    obtain ⟨f, a1, a2, a3, a4, a5, a6⟩ := loadCmip_ok (κ := κ) (α := K) ord (name := "q") (by decide) hax (ln := some nm) (ls := ls)
      (t := t) (fun f hf => ⟨(h5 f hf).1, fun _ => (h5 f hf).2⟩) (.inr ⟨nm, h4, rfl⟩) (.inl ⟨by decide, h2⟩)
    rw [hq] at a1
    injection a1 with a1
    subst a1
    rw [a5, a6]
  have n1 : g.1.Nodup := by rw [← hqg]; exact fq.lat
  have n2 : g.2.Nodup := by rw [← hqg]; exact fq.lon
  obtain ⟨k1, k2⟩ := C70_common_levels ord.levels hfair.levels hfair.levelsNodup lq [lu, lv]
  generalize hls : commonLevels ord.levels lq [lu, lv] = ls at k1 k2
  have hcount : ∀ axis : List ℚ, axis.Nodup → (∀ l ∈ ls, l ∈ axis) → ∀ l ∈ ls, axis.count l = 1 :=
    fun axis ha hm l hl => List.count_eq_one_of_mem ha (hm l hl)
  obtain ⟨q', q1, q2, q3, q4, q5⟩ := selLevels_full fq elq (n := some "level") rfl (levels := ls)
    (hcount lq nlq fun l hl => ((k1 l).mp hl).1)
  obtain ⟨u', u1, u2, u3, u4, u5⟩ := selLevels_full fu elu (n := some "level") rfl (levels := ls)
    (hcount lu nlu fun l hl => ((k1 l).mp hl).2 lu (by simp))
  obtain ⟨v', v1, v2, v3, v4, v5⟩ := selLevels_full fv elv (n := some "level") rfl (levels := ls)
    (hcount lv nlv fun l hl => ((k1 l).mp hl).2 lv (by simp))
  obtain ⟨d1, h1, c1⟩ := assign_first q2 q3 "q"
  rw [q4, q5, hqg] at c1
  obtain ⟨d2, h2, c2⟩ := assign_next c1 n1 n2 u2 ⟨by rw [u4]; exact cu.1, by rw [u5]; exact cu.2⟩ (.inr u3) "u"
  obtain ⟨d3, h3, c3⟩ := assign_next c2 n1 n2 v2 ⟨by rw [v4]; exact cv.1, by rw [v5]; exact cv.2⟩ (.inr v3) "v"
  have hL : cmipLevels cfg ord glob t = .ok d3 := by
    unfold cmipLevels DataField.levelCoord
    simp only [hq, hu, hv, elq, elu, elv, hls, q1, u1, v1, h1, h2, h3, bind, Except.bind]
  obtain ⟨x1, y1, f1, w1, l1⟩ := hsurf "ps" "ps" (by decide) (by simp)
  obtain ⟨x2, y2, f2, w2, l2⟩ := hsurf "qs" "huss" (by decide) (by simp)
  obtain ⟨x3, y3, f3, w3, l3⟩ := hsurf "us" "uas" (by decide) (by simp)
  obtain ⟨x4, y4, f4, w4, l4⟩ := hsurf "vs" "vas" (by decide) (by simp)
  obtain ⟨x5, y5, f5, w5, l5⟩ := hflux "tp" "pr" (by decide) (by simp)
  obtain ⟨x6, y6, f6, w6, l6⟩ := hflux "e" "hfls" (by decide) (by simp)
  obtain ⟨d4, h4, c4⟩ := assign_next c3 n1 n2 f1 w1 (.inl l1) "ps"
  obtain ⟨d5, h5, c5⟩ := assign_next c4 n1 n2 f2 w2 (.inl l2) "qs"
  obtain ⟨d6, h6, c6⟩ := assign_next c5 n1 n2 f3 w3 (.inl l3) "us"
  obtain ⟨d7, h7, c7⟩ := assign_next c6 n1 n2 f4 w4 (.inl l4) "vs"
  obtain ⟨d8, h8, c8⟩ := assign_next c7 n1 n2 f5 w5 (.inl l5) "precip"
  obtain ⟨d9, h9, c9⟩ := assign_next c8 n1 n2 f6 w6 (.inl l6) "evap"
  have hS : cmipSurface cfg ord glob t d3 = .ok d9 := by
    unfold cmipSurface
    simp only [y1, y2, y3, y4, y5, y6, h4, h5, h6, h7, h8, h9, bind, Except.bind]
  simp only [u3, v3, l1, l2, l3, l4, l5, l6, Option.isSome_some, Option.isSome_none, List.cons_append, List.nil_append] at c9
  obtain ⟨pr, p1, p2, p3, p4, p5⟩ := complete_get c9 (n := "precip") rfl
  obtain ⟨ev, e1, e2, e3, e4, e5⟩ := complete_get c9 (n := "evap") rfl
  obtain ⟨z, z1, z2, z3, z4⟩ := zip_full (op := fun p e => (precipEvapCmip p e).1) p2 e2 p5 e5 (grid := g)
    ⟨by rw [p3]; exact fun _ h => h, by rw [p4]; exact fun _ h => h⟩
    ⟨by rw [e3]; exact fun _ h => h, by rw [e4]; exact fun _ h => h⟩
  obtain ⟨z5, z6⟩ := zip_axes z1 (by rw [p3, e3]) (by rw [p4, e4])
  have r1 := complete_replace c9 (n := "precip") (by intro b hb; simpa using hb) z2 (by rw [z5, p3]) (by rw [z6, p4]) z3
  have r2 := complete_replace r1 (n := "evap") (f := ev.map fun e => (precipEvapCmip (ofRat 0) e).2)
    (by intro b hb; simpa using hb) (map_full e2) e3 e4 e5
  have hF : cmipFluxes d9 = .ok ((d9.replace "precip" z).replace "evap" (ev.map fun e => (precipEvapCmip (ofRat 0) e).2)) := by
    unfold cmipFluxes
    simp only [p1, e1, z1, bind, Except.bind, pure, Except.pure]
  obtain ⟨raw, hr⟩ := validated_ok (fun _ => rfl) r2 .pressure_levels rfl rfl rfl rfl rfl rfl (fun _ => ⟨rfl, rfl, rfl⟩)
    (fun h => by cases h)
  refine ⟨raw, ?_, ?_⟩
  swap
  · have hr' := hr
    unfold validated at hr'
    split at hr'
    · injection hr' with hr'
      rw [← hr']
      simp only [InputData.toRaw, r2.grid, Option.getD_some]
    · cases hr'
  unfold getInputCmip cmipInput
  simp only [hlt, ne_eq, not_true_eq_false, if_false, hL, hS, hF, bind, Except.bind]
  exact hr

/-- **C82** ARCO-ERA5: pressure levels, the proleptic Gregorian calendar, and levels and a valid time that the store has
exactly once are accepted. -/
theorem C82_succeeds [NpExp K] {cfg : InputConfig} (hlt : cfg.levelType = .pressure_levels)
    (hcal : cfg.calendar = .prolepticGregorian) {levels : List ℤ} (hL : cfg.levels = .list levels)
    {s : ArcoStore κ K} {t : ℤ} (h : ArcoComplete s t levels) : ∃ raw, getInputArco cfg s t = .ok raw := by
  obtain ⟨n, hn, -⟩ := selLabel_ok h.once
  have hpos : s.position t = .ok n := by
    unfold ArcoStore.position
    rw [if_neg (by push Not; exact h.valid), hn]
  have fs : ∀ var, (s.surface n var).Full := fun var => ⟨h.lat, h.lon, fun _ _ _ _ _ _ => rfl⟩
  have fp : ∀ var, (s.profile n var).Full := fun var => ⟨h.lat, h.lon, fun _ _ _ _ _ _ => rfl⟩
  have sel : ∀ var, ∃ f, (s.profile n var).selLevels (some "level") (levelLabels levels) = .ok f ∧ f.Full ∧
      f.levels = some (levelLabels levels) ∧ f.latitude = s.latitude ∧ f.longitude = s.longitude := by
    intro var
    apply selLevels_full (fp var) (axis := s.levels) rfl rfl
    intro l hl
    simp only [levelLabels, List.mem_map] at hl
    obtain ⟨m, hm, rfl⟩ := hl
    exact h.levels m hm
  have cs : ∀ var, (s.surface n var).Covers (s.latitude, s.longitude) := fun var => ⟨fun _ h => h, fun _ h => h⟩
  obtain ⟨u, u1, u2, u3, u4, u5⟩ := sel "u_component_of_wind"
  obtain ⟨v, v1, v2, v3, v4, v5⟩ := sel "v_component_of_wind"
  obtain ⟨q, q1, q2, q3, q4, q5⟩ := sel "specific_humidity"
  obtain ⟨d1, h1, c1⟩ := assign_first u2 u3 "u"
  rw [u4, u5] at c1
  obtain ⟨d2, h2, c2⟩ := assign_next c1 h.lat h.lon v2 ⟨by rw [v4]; exact fun _ h => h, by rw [v5]; exact fun _ h => h⟩ (.inr v3) "v"
  obtain ⟨d3, h3, c3⟩ := assign_next c2 h.lat h.lon q2 ⟨by rw [q4]; exact fun _ h => h, by rw [q5]; exact fun _ h => h⟩ (.inr q3) "q"
  obtain ⟨d4, h4, c4⟩ := assign_next c3 h.lat h.lon (fs "10m_u_component_of_wind") (cs _) (.inl rfl) "us"
  obtain ⟨d5, h5, c5⟩ := assign_next c4 h.lat h.lon (fs "10m_v_component_of_wind") (cs _) (.inl rfl) "vs"
  obtain ⟨d6, h6, c6⟩ := assign_next c5 h.lat h.lon (fs "surface_pressure") (cs _) (.inl rfl) "ps"
  obtain ⟨d7, h7, c7⟩ := assign_next c6 h.lat h.lon (fs "total_column_water") (cs _) (.inl rfl) "tcw"
  obtain ⟨x8, y8, f8, l8, w8⟩ := zip_full (op := calculateHumidity) (fs "2m_dewpoint_temperature") (fs "surface_pressure") rfl rfl
    (cs _) (cs _)
  obtain ⟨d8, h8, c8⟩ := assign_next c7 h.lat h.lon f8 w8 (.inl l8) "qs"
  obtain ⟨x9, y9, f9, l9, w9⟩ := zip_full (op := fun tp e => (precipEvapEra5 tp e (ofRat cfg.nseconds : K)).1)
    (fs "total_precipitation") (fs "evaporation") rfl rfl (cs _) (cs _)
  obtain ⟨d9, h9, c9⟩ := assign_next c8 h.lat h.lon f9 w9 (.inl l9) "precip"
  obtain ⟨d10, h10, c10⟩ := assign_next c9 h.lat h.lon
    (map_full (op := fun e => (precipEvapEra5 (ofRat 0) e (ofRat cfg.nseconds : K)).2) (fs "evaporation"))
    (cs "evaporation") (.inl rfl) "evap"
  have hv : arcoVars cfg s n (levelLabels levels) = .ok d10 := by
    unfold arcoVars
    simp only [u1, v1, q1, h1, h2, h3, h4, h5, h6, h7, y8, h8, y9, h9, h10, bind, Except.bind]
  have e8 : x8.levels.isSome = false := by rw [l8]; rfl
  have e9 : x9.levels.isSome = false := by rw [l9]; rfl
  rw [e8, e9, q3, v3] at c10
  obtain ⟨raw, hr⟩ := validated_ok (fun _ => rfl) c10 .pressure_levels rfl rfl rfl rfl rfl rfl
    (fun _ => ⟨rfl, rfl, rfl⟩) (fun h => by cases h)
  have hr' : ∃ raw, validated .pressure_levels d10.toPascal = .ok raw := by
    unfold validated at hr ⊢
    rw [toPascal_toXDataset]
    split at hr
    · exact ⟨_, rfl⟩
    · cases hr
  obtain ⟨raw', hr'⟩ := hr'
  refine ⟨raw', ?_⟩
  unfold getInputArco arcoInput
  simp only [hlt, hcal, hL, hpos, hv, ne_eq, not_true_eq_false, if_false, bind, Except.bind, pure, Except.pure]
  exact hr'

end

section
variable {κ α : Type} [DecidableEq κ] [Add α] [Sub α] [Mul α] [Div α] [NpOps α]

theorem repeated_length (l : List ℤ) : (l.flatMap fun t => [t, t]).length = 2 * l.length := by
  induction l with
  | nil => rfl
  | cons a l ih => simp [List.flatMap_cons, ih]; omega

theorem everySecond_repeated (l : List ℤ) : everySecond (l.flatMap fun t => [t, t]) = l := by
  induction l with
  | nil => rfl
  | cons a l ih => simp only [List.flatMap_cons, List.cons_append, List.nil_append, everySecond, ih]

theorem pairSamples_cell (k i j : ℕ) : ∀ (l : List (ℤ × (ℕ → ℕ → ℕ → Option α))) (vals : List α),
    l.map (fun x => x.2 k i j) = vals.map some →
    (if 2 * (everySecond (l.map Prod.fst)).length ≠ l.length then .error .valueError else
      .ok ((((everySecond (l.map Prod.fst)).map fun t => t + (4 * 60 + 30) * 60 * 1000000).zip (pairMeans vals)).map
        fun x => (x.1, some x.2)) : Except Err (List (ℤ × Option α))) =
      (pairSamples l).map fun r => r.map fun x => (x.1, x.2 k i j)
  | [], vals, h => by
    cases vals with
    | nil => rfl
    | cons a l => cases h
  | [x], vals, h => by simp [everySecond, pairSamples, Except.map]
  | x :: y :: l, vals, h => by
    match vals, h with
    | a :: b :: vals, h =>
      simp only [List.map_cons, List.cons.injEq] at h
      obtain ⟨h1, h2, h3⟩ := h
      have ih := pairSamples_cell k i j l vals h3
      obtain ⟨tx, x⟩ := x
      obtain ⟨ty, y⟩ := y
      simp only at h1 h2
      simp only [List.map_cons, everySecond, List.length_cons, pairMeans, pairSamples, List.zip_cons_cons]
      have e : (2 * ((everySecond (l.map Prod.fst)).length + 1) ≠ l.length + 1 + 1) ↔
          (2 * (everySecond (l.map Prod.fst)).length ≠ l.length) := by omega
      simp only [e]
      cases hp : pairSamples l with
      | error er =>
        rw [hp] at ih
        simp only [Except.map] at ih
        split at ih
        · next hc =>
          rw [if_pos hc]
          simp only [bind, Except.bind, Except.map]
          exact ih
        · cases ih
      | ok r =>
        rw [hp] at ih
        simp only [Except.map] at ih
        split at ih
        · cases ih
        · next hc =>
          rw [if_neg hc]
          have ih := Except.ok.inj ih
          simp only [bind, Except.bind, pure, Except.pure, Except.map, List.map_cons, sampleMean, h1, h2,
            Option.bind_some, Option.map_some, ih]
    | [], h => cases h
    | [_], h => simp at h

/-- **C81** What is done to whole files is, in each grid cell, the resampling that C70 describes. -/
theorem C81_resamples_each_cell (c : Calendar) (s : Stack κ α) (k i j : ℕ) (vals : List α)
    (h : s.samples.map (fun x => x.2 k i j) = vals.map some) :
    (resample3hr c (s.samples.map Prod.fst) vals).map (fun r => r.map fun x => (x.1, some x.2)) =
      (s.resample c).map fun s' => s'.samples.map fun x => (x.1, x.2 k i j) := by
  unfold resample3hr Stack.resample
  have key := pairSamples_cell k i j s.samples vals h
  cases hs : s.samples with
  | nil => rfl
  | cons x l =>
    obtain ⟨t0, x⟩ := x
    rw [hs] at key
    simp only [List.map_cons] at key ⊢
    split
    · rfl
    · simp only [repeated_length, everySecond_repeated, List.length_map]
      have e : ((t0, x) :: l).length = (t0 :: l.map Prod.fst).length := by simp
      rw [e] at key
      cases hp : pairSamples ((t0, x) :: l) with
      | error er =>
        rw [hp] at key
        simp only [Except.map] at key
        split at key
        · next hc =>
          rw [if_pos hc]
          simp only [bind, Except.bind, Except.map]
          exact key
        · cases key
      | ok r =>
        rw [hp] at key
        simp only [Except.map] at key
        split at key
        · cases key
        · next hc =>
          rw [if_neg hc]
          simp only [bind, Except.bind, Except.map, pure, Except.pure]
          exact key

end

namespace CmipDemo

local instance : NpExp ℚ := ⟨fun x => x⟩

def hour : ℤ := 3600000000

def demoCfg : InputConfig :=
  { calendar := .noleap, template := "cmip/{variable}_*.nc".toList, levelType := .pressure_levels, levels := .all
    nseconds := 21600 }

/-- a file whose numbers tell their place: the time in hours, the level, the latitude and the longitude -/
def file (level : Option String) (times : List ℤ) (levels lat lon : List ℚ) : RawFile ℚ ℚ :=
  { timeName := "time", levelName := level, times := times, levels := levels, latitude := lat, longitude := lon
    value := fun n k i j => (times.getD n 0 : ℚ) / 3600000000 + 1000 * levels.getD k 0 + 1000000000 * lat.getD i 0 +
      10000000000000 * lon.getD j 0 }

/-- six-hourly samples of day `d` -/
def sixHours (d : ℤ) : List ℤ := (List.range 4).map fun n : ℕ => (24 * d + 6 * n) * hour

/-- three-hourly samples of day `d`, from 01:30 -/
def threeHours (d : ℤ) : List ℤ := (List.range 8).map fun n : ℕ => (24 * d + 3 * n) * hour + hour + hour / 2

/-- the files of two days; each variable has its own order of the axes; `rev`: the later file comes first -/
def demoGlob (rev : Bool) (path : List Char) : List (RawFile ℚ ℚ) :=
  let both (f : ℤ → RawFile ℚ ℚ) : List (RawFile ℚ ℚ) := if rev then [f 1, f 0] else [f 0, f 1]
  if path = "cmip/hus_*.nc".toList then both fun d => file (some "plev") (sixHours d) [85000, 50000, 10000] [51, 50] [4, 5]
  else if path = "cmip/ua_*.nc".toList then both fun d => file (some "plev") (sixHours d) [50000, 85000] [50, 51] [5, 4]
  else if path = "cmip/va_*.nc".toList then both fun d => file (some "plev") (sixHours d) [50000, 85000, 100000] [50, 51] [4, 5]
  else if path ∈ ["cmip/pr_*.nc".toList, "cmip/hfls_*.nc".toList] then both fun d => file none (threeHours d) [] [50, 51, 52] [5, 4]
  else if path ∈ ["cmip/ps_*.nc".toList, "cmip/huss_*.nc".toList, "cmip/uas_*.nc".toList, "cmip/vas_*.nc".toList] then
    both fun d => file none (sixHours d) [] [50, 51] [5, 4]
  else []

/-- labels in the order of the list -/
def plain : Listing ℚ := ⟨id, id⟩

/-- labels in the opposite order -/
def flipped : Listing ℚ := ⟨List.reverse, List.reverse⟩

theorem plain_fair : Listing.Fair plain := ⟨fun _ _ => Iff.rfl, fun _ _ => Iff.rfl, fun _ h => h⟩

theorem flipped_fair : Listing.Fair flipped :=
  ⟨fun _ _ => List.mem_reverse, fun _ _ => List.mem_reverse, fun _ h => List.nodup_reverse.mpr h⟩

/-- what is read for latitude 50, longitude 5 at 06:00 of the second day, with the files and the labels in two orders:
the levels come in another order, everything else is equal.  Precipitation is the mean of 25:30 and 28:30. -/
example : (getInputCmip demoCfg plain (demoGlob false) (30 * hour)).toOption.map (fun r =>
    ([r.latitude, r.longitude, (r.column 1 1).p, (r.column 1 1).q, (r.column 1 1).u, (r.column 1 1).v],
      (r.surface 1 1).ps)) =
    some ([[51, 50], [4, 5], [85000, 50000], [50050085000030, 50050050000030], [50050085000030, 50050050000030],
      [50050085000030, 50050050000030]], 50050000000030) := by
  decide +kernel

example : (getInputCmip demoCfg flipped (demoGlob true) (30 * hour)).toOption.map (fun r =>
    ([r.latitude, r.longitude, (r.column 1 1).p, (r.column 1 1).q, (r.column 1 1).u, (r.column 1 1).v],
      (r.surface 1 1).ps)) =
    some ([[51, 50], [4, 5], [50000, 85000], [50050050000030, 50050085000030], [50050050000030, 50050085000030],
      [50050050000030, 50050085000030]], 50050000000030) := by
  decide +kernel

example : (loadCmip demoCfg plain (demoGlob false) "tp" (30 * hour)).toOption.map (fun f => f.value 0 0 0) =
    some (some (50050000000000 + 27)) := by
  decide +kernel

example : (loadCmip demoCfg plain (demoGlob true) "tp" (30 * hour)).toOption.map (fun f => f.value 0 0 0) =
    some (some (50050000000000 + 27)) := by
  decide +kernel

theorem demo_axes (rev : Bool) (var : String) (level : Option String) (times : ℤ → List ℤ) (levels : List ℚ)
    (g axes : List ℚ × List ℚ) (path : List Char) (h0 : formatCmip demoCfg.template var.toList = .ok path)
    (h : demoGlob rev path = if rev then [file level (times 1) levels axes.1 axes.2, file level (times 0) levels axes.1 axes.2]
      else [file level (times 0) levels axes.1 axes.2, file level (times 1) levels axes.1 axes.2])
    (n1 : axes.1.Nodup) (n2 : axes.2.Nodup) (c1 : ∀ x ∈ g.1, x ∈ axes.1) (c2 : ∀ x ∈ g.2, x ∈ axes.2) :
    CmipAxes demoCfg (demoGlob rev) var (demoGlob rev path) g axes := by
  have hall : ∀ f ∈ demoGlob rev path, f.timeName = "time" ∧ f.latitude = axes.1 ∧ f.longitude = axes.2 := by
    intro f hf
    rw [h] at hf
    cases rev <;>
    · simp only [Bool.false_eq_true, if_false, if_true, List.mem_cons, List.not_mem_nil, or_false] at hf
      rcases hf with rfl | rfl <;> exact ⟨rfl, rfl, rfl⟩
  refine ⟨⟨path, h0, rfl⟩, ?_, fun f hf => (hall f hf).1, ⟨n1, c1, fun f hf => (hall f hf).2.1⟩,
    ⟨n2, c2, fun f hf => (hall f hf).2.2⟩⟩
  rw [h]
  cases rev <;> simp

theorem demo_three (d : ℤ) (levels lat lon : List ℚ) (level : Option String) :
    ThreeHourlyFile (file level (threeHours d) levels lat lon) ∧ ∃ t0,
      (file level (threeHours d) levels lat lon).times.head? = some t0 ∧ t0 % minutes 1440 = minutes 90 := by
  refine ⟨⟨⟨4, by simp [file, threeHours]⟩, ?_⟩, 24 * d * hour + hour + hour / 2, ?_, ?_⟩
  · intro n a b ha hb
    simp only [file, threeHours, List.getElem?_map, Option.map_eq_some_iff] at ha hb
    obtain ⟨m, hm, rfl⟩ := ha
    obtain ⟨m', hm', rfl⟩ := hb
    rw [List.getElem?_eq_some_iff] at hm hm'
    obtain ⟨x1, x2⟩ := hm
    obtain ⟨y1, y2⟩ := hm'
    rw [List.getElem_range] at x2 y2
    subst x2 y2
    simp only [hour, minutes]
    push_cast
    ring
  · simp [file, threeHours, List.range_succ]
  · simp only [hour, minutes]
    omega

/-- the files of the example are complete in both orders -/
theorem demo_complete (rev : Bool) : CmipComplete demoCfg (demoGlob rev) (30 * hour) ([51, 50], [4, 5]) := by
  refine ⟨by decide +kernel, ?_, ?_, ?_, ?_⟩
  · exact ⟨_, demo_axes rev "hus" (some "plev") sixHours [85000, 50000, 10000] _ _ "cmip/hus_*.nc".toList
      (by decide +kernel) rfl (by decide +kernel) (by decide +kernel) (fun _ h => h) (fun _ h => h)⟩
  · intro var hvar
    simp only [List.mem_cons, List.not_mem_nil, or_false] at hvar
    rcases hvar with rfl | rfl | rfl
    · refine ⟨_, ([51, 50], [4, 5]), demo_axes rev "hus" (some "plev") sixHours [85000, 50000, 10000] _ _
        "cmip/hus_*.nc".toList (by decide +kernel) rfl (by decide +kernel) (by decide +kernel) (by decide +kernel)
        (by decide +kernel), by unfold OneSample; cases rev <;> decide +kernel, [85000, 50000, 10000], by decide +kernel, "plev", by simp, ?_⟩
      cases rev <;> decide +kernel
    · refine ⟨_, ([50, 51], [5, 4]), demo_axes rev "ua" (some "plev") sixHours [50000, 85000] _ _
        "cmip/ua_*.nc".toList (by decide +kernel) rfl (by decide +kernel) (by decide +kernel) (by decide +kernel)
        (by decide +kernel), by unfold OneSample; cases rev <;> decide +kernel, [50000, 85000], by decide +kernel, "plev", by simp, ?_⟩
      cases rev <;> decide +kernel
    · refine ⟨_, ([50, 51], [4, 5]), demo_axes rev "va" (some "plev") sixHours [50000, 85000, 100000] _ _
        "cmip/va_*.nc".toList (by decide +kernel) rfl (by decide +kernel) (by decide +kernel) (by decide +kernel)
        (by decide +kernel), by unfold OneSample; cases rev <;> decide +kernel, [50000, 85000, 100000], by decide +kernel, "plev", by simp, ?_⟩
      cases rev <;> decide +kernel
  · intro var hvar
    have surf : ∀ path, formatCmip demoCfg.template var.toList = .ok path →
        demoGlob rev path = (if rev then [file none (sixHours 1) [] [50, 51] [5, 4], file none (sixHours 0) [] [50, 51] [5, 4]]
          else [file none (sixHours 0) [] [50, 51] [5, 4], file none (sixHours 1) [] [50, 51] [5, 4]]) →
        ∃ files axes, CmipAxes demoCfg (demoGlob rev) var files ([51, 50], [4, 5]) axes ∧
          OneSample files (30 * hour) ∧ ∀ f ∈ files, f.levelName = none := by
      intro path h1 h2
      refine ⟨_, ([50, 51], [5, 4]), demo_axes rev var none sixHours [] _ _ path h1 h2 (by decide +kernel)
        (by decide +kernel) (by decide +kernel) (by decide +kernel), ?_, ?_⟩
      · rw [h2]; unfold OneSample; cases rev <;> decide +kernel
      · rw [h2]; cases rev <;> decide +kernel
    simp only [List.mem_cons, List.not_mem_nil, or_false] at hvar
    rcases hvar with rfl | rfl | rfl | rfl
    · exact surf "cmip/ps_*.nc".toList (by decide +kernel) rfl
    · exact surf "cmip/huss_*.nc".toList (by decide +kernel) rfl
    · exact surf "cmip/uas_*.nc".toList (by decide +kernel) rfl
    · exact surf "cmip/vas_*.nc".toList (by decide +kernel) rfl
  · intro var hvar
    have flux : ∀ path, formatCmip demoCfg.template var.toList = .ok path →
        demoGlob rev path = (if rev then [file none (threeHours 1) [] [50, 51, 52] [5, 4], file none (threeHours 0) [] [50, 51, 52] [5, 4]]
          else [file none (threeHours 0) [] [50, 51, 52] [5, 4], file none (threeHours 1) [] [50, 51, 52] [5, 4]]) →
        ∃ files axes, CmipAxes demoCfg (demoGlob rev) var files ([51, 50], [4, 5]) axes ∧
          OneSample files (30 * hour - minutes 270) ∧ (∀ f ∈ files, f.levelName = none) ∧
          ∀ f ∈ files, ThreeHourlyFile f ∧ ∃ t0, f.times.head? = some t0 ∧ t0 % minutes 1440 = minutes 90 := by
      intro path h1 h2
      refine ⟨_, ([50, 51, 52], [5, 4]), demo_axes rev var none threeHours [] _ _ path h1 h2 (by decide +kernel)
        (by decide +kernel) (by decide +kernel) (by decide +kernel), ?_, ?_, ?_⟩
      · rw [h2]; unfold OneSample; cases rev <;> decide +kernel
      · rw [h2]; cases rev <;> decide +kernel
      · rw [h2]
        intro f hf
        cases rev <;>
        · simp only [Bool.false_eq_true, if_false, if_true, List.mem_cons, List.not_mem_nil, or_false] at hf
          rcases hf with rfl | rfl <;> exact demo_three _ _ _ _ _
    simp only [List.mem_cons, List.not_mem_nil, or_false] at hvar
    rcases hvar with rfl | rfl
    · exact flux "cmip/pr_*.nc".toList (by decide +kernel) rfl
    · exact flux "cmip/hfls_*.nc".toList (by decide +kernel) rfl

example (rev : Bool) : ∃ raw, getInputCmip demoCfg flipped (demoGlob rev) (30 * hour) = .ok raw ∧
    (raw.latitude, raw.longitude) = ([51, 50], [4, 5]) :=
  C81_succeeds rfl flipped_fair (demo_complete rev)

/-- the hypothesis of `C81_every_number_from_its_place` on the three-hourly files is met, too -/
example (rev : Bool) : ∀ f, CmipFile demoCfg (demoGlob rev) "pr" f → ThreeHourlyFile f := by
  rintro f ⟨path, hp, hf⟩
  obtain ⟨files, axes, h1, -, -, h2⟩ := (demo_complete rev).fluxes "pr" (by simp)
  obtain ⟨path', hp', hg⟩ := h1.path
  rw [hp] at hp'
  injection hp' with hp'
  subst hp'
  rw [hg] at hf
  exact (h2 f hf).1

/-! The condition that every file holds an even number of samples is needed.  Each of the two files has seven
samples without gap.  If the file system lists the later one first, it is an error; but listed in the other
order, the mean for the midnight between is made of 19:30 and of 04:30 of the day after. -/

def oddGlob (rev : Bool) (path : List Char) : List (RawFile ℚ ℚ) :=
  let a := file none ((threeHours 0).take 7) [] [50] [5]
  let b := file none ((threeHours 1).drop 1) [] [50] [5]
  if path = "cmip/pr_*.nc".toList then (if rev then [b, a] else [a, b]) else []

example : (loadCmip demoCfg plain (oddGlob false) "tp" (24 * hour)).toOption.map (fun f => f.value 0 0 0) =
    some (some (50050000000000 + ((19 + 1 / 2) + (28 + 1 / 2)) / 2)) := by
  decide +kernel

example : (loadCmip demoCfg plain (oddGlob true) "tp" (24 * hour)).toOption.map (fun f => f.value 0 0 0) = none := by
  decide +kernel

end CmipDemo

namespace ArcoDemo

local instance : NpExp ℚ := ⟨fun x => x⟩

def demoCfg : InputConfig :=
  { calendar := .prolepticGregorian, template := [], levelType := .pressure_levels, levels := .list [850, 500]
    nseconds := 3600 }

/-- the numbers of the store tell their place -/
def demoStore : ArcoStore ℚ ℚ :=
  { times := [0, 3600000000], levels := [500, 850, 1000], latitude := [51, 50], longitude := [4, 5]
    value := fun var n k i j => (if var = "total_column_water" then 7 else 0) + 10 * n + 1000 * k + 100000 * i + 10000000 * j
    validStart := 0, validStop := 7200000000 }

theorem demo_complete : ArcoComplete demoStore 3600000000 [850, 500] :=
  ⟨by decide +kernel, by decide +kernel, by decide +kernel, by decide +kernel, by decide +kernel⟩

example : ∃ raw, getInputArco demoCfg demoStore 3600000000 = .ok raw := C82_succeeds rfl rfl rfl demo_complete

example : (getInputArco demoCfg demoStore 3600000000).toOption.map (fun r =>
    ([r.latitude, r.longitude, (r.column 1 1).p, (r.column 1 1).q], (r.tcw.map fun f => f 1 1))) =
    some ([[51, 50], [4, 5], [85000, 50000], [10101010, 10100010]], some 10100017) := by
  decide +kernel

/-- another calendar is refused -/
example : (getInputArco { demoCfg with calendar := .standard } demoStore 3600000000).toOption.isSome = false := by
  decide +kernel

end ArcoDemo

end Wam
