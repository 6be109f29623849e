import Verif.Lemmas.InputOk
import Verif.Props.Surface

set_option linter.unusedSectionVars false
set_option linter.unusedVariables false

namespace Wam
open Spec

/-! # CMIP files that are complete can be loaded -/

variable {κ α : Type} [DecidableEq κ]

/-- the samples have no missing numbers -/
def FullSamples (samples : List (ℤ × (ℕ → ℕ → ℕ → Option α))) : Prop :=
  ∀ x ∈ samples, ∀ k i j, (x.2 k i j).isSome

theorem outerAxis_same {ι : Type} [DecidableEq ι] (order : List ι → List ι) {first : List ι}
    {others : List (List ι)} (h : ∀ a ∈ others, a = first) : outerAxis order first others = .ok first := by
  unfold outerAxis
  rw [if_pos]
  simpa using h

theorem fileSamples_same {L : Option (List ℚ)} {lat lon : List κ} {file : RawFile κ α}
    (h1 : file.latitude = lat) (h2 : file.longitude = lon)
    (h3 : L = none ∨ L = (file.levelName.map fun _ => file.levels)) :
    ∃ r, fileSamples L lat lon file = .ok r ∧ r.map Prod.fst = file.times ∧ FullSamples r := by
  have hl : alignLevels L (file.levelName.map fun _ => file.levels) = .ok some := by
    rcases h3 with rfl | rfl
    · rfl
    · cases file.levelName with
      | none => rfl
      | some n => simp [alignLevels, alignAxis]
  unfold fileSamples
  simp only [h1, h2, hl, alignAxis, if_true, bind, Except.bind, pure, Except.pure]
  refine ⟨_, rfl, ?_, ?_⟩
  · rw [List.map_map]
    exact List.zipIdx_map_fst 0 file.times
  · intro x hx k i j
    obtain ⟨⟨t, n⟩, -, rfl⟩ := List.mem_map.mp hx
    rfl

theorem mapM_same {L : Option (List ℚ)} {lat lon : List κ} : ∀ {files : List (RawFile κ α)},
    (∀ f ∈ files, f.latitude = lat ∧ f.longitude = lon ∧ (L = none ∨ L = (f.levelName.map fun _ => f.levels))) →
    ∃ parts, files.mapM (fun g => fileSamples L lat lon g) = .ok parts ∧
      parts.flatten.map Prod.fst = (files.map fun f => f.times).flatten ∧
      List.Forall₂ (fun p f => p.map Prod.fst = f.times) parts files ∧ FullSamples parts.flatten
  | [], _ => ⟨[], rfl, rfl, .nil, by intro x hx; cases hx⟩
  | f :: fs, h => by
    obtain ⟨h1, h2, h3⟩ := h f List.mem_cons_self
    obtain ⟨r, r1, r2, r3⟩ := fileSamples_same h1 h2 h3
    obtain ⟨ps, p1, p2, p4, p3⟩ := mapM_same (files := fs) fun g hg => h g (List.mem_cons_of_mem _ hg)
    refine ⟨r :: ps, ?_, ?_, .cons r2 p4, ?_⟩
    · rw [List.mapM_cons, r1]
      simp only [bind, Except.bind, p1, pure, Except.pure]
    · simp [r2, p2]
    · intro x hx
      rw [List.flatten_cons, List.mem_append] at hx
      rcases hx with hx | hx
      · exact r3 x hx
      · exact p3 x hx

/-- all files have the same axes: the concatenation has them, too -/
theorem openVar_same (ord : Listing κ) {files : List (RawFile κ α)} (hne : files ≠ []) {lat lon : List κ}
    {name : Option String} {ls : List ℚ}
    (h : ∀ f ∈ files, f.timeName = "time" ∧ f.latitude = lat ∧ f.longitude = lon ∧ f.levelName = name ∧
      (name.isSome → f.levels = ls)) :
    ∃ s, openVar ord files = .ok (name, s) ∧ s.levels = (name.map fun _ => ls) ∧ s.latitude = lat ∧
      s.longitude = lon ∧ FullSamples s.samples ∧
      ∃ parts, s.samples = parts.flatten ∧ List.Forall₂ (fun p f => p.map Prod.fst = f.times) parts files := by
  cases files with
  | nil => exact absurd rfl hne
  | cons f fs =>
    obtain ⟨t1, a1, o1, n1, l1⟩ := h f List.mem_cons_self
    have hrest : ∀ g ∈ fs, g.timeName = "time" ∧ g.latitude = lat ∧ g.longitude = lon ∧ g.levelName = name ∧
      (name.isSome → g.levels = ls) := fun g hg => h g (List.mem_cons_of_mem _ hg)
    have e1 : outerAxis ord.grid f.latitude (fs.map fun g => g.latitude) = .ok lat := by
      rw [a1]; apply outerAxis_same
      intro a ha; obtain ⟨g, hg, rfl⟩ := List.mem_map.mp ha; exact (hrest g hg).2.1
    have e2 : outerAxis ord.grid f.longitude (fs.map fun g => g.longitude) = .ok lon := by
      rw [o1]; apply outerAxis_same
      intro a ha; obtain ⟨g, hg, rfl⟩ := List.mem_map.mp ha; exact (hrest g hg).2.2.1
    have e3 : outerLevels ord f fs = .ok (name.map fun _ => ls) := by
      unfold outerLevels
      rw [n1]
      cases hn : name with
      | none => rfl
      | some nm =>
        simp only
        rw [l1 (by rw [hn]; rfl), outerAxis_same]
        · rfl
        · intro a ha; obtain ⟨g, hg, rfl⟩ := List.mem_map.mp ha; exact (hrest g hg).2.2.2.2 (by rw [hn]; rfl)
    obtain ⟨parts, p1, p2, p4, p3⟩ := mapM_same (files := f :: fs) (L := name.map fun _ => ls) (lat := lat) (lon := lon) (by
      intro g hg
      obtain ⟨-, b1, b2, b3, b4⟩ := h g hg
      refine ⟨b1, b2, ?_⟩
      cases hn : name with
      | none => exact .inl rfl
      | some nm => right; rw [b3, b4 (by rw [hn]; rfl), hn])
    have hall : ((f :: fs).all fun g => decide (g.timeName = "time" ∧ g.levelName = f.levelName)) = true := by
      rw [List.all_eq_true]
      intro g hg
      obtain ⟨b0, -, -, b3, -⟩ := h g hg
      exact decide_eq_true ⟨b0, by rw [b3, n1]⟩
    refine ⟨⟨name.map fun _ => ls, lat, lon, parts.flatten⟩, ?_, rfl, rfl, rfl, p3, parts, rfl, p4⟩
    unfold openVar
    rw [n1] at hall
    simp only [n1, hall, Bool.true_eq_false, if_false, e1, e2, e3, p1, bind, Except.bind, pure, Except.pure]

theorem parts_times {parts : List (List (ℤ × (ℕ → ℕ → ℕ → Option α)))} {files : List (RawFile κ α)}
    (h : List.Forall₂ (fun p f => p.map Prod.fst = f.times) parts files) :
    parts.flatten.map Prod.fst = (files.map fun f => f.times).flatten := by
  induction h with
  | nil => rfl
  | cons h _ ih => rw [List.flatten_cons, List.map_append, h, ih]; rfl

theorem atTime_ok {s : Stack κ α} {t : ℤ} (h : (s.samples.map Prod.fst).count t = 1)
    (hfull : FullSamples s.samples) (h1 : s.latitude.Nodup) (h2 : s.longitude.Nodup) :
    ∃ f, s.atTime t = .ok f ∧ f.Full ∧ f.levels = s.levels ∧ f.latitude = s.latitude ∧
      f.longitude = s.longitude := by
  have hlen : (s.samples.filter fun x => decide (x.1 = t)).length = 1 := by
    rw [← List.countP_eq_length_filter, ← h, List.count, List.countP_map]
    rfl
  obtain ⟨x, hx⟩ := List.length_eq_one_iff.mp hlen
  unfold Stack.atTime
  rw [hx]
  have hm : x ∈ s.samples := by
    have : x ∈ s.samples.filter fun x => decide (x.1 = t) := by rw [hx]; exact List.mem_cons_self
    exact (List.mem_filter.mp this).1
  exact ⟨_, rfl, ⟨h1, h2, fun k i j _ _ _ => hfull x hm k i j⟩, rfl, rfl, rfl⟩

/-- the samples alternate between 01:30 and 04:30 past a multiple of six hours -/
abbrev Alternating : List ℤ → Prop :=
  Paired fun a b : ℤ => a % 21600000000 = 5400000000 ∧ b % 21600000000 = 16200000000

theorem alternating_file : ∀ (n : ℕ) (l : List ℤ), l.length = 2 * n → (∀ t0, l.head? = some t0 → t0 % 21600000000 = 5400000000) →
    (∀ (n : ℕ) t t', l[n]? = some t → l[n + 1]? = some t' → t' = t + 10800000000) → Alternating l
  | 0, l, h, _, _ => by
    have hl : l = [] := List.length_eq_zero_iff.mp (by simpa using h)
    rw [hl]; exact trivial
  | n + 1, l, h, h0, hstep => by
    match l, h with
    | [x], h => simp at h; omega
    | x :: y :: l, h =>
      have hx := h0 x rfl
      have hy := hstep 0 x y rfl rfl
      refine ⟨⟨hx, by omega⟩, alternating_file n l (by simp at h; omega) ?_ fun m a b ha hb =>
        hstep (m + 2) a b (by simpa using ha) (by simpa using hb)⟩
      intro z hz
      cases l with
      | nil => cases hz
      | cons w l =>
        injection hz with hz; subst hz
        have := hstep 1 y w rfl rfl
        omega

section
variable [Add α] [Sub α] [Mul α] [Div α] [NpOps α]

theorem pairSamples_ok {t : ℤ} (ht : t % 21600000000 = 0) : ∀ {l : List (ℤ × (ℕ → ℕ → ℕ → Option α))},
    Alternating (l.map Prod.fst) → FullSamples l →
      ∃ r, pairSamples l = .ok r ∧ FullSamples r ∧
        (r.map Prod.fst).count t = (l.map Prod.fst).count (t - minutes 270)
  | [], _, _ => ⟨[], rfl, (by intro x hx; cases hx), rfl⟩
  | [_], h, _ => h.elim
  | (a, x) :: (b, y) :: l, h, hf => by
    obtain ⟨r, r1, r2, r3⟩ := pairSamples_ok ht (l := l) h.2 fun z hz => hf z (by simp [hz])
    refine ⟨(a + (4 * 60 + 30) * 60 * 1000000, sampleMean x y) :: r, ?_, ?_, ?_⟩
    · unfold pairSamples
      simp only [r1, bind, Except.bind, pure, Except.pure]
    · intro z hz k i j
      rcases List.mem_cons.mp hz with rfl | hz
      · obtain ⟨u, hu⟩ := Option.isSome_iff_exists.mp (hf (a, x) (by simp) k i j)
        obtain ⟨v, hv⟩ := Option.isSome_iff_exists.mp (hf (b, y) (by simp) k i j)
        simp only at hu hv
        simp only [sampleMean, hu, hv, Option.bind_some, Option.map_some, Option.isSome_some]
      · exact r2 z hz k i j
    · obtain ⟨⟨h1, h2⟩, -⟩ := h
      simp only at h1 h2
      simp only [List.map_cons, List.count_cons, r3, minutes]
      have hb : (b == t - 270 * 60 * 1000000) = false := by
        rw [beq_eq_false_iff_ne]
        intro he; subst he
        omega
      rw [hb]
      by_cases ha : a = t - 270 * 60 * 1000000
      · subst ha; simp
      · have : (a + (4 * 60 + 30) * 60 * 1000000 == t) = false := by
          rw [beq_eq_false_iff_ne]; omega
        rw [this, beq_eq_false_iff_ne.mpr ha]; simp

theorem hour_minute (c : Calendar) {t0 : ℤ} (h : t0 % minutes 1440 = minutes 90) :
    ((dateTimeOf c t0).hour, (dateTimeOf c t0).minute) = (1, 30) := by
  simp only [dateTimeOf, usPerDay]
  simp only [minutes] at h
  have e : t0 % 86400000000 = 5400000000 := by omega
  rw [e]
  rfl

/-- a variable of the right axes that has the time can be loaded -/
theorem loadCmip_ok {cfg : InputConfig} (ord : Listing κ) {glob : List Char → List (RawFile κ α)}
    {name var : String} (hv : wam2cmip.lookup name = some var) {t : ℤ} {files : List (RawFile κ α)}
    {g axes : List κ × List κ} (hax : CmipAxes cfg glob var files g axes) {ln : Option String} {ls : List ℚ}
    (hlev : ∀ f ∈ files, f.levelName = ln ∧ (ln.isSome → f.levels = ls))
    (hln : ln = none ∨ ∃ n ∈ ["plev", "level"], ln = some n)
    (hcase : (var ∉ threeHourly ∧ OneSample files t) ∨ (var ∈ threeHourly ∧ t % minutes 360 = 0 ∧
      OneSample files (t - minutes 270) ∧ ∀ f ∈ files, ThreeHourlyFile f ∧ ∃ t0, f.times.head? = some t0 ∧
        t0 % minutes 1440 = minutes 90)) :
    ∃ f, loadCmip cfg ord glob name t = .ok f ∧ f.Full ∧ f.Covers g ∧ f.levels = (ln.map fun _ => ls) ∧
      f.latitude = axes.1 ∧ f.longitude = axes.2 := by
  obtain ⟨path, hp, hg⟩ := hax.path
  obtain ⟨s, s1, s2, s3, s4, s5, parts, s6, s7⟩ := openVar_same ord hax.some (lat := axes.1) (lon := axes.2)
    (name := ln) (ls := ls) fun f hf => ⟨hax.time f hf, hax.lat.2.2 f hf, hax.lon.2.2 f hf, hlev f hf⟩
  have hcheck : checkLevelName (ln.map fun n => if n = "plev" then "level" else n) = .ok () := by
    rcases hln with rfl | ⟨n, hn, rfl⟩
    · rfl
    · simp only [List.mem_cons, List.not_mem_nil, or_false] at hn
      rcases hn with rfl | rfl <;> rfl
  have hmain : ∃ s', s.sixHourly cfg.calendar var = .ok s' ∧ s'.levels = s.levels ∧ s'.latitude = s.latitude ∧
      s'.longitude = s.longitude ∧ FullSamples s'.samples ∧ (s'.samples.map Prod.fst).count t = 1 := by
    rcases hcase with ⟨hn, ho⟩ | ⟨hn, ht, ho, h3⟩
    · refine ⟨s, ?_, rfl, rfl, rfl, s5, ?_⟩
      · unfold Stack.sixHourly; rw [if_neg hn]
      · rw [s6, parts_times s7]; exact ho
    · have hpair : Alternating (s.samples.map Prod.fst) := by
        rw [s6, parts_times s7]
        apply Paired.flatten
        intro p hp
        obtain ⟨f, hf, rfl⟩ := List.mem_map.mp hp
        obtain ⟨⟨he, hs⟩, t0, ht0, hm⟩ := h3 f hf
        obtain ⟨m, hm'⟩ := he
        refine alternating_file m _ (by omega) ?_ ?_
        · intro t1 ht1
          rw [ht0] at ht1; injection ht1 with ht1; subst ht1
          simp only [minutes] at hm
          omega
        · intro n a b ha hb
          have := hs n a b ha hb
          simp only [minutes] at this
          omega
      obtain ⟨r, r1, r2, r3⟩ := pairSamples_ok (t := t) (by simpa [minutes] using ht) hpair s5
      have hfirst : ∃ t0 x rest, s.samples = (t0, x) :: rest ∧ t0 % minutes 1440 = minutes 90 := by
        cases s7 with
        | nil => exact absurd rfl hax.some
        | @cons p f ps fs h1 h2 =>
          obtain ⟨-, t0, ht0, hm⟩ := h3 f List.mem_cons_self
          rw [← h1] at ht0
          cases p with
          | nil => cases ht0
          | cons a p =>
            obtain ⟨a1, a2⟩ := a
            injection ht0 with ht0
            simp only at ht0
            subst ht0
            exact ⟨a1, a2, p ++ ps.flatten, by rw [s6]; rfl, hm⟩
      obtain ⟨t0, x, rest, hs, hm⟩ := hfirst
      refine ⟨{ s with samples := r }, ?_, rfl, rfl, rfl, r2, ?_⟩
      · unfold Stack.sixHourly Stack.resample
        rw [if_pos hn]
        simp only [hs]
        rw [if_neg (by rw [hour_minute cfg.calendar hm]; simp), ← hs, r1]
        rfl
      · show (r.map Prod.fst).count t = 1
        rw [r3, s6, parts_times s7]; exact ho
  obtain ⟨s', u1, u2, u3, u4, u5, u6⟩ := hmain
  obtain ⟨f, f1, f2, f3, f4, f5⟩ := atTime_ok u6 u5 (by rw [u3, s3]; exact hax.lat.1) (by rw [u4, s4]; exact hax.lon.1)
  rw [u3, s3] at f4
  rw [u4, s4] at f5
  refine ⟨f, ?_, f2, ⟨by rw [f4]; exact hax.lat.2.1, by rw [f5]; exact hax.lon.2.1⟩, by rw [f3, u2, s2], f4, f5⟩
  unfold loadCmip
  rw [hv]
  simp only [hp, hg, s1, u1, f1, hcheck, bind, Except.bind, pure, Except.pure]

end

end Wam
