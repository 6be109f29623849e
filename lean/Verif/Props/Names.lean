import Verif.Lemmas.Names
import Verif.Lemmas.Demo
import Verif.Props.Run
import Verif.Props.Restart

/-! # C42: file names -/

set_option linter.unusedSectionVars false
set_option linter.unusedVariables false

namespace Wam
open Spec

variable {m n : ℕ} {α : Type*}

/-- The input file name identifies folder and day: two times are read from the same file iff they lie on
the same day and the folders agree. -/
theorem C42_input_path (c : Calendar) (t t' : ℤ) (dir dir' : List Char) (h : FourDigitYear c t)
    (h' : FourDigitYear c t') :
    inputPath c t dir = inputPath c t' dir' ↔ dir = dir' ∧ SameDay t t' := by
  unfold inputPath
  constructor
  · intro e
    obtain ⟨e1, e2⟩ := List.append_inj' e rfl
    rw [List.cons.injEq] at e2
    obtain ⟨e3, _⟩ := List.append_inj e2.2 rfl
    exact ⟨e1, (dayString_iff c t t' h h').1 e3⟩
  · rintro ⟨rfl, hd⟩
    rw [(dayString_iff c t t' h h').2 hd]

/-- The output file name identifies folder, direction and minute. -/
theorem C42_output_path (c : Calendar) (t t' : ℤ) (dir dir' : List Char) (b b' : Bool)
    (h : FourDigitYear c t) (h' : FourDigitYear c t') :
    outputPath c t dir b = outputPath c t' dir' b' ↔ dir = dir' ∧ b = b' ∧ SameMinute t t' := by
  unfold outputPath
  constructor
  · intro e
    have hb : b = b' := by
      have split : ∀ (d w : List Char) (r : List Char) (x : Char),
          d ++ '/' :: (w ++ x :: "track".toList ++ '_' :: r) = (d ++ '/' :: w) ++
            (x :: ("track".toList ++ '_' :: r)) := by intros; simp
      have hT : modeString true = "bac".toList ++ 'k' :: "track".toList := rfl
      have hF : modeString false = "forwar".toList ++ 'd' :: "track".toList := rfl
      cases b <;> cases b'
      · rfl
      · rw [hT, hF, split, split] at e
        have := (List.append_inj' e rfl).2
        rw [List.cons.injEq] at this
        exact absurd this.1 (by decide)
      · rw [hT, hF, split, split] at e
        have := (List.append_inj' e rfl).2
        rw [List.cons.injEq] at this
        exact absurd this.1 (by decide)
      · rfl
    subst hb
    obtain ⟨e1, e2⟩ := List.append_inj' e (by cases b <;> rfl)
    rw [List.cons.injEq] at e2
    have e3 := List.append_cancel_left e2.2
    rw [List.cons.injEq] at e3
    obtain ⟨e4, _⟩ := List.append_inj e3.2 rfl
    exact ⟨e1, rfl, (minuteString_iff c t t' h h').1 e4⟩
  · rintro ⟨rfl, rfl, hm⟩
    rw [(minuteString_iff c t t' h h').2 hm]

/-- Files whose paths differ are all on disk at the end, each with its own content. -/
private theorem writeFiles_mem {P ω : Type*} [DecidableEq P] (path : ℤ → P) (disk : P → Option ω)
    (l : List (ℤ × ω)) (hl : (l.map fun x => path x.1).Nodup) (x : ℤ × ω) (hx : x ∈ l) :
    writeFiles path disk l (path x.1) = some x.2 := by
  induction l generalizing disk with
  | nil => simp at hx
  | cons y l ih =>
    rw [List.map_cons, List.nodup_cons] at hl
    rw [show writeFiles path disk (y :: l) = writeFiles path _ l from rfl]
    rcases List.mem_cons.1 hx with rfl | hx
    · rw [writeFiles_other]
      · simp
      · intro z hz e
        exact hl.1 (List.mem_map.2 ⟨z, hz, e⟩)
    · exact ih _ hl.2 hx

/-- Different output times of a forward run whose time step is a whole number of minutes never
overwrite each other: at the end every file written is on disk with its own content. -/
theorem C42_run_forward [Add α] [Sub α] [Mul α] [Div α] [Neg α] [NpOps α]
    (cfg : RunConfig α) (src : Source m n α)
    (inp : Input m n α) (c : Calendar) (dir : List Char)
    (disk : List Char → Option (FwdOutput (m + 2) (n + 2) α)) (h : Runnable cfg src inp)
    (hm : 60 ∣ cfg.timestep)
    (hy : ∀ t, cfg.tracking_start_date ≤ t → t ≤ cfg.tracking_end_date → FourDigitYear c t)
    {s} (hs : EndsIn (fwdRun cfg src (fun t => outputPath c t dir false) disk) s) :
    ∀ x ∈ s.files,
      writeFiles (fun t => outputPath c t dir false) disk s.files (outputPath c x.1 dir false) =
        some x.2 := by
  have h1 := C25_output_times_forward cfg src inp _ disk h hs
  obtain ⟨h2, h3, _⟩ := C25_output_order_forward cfg src inp _ disk h hs
  intro x hx
  apply writeFiles_mem (fun t => outputPath c t dir false) disk s.files _ x hx
  have hstep : ∀ t ∈ s.files.map Prod.fst, (60000000 : ℤ) ∣ t - cfg.tracking_start_date := by
    intro t ht
    rw [h1] at ht
    obtain ⟨k, _, rfl⟩ := List.mem_map.1 (List.mem_of_mem_filter ht)
    obtain ⟨q, hq⟩ := hm
    refine ⟨(k + 1) * q, ?_⟩
    rw [hq]; ring
  rw [show s.files.map (fun x => outputPath c x.1 dir false) =
    (s.files.map Prod.fst).map (fun t => outputPath c t dir false) by rw [List.map_map]; rfl]
  apply List.Nodup.map_on _ (h2.imp fun h => ne_of_lt h)
  intro a ha b hb e
  have ya : FourDigitYear c a := by
    obtain ⟨y, hy1, rfl⟩ := List.mem_map.1 ha
    exact hy _ (h3 _ hy1).1.le (h3 _ hy1).2
  have yb : FourDigitYear c b := by
    obtain ⟨y, hy1, rfl⟩ := List.mem_map.1 hb
    exact hy _ (h3 _ hy1).1.le (h3 _ hy1).2
  have := ((C42_output_path c a b dir dir false false ya yb).1 e).2.2
  have := hstep a ha
  have := hstep b hb
  unfold SameMinute at *
  omega

/-- The same for a backward run. -/
theorem C42_run_backward [Add α] [Sub α] [Mul α] [Div α] [Neg α] [NpOps α]
    (cfg : RunConfig α) (src : Source m n α)
    (inp : Input m n α) (c : Calendar) (dir : List Char)
    (disk : List Char → Option (BwdOutput (m + 2) (n + 2) α)) (h : Runnable cfg src inp)
    (hm : 60 ∣ cfg.timestep)
    (hy : ∀ t, cfg.tracking_start_date ≤ t → t ≤ cfg.tracking_end_date → FourDigitYear c t)
    {s} (hs : EndsIn (bwdRun cfg src (fun t => outputPath c t dir true) disk) s) :
    ∀ x ∈ s.files,
      writeFiles (fun t => outputPath c t dir true) disk s.files (outputPath c x.1 dir true) =
        some x.2 := by
  have h1 := C25_output_times_backward cfg src inp _ disk h hs
  obtain ⟨h2, h3, _⟩ := C25_output_order_backward cfg src inp _ disk h hs
  intro x hx
  apply writeFiles_mem (fun t => outputPath c t dir true) disk s.files _ x hx
  have hstep : ∀ t ∈ s.files.map Prod.fst, (60000000 : ℤ) ∣ t - cfg.tracking_end_date := by
    intro t ht
    rw [h1] at ht
    obtain ⟨k, _, rfl⟩ := List.mem_map.1 (List.mem_of_mem_filter ht)
    obtain ⟨q, hq⟩ := hm
    refine ⟨-((k + 1) * q), ?_⟩
    rw [hq]; ring
  rw [show s.files.map (fun x => outputPath c x.1 dir true) =
    (s.files.map Prod.fst).map (fun t => outputPath c t dir true) by rw [List.map_map]; rfl]
  apply List.Nodup.map_on _ (h2.imp fun h => ne_of_gt h)
  intro a ha b hb e
  have ya : FourDigitYear c a := by
    obtain ⟨y, hy1, rfl⟩ := List.mem_map.1 ha
    exact hy _ (h3 _ hy1).1 (h3 _ hy1).2.le
  have yb : FourDigitYear c b := by
    obtain ⟨y, hy1, rfl⟩ := List.mem_map.1 hb
    exact hy _ (h3 _ hy1).1 (h3 _ hy1).2.le
  have := ((C42_output_path c a b dir dir true true ya yb).1 e).2.2
  have := hstep a ha
  have := hstep b hb
  unfold SameMinute at *
  omega

/-- With a time step below a minute, output times can collide: the file of the first is lost.  For every
minute there are two different times, 30 seconds apart, with the same output file. -/
theorem C42_sub_minute_collision (c : Calendar) (q : ℤ) (dir : List Char) (b : Bool)
    (h : FourDigitYear c (q * 60000000)) :
    outputPath c (q * 60000000) dir b = outputPath c (q * 60000000 + 30000000) dir b := by
  rw [C42_output_path c _ _ dir dir b b h]
  · refine ⟨rfl, rfl, ?_⟩
    unfold SameMinute; omega
  · apply FourDigitYear.sameDay h
    unfold SameDay; omega

/-! ### Instances -/

/-- 2021-07-13T22:00 of the standard calendar -/
example : outputPath .standard 1626213600000000 "out".toList true =
    "out/backtrack_2021-07-13T22-00.nc".toList := by decide +kernel

example : inputPath .day360 ((51 * 360 + 60 + 29) * 86400000000) "in".toList =
    "in/2021-03-30_fluxes_storages.nc".toList := by decide +kernel

example : inputPath .noleap ((51 * 365 + 59) * 86400000000) "in".toList =
    "in/2021-03-01_fluxes_storages.nc".toList := by decide +kernel

/-- leap day of the standard calendar -/
example : inputPath .standard 1709164800000000 "in".toList =
    "in/2024-02-29_fluxes_storages.nc".toList := by decide +kernel

example : FourDigitYear .standard 1626213600000000 := by unfold FourDigitYear; decide +kernel

/-- the two directions of the same minute -/
example : outputPath .standard 1626213600000000 "out".toList true ≠
    outputPath .standard 1626213600000000 "out".toList false := by
  rw [Ne, C42_output_path _ _ _ _ _ _ _ (by unfold FourDigitYear; decide +kernel)
    (by unfold FourDigitYear; decide +kernel)]
  simp

/-- the years of a short period after 1970-01-01 -/
private theorem demo_year (t : ℤ) (h0 : 0 ≤ t) (h1 : t ≤ 4 * Demo.step) :
    FourDigitYear .standard t := by
  have h : FourDigitYear .standard 0 := by unfold FourDigitYear; decide +kernel
  apply FourDigitYear.sameDay h
  unfold SameDay
  unfold Demo.step at h1
  omega

/-- the demo experiment with real output paths: both files are on disk at the end -/
example : ∃ s, EndsIn (fwdRun Demo.cfg Demo.src (fun t => outputPath .standard t "out".toList false)
      fun _ => none) s ∧ s.files.length = 2 ∧
    ∀ x ∈ s.files, writeFiles (fun t => outputPath .standard t "out".toList false) (fun _ => none)
      s.files (outputPath .standard x.1 "out".toList false) = some x.2 := by
  obtain ⟨o, ho⟩ := fwd_init_ok Demo.cfg Demo.src Demo.inp
    (fun t => outputPath .standard t "out".toList false) (fun _ => none) Demo.runnable (by decide)
  obtain ⟨r, _, _, hrun⟩ := fwd_run_eq Demo.cfg Demo.src Demo.inp _ _ Demo.runnable o ho
  have he : EndsIn (fwdRun Demo.cfg Demo.src (fun t => outputPath .standard t "out".toList false)
      fun _ => none) _ := ⟨Demo.cfg.steps, fun fuel hf => (hrun fuel).trans (if_neg (not_lt.mpr hf))⟩
  exact ⟨_, he, rfl, C42_run_forward Demo.cfg Demo.src Demo.inp .standard "out".toList _
    Demo.runnable (by decide) demo_year he⟩

end Wam
