import Verif.Lemmas.Prep
import Verif.Props.Names
import Verif.Props.Select

/-! # C56-C59, C74: the preprocessing run and its files -/

set_option linter.unusedSectionVars false
set_option linter.unusedVariables false

namespace Wam
open Spec

/-! ## C56 -/

/-- The times that are preprocessed: start date plus whole multiples of the input frequency, up to
and including the end date, rounded to minutes; in increasing order. -/
theorem C56_dates (start stop freq : ℤ) (hf : 0 < freq) :
    (∀ t, t ∈ inputDates start stop freq ↔
      ∃ k : ℕ, start + k * freq ≤ stop ∧ t = roundTime (start + k * freq) 60000000) ∧
    (inputDates start stop freq).Pairwise (· ≤ ·) :=
  ⟨inputDates_mem start stop freq hf, inputDates_sorted start stop freq hf⟩

/-- With whole minutes there is no rounding, and each time occurs once. -/
theorem C56_dates_whole_minutes (start stop freq : ℤ) (hf : 0 < freq) (hs : 60000000 ∣ start)
    (hfm : 60000000 ∣ freq) :
    (∀ t, t ∈ inputDates start stop freq ↔ start ≤ t ∧ t ≤ stop ∧ freq ∣ t - start) ∧
    (inputDates start stop freq).Pairwise (· < ·) := by
  have hr : ∀ k : ℕ, roundTime (start + k * freq) 60000000 = start + k * freq := fun k =>
    (C48_nearest _ _ (by decide)).2.2 (dvd_add hs (Dvd.dvd.mul_left hfm _))
  constructor
  · intro t
    rw [inputDates_mem _ _ _ hf]
    constructor
    · rintro ⟨k, hk, rfl⟩
      rw [hr]
      have : (0 : ℤ) ≤ k * freq := mul_nonneg (by omega) hf.le
      exact ⟨by omega, hk, ⟨k, by ring⟩⟩
    · rintro ⟨h1, h2, ⟨m, hm⟩⟩
      have hm0 : 0 ≤ m := by
        by_contra hc
        have : freq * m < 0 := mul_neg_of_pos_of_neg hf (by omega)
        omega
      refine ⟨m.toNat, ?_, ?_⟩
      · rw [Int.toNat_of_nonneg hm0, mul_comm]; omega
      · rw [hr, Int.toNat_of_nonneg hm0, mul_comm]; omega
  · unfold inputDates
    rw [List.pairwise_map, List.pairwise_map]
    refine List.pairwise_lt_range.imp ?_
    intro a b hab
    rw [hr, hr]
    have : (a : ℤ) * freq < b * freq := mul_lt_mul_of_pos_right (by omega) hf
    omega

/-- Grouping by day loses nothing and keeps the order: the groups one after the other are the
original (increasing) list. -/
theorem C56_nothing_lost (c : Calendar) (ts : List ℤ) (h : ts.Pairwise (· ≤ ·)) :
    ((groupByDay c ts).map Prod.snd).flatten = ts :=
  groupByDay_flatten c ts h

/-- A group consists of all times of one day, in the original order; different groups belong to
different days; no group is empty. -/
theorem C56_groups_are_days (c : Calendar) (ts : List ℤ) :
    (∀ g ∈ (groupByDay c ts).map Prod.snd, g ≠ [] ∧
      ∀ t ∈ g, g = ts.filter fun s => decide (SameDay s t)) ∧
    ((groupByDay c ts).map Prod.snd).Pairwise (fun g g' => ∀ t ∈ g, ∀ t' ∈ g', ¬ SameDay t t') ∧
    ∀ t ∈ ts, ∃ g ∈ (groupByDay c ts).map Prod.snd, t ∈ g :=
  ⟨fun g hg => groupByDay_spec c ts hg, groupByDay_distinct c ts,
    fun t ht => groupByDay_mem c ts ht⟩

/-- Two times share a group iff they share a file. -/
theorem C56_groups_are_files (c : Calendar) (dir : List Char) (ts : List ℤ)
    (hy : ∀ t ∈ ts, FourDigitYear c t) (t t' : ℤ) (ht : t ∈ ts) (ht' : t' ∈ ts) :
    (∃ g ∈ (groupByDay c ts).map Prod.snd, t ∈ g ∧ t' ∈ g) ↔
      inputPath c t dir = inputPath c t' dir := by
  rw [C42_input_path c t t' dir dir (hy t ht) (hy t' ht')]
  constructor
  · rintro ⟨g, hg, h1, h2⟩
    refine ⟨rfl, ?_⟩
    have h := (groupByDay_spec c ts hg).2 t' h2
    rw [h, List.mem_filter, decide_eq_true_eq] at h1
    exact h1.2
  · rintro ⟨_, hs⟩
    obtain ⟨g, hg, h1⟩ := groupByDay_mem c ts ht
    refine ⟨g, hg, h1, ?_⟩
    rw [(groupByDay_spec c ts hg).2 t h1, List.mem_filter, decide_eq_true_eq]
    exact ⟨ht', hs.symm⟩

/-- 30 hours from 1970-01-01T18:00 in steps of 6 hours: three days -/
example : (groupByDay .standard (inputDates 64800000000 172800000000 21600000000)).map
    (fun g => (g.1, g.2.map fun t => (dateTimeOf .standard t).hour)) =
    [(19700101, [18]), (19700102, [0, 6, 12, 18]), (19700103, [0])] := by decide +kernel

theorem distinctFiles (c : Calendar) (dir : List Char) (ts : List ℤ)
    (hy : ∀ t ∈ ts, FourDigitYear c t) :
    DistinctFiles c dir ((groupByDay c ts).map Prod.snd) := by
  refine ⟨?_, ?_⟩
  · intro g hg
    refine ⟨(groupByDay_spec c ts hg).1, ?_⟩
    intro t ht t' ht'
    exact (C56_groups_are_files c dir ts hy t t' (groupByDay_subset c ts hg ht)
      (groupByDay_subset c ts hg ht')).1 ⟨g, hg, ht, ht'⟩
  · refine (groupByDay_distinct c ts).imp_of_mem ?_
    intro g g' hg hg' h t ht t' ht' e
    exact h t ht t' ht' ((C42_input_path c t t' dir dir (hy t (groupByDay_subset c ts hg ht))
      (hy t' (groupByDay_subset c ts hg' ht'))).1 e).2

/-! ## C57 -/

section
variable {κ α : Type} (compute : ℤ → Except Err (Dataset κ α)) (c : Calendar) (dir : List Char)
  (start stop freq : ℤ)

/-- After a successful run the file of each preprocessed time holds exactly the preprocessed times of
that day, in order, each with the data computed for it, on the axes of the first time of the
day; files of other days are untouched. -/
theorem C57_files (disk disk' : PrepDisk κ α)
    (hy : ∀ t ∈ inputDates start stop freq, FourDigitYear c t)
    (h : prepExperiment compute c dir start stop freq disk = (none, disk')) :
    (∀ t ∈ inputDates start stop freq, ∃ (f : DataFile κ α) (d0 : Dataset κ α),
      disk' (inputPath c t dir) = some (.data f) ∧ f.calendar = c ∧
      ((inputDates start stop freq).filter fun s => decide (SameDay s t)).head?.map compute =
        some (.ok d0) ∧
      List.Forall₂ (fun s e => ∃ raw, compute s = .ok raw ∧
          e = (s, { raw with latitude := d0.latitude, longitude := d0.longitude }) ∧
          raw.latitude.length = d0.latitude.length ∧ raw.longitude.length = d0.longitude.length)
        ((inputDates start stop freq).filter fun s => decide (SameDay s t)) f.entries) ∧
    ∀ p, (∀ t ∈ inputDates start stop freq, inputPath c t dir ≠ p) → disk' p = disk p := by
  obtain ⟨h1, h2⟩ := prepDays_files compute c dir _ (distinctFiles c dir _ hy) disk disk' h
  constructor
  · intro t ht
    obtain ⟨g, hg, htg⟩ := groupByDay_mem c _ ht
    have hgs := (groupByDay_spec c _ hg).2 t htg
    have hgn := (groupByDay_spec c _ hg).1
    have hfold := h1 g hg t htg
    rw [← hgs]
    obtain ⟨t0, g', rfl⟩ := List.exists_cons_of_ne_nil hgn
    obtain ⟨d0, entries, e1, e2, e3⟩ := fileFold_day compute c t0 g' _ _ hfold
    exact ⟨⟨c, entries⟩, d0, e2, rfl, by simp [e1], e3⟩
  · intro p hp
    exact h2 p fun g hg t ht => hp t (groupByDay_subset c _ hg ht)

/-- If all times have the same grid, the file holds exactly what was computed. -/
theorem C57_same_grid (disk disk' : PrepDisk κ α) (lat lon : List κ)
    (hy : ∀ t ∈ inputDates start stop freq, FourDigitYear c t)
    (hgrid : ∀ t ds, compute t = .ok ds → ds.latitude = lat ∧ ds.longitude = lon)
    (h : prepExperiment compute c dir start stop freq disk = (none, disk')) :
    ∀ t ∈ inputDates start stop freq, ∃ f : DataFile κ α,
      disk' (inputPath c t dir) = some (.data f) ∧ f.calendar = c ∧
      f.entries.map (fun e => (e.1, Except.ok e.2)) =
        ((inputDates start stop freq).filter fun s => decide (SameDay s t)).map
          fun s => (s, compute s) := by
  intro t ht
  obtain ⟨f, d0, h1, h2, h3, h4⟩ := (C57_files compute c dir start stop freq disk disk' hy h).1 t ht
  refine ⟨f, h1, h2, ?_⟩
  have hd0 : d0.latitude = lat ∧ d0.longitude = lon := by
    cases hl : ((inputDates start stop freq).filter fun s => decide (SameDay s t)).head? with
    | none => rw [hl] at h3; simp at h3
    | some s =>
      rw [hl] at h3
      simp only [Option.map_some, Option.some.injEq] at h3
      exact hgrid s d0 h3
  generalize ((inputDates start stop freq).filter fun s => decide (SameDay s t)) = l at h4
  clear h3 h1
  generalize f.entries = es at h4
  induction h4 with
  | nil => rfl
  | cons hab _ ih =>
    obtain ⟨raw, hr, rfl, _, _⟩ := hab
    rw [List.map_cons, List.map_cons, ih, hr]
    congr 2
    obtain ⟨e1, e2⟩ := hgrid _ raw hr
    rw [hd0.1, hd0.2, ← e1, ← e2]

/-- The run succeeds if all times can be computed on one grid. -/
theorem C57_succeeds (disk : PrepDisk κ α)
    (hy : ∀ t ∈ inputDates start stop freq, FourDigitYear c t) (nlat nlon : ℕ) (vars : List Var)
    (h : ∀ t ∈ inputDates start stop freq, ∃ ds, compute t = .ok ds ∧ ds.latitude.length = nlat ∧
      ds.longitude.length = nlon ∧ ds.vars = vars) :
    ∃ disk', prepExperiment compute c dir start stop freq disk = (none, disk') := by
  apply prepDays_succeeds compute c dir _ (distinctFiles c dir _ hy)
  intro g hg old
  obtain ⟨t0, g', rfl⟩ := List.exists_cons_of_ne_nil (groupByDay_spec c _ hg).1
  obtain ⟨d0, h1, h2, h3, h4⟩ := h t0 (groupByDay_subset c _ hg (by simp))
  rw [fileFold]
  simp only [prepContent, h1, bind, Except.bind, if_true, pure, Except.pure]
  apply fileFold_ok compute c (newFile c t0 d0) t0 d0 [] rfl
  intro t ht
  obtain ⟨ds, k1, k2, k3, k4⟩ := h t (groupByDay_subset c _ hg (List.mem_cons_of_mem _ ht))
  exact ⟨ds, k1, by omega, by omega, by rw [k4, h4]; exact fun v hv => hv⟩

/-- If one time cannot be computed, the run does not succeed. -/
theorem C57_fails (disk disk' : PrepDisk κ α) (err : Option Err)
    (hy : ∀ t ∈ inputDates start stop freq, FourDigitYear c t)
    (t : ℤ) (ht : t ∈ inputDates start stop freq) (e : Err) (he : compute t = .error e)
    (h : prepExperiment compute c dir start stop freq disk = (err, disk')) : err ≠ none := by
  rintro rfl
  obtain ⟨f, d0, h1, h2, h3, h4⟩ := (C57_files compute c dir start stop freq disk disk' hy h).1 t ht
  have hmem : t ∈ (inputDates start stop freq).filter fun s => decide (SameDay s t) := by
    rw [List.mem_filter, decide_eq_true_eq]; exact ⟨ht, rfl⟩
  generalize ((inputDates start stop freq).filter fun s => decide (SameDay s t)) = l at h4 hmem
  generalize f.entries = es at h4
  clear h3
  induction h4 with
  | nil => simp at hmem
  | cons hab _ ih =>
    obtain ⟨raw, hr, _⟩ := hab
    rcases List.mem_cons.1 hmem with rfl | hm
    · rw [he] at hr; cases hr
    · exact ih hm

/-! ## C58 -/

/-- The result does not depend on what the files of the preprocessed days held before: starting from
two folders that differ only there gives the same result. -/
theorem C58_old_files_do_not_matter (disk disk₂ disk' : PrepDisk κ α)
    (hy : ∀ t ∈ inputDates start stop freq, FourDigitYear c t)
    (hd : ∀ p, (∀ t ∈ inputDates start stop freq, inputPath c t dir ≠ p) → disk p = disk₂ p)
    (h : prepExperiment compute c dir start stop freq disk = (none, disk')) :
    prepExperiment compute c dir start stop freq disk₂ = (none, disk') := by
  obtain ⟨d1, h1, h2⟩ := prepDays_agree compute c dir _ disk disk₂
    (fun p => ∀ t ∈ inputDates start stop freq, inputPath c t dir ≠ p)
    (distinctFiles c dir _ hy).1 hd disk' h
  have : disk' = d1 := by
    funext p
    apply h2
    by_cases hp : ∀ t ∈ inputDates start stop freq, inputPath c t dir ≠ p
    · exact .inl hp
    · right
      push Not at hp
      obtain ⟨t, ht, e⟩ := hp
      obtain ⟨g, hg, htg⟩ := groupByDay_mem c _ ht
      exact ⟨g, hg, t, htg, e⟩
  rw [this]
  exact h1

/-- Running twice gives the same files as running once. -/
theorem C58_rerun (disk disk' : PrepDisk κ α)
    (hy : ∀ t ∈ inputDates start stop freq, FourDigitYear c t)
    (h : prepExperiment compute c dir start stop freq disk = (none, disk')) :
    prepExperiment compute c dir start stop freq disk' = (none, disk') :=
  C58_old_files_do_not_matter compute c dir start stop freq disk disk' disk' hy
    (fun p hp => ((C57_files compute c dir start stop freq disk disk' hy h).2 p hp).symm) h

/-- A day that is split over two runs: the second run overwrites the file, the times of that day
that only the first run processed are lost. -/
theorem C58_split_day_is_lost (start₂ stop₂ : ℤ) (disk disk₁ disk₂ : PrepDisk κ α)
    (hy : ∀ t ∈ inputDates start stop freq, FourDigitYear c t)
    (hy₂ : ∀ t ∈ inputDates start₂ stop₂ freq, FourDigitYear c t)
    (h₁ : prepExperiment compute c dir start stop freq disk = (none, disk₁))
    (h₂ : prepExperiment compute c dir start₂ stop₂ freq disk₁ = (none, disk₂))
    (t t₂ : ℤ) (ht : t ∈ inputDates start stop freq) (htn : t ∉ inputDates start₂ stop₂ freq)
    (ht₂ : t₂ ∈ inputDates start₂ stop₂ freq) (hsame : SameDay t t₂) :
    ∃ f : DataFile κ α, disk₂ (inputPath c t dir) = some (.data f) ∧ ∀ e ∈ f.entries, e.1 ≠ t := by
  obtain ⟨f, d0, h1, _, _, h4⟩ :=
    (C57_files compute c dir start₂ stop₂ freq disk₁ disk₂ hy₂ h₂).1 t₂ ht₂
  have hp : inputPath c t dir = inputPath c t₂ dir :=
    (C42_input_path c t t₂ dir dir (hy t ht) (hy₂ t₂ ht₂)).2 ⟨rfl, hsame⟩
  refine ⟨f, by rw [hp]; exact h1, ?_⟩
  have hsub : ∀ s ∈ (inputDates start₂ stop₂ freq).filter fun s => decide (SameDay s t₂),
      s ∈ inputDates start₂ stop₂ freq := fun s hs => (List.mem_filter.1 hs).1
  generalize ((inputDates start₂ stop₂ freq).filter fun s => decide (SameDay s t₂)) = l at h4 hsub
  generalize f.entries = es at h4
  induction h4 with
  | nil => simp
  | cons hab _ ih =>
    obtain ⟨raw, hr, rfl, _, _⟩ := hab
    intro e he
    rcases List.mem_cons.1 he with rfl | he
    · intro e'
      exact htn (e' ▸ hsub _ (by simp))
    · exact ih (fun s hs => hsub s (List.mem_cons_of_mem _ hs)) e he

/-! ## C59 -/

/-- what is true of a worker and its file at any time: `ts` its times, `old` its file at the start -/
def WorkerInv (ts : List ℤ) (old : Option (PrepFile κ α)) (w : Worker κ α)
    (now : Option (PrepFile κ α)) : Prop :=
  ∃ done x, ts = done ++ w.todo ∧ w.isNew = done.isEmpty ∧
    fileFold compute c true done old = (none, x) ∧
    match w.failed, w.pending with
    | none, none => now = x
    | none, some f => ∃ t ts', w.todo = t :: ts' ∧ prepContent compute c w.isNew t x = .ok f
    | some e, none => now = x ∧ ∃ t ts', w.todo = t :: ts' ∧ prepContent compute c w.isNew t x = .error e
    | some _, some _ => False

theorem workerInv_start (ts : List ℤ) (old : Option (PrepFile κ α)) :
    WorkerInv compute c ts old (Worker.start ts) old :=
  ⟨[], old, rfl, rfl, rfl, rfl⟩

theorem workerInv_step (p : List Char) (ts : List ℤ) (hp : ∀ t ∈ ts, inputPath c t dir = p)
    (old : Option (PrepFile κ α)) (w : Worker κ α) (disk : PrepDisk κ α)
    (h : WorkerInv compute c ts old w (disk p)) :
    WorkerInv compute c ts old (w.step compute c dir disk).1 ((w.step compute c dir disk).2 p) ∧
    ∀ p', p' ≠ p → (w.step compute c dir disk).2 p' = disk p' := by
  obtain ⟨isNew, todo, pending, failed⟩ := w
  obtain ⟨done, x, h1, h2, h3, h4⟩ := h
  simp only at h1 h2 h4
  cases failed with
  | some e =>
    simp only [Worker.step]
    exact ⟨⟨done, x, h1, h2, h3, h4⟩, fun _ _ => trivial⟩
  | none =>
    cases todo with
    | nil =>
      simp only [Worker.step]
      exact ⟨⟨done, x, h1, h2, h3, h4⟩, fun _ _ => trivial⟩
    | cons t ts' =>
      have hpt : inputPath c t dir = p := hp t (by rw [h1]; simp)
      cases pending with
      | some f =>
        simp only at h4
        obtain ⟨t', ts'', he, hc⟩ := h4
        injection he with he1 he2
        subst he1
        simp only [Worker.step, hpt]
        refine ⟨⟨done ++ [t], some f, by simp [h1], by simp, ?_, ?_⟩, fun p' hne =>
          PrepDisk.put_other _ hne _⟩
        · rw [fileFold_append, h3]
          simp only [Bool.true_and]
          rw [h2] at hc
          rw [fileFold, hc]
          rfl
        · simp only [PrepDisk.put_same]
      | none =>
        simp only at h4
        simp only [Worker.step, hpt]
        rw [h4]
        cases hc : prepContent compute c isNew t x with
        | error e =>
          simp only
          exact ⟨⟨done, x, h1, h2, h3, h4, t, ts', rfl, hc⟩, fun _ _ => trivial⟩
        | ok f =>
          simp only
          exact ⟨⟨done, x, h1, h2, h3, t, ts', rfl, hc⟩, fun p' hne => PrepDisk.put_other _ hne _⟩

/-- the files of the workers after any schedule -/
theorem poolRun_inv (days : List (List ℤ)) (hd : DistinctFiles c dir days) (disk0 : PrepDisk κ α)
    (schedule : List ℕ) (ws : List (Worker κ α)) (disk : PrepDisk κ α)
    (hlen : ws.length = days.length)
    (hinv : ∀ (i : ℕ) (ts : List ℤ) (w : Worker κ α), days[i]? = some ts → ws[i]? = some w →
      ∀ t ∈ ts, WorkerInv compute c ts (disk0 (inputPath c t dir)) w (disk (inputPath c t dir)))
    (hrest : ∀ p, (∀ ts ∈ days, ∀ t ∈ ts, inputPath c t dir ≠ p) → disk p = disk0 p) :
    let r := poolRun compute c dir schedule (ws, disk)
    r.1.length = days.length ∧
    (∀ (i : ℕ) (ts : List ℤ) (w : Worker κ α), days[i]? = some ts → r.1[i]? = some w →
      ∀ t ∈ ts, WorkerInv compute c ts (disk0 (inputPath c t dir)) w (r.2 (inputPath c t dir))) ∧
    ∀ p, (∀ ts ∈ days, ∀ t ∈ ts, inputPath c t dir ≠ p) → r.2 p = disk0 p := by
  induction schedule generalizing ws disk with
  | nil => exact ⟨hlen, hinv, hrest⟩
  | cons i schedule ih =>
    simp only [poolRun]
    cases hw : ws[i]? with
    | none => exact ih ws disk hlen hinv hrest
    | some w =>
      have hi : i < ws.length := (List.getElem?_eq_some_iff.1 hw).1
      have hi' : i < days.length := hlen ▸ hi
      obtain ⟨hne, hsame⟩ := hd.1 _ (List.getElem_mem hi')
      obtain ⟨t0, ts', hts⟩ := List.exists_cons_of_ne_nil hne
      have ht0 : t0 ∈ days[i] := by rw [hts]; simp
      have hp : ∀ t ∈ days[i], inputPath c t dir = inputPath c t0 dir := fun t ht => hsame t ht t0 ht0
      have hI := hinv i days[i] w (List.getElem?_eq_getElem hi') hw t0 ht0
      obtain ⟨hs1, hs2⟩ := workerInv_step compute c dir _ days[i] hp _ w disk hI
      refine ih (ws.set i (w.step compute c dir disk).1) (w.step compute c dir disk).2
        (by simp [hlen]) ?_ ?_
      · intro j ts w' hj hw' t ht
        by_cases hij : j = i
        · subst hij
          rw [List.getElem?_set_self hi] at hw'
          rw [List.getElem?_eq_getElem hi'] at hj
          injection hw' with hw'
          injection hj with hj
          subst hj
          rw [hp t ht, ← hw']
          exact hs1
        · rw [List.getElem?_set_ne (Ne.symm hij)] at hw'
          have hneq : inputPath c t dir ≠ inputPath c t0 dir := by
            have hjl : j < days.length := (List.getElem?_eq_some_iff.1 hj).1
            have hje : days[j] = ts := (List.getElem?_eq_some_iff.1 hj).2
            rcases Nat.lt_or_gt_of_ne hij with h | h
            · exact (List.pairwise_iff_getElem.1 hd.2) j i hjl hi' h t (hje ▸ ht) t0 ht0
            · exact fun e => (List.pairwise_iff_getElem.1 hd.2) i j hi' hjl h t0 ht0 t (hje ▸ ht) e.symm
          rw [hs2 _ hneq]
          exact hinv j ts w' hj hw' t ht
      · intro p hp'
        rw [hs2 p fun e => hp' _ (List.getElem_mem hi') t0 ht0 e.symm]
        exact hrest p hp'

theorem parallel_inv (disk : PrepDisk κ α) (schedule : List ℕ)
    (hy : ∀ t ∈ inputDates start stop freq, FourDigitYear c t) :
    let days := (groupByDay c (inputDates start stop freq)).map Prod.snd
    let r := parallelPrep compute c dir start stop freq schedule disk
    r.1.length = days.length ∧
    (∀ (i : ℕ) (ts : List ℤ) (w : Worker κ α), days[i]? = some ts → r.1[i]? = some w →
      ∀ t ∈ ts, WorkerInv compute c ts (disk (inputPath c t dir)) w (r.2 (inputPath c t dir))) ∧
    ∀ p, (∀ ts ∈ days, ∀ t ∈ ts, inputPath c t dir ≠ p) → r.2 p = disk p := by
  intro days r
  apply poolRun_inv compute c dir days (distinctFiles c dir _ hy) disk schedule _ disk
  · simp only [List.length_map, days]
  · intro i ts w hi hw t ht
    rw [List.getElem?_map, hi] at hw
    simp only [Option.map_some, Option.some.injEq] at hw
    rw [← hw]
    exact workerInv_start compute c ts _
  · exact fun _ _ => rfl

/-- For every schedule: when all workers have finished without an error, the sequential run would
have succeeded and the folder is exactly what it would have left. -/
theorem C59_parallel_eq_sequential (disk : PrepDisk κ α) (schedule : List ℕ)
    (hy : ∀ t ∈ inputDates start stop freq, FourDigitYear c t)
    (hdone : ∀ w ∈ (parallelPrep compute c dir start stop freq schedule disk).1,
      w.todo = [] ∧ w.failed = none) :
    prepExperiment compute c dir start stop freq disk =
      (none, (parallelPrep compute c dir start stop freq schedule disk).2) := by
  obtain ⟨hlen, hinv, hrest⟩ := parallel_inv compute c dir start stop freq disk schedule hy
  set days := (groupByDay c (inputDates start stop freq)).map Prod.snd with hdays
  set r := parallelPrep compute c dir start stop freq schedule disk with hr
  have hd := distinctFiles c dir _ hy
  rw [← hdays] at hd
  have hfin : ∀ ts ∈ days, ∀ t ∈ ts,
      fileFold compute c true ts (disk (inputPath c t dir)) = (none, r.2 (inputPath c t dir)) := by
    intro ts hts t ht
    obtain ⟨i, hi⟩ := List.getElem?_of_mem hts
    have hil : i < r.1.length := by
      rw [hlen]; exact (List.getElem?_eq_some_iff.1 hi).1
    have hw := List.getElem?_eq_getElem hil
    obtain ⟨htodo, hfail⟩ := hdone r.1[i] (List.getElem_mem hil)
    obtain ⟨done, x, h1, h2, h3, h4⟩ := hinv i ts r.1[i] hi hw t ht
    rw [htodo, List.append_nil] at h1
    rw [hfail, htodo] at h4
    cases hpend : r.1[i].pending with
    | none => rw [hpend] at h4; simp only at h4; rw [h1, h3, h4]
    | some f => rw [hpend] at h4; simp at h4
  obtain ⟨d1, hs⟩ := prepDays_succeeds compute c dir days hd disk (by
    intro ts hts old
    obtain ⟨t, ht⟩ := List.exists_mem_of_ne_nil _ (hd.1 ts hts).1
    rw [fileFold_new_err compute c ts (disk (inputPath c t dir)) old (hd.1 ts hts).1, hfin ts hts t ht])
  have : d1 = r.2 := by
    obtain ⟨k1, k2⟩ := prepDays_files compute c dir days hd disk d1 hs
    funext p
    by_cases hp : ∀ ts ∈ days, ∀ t ∈ ts, inputPath c t dir ≠ p
    · rw [k2 p hp, hrest p hp]
    · push Not at hp
      obtain ⟨ts, hts, t, ht, e⟩ := hp
      have e1 := k1 ts hts t ht
      rw [hfin ts hts t ht] at e1
      injection e1 with _ e1
      rw [← e, e1]
  rw [← this]
  exact hs

/-- If the sequential run succeeds, no worker ever fails, whatever the schedule. -/
theorem C59_no_failure (disk disk' : PrepDisk κ α) (schedule : List ℕ)
    (hy : ∀ t ∈ inputDates start stop freq, FourDigitYear c t)
    (h : prepExperiment compute c dir start stop freq disk = (none, disk')) :
    ∀ w ∈ (parallelPrep compute c dir start stop freq schedule disk).1, w.failed = none := by
  obtain ⟨hlen, hinv, hrest⟩ := parallel_inv compute c dir start stop freq disk schedule hy
  obtain ⟨k1, _⟩ := prepDays_files compute c dir _ (distinctFiles c dir _ hy) disk disk' h
  set days := (groupByDay c (inputDates start stop freq)).map Prod.snd with hdays
  set r := parallelPrep compute c dir start stop freq schedule disk with hr
  have hd := distinctFiles c dir _ hy
  rw [← hdays] at hd
  intro w hw
  obtain ⟨i, hi⟩ := List.getElem?_of_mem hw
  have hil : i < days.length := by
    rw [← hlen]; exact (List.getElem?_eq_some_iff.1 hi).1
  have hmem := List.getElem_mem hil
  obtain ⟨t, ht⟩ := List.exists_mem_of_ne_nil _ (hd.1 _ hmem).1
  obtain ⟨done, x, h1, h2, h3, h4⟩ := hinv i _ w (List.getElem?_eq_getElem hil) hi t ht
  cases hf : w.failed with
  | none => rfl
  | some e =>
    exfalso
    rw [hf] at h4
    cases hpend : w.pending with
    | some f => rw [hpend] at h4; simp at h4
    | none =>
      rw [hpend] at h4
      obtain ⟨_, t', ts', e1, e2⟩ := h4
      have hk := k1 _ hmem t ht
      rw [h1, fileFold_append, h3] at hk
      simp only [Bool.true_and] at hk
      rw [e1, fileFold, ← h2, e2] at hk
      simp at hk

/-- A failing day does not affect the others: under every schedule, a day whose worker has finished
has exactly the file that this day's worker would make alone, whatever happened elsewhere. -/
theorem C59_days_are_independent (disk : PrepDisk κ α) (schedule : List ℕ)
    (hy : ∀ t ∈ inputDates start stop freq, FourDigitYear c t) (i : ℕ) (ts : List ℤ) (w : Worker κ α)
    (hi : ((groupByDay c (inputDates start stop freq)).map Prod.snd)[i]? = some ts)
    (hw : (parallelPrep compute c dir start stop freq schedule disk).1[i]? = some w)
    (hdone : w.todo = [] ∧ w.failed = none) (t : ℤ) (ht : t ∈ ts) :
    (preprocessDay compute c dir ts disk).1 = none ∧
    (parallelPrep compute c dir start stop freq schedule disk).2 (inputPath c t dir) =
      (preprocessDay compute c dir ts disk).2 (inputPath c t dir) := by
  obtain ⟨hlen, hinv, hrest⟩ := parallel_inv compute c dir start stop freq disk schedule hy
  obtain ⟨done, x, h1, h2, h3, h4⟩ := hinv i ts w hi hw t ht
  rw [hdone.1, List.append_nil] at h1
  rw [hdone.2, hdone.1] at h4
  have hmem : ts ∈ (groupByDay c (inputDates start stop freq)).map Prod.snd := List.mem_of_getElem? hi
  have hp : ∀ t' ∈ ts, inputPath c t' dir = inputPath c t dir :=
    fun t' ht' => ((distinctFiles c dir _ hy).1 ts hmem).2 t' ht' t ht
  rw [preprocessDay, prepLoop_eq compute c dir _ _ _ _ hp]
  simp only [PrepDisk.put_same]
  cases hpend : w.pending with
  | some f => rw [hpend] at h4; simp at h4
  | none =>
    rw [hpend] at h4
    simp only at h4
    rw [h1, h3, h4]
    exact ⟨rfl, rfl⟩

/-- steps a worker still has to make -/
def Worker.left (w : Worker κ α) : ℕ :=
  if w.failed.isSome then 0 else 2 * w.todo.length - (if w.pending.isSome then 1 else 0)

theorem Worker.step_left (w : Worker κ α) (disk : PrepDisk κ α) :
    (w.step compute c dir disk).1.left ≤ w.left - 1 := by
  obtain ⟨isNew, todo, pending, failed⟩ := w
  cases failed with
  | some e => simp [Worker.step, Worker.left]
  | none =>
    cases todo with
    | nil => simp [Worker.step, Worker.left]
    | cons t ts =>
      cases pending with
      | some f =>
        simp only [Worker.step, Worker.left]
        simp
        omega
      | none =>
        simp only [Worker.step]
        cases prepContent compute c isNew t (disk (inputPath c t dir)) with
        | error e => simp [Worker.left]
        | ok f => simp [Worker.left]

theorem poolRun_left (schedule : List ℕ) (ws : List (Worker κ α)) (disk : PrepDisk κ α) (i : ℕ)
    (w w' : Worker κ α) (hw : ws[i]? = some w)
    (hw' : (poolRun compute c dir schedule (ws, disk)).1[i]? = some w') :
    w'.left ≤ w.left - schedule.count i := by
  induction schedule generalizing ws disk w with
  | nil =>
    simp only [poolRun] at hw'
    rw [hw] at hw'
    injection hw' with hw'
    simp [hw']
  | cons j schedule ih =>
    simp only [poolRun] at hw'
    cases hj : ws[j]? with
    | none =>
      rw [hj] at hw'
      have hij : j ≠ i := by rintro rfl; rw [hw] at hj; cases hj
      rw [List.count_cons_of_ne hij]
      exact ih ws disk w hw hw'
    | some v =>
      rw [hj] at hw'
      simp only at hw'
      by_cases hij : j = i
      · subst hij
        rw [hw] at hj
        injection hj with hj
        subst hj
        have hil := (List.getElem?_eq_some_iff.1 hw).1
        have := ih _ _ _ (List.getElem?_set_self hil) hw'
        have hs := Worker.step_left compute c dir w disk
        rw [List.count_cons_self]
        omega
      · rw [List.count_cons_of_ne hij]
        exact ih _ _ w (by rw [List.getElem?_set_ne hij]; exact hw) hw'

/-- If the sequential run succeeds, then every schedule that gives each worker enough steps (two
per time of its day) finishes, with the files of the sequential run. -/
theorem C59_every_fair_schedule (disk disk' : PrepDisk κ α) (schedule : List ℕ)
    (hy : ∀ t ∈ inputDates start stop freq, FourDigitYear c t)
    (hfair : ∀ (i : ℕ) (ts : List ℤ),
      ((groupByDay c (inputDates start stop freq)).map Prod.snd)[i]? = some ts →
      2 * ts.length ≤ schedule.count i)
    (h : prepExperiment compute c dir start stop freq disk = (none, disk')) :
    (∀ w ∈ (parallelPrep compute c dir start stop freq schedule disk).1,
      w.todo = [] ∧ w.failed = none) ∧
    (parallelPrep compute c dir start stop freq schedule disk).2 = disk' := by
  have hfin : ∀ w ∈ (parallelPrep compute c dir start stop freq schedule disk).1,
      w.todo = [] ∧ w.failed = none := by
    intro w hw
    have hnf := C59_no_failure compute c dir start stop freq disk disk' schedule hy h w hw
    refine ⟨?_, hnf⟩
    obtain ⟨hlen, _⟩ := parallel_inv compute c dir start stop freq disk schedule hy
    obtain ⟨i, hi⟩ := List.getElem?_of_mem hw
    have hil : i < ((groupByDay c (inputDates start stop freq)).map Prod.snd).length := by
      rw [← hlen]; exact (List.getElem?_eq_some_iff.1 hi).1
    have hts := List.getElem?_eq_getElem hil
    have hl := poolRun_left compute c dir schedule _ disk i
      (Worker.start ((groupByDay c (inputDates start stop freq)).map Prod.snd)[i]) w
      (by rw [List.getElem?_map, hts]; rfl) hi
    have hf := hfair i _ hts
    have h0 : w.left = 0 := by
      have : (Worker.start ((groupByDay c (inputDates start stop freq)).map Prod.snd)[i] :
          Worker κ α).left = 2 * (((groupByDay c (inputDates start stop freq)).map Prod.snd)[i]).length := by
        simp [Worker.start, Worker.left]
      omega
    unfold Worker.left at h0
    rw [hnf] at h0
    cases ht : w.todo with
    | nil => rfl
    | cons t ts =>
      rw [ht] at h0
      simp only [Option.isSome_none, Bool.false_eq_true, if_false, List.length_cons] at h0
      split at h0 <;> omega
  refine ⟨hfin, ?_⟩
  have := C59_parallel_eq_sequential compute c dir start stop freq disk schedule hy hfin
  rw [h] at this
  injection this with _ this
  exact this.symm

/-- A crash (or a failure) at any moment of a parallel run, and any damage it does to the files
being written, is repaired by running again. -/
theorem C58_after_crash (disk disk₂ disk' : PrepDisk κ α) (schedule : List ℕ)
    (hy : ∀ t ∈ inputDates start stop freq, FourDigitYear c t)
    (hcrash : ∀ p, disk₂ p = (parallelPrep compute c dir start stop freq schedule disk).2 p ∨
      ∃ t ∈ inputDates start stop freq, inputPath c t dir = p)
    (h : prepExperiment compute c dir start stop freq disk = (none, disk')) :
    prepExperiment compute c dir start stop freq disk₂ = (none, disk') := by
  obtain ⟨_, _, hrest⟩ := parallel_inv compute c dir start stop freq disk schedule hy
  refine C58_old_files_do_not_matter compute c dir start stop freq disk disk₂ disk' hy ?_ h
  intro p hp
  rcases hcrash p with e | ⟨t, ht, e⟩
  · rw [e]
    exact (hrest p fun ts hts t ht => hp t (groupByDay_subset c _ hts ht)).symm
  · exact absurd e (hp t ht)

/-- The same for a sequential run that was interrupted by an exception. -/
theorem C58_after_failure (compute₁ : ℤ → Except Err (Dataset κ α)) (disk disk₁ disk' : PrepDisk κ α)
    (err : Option Err)
    (hy : ∀ t ∈ inputDates start stop freq, FourDigitYear c t)
    (h₁ : prepExperiment compute₁ c dir start stop freq disk = (err, disk₁))
    (h : prepExperiment compute c dir start stop freq disk = (none, disk')) :
    prepExperiment compute c dir start stop freq disk₁ = (none, disk') := by
  refine C58_old_files_do_not_matter compute c dir start stop freq disk disk₁ disk' hy ?_ h
  intro p hp
  have key : ∀ (days : List (List ℤ)) (disk disk₁ : PrepDisk κ α),
      (∀ ts ∈ days, ts ≠ [] ∧ ∀ t ∈ ts, ∀ t' ∈ ts, inputPath c t dir = inputPath c t' dir) →
      (∀ ts ∈ days, ∀ t ∈ ts, inputPath c t dir ≠ p) →
      prepDays compute₁ c dir days disk = (err, disk₁) → disk p = disk₁ p := by
    intro days
    induction days with
    | nil =>
      intro disk disk₁ _ _ h
      simp only [prepDays, Prod.mk.injEq] at h
      rw [h.2]
    | cons ts days ih =>
      intro disk disk₁ hday hne h
      obtain ⟨hnil, hpath⟩ := hday ts (by simp)
      obtain ⟨t0, ts', rfl⟩ := List.exists_cons_of_ne_nil hnil
      have hpp : ∀ t ∈ t0 :: ts', inputPath c t dir = inputPath c t0 dir :=
        fun t ht => hpath t ht t0 (by simp)
      have hn : p ≠ inputPath c t0 dir := fun e => hne (t0 :: ts') (by simp) t0 (by simp) e.symm
      rw [prepDays, preprocessDay, prepLoop_eq compute₁ c dir _ _ _ _ hpp] at h
      cases he : (fileFold compute₁ c true (t0 :: ts') (disk (inputPath c t0 dir))).1 with
      | some e =>
        rw [he] at h
        simp only [Prod.mk.injEq] at h
        rw [← h.2, PrepDisk.put_other _ hn]
      | none =>
        rw [he] at h
        simp only at h
        have := ih _ disk₁ (fun ts hts => hday ts (List.mem_cons_of_mem _ hts))
          (fun ts hts => hne ts (List.mem_cons_of_mem _ hts)) h
        rwa [PrepDisk.put_other _ hn] at this
  exact key _ disk disk₁ (distinctFiles c dir _ hy).1
    (fun ts hts t ht => hp t (groupByDay_subset c _ hts ht)) h₁

/-! ## C74: what preprocessing leaves is what tracking reads -/

/-- After a successful run with a period that starts at a multiple of the input frequency (whole
minutes), the folder is an archive of the computed data for the whole period, in the sense that the
theorems about `load_data` (C37) and hence about tracking require. -/
theorem C74_archive (disk disk' : PrepDisk κ α) (weather : ℤ → Dataset κ α) (lat lon : List κ)
    (hf : 0 < freq) (hfm : 60000000 ∣ freq) (hs : freq ∣ start)
    (hy : ∀ t, start ≤ t → t ≤ stop → FourDigitYear c t)
    (hw : ∀ t ∈ inputDates start stop freq, compute t = .ok (weather t))
    (hgrid : ∀ t, (weather t).latitude = lat ∧ (weather t).longitude = lon)
    (h : prepExperiment compute c dir start stop freq disk = (none, disk')) :
    Archive disk'.files c dir freq start stop weather := by
  obtain ⟨hm, hlt⟩ := C56_dates_whole_minutes start stop freq hf (hfm.trans hs) hfm
  have hy' : ∀ t ∈ inputDates start stop freq, FourDigitYear c t := fun t ht =>
    hy t ((hm t).1 ht).1 ((hm t).1 ht).2.1
  refine ⟨?_, hy⟩
  intro s h0 h1 hd
  have hsm : s ∈ inputDates start stop freq := (hm s).2 ⟨h0, h1, dvd_sub hd hs⟩
  obtain ⟨f, d0, k1, k2, k3, k4⟩ := (C57_files compute c dir start stop freq disk disk' hy' h).1 s hsm
  have hd0 : d0.latitude = lat ∧ d0.longitude = lon := by
    cases hl : ((inputDates start stop freq).filter fun s' => decide (SameDay s' s)).head? with
    | none => rw [hl] at k3; simp at k3
    | some s' =>
      rw [hl] at k3
      simp only [Option.map_some, Option.some.injEq] at k3
      have : s' ∈ inputDates start stop freq := (List.mem_filter.1 (List.mem_of_mem_head? hl)).1
      rw [hw s' this] at k3
      injection k3 with k3
      rw [← k3]
      exact hgrid s'
  have hent : f.entries = ((inputDates start stop freq).filter fun s' => decide (SameDay s' s)).map
      fun s' => (s', weather s') := by
    have hsub : ∀ s' ∈ (inputDates start stop freq).filter fun s' => decide (SameDay s' s),
        s' ∈ inputDates start stop freq := fun s' hs' => (List.mem_filter.1 hs').1
    generalize ((inputDates start stop freq).filter fun s' => decide (SameDay s' s)) = l at k4 hsub
    generalize f.entries = es at k4
    clear k3
    induction k4 with
    | nil => rfl
    | cons hab _ ih =>
      obtain ⟨raw, hr, rfl, _, _⟩ := hab
      rw [List.map_cons, ih fun s' hs' => hsub s' (List.mem_cons_of_mem _ hs')]
      rw [hw _ (hsub _ (by simp))] at hr
      injection hr with hr
      subst hr
      congr 2
      rw [hd0.1, hd0.2, ← (hgrid _).1, ← (hgrid _).2]
  refine ⟨f, ?_, k2, ?_, ?_, ?_⟩
  · simp [PrepDisk.files, k1]
  · rw [hent]
    exact List.mem_map.2 ⟨s, List.mem_filter.2 ⟨hsm, by simp [SameDay]⟩, rfl⟩
  · rw [hent, List.map_map, List.pairwise_map]
    exact hlt.filter _
  · intro e he
    rw [hent] at he
    obtain ⟨s', hs', rfl⟩ := List.mem_map.1 he
    rw [List.mem_filter, decide_eq_true_eq] at hs'
    refine ⟨hs'.2, ?_⟩
    have := ((hm s').1 hs'.1).2.2
    have hd' : freq ∣ s' := by
      have := dvd_add this hs
      simpa using this
    exact (by decide : (1000000 : ℤ) ∣ 60000000).trans (hfm.trans hd')

end

/-! ### Demonstration -/

/-- data whose value is the hour of the day -/
def demoCompute (t : ℤ) : Except Err (Dataset ℚ ℚ) :=
  .ok { latitude := [1, 0], longitude := [0, 1, 2], vars := allVars,
        data := fun _ _ _ => (t / 3600000000 % 24 : ℤ) }

/-- what is in a file -/
def demoShow (disk : PrepDisk ℚ ℚ) (p : String) : Option (List (ℤ × ℚ)) :=
  match disk p.toList with
  | some (.data f) => some (f.entries.map fun e => (e.1 / 3600000000, e.2.data .evap 0 0))
  | _ => none

/-- 30 hours in steps of 6 hours into an empty folder -/
def demoRun := prepExperiment demoCompute .standard "in".toList 64800000000 172800000000
  21600000000 (fun _ => none)

example : demoRun.1 = none ∧
    demoShow demoRun.2 "in/1970-01-01_fluxes_storages.nc" = some [(18, 18)] ∧
    demoShow demoRun.2 "in/1970-01-02_fluxes_storages.nc" =
      some [(24, 0), (30, 6), (36, 12), (42, 18)] ∧
    demoShow demoRun.2 "in/1970-01-03_fluxes_storages.nc" = some [(48, 0)] := by decide +kernel

/-- the hypotheses of the theorems hold -/
example : ∀ t ∈ inputDates 64800000000 172800000000 21600000000, FourDigitYear .standard t := by
  unfold FourDigitYear
  decide +kernel

/-- three workers, interleaved -/
example : (parallelPrep demoCompute .standard "in".toList 64800000000 172800000000 21600000000
      [1, 0, 1, 2, 1, 1, 0, 2, 1, 1, 1, 1] (fun _ => none)).1.map
      (fun w => (w.todo, w.failed.isNone)) = [([], true), ([], true), ([], true)] := by
  decide +kernel

/-- 2 January 1970 preprocessed in two runs: the first half of the day is gone -/
example : demoShow (prepExperiment demoCompute .standard "in".toList 129600000000 151200000000
    21600000000 (prepExperiment demoCompute .standard "in".toList 86400000000 108000000000
      21600000000 (fun _ => none)).2).2 "in/1970-01-02_fluxes_storages.nc" =
    some [(36, 12), (42, 18)] := by decide +kernel

end Wam
