import Verif.Model.Visualize
import Verif.Props.Restart
import Verif.Lemmas.Demo

/-!
# C86: what `visualize output` shows of a run
-/
set_option linter.unusedSectionVars false
set_option linter.unusedVariables false

namespace Wam
open Spec

/-! ### Lists of times -/

theorem mem_cftimeRangeLeft (A B f : ℤ) (hf : 0 < f) (t : ℤ) :
    t ∈ cftimeRangeLeft A B f ↔ A ≤ t ∧ t < B ∧ f ∣ t - A := by
  simp only [cftimeRangeLeft, List.mem_map, List.mem_range]
  constructor
  · rintro ⟨k, hk, rfl⟩
    have h1 : ((k : ℤ) + 1) ≤ (B - A + f - 1) / f := by omega
    rw [Int.le_ediv_iff_mul_le hf] at h1
    have h0 : 0 ≤ (k : ℤ) * f := mul_nonneg (by omega) hf.le
    refine ⟨by linarith, by nlinarith, ⟨k, by ring⟩⟩
  · rintro ⟨h1, h2, c, hc⟩
    have hc0 : 0 ≤ c := by
      by_contra h
      have : f * c ≤ f * (-1) := mul_le_mul_of_nonneg_left (by omega) hf.le
      linarith
    refine ⟨c.toNat, ?_, ?_⟩
    · have : c + 1 ≤ (B - A + f - 1) / f := by
        rw [Int.le_ediv_iff_mul_le hf]; nlinarith
      omega
    · rw [Int.toNat_of_nonneg hc0]; linarith [mul_comm c f]

theorem cftimeRangeLeft_lt (A B f : ℤ) (hf : 0 < f) : (cftimeRangeLeft A B f).Pairwise (· < ·) := by
  simp only [cftimeRangeLeft]
  rw [List.pairwise_map]
  refine List.pairwise_lt_range.imp ?_
  intro a b hab
  have : (a : ℤ) < b := by exact_mod_cast hab
  have := mul_lt_mul_of_pos_right this hf
  linarith

theorem eq_of_increasing {l l' : List ℤ} (h : l.Pairwise (· < ·)) (h' : l'.Pairwise (· < ·))
    (hm : ∀ t, t ∈ l ↔ t ∈ l') : l = l' := by
  have n1 : l.Nodup := h.imp fun h => h.ne
  have n2 : l'.Nodup := h'.imp fun h => h.ne
  exact List.Perm.eq_of_pairwise (le := (· < ·)) (fun a b _ _ h1 h2 => absurd h1 (not_lt.2 h2.le)) h h'
    ((List.perm_ext_iff_of_nodup n1 n2).2 hm)

theorem tail_cftimeRangeLeft (A B f : ℤ) (hf : 0 < f) (t : ℤ) :
    t ∈ (cftimeRangeLeft A B f).tail ↔ A < t ∧ t < B ∧ f ∣ t - A := by
  have hp := cftimeRangeLeft_lt A B f hf
  have hm := mem_cftimeRangeLeft A B f hf
  rcases hl : cftimeRangeLeft A B f with _ | ⟨a, l⟩
  · rw [hl] at hm
    simp only [List.tail_nil, List.not_mem_nil, false_iff]
    rintro ⟨h1, h2⟩
    exact absurd ((hm t).2 ⟨h1.le, h2⟩) List.not_mem_nil
  · rw [hl] at hm hp
    have ha : a = A := by
      have h1 := (hm a).1 List.mem_cons_self
      have h2 : A ∈ a :: l := (hm A).2 ⟨le_rfl, by linarith [h1.1, h1.2.1], by simp⟩
      rcases List.mem_cons.1 h2 with h | h
      · exact h.symm
      · have := List.rel_of_pairwise_cons hp h
        linarith [h1.1]
    subst ha
    rw [List.tail_cons]
    constructor
    · intro ht
      exact ⟨List.rel_of_pairwise_cons hp ht, ((hm t).1 (List.mem_cons_of_mem _ ht)).2⟩
    · rintro ⟨h1, h2⟩
      rcases List.mem_cons.1 ((hm t).2 ⟨h1.le, h2⟩) with h | h
      · exact absurd h h1.ne'
      · exact h

/-! ### Opening the files of a run -/

section
variable {P ω : Type} [DecidableEq P] (path : ℤ → P) (disk : P → Option ω)

theorem writeFiles_mem (l : List (ℤ × ω)) (hn : (l.map Prod.fst).Nodup)
    (hpath : ∀ x ∈ l, ∀ y ∈ l, path x.1 = path y.1 → x.1 = y.1) (x) (hx : x ∈ l) :
    writeFiles path disk l (path x.1) = some x.2 := by
  induction l generalizing disk with
  | nil => simp at hx
  | cons y l ih =>
    rw [List.map_cons, List.nodup_cons] at hn
    rcases List.mem_cons.1 hx with rfl | hx'
    · rw [show writeFiles path disk (x :: l) = writeFiles path
        (Function.update disk (path x.1) (some x.2)) l from rfl, writeFiles_other]
      · simp
      · intro z hz e
        have := hpath z (List.mem_cons_of_mem _ hz) x List.mem_cons_self e
        exact hn.1 (this ▸ List.mem_map_of_mem hz)
    · exact ih _ hn.2 (fun a ha b hb => hpath a (List.mem_cons_of_mem _ ha) b (List.mem_cons_of_mem _ hb)) hx'

theorem openOutputs_files (l : List (ℤ × ω)) (hn : (l.map Prod.fst).Nodup)
    (hpath : ∀ x ∈ l, ∀ y ∈ l, path x.1 = path y.1 → x.1 = y.1) (l' : List (ℤ × ω))
    (hl : ∀ x ∈ l', x ∈ l) :
    openOutputs path (writeFiles path disk l) (l'.map Prod.fst) =
      if l' = [] then .error .valueError else .ok (l'.map Prod.snd) := by
  have key : ∀ x ∈ l', writeFiles path disk l (path x.1) = some x.2 := fun x hx =>
    writeFiles_mem path disk l hn hpath x (hl x hx)
  unfold openOutputs
  rw [if_neg, List.length_map]
  · by_cases hnil : l' = []
    · simp [hnil]
    · rw [if_neg hnil, if_neg (by simpa using hnil)]
      congr 1
      rw [List.filterMap_map]
      clear hnil hl
      induction l' with
      | nil => rfl
      | cons x l' ih =>
        rw [List.filterMap_cons_some (b := x.2), List.map_cons,
          ih fun y hy => key y (List.mem_cons_of_mem _ hy)]
        exact key x List.mem_cons_self
  · rw [Bool.not_eq_false, List.all_eq_true]
    intro t ht
    obtain ⟨x, hx, rfl⟩ := List.mem_map.1 ht
    rw [key x hx]
    rfl

end

theorem sumTime_eq {K : Type} [Field K] [LinearOrder K] (l : List K) : sumTime l = l.sum := by
  unfold sumTime
  rw [ofRat_zero, List.sum_eq_foldl]

section
variable {m n : ℕ} {K : Type} [Field K] [LinearOrder K] [IsStrictOrderedRing K] {P : Type} [DecidableEq P]
  (cfg : RunConfig K) (src : Source m n K) (inp : Input m n K) (path : ℤ → P)

/-- **C86** (forward).  Let the run start at a multiple of the output frequency and let the output frequency
be a multiple of the time step.  Then the figure made from the output folder shows, in every cell, the sum of
the tracked precipitation of those files that lie on a multiple of the output frequency strictly before the end
of the tracking period (an error if there is none): the final file of the run is left out. -/
theorem C86_plot_forward (disk : P → Option (FwdOutput (m + 2) (n + 2) K))
    (h : Runnable cfg src inp) {s} (hs : EndsIn (fwdRun cfg src path disk) s)
    (hf : 0 < cfg.output_frequency) (hA : cfg.output_frequency ∣ cfg.tracking_start_date)
    (hdt : cfg.timestep * 1000000 ∣ cfg.output_frequency)
    (hpath : ∀ x ∈ s.files, ∀ y ∈ s.files, path x.1 = path y.1 → x.1 = y.1) :
    let shown := s.files.filter fun x =>
      decide (cfg.output_frequency ∣ x.1 ∧ x.1 < cfg.tracking_end_date)
    plotOutputFwd cfg path (writeFiles path disk s.files) =
      if shown = [] then .error .valueError
      else .ok fun i j => sumFiles shown fun o => o.p_track_lower i j + o.p_track_upper i j := by
  intro shown
  have hd : 0 < cfg.timestep * 1000000 := cfg.dt_pos h.timestep_pos
  have key := C25_output_times_forward cfg src inp path disk h hs
  obtain ⟨hinc, hin, _⟩ := C25_output_order_forward cfg src inp path disk h hs
  have hsh : (shown.map Prod.fst).Pairwise (· < ·) := by
    rw [List.pairwise_map] at hinc ⊢
    exact hinc.filter _
  have e : (cftimeRangeLeft cfg.tracking_start_date cfg.tracking_end_date
      cfg.output_frequency).tail = shown.map Prod.fst := by
    refine eq_of_increasing (List.Pairwise.tail (cftimeRangeLeft_lt _ _ _ hf)) hsh fun t => ?_
    rw [tail_cftimeRangeLeft _ _ _ hf]
    constructor
    · rintro ⟨h1, h2, h3⟩
      have hft : cfg.output_frequency ∣ t := by
        have := dvd_add h3 hA; simpa using this
      have : t ∈ s.files.map Prod.fst := by
        rw [key, List.mem_filter, List.mem_map]
        refine ⟨?_, by simp [hft]⟩
        obtain ⟨c, hc⟩ := hdt.trans h3
        have hc0 : 0 < c := by
          by_contra hneg
          have := mul_le_mul_of_nonneg_left (show c ≤ 0 by omega) hd.le
          linarith
        refine ⟨(c - 1).toNat, ?_, ?_⟩
        · rw [List.mem_range]
          have : c ≤ (cfg.tracking_end_date - cfg.tracking_start_date) / (cfg.timestep * 1000000) := by
            rw [Int.le_ediv_iff_mul_le hd]; linarith [mul_comm c (cfg.timestep * 1000000)]
          omega
        · rw [Int.toNat_of_nonneg (by omega)]
          linarith [mul_comm c (cfg.timestep * 1000000)]
      obtain ⟨x, hx, rfl⟩ := List.mem_map.1 this
      exact List.mem_map_of_mem (List.mem_filter.2 ⟨hx, by simp [hft, h2]⟩)
    · intro ht
      obtain ⟨x, hx, rfl⟩ := List.mem_map.1 ht
      obtain ⟨hx1, hx2⟩ := List.mem_filter.1 hx
      have hx2 := of_decide_eq_true hx2
      exact ⟨(hin x hx1).1, hx2.2, dvd_sub hx2.1 hA⟩
  have := openOutputs_files path disk s.files (hinc.imp fun h => h.ne) hpath shown
    (fun x hx => (List.mem_filter.1 hx).1)
  simp only [plotOutputFwd, e, this]
  by_cases hnil : shown = []
  · simp [hnil]
  · simp only [if_neg hnil]
    congr 1
    funext i j
    simp only [sumTime_eq, List.map_map, sumFiles]
    rw [← List.sum_map_add]
    rfl

/-- **C86** (forward): if in addition the tracking period is a whole number of time steps, the figure lacks
exactly the last file of the run: what is shown plus the tracked precipitation of the file at the end of the
period is the sum over all files. -/
theorem C86_last_file_is_missing_forward (disk : P → Option (FwdOutput (m + 2) (n + 2) K))
    (h : Runnable cfg src inp) {s} (hs : EndsIn (fwdRun cfg src path disk) s)
    (hf : 0 < cfg.output_frequency) (hA : cfg.output_frequency ∣ cfg.tracking_start_date)
    (hdt : cfg.timestep * 1000000 ∣ cfg.output_frequency)
    (hAB : cfg.tracking_start_date < cfg.tracking_end_date)
    (hB : cfg.timestep * 1000000 ∣ cfg.tracking_end_date - cfg.tracking_start_date)
    (hpath : ∀ x ∈ s.files, ∀ y ∈ s.files, path x.1 = path y.1 → x.1 = y.1)
    (shown) (hok : plotOutputFwd cfg path (writeFiles path disk s.files) = .ok shown) :
    ∃ last : FwdOutput (m + 2) (n + 2) K, (cfg.tracking_end_date, last) ∈ s.files ∧ ∀ i j,
      shown i j + (last.p_track_lower i j + last.p_track_upper i j) =
        sumFiles s.files fun o => o.p_track_lower i j + o.p_track_upper i j := by
  have hd : 0 < cfg.timestep * 1000000 := cfg.dt_pos h.timestep_pos
  have hplot := C86_plot_forward cfg src inp path disk h hs hf hA hdt hpath
  have key := C25_output_times_forward cfg src inp path disk h hs
  obtain ⟨hinc, hin, hlast⟩ := C25_output_order_forward cfg src inp path disk h hs
  have hB' : cfg.tracking_start_date + ((cfg.tracking_end_date - cfg.tracking_start_date) /
      (cfg.timestep * 1000000)).toNat * (cfg.timestep * 1000000) = cfg.tracking_end_date := by
    obtain ⟨c, hc⟩ := hB
    have hc0 : 0 < c := by
      by_contra hneg
      have := mul_le_mul_of_nonneg_left (show c ≤ 0 by omega) hd.le
      linarith
    rw [hc, Int.mul_ediv_cancel_left _ hd.ne', Int.toNat_of_nonneg hc0.le]
    linarith [mul_comm c (cfg.timestep * 1000000)]
  simp only at key
  rw [hB'] at key
  -- the list of files ends with the file at the end of the period
  have h1 : cfg.tracking_start_date + cfg.timestep * 1000000 ≤ cfg.tracking_end_date := by
    obtain ⟨c, hc⟩ := hB
    have hc0 : 1 ≤ c := by
      by_contra hneg
      have := mul_le_mul_of_nonneg_left (show c ≤ 0 by omega) hd.le
      linarith
    have := mul_le_mul_of_nonneg_left hc0 hd.le
    linarith
  obtain ⟨hl1, hl2⟩ := hlast h1
  have hmemB : cfg.tracking_end_date ∈ s.files.map Prod.fst := by
    rw [key, List.mem_filter, List.mem_map]
    refine ⟨⟨((cfg.tracking_end_date - cfg.tracking_start_date) / (cfg.timestep * 1000000)).toNat - 1,
      ?_, ?_⟩, by simp⟩
    · rw [List.mem_range]
      have : 1 ≤ (cfg.tracking_end_date - cfg.tracking_start_date) / (cfg.timestep * 1000000) := by
        rw [Int.le_ediv_iff_mul_le hd]; linarith
      omega
    · have : 1 ≤ (cfg.tracking_end_date - cfg.tracking_start_date) / (cfg.timestep * 1000000) := by
        rw [Int.le_ediv_iff_mul_le hd]; linarith
      rw [Nat.cast_sub (by omega)]
      simpa using hB'
  rcases List.eq_nil_or_concat s.files with hnil | ⟨init, x, hx⟩
  · rw [hnil] at hmemB; simp at hmemB
  rw [List.concat_eq_append] at hx
  have hxB : x.1 = cfg.tracking_end_date := by
    rw [hx] at hmemB hinc
    rw [List.map_append, List.mem_append] at hmemB
    rcases hmemB with hm | hm
    · rw [List.map_append, List.pairwise_append] at hinc
      have := hinc.2.2 _ hm x.1 (by simp)
      have := (hin x (by rw [hx]; simp)).2
      omega
    · exact (by simpa using hm : cfg.tracking_end_date = x.1).symm
  refine ⟨x.2, by rw [hx, ← hxB]; simp, fun i j => ?_⟩
  -- everything before the last file is shown
  have hshown : (s.files.filter fun y =>
      decide (cfg.output_frequency ∣ y.1 ∧ y.1 < cfg.tracking_end_date)) = init := by
    rw [hx, List.filter_append]
    have e2 : List.filter (fun y : ℤ × FwdOutput (m + 2) (n + 2) K => decide (cfg.output_frequency ∣ y.1 ∧
        y.1 < cfg.tracking_end_date)) [x] = [] := by
      simp [hxB]
    rw [e2, List.append_nil, List.filter_eq_self]
    intro y hy
    have hy' : y ∈ s.files := by rw [hx]; exact List.mem_append_left _ hy
    have hlt : y.1 < cfg.tracking_end_date := by
      rw [hx, List.map_append, List.pairwise_append] at hinc
      rw [← hxB]
      exact hinc.2.2 _ (List.mem_map_of_mem hy) x.1 (by simp)
    have hmem : y.1 ∈ s.files.map Prod.fst := List.mem_map_of_mem hy'
    rw [key, List.mem_filter] at hmem
    have h2 := of_decide_eq_true hmem.2
    have : cfg.output_frequency ∣ y.1 := by
      rcases h2 with h2 | h2
      · exact h2
      · omega
    simp [this, hlt]
  simp only [hshown] at hplot
  rw [hok] at hplot
  by_cases hin' : init = []
  · simp [hin'] at hplot
  · rw [if_neg hin'] at hplot
    have := Except.ok.inj hplot
    rw [this, hx]
    simp [sumFiles]

/-- **C86** (forward): if the run does not start at a multiple of the output frequency, the files that the
figure asks for do not exist, unless they were there before the run: an error. -/
theorem C86_unaligned_start_forward (disk : P → Option (FwdOutput (m + 2) (n + 2) K))
    (h : Runnable cfg src inp) {s} (hs : EndsIn (fwdRun cfg src path disk) s)
    (hf : 0 < cfg.output_frequency) (hA : ¬ cfg.output_frequency ∣ cfg.tracking_start_date)
    (hlong : cfg.tracking_start_date + cfg.output_frequency < cfg.tracking_end_date)
    (hfin : cfg.tracking_start_date + cfg.output_frequency ≠ s.t0)
    (hpath : ∀ x ∈ s.files, path x.1 ≠ path (cfg.tracking_start_date + cfg.output_frequency) ∨
      x.1 = cfg.tracking_start_date + cfg.output_frequency)
    (hdisk : disk (path (cfg.tracking_start_date + cfg.output_frequency)) = none) :
    plotOutputFwd cfg path (writeFiles path disk s.files) = .error .fileNotFound := by
  have key := C25_output_times_forward cfg src inp path disk h hs
  obtain ⟨o, r, _, e⟩ := fwd_ends cfg src inp path disk h hs
  have ht0 : s.t0 = cfg.tracking_start_date + cfg.steps * (cfg.timestep * 1000000) := by rw [e]; rfl
  have hno : ∀ x ∈ s.files, path x.1 ≠ path (cfg.tracking_start_date + cfg.output_frequency) := by
    intro x hx
    rcases hpath x hx with h1 | h1
    · exact h1
    · exfalso
      have hmem : x.1 ∈ s.files.map Prod.fst := List.mem_map_of_mem hx
      rw [key, List.mem_filter] at hmem
      rcases of_decide_eq_true hmem.2 with h2 | h2
      · rw [h1] at h2
        exact hA ((dvd_add_left dvd_rfl).1 h2)
      · exact hfin (by rw [ht0, ← h1, h2]; rfl)
  have hmiss : writeFiles path disk s.files (path (cfg.tracking_start_date + cfg.output_frequency)) =
      none := by rw [writeFiles_other _ _ _ _ hno, hdisk]
  have hin : cfg.tracking_start_date + cfg.output_frequency ∈ (cftimeRangeLeft cfg.tracking_start_date
      cfg.tracking_end_date cfg.output_frequency).tail :=
    (tail_cftimeRangeLeft _ _ _ hf _).2 ⟨by linarith, hlong, by simp⟩
  simp only [plotOutputFwd, openOutputs]
  rw [if_pos]
  rw [List.all_eq_false]
  exact ⟨_, hin, by simp [hmiss]⟩

/-- **C86** (backward).  Let the run start (in time) at a multiple of the output frequency, the output frequency
be a multiple of the time step and the tracking period a whole number of time steps.  Then the figure shows the
sum of the tracked evaporation of all files except the first one that the run wrote (an error if there is no
other). -/
theorem C86_plot_backward (disk : P → Option (BwdOutput (m + 2) (n + 2) K))
    (h : Runnable cfg src inp) {s} (hs : EndsIn (bwdRun cfg src path disk) s)
    (hf : 0 < cfg.output_frequency) (hA : cfg.output_frequency ∣ cfg.tracking_start_date)
    (hdt : cfg.timestep * 1000000 ∣ cfg.output_frequency)
    (hB : cfg.timestep * 1000000 ∣ cfg.tracking_end_date - cfg.tracking_start_date)
    (hpath : ∀ x ∈ s.files, ∀ y ∈ s.files, path x.1 = path y.1 → x.1 = y.1) :
    plotOutputBwd cfg path (writeFiles path disk s.files) =
      if s.files.tail = [] then .error .valueError
      else .ok fun i j => sumFiles s.files.tail fun o => o.e_track i j := by
  have hd : 0 < cfg.timestep * 1000000 := cfg.dt_pos h.timestep_pos
  have key := C25_output_times_backward cfg src inp path disk h hs
  obtain ⟨hinc, hin, _⟩ := C25_output_order_backward cfg src inp path disk h hs
  have hAB := h.ordered
  have hN : cfg.tracking_end_date - ((cfg.tracking_end_date - cfg.tracking_start_date) /
      (cfg.timestep * 1000000)).toNat * (cfg.timestep * 1000000) = cfg.tracking_start_date := by
    rw [Int.toNat_of_nonneg (Int.ediv_nonneg (by linarith) hd.le), Int.ediv_mul_cancel hB]
    ring
  simp only at key
  rw [hN] at key
  have e : cftimeRangeLeft cfg.tracking_start_date cfg.tracking_end_date cfg.output_frequency =
      (s.files.map Prod.fst).reverse := by
    refine eq_of_increasing (cftimeRangeLeft_lt _ _ _ hf) (List.pairwise_reverse.2 hinc) fun t => ?_
    rw [mem_cftimeRangeLeft _ _ _ hf, List.mem_reverse, key, List.mem_filter, List.mem_map]
    constructor
    · rintro ⟨h1, h2, h3⟩
      have hft : cfg.output_frequency ∣ t := by
        have := dvd_add h3 hA; simpa using this
      refine ⟨?_, by simp [hft]⟩
      have h4 : cfg.timestep * 1000000 ∣ cfg.tracking_end_date - t := by
        have := dvd_sub hB (hdt.trans h3)
        have e : cfg.tracking_end_date - cfg.tracking_start_date - (t - cfg.tracking_start_date) =
          cfg.tracking_end_date - t := by ring
        rwa [e] at this
      obtain ⟨c, hc⟩ := h4
      have hc0 : 0 < c := by
        by_contra hneg
        have := mul_le_mul_of_nonneg_left (show c ≤ 0 by omega) hd.le
        linarith
      refine ⟨(c - 1).toNat, ?_, ?_⟩
      · rw [List.mem_range]
        have : c ≤ (cfg.tracking_end_date - cfg.tracking_start_date) / (cfg.timestep * 1000000) := by
          rw [Int.le_ediv_iff_mul_le hd]; linarith [mul_comm c (cfg.timestep * 1000000)]
        omega
      · rw [Int.toNat_of_nonneg (by omega)]
        linarith [mul_comm c (cfg.timestep * 1000000)]
    · rintro ⟨⟨k, hk, rfl⟩, h2⟩
      rw [List.mem_range] at hk
      have hk' : (k : ℤ) + 1 ≤ (cfg.tracking_end_date - cfg.tracking_start_date) /
          (cfg.timestep * 1000000) := by omega
      rw [Int.le_ediv_iff_mul_le hd] at hk'
      have hpos : 0 < ((k : ℤ) + 1) * (cfg.timestep * 1000000) := by positivity
      refine ⟨by linarith, by linarith, ?_⟩
      rcases of_decide_eq_true h2 with h2 | h2
      · exact dvd_sub h2 hA
      · rw [h2]; simp
  have hrev : (cftimeRangeLeft cfg.tracking_start_date cfg.tracking_end_date
      cfg.output_frequency).dropLast = (s.files.tail.reverse).map Prod.fst := by
    rw [e, List.dropLast_reverse, List.map_reverse, List.map_tail]
  have := openOutputs_files path disk s.files (hinc.imp fun h => h.ne') hpath s.files.tail.reverse
    (fun x hx => List.mem_of_mem_tail (List.mem_reverse.1 hx))
  simp only [plotOutputBwd, hrev, this]
  by_cases hnil : s.files.tail = []
  · simp [hnil]
  · simp only [if_neg hnil, List.reverse_eq_nil_iff]
    congr 1
    funext i j
    simp only [sumTime_eq, List.map_map, sumFiles]
    rw [List.map_reverse, List.sum_reverse]
    rfl

/-- **C86** (backward): hence what is shown plus the tracked evaporation of the first file of the run is the
sum over all files. -/
theorem C86_first_file_is_missing_backward (disk : P → Option (BwdOutput (m + 2) (n + 2) K))
    (h : Runnable cfg src inp) {s} (hs : EndsIn (bwdRun cfg src path disk) s)
    (hf : 0 < cfg.output_frequency) (hA : cfg.output_frequency ∣ cfg.tracking_start_date)
    (hdt : cfg.timestep * 1000000 ∣ cfg.output_frequency)
    (hB : cfg.timestep * 1000000 ∣ cfg.tracking_end_date - cfg.tracking_start_date)
    (hpath : ∀ x ∈ s.files, ∀ y ∈ s.files, path x.1 = path y.1 → x.1 = y.1)
    (shown) (hok : plotOutputBwd cfg path (writeFiles path disk s.files) = .ok shown) :
    ∃ t first, s.files.head? = some (t, first) ∧ ∀ i j,
      shown i j + first.e_track i j = sumFiles s.files fun o => o.e_track i j := by
  rw [C86_plot_backward cfg src inp path disk h hs hf hA hdt hB hpath] at hok
  by_cases hnil : s.files.tail = []
  · simp [hnil] at hok
  · rw [if_neg hnil] at hok
    have hok := Except.ok.inj hok
    rcases hfiles : s.files with _ | ⟨x, l⟩
    · simp [hfiles] at hnil
    · refine ⟨x.1, x.2, rfl, fun i j => ?_⟩
      rw [← hok, hfiles]
      simp [sumFiles, add_comm]

/-- **C86** (backward): if the tracking period does not start at a multiple of the output frequency, the
figure asks for a file that the run does not write. -/
theorem C86_unaligned_start_backward (disk : P → Option (BwdOutput (m + 2) (n + 2) K))
    (h : Runnable cfg src inp) {s} (hs : EndsIn (bwdRun cfg src path disk) s)
    (hf : 0 < cfg.output_frequency) (hA : ¬ cfg.output_frequency ∣ cfg.tracking_start_date)
    (hlong : cfg.tracking_start_date + 2 * cfg.output_frequency < cfg.tracking_end_date)
    (hfin : cfg.tracking_start_date + cfg.output_frequency ≠ s.t1)
    (hpath : ∀ x ∈ s.files, path x.1 ≠ path (cfg.tracking_start_date + cfg.output_frequency) ∨
      x.1 = cfg.tracking_start_date + cfg.output_frequency)
    (hdisk : disk (path (cfg.tracking_start_date + cfg.output_frequency)) = none) :
    plotOutputBwd cfg path (writeFiles path disk s.files) = .error .fileNotFound := by
  have key := C25_output_times_backward cfg src inp path disk h hs
  obtain ⟨o, r, _, e⟩ := bwd_ends cfg src inp path disk h hs
  have ht1 : s.t1 = cfg.tracking_end_date - cfg.steps * (cfg.timestep * 1000000) := by rw [e]; rfl
  have hno : ∀ x ∈ s.files, path x.1 ≠ path (cfg.tracking_start_date + cfg.output_frequency) := by
    intro x hx
    rcases hpath x hx with h1 | h1
    · exact h1
    · exfalso
      have hmem : x.1 ∈ s.files.map Prod.fst := List.mem_map_of_mem hx
      rw [key, List.mem_filter] at hmem
      rcases of_decide_eq_true hmem.2 with h2 | h2
      · rw [h1] at h2
        exact hA ((dvd_add_left dvd_rfl).1 h2)
      · exact hfin (by rw [ht1, ← h1, h2]; rfl)
  have hmiss : writeFiles path disk s.files (path (cfg.tracking_start_date + cfg.output_frequency)) =
      none := by rw [writeFiles_other _ _ _ _ hno, hdisk]
  set D := cftimeRangeLeft cfg.tracking_start_date cfg.tracking_end_date cfg.output_frequency with hD
  have hp : D.Pairwise (· < ·) := cftimeRangeLeft_lt _ _ _ hf
  have hm1 : cfg.tracking_start_date + cfg.output_frequency ∈ D :=
    (mem_cftimeRangeLeft _ _ _ hf _).2 ⟨by linarith, by linarith, by simp⟩
  have hm2 : cfg.tracking_start_date + 2 * cfg.output_frequency ∈ D :=
    (mem_cftimeRangeLeft _ _ _ hf _).2 ⟨by linarith, hlong, by simp⟩
  have hin : cfg.tracking_start_date + cfg.output_frequency ∈ D.dropLast := by
    rcases List.eq_nil_or_concat D with hnil | ⟨init, x, hx⟩
    · rw [hnil] at hm1; simp at hm1
    · rw [List.concat_eq_append] at hx
      rw [hx, List.dropLast_concat]
      rw [hx] at hm1 hm2 hp
      rcases List.mem_append.1 hm1 with hm1 | hm1
      · exact hm1
      · exfalso
        have hx1 : cfg.tracking_start_date + cfg.output_frequency = x := by simpa using hm1
        rcases List.mem_append.1 hm2 with hm2 | hm2
        · have := (List.pairwise_append.1 hp).2.2 _ hm2 x (by simp)
          linarith
        · have : cfg.tracking_start_date + 2 * cfg.output_frequency = x := by simpa using hm2
          linarith
  simp only [plotOutputBwd, openOutputs]
  rw [if_pos]
  rw [List.all_eq_false]
  exact ⟨_, hin, by simp [hmiss]⟩

end

/-! ### Non-vacuity: the demonstration experiment -/

/-- the forward run writes two files, the figure shows the first one only -/
example : ∃ s shown, EndsIn (fwdRun Demo.cfg Demo.src Demo.path fun _ => none) s ∧ s.files.length = 2 ∧
    plotOutputFwd Demo.cfg Demo.path (writeFiles Demo.path (fun _ => none) s.files) = .ok shown := by
  obtain ⟨s, hs, hf⟩ := Demo.fwd_ends
  have h := C86_plot_forward Demo.cfg Demo.src Demo.inp Demo.path _ Demo.runnable hs (by decide)
    (by decide) (by decide) (fun x _ y _ h => h)
  have hl : s.files.length = 2 := by simpa using congrArg List.length hf
  simp only at h
  rw [if_neg] at h
  · exact ⟨s, _, hs, hl, h⟩
  · intro hnil
    rcases hfs : s.files with _ | ⟨x, l⟩
    · rw [hfs] at hl; simp at hl
    · rw [hfs] at hf
      have hx : x.1 = 2 * Demo.step := by
        have := congrArg List.head? hf; simpa using this
      have : x ∈ s.files.filter fun x => decide (Demo.cfg.output_frequency ∣ x.1 ∧
          x.1 < Demo.cfg.tracking_end_date) := by
        rw [hfs, List.mem_filter]
        refine ⟨List.mem_cons_self, ?_⟩
        rw [hx]; decide
      rw [hnil] at this
      simp at this

/-- the backward run writes two files, the figure shows the second one only -/
example : ∃ s shown, EndsIn (bwdRun Demo.cfg Demo.src Demo.path fun _ => none) s ∧ s.files.length = 2 ∧
    plotOutputBwd Demo.cfg Demo.path (writeFiles Demo.path (fun _ => none) s.files) = .ok shown := by
  obtain ⟨s, hs, hf⟩ := Demo.bwd_ends
  have h := C86_plot_backward Demo.cfg Demo.src Demo.inp Demo.path _ Demo.runnable hs (by decide)
    (by decide) (by decide) (by decide) (fun x _ y _ h => h)
  have hl : s.files.length = 2 := by simpa using congrArg List.length hf
  rw [if_neg] at h
  · exact ⟨s, _, hs, hl, h⟩
  · intro hnil
    have := congrArg List.length hnil
    simp [hl] at this

/-- a run that starts half an output period after a multiple of the output frequency -/
def lateCfg : RunConfig ℚ :=
  { Demo.cfg with tracking_start_date := 300000000, output_frequency := Demo.step }

theorem lateRunnable : Runnable lateCfg Demo.src Demo.inp where
  timestep_pos := by decide
  ordered := by decide
  serves :=
    { states := fun t h0 h1 => if_pos ⟨le_trans (by decide) h0, h1⟩
      fluxes := fun t h0 h1 => if_pos ⟨le_trans (by decide) h0, h1⟩
      region := ⟨_, rfl, fun t _ _ => rfl⟩ }

example : ∃ s, EndsIn (fwdRun lateCfg Demo.src Demo.path fun _ => none) s ∧
    plotOutputFwd lateCfg Demo.path (writeFiles Demo.path (fun _ => none) s.files) =
      .error .fileNotFound := by
  obtain ⟨o, ho⟩ := fwd_init_ok lateCfg Demo.src Demo.inp Demo.path (fun _ => none) lateRunnable (by decide)
  obtain ⟨r, _, _, hrun⟩ := fwd_run_eq lateCfg Demo.src Demo.inp Demo.path _ lateRunnable o ho
  have hs : EndsIn (fwdRun lateCfg Demo.src Demo.path fun _ => none)
      (fwdStateAt lateCfg Demo.src Demo.inp r o lateCfg.steps) :=
    ⟨lateCfg.steps, fun fuel hf => (hrun fuel).trans (if_neg (not_lt.mpr hf))⟩
  refine ⟨_, hs, C86_unaligned_start_forward lateCfg Demo.src Demo.inp Demo.path _ lateRunnable hs
    (by decide) (by decide) (by decide) ?_ ?_ rfl⟩
  · show lateCfg.tracking_start_date + lateCfg.output_frequency ≠ lateCfg.fwdTime lateCfg.steps
    decide
  · intro x _
    by_cases h : x.1 = lateCfg.tracking_start_date + lateCfg.output_frequency
    · exact Or.inr h
    · exact Or.inl h

example : ∃ s, EndsIn (bwdRun lateCfg Demo.src Demo.path fun _ => none) s ∧
    plotOutputBwd lateCfg Demo.path (writeFiles Demo.path (fun _ => none) s.files) =
      .error .fileNotFound := by
  obtain ⟨o, ho⟩ := bwd_init_ok lateCfg Demo.src Demo.inp Demo.path (fun _ => none) lateRunnable (by decide)
  obtain ⟨r, _, _, hrun⟩ := bwd_run_eq lateCfg Demo.src Demo.inp Demo.path _ lateRunnable o ho
  have hs : EndsIn (bwdRun lateCfg Demo.src Demo.path fun _ => none)
      (bwdStateAt lateCfg Demo.src Demo.inp r o lateCfg.steps) :=
    ⟨lateCfg.steps, fun fuel hf => (hrun fuel).trans (if_neg (not_lt.mpr hf))⟩
  refine ⟨_, hs, C86_unaligned_start_backward lateCfg Demo.src Demo.inp Demo.path _ lateRunnable hs
    (by decide) (by decide) (by decide) ?_ ?_ rfl⟩
  · show lateCfg.tracking_start_date + lateCfg.output_frequency ≠ lateCfg.bwdTime lateCfg.steps
    decide
  · intro x _
    by_cases h : x.1 = lateCfg.tracking_start_date + lateCfg.output_frequency
    · exact Or.inr h
    · exact Or.inl h

end Wam
