import Verif.Spec.Prep
import Verif.Lemmas.Names
import Mathlib.Data.List.Nodup
import Mathlib.Data.List.Perm.Basic
import Mathlib.Tactic.Linarith

/-! # Days, groups and files of the preprocessing run -/

set_option linter.unusedSectionVars false
set_option linter.unusedVariables false

namespace Wam
open Spec

/-! ### Days -/

theorem dayKey_iff (c : Calendar) (t t' : ℤ) : dayKey c t = dayKey c t' ↔ SameDay t t' := by
  unfold SameDay
  rw [show (t / 86400000000 = t' / 86400000000) = (t / usPerDay = t' / usPerDay) from rfl,
    ← date_eq_iff c]
  have h1 := monthDay_lt c _ (dateTimeOf_valid c t).1
  have h2 := monthDay_lt c _ (dateTimeOf_valid c t').1
  unfold dayKey
  constructor
  · intro h
    generalize (dateTimeOf c t).date = d at *
    generalize (dateTimeOf c t').date = d' at *
    cases d; cases d'
    simp only [Date.mk.injEq] at *
    omega
  · intro h; simp only [h]

theorem dayKey_mono (c : Calendar) {t t' : ℤ} (h : t ≤ t') : dayKey c t ≤ dayKey c t' := by
  have h1 := monthDay_lt c _ (dateTimeOf_valid c t).1
  have h2 := monthDay_lt c _ (dateTimeOf_valid c t').1
  rcases eq_or_lt_of_le (Int.ediv_le_ediv (by decide : 0 < usPerDay) h) with he | hl
  · exact ((dayKey_iff c t t').2 he).le
  · have hb := Calendar.decode_before c
      (show t / usPerDay + c.encode epochDate < t' / usPerDay + c.encode epochDate by omega)
    rw [show c.decode (t / usPerDay + c.encode epochDate) = (dateTimeOf c t).date from rfl,
      show c.decode (t' / usPerDay + c.encode epochDate) = (dateTimeOf c t').date from rfl] at hb
    unfold Date.before at hb
    unfold dayKey
    generalize (dateTimeOf c t).date = d at *
    generalize (dateTimeOf c t').date = d' at *
    simp only
    rcases hb with hb | ⟨hb, hb' | ⟨hb', hb''⟩⟩ <;> omega

theorem SameDay.refl (t : ℤ) : SameDay t t := rfl

/-! ### Times -/

theorem roundTime_mono (u : ℤ) (hu : 0 < u) {s t : ℤ} (h : s ≤ t) : roundTime s u ≤ roundTime t u := by
  unfold roundTime
  split
  · unfold ceilTime
    have e : ∀ x : ℤ, x + -x % u = -(u * (-x / u)) := by
      intro x
      have := Int.emod_add_mul_ediv (-x) u
      linarith
    rw [e, e]
    have := Int.ediv_le_ediv hu (show -(t - u / 2) ≤ -(s - u / 2) by omega)
    have := mul_le_mul_of_nonneg_left this hu.le
    linarith
  · simp only
    have hq := Int.ediv_le_ediv hu h
    have h1 := Int.emod_add_mul_ediv s u
    have h2 := Int.emod_add_mul_ediv t u
    have h3 := Int.emod_nonneg s hu.ne'
    have h4 := Int.emod_lt_of_pos s hu
    have h5 := Int.emod_nonneg t hu.ne'
    have h6 := Int.emod_lt_of_pos t hu
    rcases eq_or_lt_of_le hq with he | hl
    · rw [he] at h1
      rw [he]
      have hle : s % u ≤ t % u := by omega
      split_ifs with a b b
      · exact le_rfl
      · exfalso
        rcases a with a | a
        · exact b (.inl (by omega))
        · by_cases hc : t % u = u / 2
          · exact b (.inr ⟨hc, a.2⟩)
          · exact b (.inl (by omega))
      · exact mul_le_mul_of_nonneg_right (by omega) hu.le
      · exact le_rfl
    · have : (s / u + 1) * u ≤ t / u * u := mul_le_mul_of_nonneg_right (by omega) hu.le
      have : s / u * u ≤ t / u * u := mul_le_mul_of_nonneg_right (by omega) hu.le
      have : t / u * u ≤ (t / u + 1) * u := mul_le_mul_of_nonneg_right (by omega) hu.le
      split_ifs <;> omega

theorem inputDates_mem (start stop freq : ℤ) (hf : 0 < freq) (t : ℤ) :
    t ∈ inputDates start stop freq ↔
      ∃ k : ℕ, start + k * freq ≤ stop ∧ t = roundTime (start + k * freq) 60000000 := by
  unfold inputDates
  simp only [List.mem_map, List.mem_range]
  have key : ∀ k : ℕ, k < ((stop - start) / freq + 1).toNat ↔ start + k * freq ≤ stop := by
    intro k
    have h1 : (k : ℤ) ≤ (stop - start) / freq ↔ (k : ℤ) * freq ≤ stop - start :=
      Int.le_ediv_iff_mul_le hf
    constructor
    · intro h
      have : (k : ℤ) ≤ (stop - start) / freq := by omega
      have := h1.1 this
      omega
    · intro h
      have := h1.2 (by omega)
      omega
  constructor
  · rintro ⟨_, ⟨k, hk, rfl⟩, rfl⟩
    exact ⟨k, (key k).1 hk, rfl⟩
  · rintro ⟨k, hk, rfl⟩
    exact ⟨_, ⟨k, (key k).2 hk, rfl⟩, rfl⟩

theorem inputDates_sorted (start stop freq : ℤ) (hf : 0 < freq) :
    (inputDates start stop freq).Pairwise (· ≤ ·) := by
  unfold inputDates
  rw [List.pairwise_map, List.pairwise_map]
  refine List.pairwise_lt_range.imp ?_
  intro a b hab
  apply roundTime_mono _ (by decide)
  have : (a : ℤ) * freq ≤ b * freq := mul_le_mul_of_nonneg_right (by omega) hf.le
  omega

/-! ### Groups -/

theorem groupByDay_flatten (c : Calendar) (ts : List ℤ) (h : ts.Pairwise (· ≤ ·)) :
    ((groupByDay c ts).map Prod.snd).flatten = ts := by
  unfold groupByDay
  rw [List.map_map]
  set ks := (ts.map (dayKey c)).dedup.insertionSort (· ≤ ·) with hks
  have hperm : ks.Perm (ts.map (dayKey c)).dedup := List.perm_insertionSort _ _
  have hnd : ks.Nodup := hperm.nodup_iff.2 (List.nodup_dedup _)
  have hsorted : ks.Pairwise (· ≤ ·) := List.pairwise_insertionSort _ _
  have hmem : ∀ t ∈ ts, dayKey c t ∈ ks := fun t ht => by
    rw [hperm.mem_iff, List.mem_dedup]; exact List.mem_map_of_mem ht
  have hflat : (ks.map (Prod.snd ∘ fun k => (k, ts.filter fun t => decide (dayKey c t = k)))).flatten =
      ks.flatMap fun k => ts.filter fun t => decide (dayKey c t = k) := by
    rw [List.flatMap_def]; rfl
  rw [hflat]
  refine List.Perm.eq_of_pairwise (le := (· ≤ ·)) (fun a b _ _ h1 h2 => le_antisymm h1 h2) ?_ h ?_
  · -- sorted
    rw [List.flatMap_def, List.pairwise_flatten, List.pairwise_map]
    constructor
    · intro l hl
      obtain ⟨k, _, rfl⟩ := List.mem_map.1 hl
      exact h.filter _
    · have hlt : ks.Pairwise (· < ·) := (hsorted.and hnd).imp fun h => lt_of_le_of_ne h.1 h.2
      refine hlt.imp ?_
      intro k k' hkk x hx y hy
      rw [List.mem_filter, decide_eq_true_eq] at hx hy
      by_contra hc
      have := dayKey_mono c (le_of_lt (not_le.1 hc))
      omega
  · -- permutation
    rw [List.perm_iff_count]
    intro a
    rw [List.count_flatMap]
    have hc : ∀ k, (List.count a ∘ fun k => ts.filter fun t => decide (dayKey c t = k)) k =
        if k = dayKey c a then ts.count a else 0 := by
      intro k
      simp only [Function.comp]
      split
      · rename_i hk
        rw [List.count_filter (by simp [hk])]
      · rename_i hk
        rw [List.count_eq_zero]
        simp only [List.mem_filter, decide_eq_true_eq, not_and]
        exact fun _ e => hk e.symm
    rw [List.map_congr_left fun k _ => hc k]
    by_cases ha : a ∈ ts
    · have hk := hmem a ha
      clear_value ks
      clear hmem hperm hsorted hflat hks hc
      induction ks with
      | nil => simp at hk
      | cons k ks ih =>
        rw [List.nodup_cons] at hnd
        rw [List.map_cons, List.sum_cons]
        by_cases hka : k = dayKey c a
        · rw [if_pos hka]
          have : (ks.map fun k => if k = dayKey c a then ts.count a else 0).sum = 0 := by
            apply List.sum_eq_zero
            intro x hx
            obtain ⟨k', hk', rfl⟩ := List.mem_map.1 hx
            rw [if_neg]
            rintro rfl
            exact hnd.1 (hka ▸ hk')
          omega
        · rw [if_neg hka, zero_add]
          rcases List.mem_cons.1 hk with h | h
          · exact absurd h.symm hka
          · exact ih hnd.2 h
    · rw [List.count_eq_zero.2 ha]
      apply List.sum_eq_zero
      intro x hx
      obtain ⟨k', hk', rfl⟩ := List.mem_map.1 hx
      split <;> rfl

theorem groupByDay_spec (c : Calendar) (ts : List ℤ) {g : List ℤ}
    (hg : g ∈ (groupByDay c ts).map Prod.snd) :
    g ≠ [] ∧ ∀ t ∈ g, g = ts.filter fun s => decide (SameDay s t) := by
  unfold groupByDay at hg
  rw [List.map_map, List.mem_map] at hg
  obtain ⟨k, hk, rfl⟩ := hg
  rw [(List.perm_insertionSort _ _).mem_iff, List.mem_dedup, List.mem_map] at hk
  obtain ⟨t, ht, rfl⟩ := hk
  simp only [Function.comp]
  constructor
  · intro he
    rw [List.filter_eq_nil_iff] at he
    exact he t ht (by simp)
  · intro s hs
    rw [List.mem_filter, decide_eq_true_eq] at hs
    apply List.filter_congr
    intro x hx
    rw [decide_eq_decide, ← hs.2, dayKey_iff]

theorem groupByDay_distinct (c : Calendar) (ts : List ℤ) :
    ((groupByDay c ts).map Prod.snd).Pairwise fun g g' => ∀ t ∈ g, ∀ t' ∈ g', ¬ SameDay t t' := by
  unfold groupByDay
  rw [List.map_map, List.pairwise_map]
  have hnd : ((ts.map (dayKey c)).dedup.insertionSort (· ≤ ·)).Nodup :=
    (List.perm_insertionSort _ _).nodup_iff.2 (List.nodup_dedup _)
  refine hnd.imp ?_
  intro k k' hkk t ht t' ht' hs
  simp only [Function.comp, List.mem_filter, decide_eq_true_eq] at ht ht'
  exact hkk (by rw [← ht.2, ← ht'.2, (dayKey_iff c t t').2 hs])

theorem groupByDay_mem (c : Calendar) (ts : List ℤ) {t : ℤ} (ht : t ∈ ts) :
    ∃ g ∈ (groupByDay c ts).map Prod.snd, t ∈ g := by
  unfold groupByDay
  rw [List.map_map]
  refine ⟨_, List.mem_map.2 ⟨dayKey c t, ?_, rfl⟩, ?_⟩
  · rw [(List.perm_insertionSort _ _).mem_iff, List.mem_dedup]
    exact List.mem_map_of_mem ht
  · simp [ht]

theorem groupByDay_subset (c : Calendar) (ts : List ℤ) {g : List ℤ}
    (hg : g ∈ (groupByDay c ts).map Prod.snd) {t : ℤ} (ht : t ∈ g) : t ∈ ts := by
  have h := (groupByDay_spec c ts hg).2 t ht
  rw [h, List.mem_filter] at ht
  exact ht.1

/-! ### Files -/

section
variable {κ α : Type} (compute : ℤ → Except Err (Dataset κ α)) (c : Calendar) (dir : List Char)

theorem PrepDisk.put_same (disk : PrepDisk κ α) (p : List Char) (f) : (disk.put p f) p = f := by
  simp [PrepDisk.put]

theorem PrepDisk.put_other (disk : PrepDisk κ α) {p p' : List Char} (h : p' ≠ p) (f) :
    (disk.put p f) p' = disk p' := by
  simp [PrepDisk.put, h]

theorem PrepDisk.put_self (disk : PrepDisk κ α) (p : List Char) : disk.put p (disk p) = disk := by
  funext p'
  by_cases h : p' = p <;> simp [PrepDisk.put, h]

theorem PrepDisk.put_put (disk : PrepDisk κ α) (p : List Char) (f g) :
    (disk.put p f).put p g = disk.put p g := by
  funext p'
  by_cases h : p' = p <;> simp [PrepDisk.put, h]

/-- the loop of `preprocess` as seen by one file -/
def fileFold : Bool → List ℤ → Option (PrepFile κ α) → Option Err × Option (PrepFile κ α)
  | _, [], old => (none, old)
  | isNew, t :: ts, old =>
    match prepContent compute c isNew t old with
    | .error e => (some e, old)
    | .ok f => fileFold false ts (some f)

theorem prepLoop_eq (p : List Char) (isNew : Bool) (ts : List ℤ) (disk : PrepDisk κ α)
    (hp : ∀ t ∈ ts, inputPath c t dir = p) :
    prepLoop compute c dir isNew ts disk =
      ((fileFold compute c isNew ts (disk p)).1, disk.put p (fileFold compute c isNew ts (disk p)).2) := by
  induction ts generalizing isNew disk with
  | nil => simp [prepLoop, fileFold, PrepDisk.put_self]
  | cons t ts ih =>
    rw [prepLoop, fileFold]
    simp only [hp t (by simp)]
    cases prepContent compute c isNew t (disk p) with
    | error e => simp [PrepDisk.put_self]
    | ok f =>
      simp only
      rw [ih false _ fun t ht => hp t (List.mem_cons_of_mem _ ht), PrepDisk.put_same,
        PrepDisk.put_put]

theorem fileFold_append (isNew : Bool) (ts ts' : List ℤ) (old : Option (PrepFile κ α)) :
    fileFold compute c isNew (ts ++ ts') old =
      match fileFold compute c isNew ts old with
      | (some e, f) => (some e, f)
      | (none, f) => fileFold compute c (isNew && ts.isEmpty) ts' f := by
  induction ts generalizing isNew old with
  | nil => simp [fileFold]
  | cons t ts ih =>
    rw [List.cons_append, fileFold, fileFold]
    cases prepContent compute c isNew t old with
    | error e => rfl
    | ok f =>
      simp only
      rw [ih]
      simp

theorem prepContent_new (t : ℤ) (old old' : Option (PrepFile κ α)) :
    prepContent compute c true t old = prepContent compute c true t old' := by
  unfold prepContent
  cases compute t <;> rfl

theorem fileFold_new (ts : List ℤ) (old old' : Option (PrepFile κ α)) (hts : ts ≠ [])
    (h : (fileFold compute c true ts old).1 = none) :
    fileFold compute c true ts old' = fileFold compute c true ts old := by
  cases ts with
  | nil => exact absurd rfl hts
  | cons t ts =>
    unfold fileFold at *
    rw [prepContent_new compute c t old' old]
    cases hc : prepContent compute c true t old with
    | error e => rw [hc] at h; simp at h
    | ok f => rfl

theorem fileFold_new_err (ts : List ℤ) (old old' : Option (PrepFile κ α)) (hts : ts ≠ []) :
    (fileFold compute c true ts old').1 = (fileFold compute c true ts old).1 := by
  cases ts with
  | nil => exact absurd rfl hts
  | cons t ts =>
    unfold fileFold
    rw [prepContent_new compute c t old' old]
    cases hc : prepContent compute c true t old <;> rfl

/-- Two runs over the same days from different folders -/
theorem prepDays_agree (days : List (List ℤ)) (disk disk' : PrepDisk κ α) (S : List Char → Prop)
    (hday : ∀ ts ∈ days, ts ≠ [] ∧ ∀ t ∈ ts, ∀ t' ∈ ts, inputPath c t dir = inputPath c t' dir)
    (hS : ∀ p, S p → disk p = disk' p) (d1 : PrepDisk κ α)
    (h : prepDays compute c dir days disk = (none, d1)) :
    ∃ d1', prepDays compute c dir days disk' = (none, d1') ∧
      ∀ p, (S p ∨ ∃ ts ∈ days, ∃ t ∈ ts, inputPath c t dir = p) → d1 p = d1' p := by
  induction days generalizing disk disk' S with
  | nil =>
    simp only [prepDays, Prod.mk.injEq, true_and] at h
    subst h
    exact ⟨disk', rfl, fun p hp => by
      rcases hp with hp | ⟨ts, hts, _⟩
      · exact hS p hp
      · simp at hts⟩
  | cons ts days ih =>
    obtain ⟨hne, hpath⟩ := hday ts (by simp)
    obtain ⟨t0, ts', rfl⟩ := List.exists_cons_of_ne_nil hne
    have hp : ∀ t ∈ t0 :: ts', inputPath c t dir = inputPath c t0 dir :=
      fun t ht => hpath t ht t0 (by simp)
    rw [prepDays, preprocessDay, prepLoop_eq compute c dir _ _ _ _ hp] at h
    cases he : (fileFold compute c true (t0 :: ts') (disk (inputPath c t0 dir))).1 with
    | some e => rw [he] at h; simp at h
    | none =>
      rw [he] at h
      simp only at h
      have hf := fileFold_new compute c _ _ (disk' (inputPath c t0 dir)) hne he
      obtain ⟨d1', h1, h2⟩ := ih _ (disk'.put (inputPath c t0 dir)
        (fileFold compute c true (t0 :: ts') (disk (inputPath c t0 dir))).2)
        (fun p => S p ∨ p = inputPath c t0 dir)
        (fun ts hts => hday ts (List.mem_cons_of_mem _ hts))
        (fun p hp => by
          by_cases hpp : p = inputPath c t0 dir
          · rw [hpp, PrepDisk.put_same, PrepDisk.put_same]
          · rw [PrepDisk.put_other _ hpp, PrepDisk.put_other _ hpp]
            exact hS p (hp.resolve_right hpp)) h
      refine ⟨d1', ?_, ?_⟩
      · rw [prepDays, preprocessDay, prepLoop_eq compute c dir _ _ _ _ hp, hf, he]
        exact h1
      · intro p hp'
        apply h2
        rcases hp' with hp' | ⟨ts, hts, t, ht, e⟩
        · exact .inl (.inl hp')
        · rcases List.mem_cons.1 hts with rfl | hts
          · exact .inl (.inr (by rw [← e]; exact hp t ht))
          · exact .inr ⟨ts, hts, t, ht, e⟩

/-- the days have different files -/
def DistinctFiles (days : List (List ℤ)) : Prop :=
  (∀ ts ∈ days, ts ≠ [] ∧ ∀ t ∈ ts, ∀ t' ∈ ts, inputPath c t dir = inputPath c t' dir) ∧
  days.Pairwise fun g g' => ∀ t ∈ g, ∀ t' ∈ g', inputPath c t dir ≠ inputPath c t' dir

/-- The files after a sequential run: the file of each day is the result of that day alone, the
others are untouched; and the run succeeds iff each day does. -/
theorem prepDays_files (days : List (List ℤ)) (hd : DistinctFiles c dir days)
    (disk d1 : PrepDisk κ α) (h : prepDays compute c dir days disk = (none, d1)) :
    (∀ ts ∈ days, ∀ t ∈ ts,
      fileFold compute c true ts (disk (inputPath c t dir)) = (none, d1 (inputPath c t dir))) ∧
    ∀ p, (∀ ts ∈ days, ∀ t ∈ ts, inputPath c t dir ≠ p) → d1 p = disk p := by
  induction days generalizing disk with
  | nil =>
    simp only [prepDays, Prod.mk.injEq, true_and] at h
    subst h
    exact ⟨by simp, fun _ _ => rfl⟩
  | cons ts days ih =>
    obtain ⟨hday, hdist⟩ := hd
    obtain ⟨hne, hpath⟩ := hday ts (by simp)
    rw [List.pairwise_cons] at hdist
    obtain ⟨t0, ts', rfl⟩ := List.exists_cons_of_ne_nil hne
    have hp : ∀ t ∈ t0 :: ts', inputPath c t dir = inputPath c t0 dir :=
      fun t ht => hpath t ht t0 (by simp)
    rw [prepDays, preprocessDay, prepLoop_eq compute c dir _ _ _ _ hp] at h
    cases he : (fileFold compute c true (t0 :: ts') (disk (inputPath c t0 dir))).1 with
    | some e => rw [he] at h; simp at h
    | none =>
      rw [he] at h
      simp only at h
      obtain ⟨h1, h2⟩ := ih ⟨fun ts hts => hday ts (List.mem_cons_of_mem _ hts), hdist.2⟩ _ h
      constructor
      · intro ts hts t ht
        rcases List.mem_cons.1 hts with rfl | hts
        · rw [hp t ht]
          have := h2 (inputPath c t0 dir) (fun ts hts t ht e =>
            hdist.1 ts hts t0 (by simp) t ht e.symm)
          rw [this, PrepDisk.put_same, ← he]
        · have := h1 ts hts t ht
          rwa [PrepDisk.put_other] at this
          exact fun e => hdist.1 ts hts t0 (by simp) t ht e.symm
      · intro p hp'
        rw [h2 p fun ts hts => hp' ts (List.mem_cons_of_mem _ hts), PrepDisk.put_other]
        exact fun e => hp' (t0 :: ts') (by simp) t0 (by simp) e.symm

theorem prepDays_succeeds (days : List (List ℤ)) (hd : DistinctFiles c dir days)
    (disk : PrepDisk κ α)
    (h : ∀ ts ∈ days, ∀ old, (fileFold compute c true ts old).1 = none) :
    ∃ d1, prepDays compute c dir days disk = (none, d1) := by
  induction days generalizing disk with
  | nil => exact ⟨disk, rfl⟩
  | cons ts days ih =>
    obtain ⟨hday, hdist⟩ := hd
    obtain ⟨hne, hpath⟩ := hday ts (by simp)
    rw [List.pairwise_cons] at hdist
    obtain ⟨t0, ts', rfl⟩ := List.exists_cons_of_ne_nil hne
    have hp : ∀ t ∈ t0 :: ts', inputPath c t dir = inputPath c t0 dir :=
      fun t ht => hpath t ht t0 (by simp)
    rw [prepDays, preprocessDay, prepLoop_eq compute c dir _ _ _ _ hp, h _ (by simp)]
    exact ih ⟨fun ts hts => hday ts (List.mem_cons_of_mem _ hts), hdist.2⟩ _
      fun ts hts => h ts (List.mem_cons_of_mem _ hts)

/-- content of the file after the times `ts`: the first dataset defines the axes -/
theorem fileFold_content (f : DataFile κ α) (t0 : ℤ) (d0 : Dataset κ α) (rest)
    (hf : f.entries = (t0, d0) :: rest) (ts : List ℤ) (g : Option (PrepFile κ α))
    (h : fileFold compute c false ts (some (.data f)) = (none, g)) :
    ∃ new : List (ℤ × Dataset κ α), g = some (.data { f with entries := f.entries ++ new }) ∧
      List.Forall₂ (fun t e => ∃ raw, compute t = .ok raw ∧
        e = (t, { raw with latitude := d0.latitude, longitude := d0.longitude }) ∧
        raw.latitude.length = d0.latitude.length ∧ raw.longitude.length = d0.longitude.length)
        ts new := by
  induction ts generalizing f rest with
  | nil =>
    simp only [fileFold, Prod.mk.injEq, true_and] at h
    exact ⟨[], by rw [← h]; simp, .nil⟩
  | cons t ts ih =>
    rw [fileFold] at h
    cases hraw : compute t with
    | error e => simp [prepContent, hraw, bind, Except.bind] at h
    | ok raw =>
      cases happ : appendToFile f t raw with
      | error e => simp [prepContent, hraw, happ, bind, Except.bind] at h
      | ok f' =>
        simp only [prepContent, hraw, happ, bind, Except.bind, Bool.false_eq_true, if_false, pure,
          Except.pure] at h
        unfold appendToFile at happ
        rw [hf] at happ
        simp only at happ
        split at happ
        · cases happ
        · split at happ
          · cases happ
          · rename_i hlen
            injection happ with happ
            have hlen' : raw.latitude.length = d0.latitude.length ∧
                raw.longitude.length = d0.longitude.length := by
              constructor
              · by_contra hc; exact hlen (.inl hc)
              · by_contra hc; exact hlen (.inr hc)
            obtain ⟨new, h1, h2⟩ := ih f'
              (rest ++ [(t, ⟨d0.latitude, d0.longitude, raw.vars, raw.data⟩)])
              (by rw [← happ]; rfl) h
            refine ⟨(t, { raw with latitude := d0.latitude, longitude := d0.longitude }) :: new, ?_,
              .cons ⟨raw, hraw, rfl, hlen'⟩ h2⟩
            rw [h1, ← happ, hf]
            simp

theorem fileFold_day (t0 : ℤ) (ts : List ℤ) (old g : Option (PrepFile κ α))
    (h : fileFold compute c true (t0 :: ts) old = (none, g)) :
    ∃ d0 entries, compute t0 = .ok d0 ∧ g = some (.data ⟨c, entries⟩) ∧
      List.Forall₂ (fun t e => ∃ raw, compute t = .ok raw ∧
        e = (t, { raw with latitude := d0.latitude, longitude := d0.longitude }) ∧
        raw.latitude.length = d0.latitude.length ∧ raw.longitude.length = d0.longitude.length)
        (t0 :: ts) entries := by
  rw [fileFold] at h
  cases hraw : compute t0 with
  | error e => simp [prepContent, hraw, bind, Except.bind] at h
  | ok d0 =>
    simp only [prepContent, hraw, bind, Except.bind, if_true, pure, Except.pure] at h
    obtain ⟨new, h1, h2⟩ := fileFold_content compute c (newFile c t0 d0) t0 d0 [] rfl ts g h
    exact ⟨d0, (t0, d0) :: new, rfl, h1, .cons ⟨d0, hraw, rfl, rfl, rfl⟩ h2⟩

/-- sufficient for the success of a day: all times can be computed, on one grid -/
theorem fileFold_ok (f : DataFile κ α) (t0 : ℤ) (d0 : Dataset κ α) (rest)
    (hf : f.entries = (t0, d0) :: rest) (ts : List ℤ)
    (h : ∀ t ∈ ts, ∃ ds, compute t = .ok ds ∧ ds.latitude.length = d0.latitude.length ∧
      ds.longitude.length = d0.longitude.length ∧ ∀ v ∈ ds.vars, v ∈ d0.vars) :
    (fileFold compute c false ts (some (.data f))).1 = none := by
  induction ts generalizing f rest with
  | nil => rfl
  | cons t ts ih =>
    obtain ⟨ds, h1, h2, h3, h4⟩ := h t (by simp)
    have happ : appendToFile f t ds = .ok { f with entries :=
        f.entries ++ [(t, { ds with latitude := d0.latitude, longitude := d0.longitude })] } := by
      unfold appendToFile
      rw [hf]
      simp only
      rw [if_neg, if_neg]
      · simp [h2, h3]
      · simpa using h4
    rw [fileFold]
    simp only [prepContent, h1, happ, bind, Except.bind, Bool.false_eq_true, if_false, pure,
      Except.pure]
    exact ih _ (rest ++ [(t, { ds with latitude := d0.latitude, longitude := d0.longitude })])
      (by simp [hf]) fun t ht => h t (List.mem_cons_of_mem _ ht)

end

end Wam
