import Verif.Props.Longitude
import Verif.Props.ColumnMore
import Verif.Props.ModelLevels

/-! # C75: one preprocessed time step on the whole grid -/

set_option linter.unusedSectionVars false
set_option linter.unusedVariables false

namespace Wam
open Spec

section
variable {β γ : Type}

theorem mapM_except_ok (f : β → Except Err γ) (l : List β) (r : List γ) (h : l.mapM f = .ok r) :
    r.length = l.length ∧ ∀ (i : ℕ) (b : β), l[i]? = some b → ∃ c, r[i]? = some c ∧ f b = .ok c := by
  induction l generalizing r with
  | nil =>
    simp only [List.mapM_nil, pure, Except.pure, Except.ok.injEq] at h
    subst h
    simp
  | cons a l ih =>
    rw [List.mapM_cons] at h
    cases ha : f a with
    | error e => rw [ha] at h; simp [bind, Except.bind] at h
    | ok c =>
      rw [ha] at h
      cases hl : l.mapM f with
      | error e => rw [hl] at h; simp [bind, Except.bind] at h
      | ok r' =>
        rw [hl] at h
        simp only [bind, Except.bind, pure, Except.pure, Except.ok.injEq] at h
        subst h
        obtain ⟨h1, h2⟩ := ih r' hl
        refine ⟨by simp [h1], ?_⟩
        intro i b hb
        cases i with
        | zero => simp only [List.getElem?_cons_zero, Option.some.injEq] at hb; exact ⟨c, by simp, hb ▸ ha⟩
        | succ i =>
          rw [List.getElem?_cons_succ] at hb ⊢
          exact h2 i b hb

theorem mapM_except_exists (f : β → Except Err γ) (l : List β) (h : ∀ b ∈ l, ∃ c, f b = .ok c) :
    ∃ r, l.mapM f = .ok r := by
  induction l with
  | nil => exact ⟨[], rfl⟩
  | cons a l ih =>
    obtain ⟨c, hc⟩ := h a (by simp)
    obtain ⟨r, hr⟩ := ih fun b hb => h b (by simp [hb])
    exact ⟨c :: r, by rw [List.mapM_cons, hc, hr]; rfl⟩

end

section
variable {K α : Type} [Field K] [LinearOrder K] [IsStrictOrderedRing K] [FloorRing K] [NpOps α]

/-- the columns are rearranged in either case -/
theorem shiftLongitude_rearranged (ds : Dataset K α) :
    ∃ order, Rearranged ds (shiftLongitude ds) order := by
  by_cases h : ∃ x ∈ ds.longitude, 180 < x ∨ x < 0
  · exact C55_columns ds h
  · push Not at h
    rw [C55_unchanged ds fun x hx => ⟨(h x hx).2, (h x hx).1⟩]
    refine ⟨List.range ds.longitude.length, List.Perm.refl _, rfl, rfl, rfl, ?_, ?_⟩
    · intro j x hx
      have hlt : j < ds.longitude.length := by
        by_contra hge
        rw [List.getElem?_eq_none (by omega)] at hx
        simp at hx
      exact ⟨j, x, by rw [List.getElem?_range hlt], hx, 0, by simp⟩
    · intro v i j j0 hi hj
      have hlt : j < ds.longitude.length := by
        by_contra hge
        rw [List.getElem?_eq_none (by simpa using hge)] at hj
        simp at hj
      rw [List.getElem?_range hlt] at hj
      injection hj with hj
      rw [hj]

/-- A preprocessed time step has the latitudes of the input and its columns are those of the input, each
exactly once and on the same meridian; every cell holds the layer sums of the column computation
for the input cell it comes from, and its precipitation and evaporation. -/
theorem C75_cells (cell : RawInput K α → ℕ → ℕ → Except Err (LayerSums α)) (raw : RawInput K α)
    (ds : Dataset K α) (h : prepTime cell raw = .ok ds) :
    ∃ order : List ℕ, order.Perm (List.range raw.longitude.length) ∧
      ds.latitude = raw.latitude ∧ ds.longitude.length = raw.longitude.length ∧
      (∀ v, v ∈ ds.vars) ∧
      ∀ i < raw.latitude.length, ∀ j < raw.longitude.length,
        ∃ j0 x x0 s, order[j]? = some j0 ∧ ds.longitude[j]? = some x ∧
          raw.longitude[j0]? = some x0 ∧ SameMeridian x x0 ∧ cell raw i j0 = .ok s ∧
          CellIs ds i j s (raw.precip i j0) (raw.evap i j0) := by
  unfold prepTime at h
  cases hrows : ((List.range raw.latitude.length).mapM fun i =>
      (List.range raw.longitude.length).mapM fun j => cell raw i j) with
  | error e => rw [hrows] at h; simp [bind, Except.bind] at h
  | ok rows =>
    rw [hrows] at h
    simp only [bind, Except.bind, pure, Except.pure, Except.ok.injEq] at h
    obtain ⟨hlen, hrow⟩ := mapM_except_ok _ _ _ hrows
    subst h
    set ds0 : Dataset K α := ⟨raw.latitude, raw.longitude, allVars, _⟩ with hds0
    obtain ⟨order, ho⟩ := shiftLongitude_rearranged ds0
    refine ⟨order, ho.perm, ho.latitude, ho.length, ?_, ?_⟩
    · intro v
      rw [ho.vars]
      cases v <;> simp [hds0, allVars]
    · intro i hi j hj
      have hjl : j < (shiftLongitude ds0).longitude.length := by rw [ho.length]; exact hj
      obtain ⟨j0, x0, hj0, hx0, hm⟩ := ho.meridian j _ (List.getElem?_eq_getElem hjl)
      have hj0lt : j0 < raw.longitude.length := by
        have := ho.perm.mem_iff.1 (List.mem_of_getElem? hj0)
        simpa using this
      obtain ⟨row, hri, hrow'⟩ := hrow i i (by rw [List.getElem?_range hi])
      obtain ⟨-, hcells⟩ := mapM_except_ok _ _ _ hrow'
      obtain ⟨s, hs, hcell⟩ := hcells j0 j0 (by rw [List.getElem?_range hj0lt])
      refine ⟨j0, _, x0, s, hj0, List.getElem?_eq_getElem hjl, hx0, hm, hcell, ?_⟩
      have hd : ∀ v, (shiftLongitude ds0).data v i j = cellVar s (raw.precip i j0) (raw.evap i j0) v := by
        intro v
        rw [ho.data v i j j0 hi hj0]
        simp only [hds0, List.getD_eq_getElem?_getD, hri, hs, Option.getD_some]
      constructor <;> exact hd _

/-- It succeeds if and only if the column computation succeeds for every cell. -/
theorem C75_succeeds_iff (cell : RawInput K α → ℕ → ℕ → Except Err (LayerSums α))
    (raw : RawInput K α) :
    (∃ ds, prepTime cell raw = .ok ds) ↔
      ∀ i < raw.latitude.length, ∀ j < raw.longitude.length, ∃ s, cell raw i j = .ok s := by
  constructor
  · rintro ⟨ds, h⟩ i hi j hj
    obtain ⟨order, hp, -, -, -, hc⟩ := C75_cells cell raw ds h
    obtain ⟨k, hk, rfl⟩ := List.getElem_of_mem (hp.mem_iff.2 (List.mem_range.2 hj))
    have hk' : k < raw.longitude.length := by
      have := hp.length_eq
      rw [List.length_range] at this
      omega
    obtain ⟨j0, x, x0, s, hj0, -, -, -, hs, -⟩ := hc i hi k hk'
    rw [List.getElem?_eq_getElem hk] at hj0
    injection hj0 with hj0
    exact ⟨s, hj0 ▸ hs⟩
  · intro h
    obtain ⟨rows, hrows⟩ := mapM_except_exists (fun i =>
      (List.range raw.longitude.length).mapM fun j => cell raw i j) (List.range raw.latitude.length)
      fun i hi => mapM_except_exists _ _ fun j hj => h i (by simpa using hi) j (by simpa using hj)
    unfold prepTime
    rw [hrows]
    exact ⟨_, rfl⟩

end

section
variable {K : Type} [Field K] [LinearOrder K] [IsStrictOrderedRing K] [FloorRing K]

/-- Pressure-level data on a grid: if at every cell the levels, the surface pressure and the layer boundary
are as in C52 and the column is not dry, and total column water is given, then preprocessing
succeeds and the two storages of every cell of the file add up to the total column water of the
input cell on that meridian; per latitude no water is lost. -/
theorem C75_pressure_level_storage (argsort : List K → List ℕ) (ha : IsArgsort argsort)
    (factor offset : K) (raw : RawInput K K) (levels : ℕ → ℕ → List (Level K))
    (sfc : ℕ → ℕ → Level K) (tcw : ℕ → ℕ → K) (htcw : raw.tcw = some tcw)
    (hcell : ∀ i < raw.latitude.length, ∀ j < raw.longitude.length,
      raw.column i j = column (levels i j) ∧ raw.surface i j = surface (sfc i j) ∧
      levels i j ≠ [] ∧ (∀ l ∈ levels i j, 0 ≤ l.p) ∧
      0 < (sfc i j).p ∧ 0 ≤ factor * (sfc i j).p + offset ∧ factor * (sfc i j).p + offset ≤ (sfc i j).p ∧
      ∀ E, IsExtended (levels i j) (sfc i j) (factor * (sfc i j).p + offset) E →
        pairSum water (between 0 (sfc i j).p E) ≠ 0) :
    ∃ ds, prepTime (fun raw i j => preprocessPressure argsort factor offset (raw.column i j)
        (raw.surface i j) (raw.tcw.map fun t => t i j)) raw = .ok ds ∧
      (∀ i < raw.latitude.length, ∀ j < raw.longitude.length,
        ∃ j0 x x0, ds.longitude[j]? = some x ∧ raw.longitude[j0]? = some x0 ∧ SameMeridian x x0 ∧
          ds.data .s_upper i j + ds.data .s_lower i j = tcw i j0) ∧
      ∀ i < raw.latitude.length,
        ((List.range ds.longitude.length).map fun j =>
          ds.data .s_upper i j + ds.data .s_lower i j).sum =
        ((List.range raw.longitude.length).map fun j => tcw i j).sum := by
  have hcell : ∀ i < raw.latitude.length, ∀ j < raw.longitude.length, ∃ r,
      preprocessPressure argsort factor offset (raw.column i j)
      (raw.surface i j) (raw.tcw.map fun t => t i j) = .ok r ∧ r.s_upper + r.s_lower = tcw i j := by
    intro i hi j hj
    obtain ⟨hcol, hsfc, hne, h0, hps, hlo, hhi, hwet⟩ := hcell i hi j hj
    rw [hcol, hsfc, htcw]
    obtain ⟨E, hE, -, ht⟩ := C51_partition_pressure_levels argsort ha factor offset (levels i j)
      hne h0 (sfc i j) hps hlo hhi
    exact ht (tcw i j) (hwet E hE)
  obtain ⟨ds, hds⟩ := (C75_succeeds_iff (fun (raw : RawInput K K) i j => preprocessPressure argsort
    factor offset (raw.column i j) (raw.surface i j) (raw.tcw.map fun t => t i j)) raw).2
      fun i hi j hj => (hcell i hi j hj).imp fun r h => h.1
  obtain ⟨order, hp, hlat, hlen, -, hc⟩ := C75_cells _ raw ds hds
  have key : ∀ i < raw.latitude.length, ∀ j < raw.longitude.length,
      ∃ j0 x x0, order[j]? = some j0 ∧ ds.longitude[j]? = some x ∧ raw.longitude[j0]? = some x0 ∧
        SameMeridian x x0 ∧ ds.data .s_upper i j + ds.data .s_lower i j = tcw i j0 := by
    intro i hi j hj
    obtain ⟨j0, x, x0, s, hj0, hx, hx0, hm, hs, hcell'⟩ := hc i hi j hj
    obtain ⟨r, hr, hsum⟩ := hcell i hi j0 (List.getElem?_eq_some_iff.1 hx0).1
    simp only [hr, Except.ok.injEq] at hs
    subst hs
    exact ⟨j0, x, x0, hj0, hx, hx0, hm, by rw [hcell'.s_upper, hcell'.s_lower, hsum]⟩
  refine ⟨ds, hds, ?_, ?_⟩
  · intro i hi j hj
    obtain ⟨j0, x, x0, -, hx, hx0, hm, he⟩ := key i hi j hj
    exact ⟨j0, x, x0, hx, hx0, hm, he⟩
  · intro i hi
    have holen : order.length = raw.longitude.length := by rw [hp.length_eq, List.length_range]
    have : ((List.range ds.longitude.length).map fun j =>
        ds.data .s_upper i j + ds.data .s_lower i j) = order.map fun j => tcw i j := by
      apply List.ext_getElem
      · simp [hlen, holen]
      · intro j h1 h2
        simp only [List.length_map, List.length_range] at h1
        obtain ⟨j0, x, x0, hj0, -, -, -, he⟩ := key i hi j (by omega)
        rw [List.getElem_map, List.getElem_range, List.getElem_map, he]
        rw [List.getElem?_eq_getElem (by omega)] at hj0
        injection hj0 with hj0
        rw [hj0]
    rw [this]
    exact (hp.map _).sum_eq

end

/-- two columns on a global grid: the eastern one becomes the western one -/
def demoRaw : RawInput ℚ ℚ where
  latitude := [45]
  longitude := [0, 270]
  column := fun _ _ => column demoLevels
  surface := fun _ _ => surface demoSurface
  tcw := some fun _ j => 40 + j
  precip := fun _ j => j
  evap := fun _ j => -j

example : ((prepTime (fun raw i j => preprocessPressure demoArgsort (7 / 10) 5000 (raw.column i j)
      (raw.surface i j) (raw.tcw.map fun t => t i j)) demoRaw).toOption.map fun ds =>
      (ds.longitude, ds.data .s_upper 0 0 + ds.data .s_lower 0 0,
        ds.data .s_upper 0 1 + ds.data .s_lower 0 1, ds.data .precip 0 0, ds.data .evap 0 0)) =
    some ([-90, 0], 41, 40, 1, -1) := by
  decide +kernel

end Wam
