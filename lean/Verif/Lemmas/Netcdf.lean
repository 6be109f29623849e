import Verif.Spec.Netcdf

/-! # Lemmas: netCDF files -/

namespace Wam
open Spec

set_option linter.unusedSectionVars false
set_option linter.unusedVariables false

variable {α : Type}

theorem expand_ok {file file' : NcFile α} {name dim : String} {size : String → ℕ} {x : XrVar α} {n a : ℕ}
    (h : expandVariable file name size x dim n a = .ok file') :
    ∃ v, file.vars name = some v ∧ x.dims = v.dims ∧ (∀ d ∈ x.dims, d ≠ dim → size d = file.length d) ∧
      file' = { length := fun d => if d = dim then max (file.length d) (n + a) else file.length d
                vars := Function.update file.vars name (some (v.setSlice (x.dims.idxOf dim) n a
                  fun idx => encodeValue v.units (x.data idx))) } := by
  unfold expandVariable at h
  split at h
  · cases h
  · next v hv =>
    split at h
    · next hc =>
      injection h with h
      exact ⟨v, hv, hc.1, hc.2, h.symm⟩
    · cases h

theorem expand_of {file : NcFile α} {name dim : String} {size : String → ℕ} {x : XrVar α} {n a : ℕ} {v : NcVar α}
    (hv : file.vars name = some v) (hd : x.dims = v.dims) (hs : ∀ d ∈ x.dims, d ≠ dim → size d = file.length d) :
    ∃ file', expandVariable file name size x dim n a = .ok file' := by
  unfold expandVariable
  rw [hv]
  simp only
  rw [if_pos ⟨hd, hs⟩]
  exact ⟨_, rfl⟩

theorem loop_length_other {size : String → ℕ} {dim : String} {n a : ℕ} {d : String} (hd : d ≠ dim) :
    ∀ (l : List (String × XrVar α)) (file : NcFile α), (appendLoop size dim n a l file).2.length d = file.length d := by
  intro l
  induction l with
  | nil => intro file; rfl
  | cons y l ih =>
    obtain ⟨name, x⟩ := y
    intro file
    unfold appendLoop
    split
    · split
      · rfl
      · next file' he =>
        obtain ⟨v, -, -, -, rfl⟩ := expand_ok he
        rw [ih]
        exact if_neg hd
    · exact ih file

/-- the unlimited dimension never gets longer than `n + a`, nor shorter -/
theorem loop_length_dim {size : String → ℕ} {dim : String} {n a : ℕ} :
    ∀ (l : List (String × XrVar α)) (file : NcFile α), file.length dim ≤ (appendLoop size dim n a l file).2.length dim ∧
      (appendLoop size dim n a l file).2.length dim ≤ max (file.length dim) (n + a) ∧
      ((appendLoop size dim n a l file).1 = none → (∃ y ∈ l, dim ∈ y.2.dims) →
        (appendLoop size dim n a l file).2.length dim = max (file.length dim) (n + a)) := by
  intro l
  induction l with
  | nil =>
    intro file
    exact ⟨le_rfl, le_max_left _ _, fun _ h => by obtain ⟨y, hy, -⟩ := h; cases hy⟩
  | cons y l ih =>
    obtain ⟨name, x⟩ := y
    intro file
    unfold appendLoop
    split
    · next hx =>
      split
      · exact ⟨le_rfl, le_max_left _ _, fun h => by cases h⟩
      · next file' he =>
        obtain ⟨v, -, -, -, rfl⟩ := expand_ok he
        set g : NcFile α := { length := fun d => if d = dim then max (file.length d) (n + a) else file.length d
                              vars := Function.update file.vars name (some (v.setSlice (x.dims.idxOf dim) n a
                                fun idx => encodeValue v.units (x.data idx))) } with hg
        obtain ⟨h1, h2, h3⟩ := ih g
        have hl : g.length dim = max (file.length dim) (n + a) := if_pos rfl
        rw [hl] at h1 h2
        rw [max_assoc, max_self] at h2
        exact ⟨le_trans (le_max_left _ _) h1, h2, fun _ _ => le_antisymm h2 h1⟩
    · next hx =>
      obtain ⟨h1, h2, h3⟩ := ih file
      refine ⟨h1, h2, fun h4 ⟨y, hy, hd⟩ => h3 h4 ?_⟩
      rcases List.mem_cons.1 hy with rfl | hy
      · exact absurd hd hx
      · exact ⟨y, hy, hd⟩

theorem loop_untouched {size : String → ℕ} {dim : String} {n a : ℕ} {name : String} :
    ∀ (l : List (String × XrVar α)) (file : NcFile α), (∀ y ∈ l, y.1 = name → dim ∉ y.2.dims) →
      (appendLoop size dim n a l file).2.vars name = file.vars name := by
  intro l
  induction l with
  | nil => intro file _; rfl
  | cons y l ih =>
    obtain ⟨nm, x⟩ := y
    intro file hl
    unfold appendLoop
    split
    · next hx =>
      split
      · rfl
      · next file' he =>
        obtain ⟨v, -, -, -, rfl⟩ := expand_ok he
        rw [ih _ (fun y hy => hl y (List.mem_cons_of_mem _ hy))]
        refine Function.update_of_ne ?_ _ _
        intro e
        exact hl (nm, x) (List.mem_cons_self ..) e.symm hx
    · exact ih file (fun y hy => hl y (List.mem_cons_of_mem _ hy))

/-- whatever happens: variables stay, and what was before position `n` of the dimension stays -/
theorem loop_keeps {size : String → ℕ} {dim : String} {n a : ℕ} {name : String} :
    ∀ (l : List (String × XrVar α)) (file : NcFile α),
      (file.vars name = none → (appendLoop size dim n a l file).2.vars name = none) ∧
      ∀ v, file.vars name = some v → ∃ data, (appendLoop size dim n a l file).2.vars name = some { v with data := data } ∧
        ∀ idx, (dim ∈ v.dims → idx.getD (v.dims.idxOf dim) 0 < n) → data idx = v.data idx := by
  intro l
  induction l with
  | nil => intro file; exact ⟨fun h => h, fun v hv => ⟨v.data, hv, fun _ _ => rfl⟩⟩
  | cons y l ih =>
    obtain ⟨nm, x⟩ := y
    intro file
    unfold appendLoop
    split
    · next hx =>
      split
      · exact ⟨fun h => h, fun v hv => ⟨v.data, hv, fun _ _ => rfl⟩⟩
      · next file' he =>
        obtain ⟨w, hw, hdims, -, rfl⟩ := expand_ok he
        by_cases hn : name = nm
        · subst hn
          constructor
          · intro h; rw [h] at hw; cases hw
          · intro v hv
            rw [hv] at hw
            injection hw with hw
            subst hw
            obtain ⟨data, h1, h2⟩ := (ih { length := fun d => if d = dim then max (file.length d) (n + a) else file.length d
                                           vars := Function.update file.vars name (some (v.setSlice (x.dims.idxOf dim) n a
                                             fun idx => encodeValue v.units (x.data idx))) }).2 _ (Function.update_self ..)
            refine ⟨data, h1, fun idx hi => ?_⟩
            rw [h2 idx hi]
            show (if n ≤ idx.getD (x.dims.idxOf dim) 0 ∧ idx.getD (x.dims.idxOf dim) 0 < n + a then _ else v.data idx) = _
            rw [hdims] at hx ⊢
            have := hi hx
            rw [if_neg (by omega)]
        · have he : ∀ o, Function.update file.vars nm o name = file.vars name := fun o => Function.update_of_ne hn _ _
          have := ih { length := fun d => if d = dim then max (file.length d) (n + a) else file.length d
                       vars := Function.update file.vars nm (some (w.setSlice (x.dims.idxOf dim) n a
                         fun idx => encodeValue w.units (x.data idx))) }
          simp only [he] at this
          exact this
    · exact ih file

/-- a variable that is appended, if all goes well -/
theorem loop_appended {size : String → ℕ} {dim : String} {n a : ℕ} {name : String} {x : XrVar α} (hx : dim ∈ x.dims) :
    ∀ (l : List (String × XrVar α)) (file : NcFile α), (l.map Prod.fst).Nodup → (name, x) ∈ l →
      (appendLoop size dim n a l file).1 = none →
      ∃ v, file.vars name = some v ∧ x.dims = v.dims ∧
        (appendLoop size dim n a l file).2.vars name = some (v.setSlice (x.dims.idxOf dim) n a
          fun idx => encodeValue v.units (x.data idx)) := by
  intro l
  induction l with
  | nil => intro file _ h; cases h
  | cons y l ih =>
    obtain ⟨nm, z⟩ := y
    intro file hnd hmem hok
    rw [List.map_cons, List.nodup_cons] at hnd
    unfold appendLoop at hok ⊢
    split at hok
    · next hz =>
      rw [if_pos hz]
      split at hok
      · cases hok
      · next file' he =>
        obtain ⟨w, hw, hdims, -, rfl⟩ := expand_ok he
        rcases List.mem_cons.1 hmem with h | hmem
        · injection h with h1 h2
          subst h1; subst h2
          refine ⟨w, hw, hdims, ?_⟩
          rw [loop_untouched]
          · exact Function.update_self ..
          · intro y hy e
            exact absurd (List.mem_map.2 ⟨y, hy, e⟩) hnd.1
        · obtain ⟨v, h1, h2, h3⟩ := ih _ hnd.2 hmem hok
          refine ⟨v, ?_, h2, h3⟩
          rw [← h1]
          refine (Function.update_of_ne ?_ _ _).symm
          intro e
          exact hnd.1 (List.mem_map.2 ⟨_, hmem, e⟩)
    · next hz =>
      rw [if_neg hz]
      rcases List.mem_cons.1 hmem with h | hmem
      · injection h with h1 h2
        subst h2
        exact absurd hx hz
      · exact ih file hnd.2 hmem hok

/-- it goes well if all variables are in the file, with the same dimensions and shape -/
theorem loop_goes {size : String → ℕ} {dim : String} {n a : ℕ} :
    ∀ (l : List (String × XrVar α)) (file : NcFile α), 
      (∀ y ∈ l, dim ∈ y.2.dims → (∃ v, file.vars y.1 = some v ∧ y.2.dims = v.dims) ∧
        ∀ d ∈ y.2.dims, d ≠ dim → size d = file.length d) →
      (appendLoop size dim n a l file).1 = none := by
  intro l
  induction l with
  | nil => intro file _; rfl
  | cons y l ih =>
    obtain ⟨nm, z⟩ := y
    intro file hall
    unfold appendLoop
    split
    · next hz =>
      obtain ⟨⟨v, h1, h2⟩, h3⟩ := hall _ (List.mem_cons_self ..) hz
      obtain ⟨file', he⟩ := expand_of (n := n) (a := a) h1 h2 h3
      simp only [he]
      obtain ⟨w, hw, -, -, rfl⟩ := expand_ok he
      apply ih
      intro y hy hd
      obtain ⟨⟨u, k1, k2⟩, k3⟩ := hall y (List.mem_cons_of_mem _ hy) hd
      refine ⟨?_, fun d hd' hne => ?_⟩
      · by_cases e : y.1 = nm
        · rw [e]
          rw [e, h1] at k1
          injection k1 with k1
          rw [h1] at hw
          injection hw with hw
          subst hw
          exact ⟨_, Function.update_self .., by rw [k2, ← k1]; rfl⟩
        · refine ⟨u, ?_, k2⟩
          rw [← k1]
          exact Function.update_of_ne e _ _
      · rw [k3 d hd' hne]
        exact (if_neg hne).symm
    · exact ih file fun y hy => hall y (List.mem_cons_of_mem _ hy)

end Wam
