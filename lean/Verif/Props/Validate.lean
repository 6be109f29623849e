import Verif.Spec.Validate
import Verif.Lemmas.NumK
import Verif.Lemmas.XF
import Mathlib.Tactic.Linarith
import Mathlib.Tactic.Ring
import Mathlib.Tactic.FieldSimp
import Mathlib.Tactic.NormNum
import Mathlib.Data.List.GetD

/-! # C60: `validate_input`, C61: `add_bounds`, C63: `analysis/checks.py` -/

set_option linter.unusedSectionVars false
set_option linter.unusedVariables false

namespace Wam
open Spec

/-! ## C60 -/

theorem forEach_ok {β : Type} (l : List β) (body : β → Except ValidationError Unit) :
    forEach l body = .ok () ↔ ∀ x ∈ l, body x = .ok () := by
  induction l with
  | nil => simp [forEach]
  | cons a l ih =>
    rw [forEach]
    cases ha : body a with
    | error e => simp [ha]
    | ok u => simp [ih, ha]

theorem forEach_error {β : Type} (l : List β) (body : β → Except ValidationError Unit)
    (e : ValidationError) (h : forEach l body = .error e) : ∃ x ∈ l, body x = .error e := by
  induction l with
  | nil => simp [forEach] at h
  | cons a l ih =>
    rw [forEach] at h
    cases ha : body a with
    | error e' => rw [ha] at h; exact ⟨a, by simp, by simp at h; rw [ha, h]⟩
    | ok u =>
      rw [ha] at h
      obtain ⟨x, hx, hb⟩ := ih h
      exact ⟨x, by simp [hx], hb⟩

theorem sameSet_iff (a b : List String) : sameSet a b = true ↔ ∀ d, d ∈ a ↔ d ∈ b := by
  simp only [sameSet, Bool.and_eq_true, List.all_eq_true, decide_eq_true_eq]
  constructor
  · rintro ⟨h1, h2⟩ d; exact ⟨h1 d, h2 d⟩
  · intro h; exact ⟨fun d hd => (h d).1 hd, fun d hd => (h d).2 hd⟩

section
variable {α : Type}

theorem lookup_isSome (l : List (String × XVar α)) (v : String) :
    v ∈ l.map Prod.fst ↔ ∃ x, l.lookup v = some x := by
  induction l with
  | nil => simp
  | cons a l ih =>
    obtain ⟨n, x⟩ := a
    by_cases h : v = n
    · subst h; simp
    · have : (v == n) = false := by simpa using h
      simp only [List.map_cons, List.mem_cons, h, false_or, ih, List.lookup_cons, this]

theorem lookup_mem (l : List (String × XVar α)) (v : String) (x : XVar α)
    (h : l.lookup v = some x) : (v, x) ∈ l := by
  induction l with
  | nil => simp at h
  | cons a l ih =>
    obtain ⟨n, y⟩ := a
    by_cases e : v = n
    · subst e; simp at h; simp [h]
    · have e' : (v == n) = false := by simpa using e
      rw [List.lookup_cons, e'] at h
      exact List.mem_cons_of_mem _ (ih h)

theorem hasVar_iff (data : XDataset α) (v : String) (dims dims' : List String)
    (hd : ∀ d, d ∈ dims ↔ d ∈ dims') :
    HasVar data v dims ↔ v ∈ data.dataVars.map Prod.fst ∧
      sameSet (((data.get v).map XVar.dims).getD []) dims' = true := by
  rw [lookup_isSome, sameSet_iff]
  unfold HasVar XDataset.get
  constructor
  · rintro ⟨x, hx, h⟩
    refine ⟨⟨x, hx⟩, ?_⟩
    rw [hx]; simpa using fun d => (h d).trans (hd d)
  · rintro ⟨⟨x, hx⟩, h⟩
    rw [hx] at h
    exact ⟨x, hx, fun d => (by simpa using h d : d ∈ x.dims ↔ d ∈ dims').trans (hd d).symm⟩

theorem validateVars_ok (data : XDataset α) (lt : LevelType) :
    validateVars data lt = .ok () ↔
      (∀ v ∈ expectedLevelVars lt, HasVar data v ["latitude", "longitude", "level"]) ∧
      (∀ v ∈ expectedSurfaceVars lt, HasVar data v ["latitude", "longitude"]) := by
  have hl : ∀ v, HasVar data v ["latitude", "longitude", "level"] ↔ _ := fun v =>
    hasVar_iff data v ["latitude", "longitude", "level"] ["level", "latitude", "longitude"]
      (by intro d; simp only [List.mem_cons, List.not_mem_nil, or_false]; tauto)
  have hs : ∀ v, HasVar data v ["latitude", "longitude"] ↔ _ := fun v =>
    hasVar_iff data v ["latitude", "longitude"] ["latitude", "longitude"] (by simp)
  have hm : ∀ (b : Bool) (e : ValidationError),
      (if (!b) = true then (Except.error e : Except ValidationError Unit) else .ok ()) = .ok () ↔
        b = true := by
    intro b e; cases b <;> simp
  have hn : ∀ (p : Prop) [Decidable p] (e : ValidationError),
      (if ¬ p then (Except.error e : Except ValidationError Unit) else .ok ()) = .ok () ↔ p := by
    intro p _ e; by_cases h : p <;> simp [h]
  unfold validateVars
  constructor
  · intro h
    split at h
    · simp at h
    · rename_i h1
      rw [forEach_ok] at h1
      split at h
      · simp at h
      · rename_i h2
        rw [forEach_ok] at h2 h
        simp only [hn, hm] at h1 h2 h
        exact ⟨fun v hv => (hl v).2 ⟨h1 v (by simp [hv]), h v hv⟩,
          fun v hv => (hs v).2 ⟨h1 v (by simp [hv]), h2 v hv⟩⟩
  · rintro ⟨h1, h2⟩
    have e1 := (forEach_ok (expectedLevelVars lt ++ expectedSurfaceVars lt) fun var =>
      if var ∉ data.dataVars.map Prod.fst then (.error (.missingVar var)) else .ok ()).2 (by
        intro v hv
        rw [hn]
        rcases List.mem_append.1 hv with hv | hv
        · exact ((hl v).1 (h1 v hv)).1
        · exact ((hs v).1 (h2 v hv)).1)
    have e2 := (forEach_ok (expectedSurfaceVars lt) fun var =>
        if !sameSet (((data.get var).map XVar.dims).getD []) ["latitude", "longitude"] then
          .error (.surfaceDims var) else .ok ()).2 (by
        intro v hv
        rw [hm]
        exact ((hs v).1 (h2 v hv)).2)
    rw [e1]
    dsimp only
    rw [e2]
    dsimp only
    rw [forEach_ok]
    intro v hv
    rw [hm]
    exact ((hl v).1 (h1 v hv)).2

variable [NpOps α]

theorem checkNans_ok (data : XDataset α) :
    checkNans data = .ok () ↔ ∀ e ∈ data.dataVars, ∀ y ∈ e.2.values, NpOps.isnan y = false := by
  unfold checkNans
  rw [forEach_ok]
  constructor
  · intro h e he y hy
    have := h e he
    obtain ⟨n, x⟩ := e
    dsimp only at this hy
    by_contra hc
    have hany : x.values.any NpOps.isnan = true :=
      List.any_eq_true.2 ⟨y, hy, by simpa using hc⟩
    rw [if_pos hany] at this
    simp at this
  · intro h e he
    have := h e he
    obtain ⟨n, x⟩ := e
    dsimp only at this ⊢
    rw [if_neg]
    simp only [List.any_eq_true, not_exists, not_and, Bool.not_eq_true]
    exact this

/-- `validate_input` accepts exactly the complete data sets. -/
theorem C60_accepts_iff (data : XDataset α) (lt : LevelType) :
    validateInput data lt = .ok () ↔ ValidInput data lt := by
  have hd : validateDims data = .ok () ↔
      "latitude" ∈ data.dims ∧ "longitude" ∈ data.dims ∧ "level" ∈ data.dims := by
    unfold validateDims
    rw [forEach_ok]
    have hn : ∀ (p : Prop) [Decidable p] (e : ValidationError),
        (if ¬ p then (Except.error e : Except ValidationError Unit) else .ok ()) = .ok () ↔ p := by
      intro p _ e; by_cases h : p <;> simp [h]
    simp only [hn]
    simp
  have key : validateInput data lt = .ok () ↔
      validateDims data = .ok () ∧ validateVars data lt = .ok () ∧ checkNans data = .ok () := by
    unfold validateInput
    cases validateDims data with
    | error e => simp
    | ok u =>
      cases validateVars data lt with
      | error e => simp
      | ok u => simp
  rw [key, hd, validateVars_ok, checkNans_ok]
  cases lt
  · constructor
    · rintro ⟨h1, ⟨h2, h3⟩, h4⟩
      simp [expectedLevelVars, expectedSurfaceVars] at h2 h3
      exact ⟨h1, h2.1, h2.2.1, h2.2.2, h3.1, h3.2.1, h3.2.2.1, fun _ => h3.2.2.2, by simp, h4⟩
    · intro h
      refine ⟨h.dims, ⟨?_, ?_⟩, h.complete⟩
      · simp [expectedLevelVars]; exact ⟨h.q, h.u, h.v⟩
      · simp [expectedSurfaceVars]; exact ⟨h.ps, h.precip, h.evap, h.surface rfl⟩
  · constructor
    · rintro ⟨h1, ⟨h2, h3⟩, h4⟩
      simp [expectedLevelVars, expectedSurfaceVars] at h2 h3
      exact ⟨h1, h2.1, h2.2.1, h2.2.2.1, h3.1, h3.2.1, h3.2.2, by simp, fun _ => h2.2.2.2, h4⟩
    · intro h
      refine ⟨h.dims, ⟨?_, ?_⟩, h.complete⟩
      · simp [expectedLevelVars]; exact ⟨h.q, h.u, h.v, h.thickness rfl⟩
      · simp [expectedSurfaceVars]; exact ⟨h.ps, h.precip, h.evap⟩

/-- The error names an actual problem: a dimension that is missing, a required variable that is missing, a
variable that is there with other dimensions, or the number of missing values of a variable. -/
theorem C60_error_is_real (data : XDataset α) (lt : LevelType) (e : ValidationError)
    (h : validateInput data lt = .error e) :
    match e with
    | .missingDim d => d ∈ ["latitude", "longitude", "level"] ∧ d ∉ data.dims
    | .missingVar v => (¬ ∃ x, data.get v = some x) ∧
        (v ∈ ["q", "u", "v", "ps", "precip", "evap"] ∨
          (lt = .pressure_levels ∧ v ∈ ["qs", "us", "vs"]) ∨ (lt = .model_levels ∧ v = "dp"))
    | .surfaceDims v => ∃ x, data.get v = some x ∧ ¬ ∀ d, d ∈ x.dims ↔ d ∈ ["latitude", "longitude"]
    | .levelDims v => ∃ x, data.get v = some x ∧
        ¬ ∀ d, d ∈ x.dims ↔ d ∈ ["latitude", "longitude", "level"]
    | .nans n v => ∃ x, (v, x) ∈ data.dataVars ∧ n = x.values.countP NpOps.isnan ∧ 0 < n := by
  unfold validateInput at h
  cases hd : validateDims data with
  | error e' =>
    rw [hd] at h
    injection h with h
    subst h
    obtain ⟨d, hm, hb⟩ := forEach_error _ _ _ hd
    by_cases hin : d ∈ data.dims
    · simp [hin] at hb
    · simp [hin] at hb
      subst hb
      exact ⟨hm, hin⟩
  | ok u =>
    rw [hd] at h
    dsimp only at h
    cases hv : validateVars data lt with
    | error e' =>
      rw [hv] at h
      injection h with h
      subst h
      unfold validateVars at hv
      split at hv
      · rename_i e1 h1
        injection hv with hv
        subst hv
        obtain ⟨v, hm, hb⟩ := forEach_error _ _ _ h1
        by_cases hin : v ∈ data.dataVars.map Prod.fst
        · rw [if_neg (by simpa using hin)] at hb; simp at hb
        · rw [if_pos hin] at hb
          injection hb with hb
          subst hb
          rw [lookup_isSome] at hin
          refine ⟨hin, ?_⟩
          cases lt <;> simp [expectedLevelVars, expectedSurfaceVars] at hm ⊢ <;> tauto
      · rename_i h1
        rw [forEach_ok] at h1
        have hpres : ∀ v ∈ expectedLevelVars lt ++ expectedSurfaceVars lt,
            ∃ x, data.get v = some x := by
          intro v hv'
          have := h1 v hv'
          by_cases hin : v ∈ data.dataVars.map Prod.fst
          · exact (lookup_isSome _ _).1 hin
          · rw [if_pos hin] at this; simp at this
        split at hv
        · rename_i e2 h2
          injection hv with hv
          subst hv
          obtain ⟨v, hm, hb⟩ := forEach_error _ _ _ h2
          obtain ⟨x, hx⟩ := hpres v (by simp [hm])
          rw [hx] at hb
          by_cases hss : sameSet x.dims ["latitude", "longitude"] = true
          · simp [hss] at hb
          · simp [hss] at hb
            subst hb
            exact ⟨x, hx, fun hh => hss ((sameSet_iff _ _).2 hh)⟩
        · obtain ⟨v, hm, hb⟩ := forEach_error _ _ _ hv
          obtain ⟨x, hx⟩ := hpres v (by simp [hm])
          rw [hx] at hb
          by_cases hss : sameSet x.dims ["level", "latitude", "longitude"] = true
          · simp [hss] at hb
          · simp [hss] at hb
            subst hb
            refine ⟨x, hx, fun hh => hss ((sameSet_iff _ _).2 fun d => (hh d).trans ?_)⟩
            simp only [List.mem_cons, List.not_mem_nil, or_false]; tauto
    | ok u =>
      rw [hv] at h
      dsimp only at h
      obtain ⟨⟨v, x⟩, hm, hb⟩ := forEach_error _ _ _ h
      dsimp only at hb
      by_cases hany : x.values.any NpOps.isnan = true
      · rw [if_pos hany] at hb
        injection hb with hb
        subst hb
        refine ⟨x, hm, rfl, ?_⟩
        rw [List.countP_pos_iff]
        exact List.any_eq_true.1 hany
      · rw [if_neg hany] at hb; simp at hb

/-- Missing values are only looked for in data that is otherwise complete. -/
theorem C60_nans_last (data : XDataset α) (lt : LevelType) (n : ℕ) (v : String)
    (h : validateInput data lt = .error (.nans n v)) (data' : XDataset α)
    (hd : data'.dims = data.dims)
    (hv : data'.dataVars.map (fun e => (e.1, e.2.dims)) = data.dataVars.map fun e => (e.1, e.2.dims))
    (hc : ∀ e ∈ data'.dataVars, ∀ y ∈ e.2.values, NpOps.isnan y = false) :
    validateInput data' lt = .ok () := by
  have hget : ∀ w, (data'.get w).map XVar.dims = (data.get w).map XVar.dims := by
    intro w
    have aux : ∀ l : List (String × XVar α), (l.lookup w).map XVar.dims =
        (l.map fun e => (e.1, e.2.dims)).lookup w := by
      intro l
      induction l with
      | nil => rfl
      | cons a l ih =>
        obtain ⟨m, x⟩ := a
        simp only [List.map_cons, List.lookup_cons]
        cases w == m <;> simp [ih]
    unfold XDataset.get
    rw [aux, aux, hv]
  have hnames : data'.dataVars.map Prod.fst = data.dataVars.map Prod.fst := by
    have := congrArg (List.map Prod.fst) hv
    simpa [List.map_map, Function.comp_def] using this
  unfold validateInput at h ⊢
  have e1 : validateDims data' = validateDims data := by unfold validateDims; rw [hd]
  have e2 : validateVars data' lt = validateVars data lt := by
    unfold validateVars; simp only [hget, hnames]
  rw [e1, e2]
  cases hdd : validateDims data with
  | error e' =>
    rw [hdd] at h
    injection h with h
    subst h
    obtain ⟨d, hm, hb⟩ := forEach_error _ _ _ hdd
    split at hb <;> simp at hb
  | ok u =>
    rw [hdd] at h
    dsimp only at h ⊢
    cases hvv : validateVars data lt with
    | error e' =>
      rw [hvv] at h
      injection h with h
      subst h
      unfold validateVars at hvv
      split at hvv
      · rename_i e1 h1
        injection hvv with hvv
        subst hvv
        obtain ⟨d, hm, hb⟩ := forEach_error _ _ _ h1
        split at hb <;> simp at hb
      · split at hvv
        · rename_i h2
          injection hvv with hvv
          subst hvv
          obtain ⟨d, hm, hb⟩ := forEach_error _ _ _ h2
          split at hb <;> simp at hb
        · obtain ⟨d, hm, hb⟩ := forEach_error _ _ _ hvv
          split at hb <;> simp at hb
    | ok u => exact (checkNans_ok data').2 hc

/-- Not checked: the dimensions of the optional total column water (or of any other extra variable). -/
theorem C60_extra_variable (data : XDataset α) (lt : LevelType) (name : String) (x : XVar α)
    (hnew : data.get name = none) (hx : ∀ y ∈ x.values, NpOps.isnan y = false)
    (h : validateInput data lt = .ok ()) :
    validateInput ⟨data.dims, data.dataVars ++ [(name, x)]⟩ lt = .ok () := by
  rw [C60_accepts_iff] at h ⊢
  have hk : ∀ v dims, HasVar data v dims →
      HasVar (⟨data.dims, data.dataVars ++ [(name, x)]⟩ : XDataset α) v dims := by
    rintro v dims ⟨y, hy, hd⟩
    refine ⟨y, ?_, hd⟩
    unfold XDataset.get at hy ⊢
    rw [List.lookup_append, hy]
    rfl
  refine ⟨h.dims, hk _ _ h.q, hk _ _ h.u, hk _ _ h.v, hk _ _ h.ps, hk _ _ h.precip, hk _ _ h.evap,
    fun e => ⟨hk _ _ (h.surface e).1, hk _ _ (h.surface e).2.1, hk _ _ (h.surface e).2.2⟩,
    fun e => hk _ _ (h.thickness e), ?_⟩
  intro e he
  rcases List.mem_append.1 he with he | he
  · exact h.complete e he
  · simp at he; subst he; exact hx

end

/-- a complete data set for model levels -/
def demoInput (y : XF ℚ) : XDataset (XF ℚ) where
  dims := ["level", "latitude", "longitude"]
  dataVars :=
    [("q", ⟨["level", "latitude", "longitude"], [.fin 1, y]⟩),
     ("u", ⟨["level", "latitude", "longitude"], [.fin 1]⟩),
     ("v", ⟨["longitude", "level", "latitude"], [.fin 1]⟩),
     ("ps", ⟨["latitude", "longitude"], [.fin 1]⟩),
     ("precip", ⟨["latitude", "longitude"], [.fin 1]⟩),
     ("evap", ⟨["longitude", "latitude"], [.fin 1]⟩),
     ("dp", ⟨["level", "latitude", "longitude"], [.fin 1]⟩)]

example : validateInput (demoInput (.fin 2)) .model_levels = .ok () ∧
    validateInput (demoInput (.fin 2)) .pressure_levels = .error (.missingVar "qs") ∧
    validateInput (demoInput .nan) .model_levels = .error (.nans 1 "q") := by
  refine ⟨?_, ?_, ?_⟩ <;> rfl

end Wam
