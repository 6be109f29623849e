import Verif.Lemmas.ColumnRounded
import Verif.Model.Era5Table

/-! Rounding errors of the model-level thicknesses. -/

set_option linter.unusedSectionVars false

namespace Wam
open Spec

variable {K : Type} [Field K] [LinearOrder K] [IsStrictOrderedRing K] {R : Rounding K} {u η b : K}

/-- both computations end with related results, or with the same error -/
def SameEnd {α β : Type} (r : α → β → Prop) : Except Err α → Except Err β → Prop
  | .ok x, .ok y => r x y
  | .error e, .error f => e = f
  | _, _ => False

theorem SameEnd.bind {α β γ δ : Type} {r : α → β → Prop} {s : γ → δ → Prop} {x : Except Err α} {y : Except Err β}
    {f : α → Except Err γ} {g : β → Except Err δ} (h : SameEnd r x y) (hfg : ∀ a b, r a b → SameEnd s (f a) (g b)) :
    SameEnd s (x >>= f) (y >>= g) := by
  match x, y, h with
  | .ok a, .ok b, h => exact hfg a b h
  | .error e, .error _, rfl => rfl

theorem SameEnd.mono {α β : Type} {r s : α → β → Prop} {x : Except Err α} {y : Except Err β} (h : SameEnd r x y)
    (hrs : ∀ a b, r a b → s a b) : SameEnd s x y := by
  match x, y, h with
  | .ok a, .ok b, h => exact hrs a b h
  | .error e, .error _, rfl => rfl

theorem sameEnd_index {α β : Type} {r : α → β → Prop} {l : List α} {l' : List β} (h : List.Forall₂ r l l') (i : ℤ) :
    SameEnd r (npIndex l i) (npIndex l' i) := by
  unfold npIndex
  have hlen := h.length_eq
  rw [hlen]
  set k := if i < 0 then i + (l'.length : ℤ) else i
  by_cases hk : k < 0
  · simp only [hk, if_true]; rfl
  · simp only [hk, if_false]
    generalize k.toNat = j
    clear hk hlen
    induction h generalizing j with
    | nil => exact rfl
    | cons hab hl ih =>
      cases j with
      | zero => exact hab
      | succ j => exact ih j

theorem sameEnd_mapM {ι α β : Type} {r : α → β → Prop} {f : ι → Except Err α} {g : ι → Except Err β}
    (h : ∀ i, SameEnd r (f i) (g i)) (l : List ι) : SameEnd (List.Forall₂ r) (l.mapM f) (l.mapM g) := by
  induction l with
  | nil => exact List.Forall₂.nil
  | cons i l ih =>
    rw [List.mapM_cons, List.mapM_cons]
    refine (h i).bind fun a b hab => ih.bind fun as bs hs => ?_
    exact List.Forall₂.cons hab hs

/-- half of the sum -/
theorem Ap.midpoint (A : Accurate R u η) (hη : η ≤ u) (hb : Fine u η b) {x1 x2 : Fl R} {y1 y2 e e' : K}
    (he : 0 ≤ e) (he1 : e ≤ 1000) (he' : 51 / 50 * (e + 5) + 3 ≤ e') (h1 : Ap u b e 1 x1 y1) (h2 : Ap u b e 1 x2 y2) :
    Ap u b e' 1 ((x1 + x2) / ofRat 2) ((y1 + y2) / ofRat 2) := by
  have hs := Ap.add A hb h1 h2 (by linarith)
  have hs' : Ap u (2 * b) (e + 2) 1 (x1 + x2) (y1 + y2) :=
    ⟨hs.err.trans (le_of_eq (by ring)), hs.size.trans (le_of_eq (by ring))⟩
  have hf2 : Fine u η 2 := ⟨by norm_num, by have := A.u_nonneg; linarith⟩
  have h2' : Ap u (2 : K) 3 1 (ofRat 2 : Fl R) 2 := by
    have := Ap.lit (R := R) (m := 1) A 2 hf2 (by norm_num)
    have e2 : ((2 : ℚ) : K) = 2 := by norm_cast
    rw [e2] at this
    exact this.weaken A (by norm_num) (by norm_num) le_rfl
  have := Ap.div A hb hs' (by norm_num : (0 : K) < 2) h2' rfl (by linarith) (by norm_num) (by norm_num) (by norm_num)
    (by linarith)
  rw [ofRat_two]
  refine this.weaken A hb.nonneg ?_ le_rfl
  linarith

theorem ap_midpoints (A : Accurate R u η) (hη : η ≤ u) (hb : Fine u η b) {e e' : K} (he : 0 ≤ e) (he1 : e ≤ 1000)
    (he' : 51 / 50 * (e + 5) + 3 ≤ e') {xs : List (Fl R)} {ys : List K} (h : List.Forall₂ (Ap u b e 1) xs ys) :
    List.Forall₂ (Ap u b e' 1) (npMidpoints xs) (npMidpoints ys) := by
  induction h with
  | nil => exact List.Forall₂.nil
  | cons hab hl ih =>
    cases hl with
    | nil => exact List.Forall₂.nil
    | cons hab' hl' => exact List.Forall₂.cons (Ap.midpoint A hη hb he he1 he' hab' hab) ih

theorem ap_forall_weaken (A : Accurate R u η) (hb : 0 ≤ b) {e e' : K} (he : e ≤ e') {xs : List (Fl R)} {ys : List K}
    (h : List.Forall₂ (Ap u b e 1) xs ys) : List.Forall₂ (Ap u b e' 1) xs ys :=
  h.imp fun _ _ h => h.weaken A hb he le_rfl

/-- one column of the table of edges -/
theorem ap_edges (A : Accurate R u η) (hη : η ≤ u) (hb : Fine u η b) {xs : List (Fl R)} {ys : List K}
    (h : List.Forall₂ (Ap u b 3 1) xs ys) (idx : List ℤ) :
    SameEnd (fun f g => List.Forall₂ (Ap u b 12 1) f g ∧ List.Forall₂ (Ap u b 21 1) (npMidpoints f) (npMidpoints g))
      (idx.mapM (npIndex (npMidpoints xs))) (idx.mapM (npIndex (npMidpoints ys))) := by
  have h1 := ap_midpoints A hη hb (by norm_num) (by norm_num) (by norm_num : (51 : K) / 50 * (3 + 5) + 3 ≤ 12) h
  refine (sameEnd_mapM (fun i => sameEnd_index h1 i) idx).mono fun f g hfg => ⟨hfg, ?_⟩
  exact ap_midpoints A hη hb (by norm_num) (by norm_num) (by norm_num) hfg

theorem forall2_append {α β : Type} {r : α → β → Prop} {a : List α} {b : List β} {c : List α} {d : List β}
    (h : List.Forall₂ r a b) (h' : List.Forall₂ r c d) : List.Forall₂ r (a ++ c) (b ++ d) := by
  induction h with
  | nil => exact h'
  | cons hab _ ih => exact List.Forall₂.cons hab ih

theorem sameEnd_edges (A : Accurate R u η) (hη : η ≤ u) (hb : Fine u η b) {af bf : List (Fl R)} {a' b' : List K}
    (ha : List.Forall₂ (Ap u b 3 1) af a') (hb' : List.Forall₂ (Ap u 1 3 1) bf b') (levels : List ℤ) :
    SameEnd (fun x y => List.Forall₂ (Ap u b 21 1) x.1 y.1 ∧ List.Forall₂ (Ap u 1 21 1) x.2 y.2)
      (getEdges af bf levels) (getEdges a' b' levels) := by
  have h1 : Fine u η 1 := ⟨zero_le_one, by linarith⟩
  unfold getEdges
  refine (ap_edges A hη hb ha _).bind fun f g hfg => ?_
  refine (ap_edges A hη h1 hb' _).bind fun f' g' hfg' => ?_
  refine (sameEnd_index ha 0).bind fun x0 y0 h0 => ?_
  refine (sameEnd_index ha (-1)).bind fun xN yN hN => ?_
  refine (sameEnd_index hb' 0).bind fun x0' y0' h0' => ?_
  refine (sameEnd_index hb' (-1)).bind fun xN' yN' hN' => ?_
  constructor
  · exact List.Forall₂.cons (h0.weaken A hb.nonneg (by norm_num) le_rfl)
      (forall2_append hfg.2 (List.Forall₂.cons (hN.weaken A hb.nonneg (by norm_num) le_rfl) List.Forall₂.nil))
  · exact List.Forall₂.cons (h0'.weaken A zero_le_one (by norm_num) le_rfl)
      (forall2_append hfg'.2 (List.Forall₂.cons (hN'.weaken A zero_le_one (by norm_num) le_rfl) List.Forall₂.nil))

theorem ap_pressures (A : Accurate R u η) (hη : η ≤ u) (hb : Fine u η b) (sp : Fl R) (hsp : |sp.val| ≤ b)
    {af bf : List (Fl R)} {a' b' : List K}
    (ha : List.Forall₂ (Ap u b 21 1) af a') (hb' : List.Forall₂ (Ap u 1 21 1) bf b') :
    List.Forall₂ (Ap u b 50 2) (List.zipWith (fun a b => a + b * sp) af bf)
      (List.zipWith (fun a b => a + b * sp.val) a' b') := by
  induction ha generalizing bf b' with
  | nil => exact List.Forall₂.nil
  | cons hx hl ih =>
    cases hb' with
    | nil => exact List.Forall₂.nil
    | cons hy hl' =>
      refine List.Forall₂.cons ?_ (ih hl')
      have h1 : Ap u b 0 1 sp sp.val := Ap.exact sp (by linarith)
      have h2 := Ap.mul A hb hy h1 zero_le_one hb.nonneg (one_mul b) (by norm_num) le_rfl (by norm_num) (by norm_num)
      have h2' : Ap u b 25 1 _ _ := h2.weaken A hb.nonneg (by norm_num) (by norm_num)
      have h3 := Ap.add A hb hx h2' (by norm_num)
      exact h3.weaken A hb.nonneg (by norm_num) (by norm_num)

theorem ap_diff (A : Accurate R u η) (hb : Fine u η b) {xs : List (Fl R)} {ys : List K}
    (h : List.Forall₂ (Ap u b 50 2) xs ys) :
    List.Forall₂ (Ap u b 106 4) (npDiff xs) (npDiff ys) := by
  induction h with
  | nil => exact List.Forall₂.nil
  | cons hab hl ih =>
    cases hl with
    | nil => exact List.Forall₂.nil
    | cons hab' hl' =>
      refine List.Forall₂.cons ?_ ih
      have := Ap.sub A hb hab' hab (by norm_num)
      exact this.weaken A hb.nonneg (by norm_num) (by norm_num)

theorem sameEnd_dp (A : Accurate R u η) (hη : η ≤ u) (hb : Fine u η b) (sp : Fl R) (hsp : |sp.val| ≤ b)
    {af bf : List (Fl R)} {a' b' : List K}
    (ha : List.Forall₂ (Ap u b 3 1) af a') (hb' : List.Forall₂ (Ap u 1 3 1) bf b') (levels : List ℤ) :
    SameEnd (fun x y => List.Forall₂ (Ap u b 106 4) x y)
      (getDpModellevels af bf sp levels) (getDpModellevels a' b' sp.val levels) := by
  unfold getDpModellevels
  refine (sameEnd_edges A hη hb ha hb' levels).bind fun x y h => ?_
  have hlen := h.1.length_eq
  obtain ⟨x1, x2⟩ := x
  obtain ⟨y1, y2⟩ := y
  simp only at hlen h ⊢
  rw [hlen]
  by_cases hl : y1.length ≠ levels.length + 1
  · rw [if_pos hl, if_pos hl]
    rfl
  · rw [if_neg hl, if_neg hl]
    exact ap_diff A hb (ap_pressures A hη hb sp hsp h.1 h.2)

end Wam
