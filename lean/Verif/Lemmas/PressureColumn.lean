import Verif.Lemmas.PressureRounded

/-! Rounding errors of the extension of pressure levels: whole columns. -/

set_option linter.unusedSectionVars false
set_option linter.unusedVariables false

namespace Wam
open Spec

variable {K : Type} [Field K] [LinearOrder K] [IsStrictOrderedRing K] {R : Rounding K} {u η : K}

/-- a float near a number of limited size -/
def NearB (κ B : K) (x : Fl R) (y : K) : Prop := |x.val - y| ≤ κ ∧ |y| ≤ B

/-- different pressures differ by at least `g` -/
def SpacedL (g : K) (l : List (Fl R)) : Prop := ∀ x ∈ l, ∀ y ∈ l, x.val < y.val → g ≤ y.val - x.val

theorem npIndex_map {α β : Type} (f : α → β) (l : List α) (i : ℤ) : npIndex (l.map f) i = (npIndex l i).map f := by
  unfold npIndex
  simp only [List.length_map]
  generalize (if i < 0 then i + (l.length : ℤ) else i) = k
  by_cases hk : k < 0
  · rw [if_pos hk, if_pos hk]; rfl
  · rw [if_neg hk, if_neg hk, List.getElem?_map]
    cases h : l[k.toNat]? <;> rfl

theorem npDiff_all_Fl (l : List (Fl R)) (h : (l.map Fl.val).Pairwise (· ≤ ·)) :
    ((npDiff l).all fun d => NpOps.le (ofRat 0) d) = true := by
  induction l with
  | nil => simp [npDiff]
  | cons a l ih =>
    cases l with
    | nil => simp [npDiff]
    | cons b l =>
      rw [npDiff, List.all_cons, Bool.and_eq_true]
      simp only [List.map_cons, List.pairwise_cons] at h
      refine ⟨?_, ih (by simpa using h.2)⟩
      rw [Fl.ofRat_zero, Fl.np_le, decide_eq_true_eq]
      exact Fl.sub_nonneg ((Fl.le_def _ _).2 (h.1 b.val (by simp)))

theorem countP_val (l : List (Fl R)) (x : Fl R) :
    (l.map Fl.val).countP (fun y => decide (y < x.val)) = l.countP (fun y => decide (y < x)) := by
  rw [List.countP_map]
  rfl

/-- the end of two computations: both give a value, or both the same error -/
def BothEnd {α β : Type} (r : α → β → Prop) (a : Except Err α) (b : Except Err β) : Prop :=
  (∃ x y, a = .ok x ∧ b = .ok y ∧ r x y) ∨ ∃ e, a = .error e ∧ b = .error e

theorem BothEnd.bind {α β γ δ : Type} {r : α → β → Prop} {s : γ → δ → Prop} {a : Except Err α} {b : Except Err β}
    {f : α → Except Err γ} {g : β → Except Err δ} (h : BothEnd r a b) (h2 : ∀ x y, r x y → BothEnd s (f x) (g y)) :
    BothEnd s (a >>= f) (b >>= g) := by
  rcases h with ⟨x, y, rfl, rfl, hr⟩ | ⟨e, rfl, rfl⟩
  · exact h2 x y hr
  · exact Or.inr ⟨e, rfl, rfl⟩

/-- **interpolation** in a column -/
theorem interpolate_close (A : Accurate R u η) {B g : K} (x : Fl R) (xp fp : List (Fl R)) (hlen : fp.length = xp.length)
    (hs : (xp.map Fl.val).Pairwise (· ≤ ·)) (hB : 0 ≤ B) (hg : 0 < g) (hsp : SpacedL g (x :: xp))
    (hf : ∀ y ∈ fp, |y.val| ≤ B) (h0 : ∀ h : 0 < xp.length, xp[0].val < x.val)
    (hη1 : η ≤ u * g) (hη2 : η ≤ u * B) (hη3 : η ≤ u * (B * g)) :
    BothEnd (NearB (32 * (u * B)) B) (interpolate x xp fp false)
      (interpolate x.val (xp.map Fl.val) (fp.map Fl.val) false) := by
  by_cases h2 : xp.length < 2
  · right
    refine ⟨.valueError, ?_, (interpolate_error _ _ _).1 (by simpa using h2)⟩
    have e1 : (npDiff xp).isEmpty = true := by rw [npDiff_isEmpty]; simpa using h2
    unfold interpolate
    simp only [Bool.false_eq_true, if_false, e1, if_true, throw, throwThe, MonadExceptOf.throw,
      bind, Except.bind]
  have h2' : 2 ≤ xp.length := by omega
  have e1 : (npDiff xp).isEmpty = false := by rw [npDiff_isEmpty]; simpa using h2'
  have e2 := npDiff_all_Fl xp hs
  have e3 : npIndex xp 0 = .ok xp[0] := npIndex_nat xp 0 (by omega)
  have e4 := npIndex_neg_one xp (by omega)
  have hlo : ¬ x < xp[0] := by
    intro h
    have := h0 (by omega)
    exact absurd ((Fl.lt_def _ _).1 h) (not_lt.2 this.le)
  by_cases hhi : xp[xp.length - 1] < x
  · right
    refine ⟨.valueError, ?_, (interpolate_error _ _ _).2.2 (by simpa using h2') hs (Or.inr ?_)⟩
    · unfold interpolate
      simp only [Bool.false_eq_true, if_false, e1, e2, Bool.not_true, e3, e4, Fl.np_lt, hlo, hhi, decide_true,
        decide_false, bind, Except.bind, pure, Except.pure, throw, throwThe, MonadExceptOf.throw, if_true]
    · simpa using (Fl.lt_def _ _).1 hhi
  left
  have hK := interpolate_ok x.val (xp.map Fl.val) (fp.map Fl.val) (by simpa using hlen) hs (by simpa using h2')
    (by simpa using (h0 (by omega)).le) (by simpa using not_lt.1 (fun h => hhi ((Fl.lt_def _ _).2 (by simpa using h))))
  rcases hK with ⟨-, e, -⟩ | ⟨i, hi, hk, hlt, hle, hr⟩
  · exfalso
    have := h0 (by omega)
    rw [e] at this
    simp at this
  rw [countP_val] at hk
  simp only [List.length_map] at hi
  simp only [List.getElem_map] at hlt hle hr
  set k := xp.countP (fun y => decide (y < x)) with hkdef
  have hb : interpolate x xp fp false = .ok (fp[i] + (fp[i + 1] - fp[i]) * (x - xp[i]) / (xp[i + 1] - xp[i])) := by
    have c1 : ((k : ℤ) - 1) = (i : ℤ) := by omega
    have hb : interpolate x xp fp false = (do
        let f0 ← npIndex fp ((k : ℤ) - 1)
        let f1 ← npIndex fp (k : ℤ)
        let x0 ← npIndex xp ((k : ℤ) - 1)
        let x1 ← npIndex xp (k : ℤ)
        pure (f0 + (f1 - f0) * (x - x0) / (x1 - x0))) := by
      unfold interpolate
      simp only [Bool.false_eq_true, if_false, e1, e2, Bool.not_true, e3, e4, Fl.np_lt,
        hlo, hhi, decide_false, bind, Except.bind, pure, Except.pure]
      rfl
    rw [hb, c1, hk]
    simp only [npIndex_nat fp i (by omega), npIndex_nat fp (i + 1) (by omega),
      npIndex_nat xp i (by omega), npIndex_nat xp (i + 1) (by omega), bind, Except.bind, pure, Except.pure]
  refine ⟨_, _, hb, hr, ?_, ?_⟩
  · exact line_close A fp[i] fp[i + 1] x xp[i] xp[i + 1] hB hg (hf _ (List.getElem_mem _)) (hf _ (List.getElem_mem _))
      (hsp _ (List.mem_cons_of_mem _ (List.getElem_mem _)) _ List.mem_cons_self hlt) hle hη1 hη2 hη3
  · exact line_abs hlt hle (hf _ (List.getElem_mem _)) (hf _ (List.getElem_mem _))

/-! ### Sorting -/

/-- the two argsorts order pressures alike -/
def SameOrder (argF : List (Fl R) → List ℕ) (argK : List K → List ℕ) : Prop :=
  ∀ l, argK (l.map Fl.val) = argF l

theorem sort_close {argF : List (Fl R) → List ℕ} {argK : List K → List ℕ} (ha : SameOrder argF argK) {κ B : K}
    (hκ : 0 ≤ κ) (hB : 0 ≤ B) {a : List (Fl R)} {a' : List K} (o : List (Fl R)) (h : List.Forall₂ (NearB κ B) a a') :
    List.Forall₂ (NearB κ B) (sortbyNdarray argF a o) (sortbyNdarray argK a' (o.map Fl.val)) := by
  unfold sortbyNdarray
  rw [ha o, List.forall₂_map_left_iff, List.forall₂_map_right_iff, List.forall₂_same]
  intro i hi
  clear hi
  rw [Fl.ofRat_zero, ofRat_zero]
  induction h generalizing i with
  | nil => simpa [NearB] using ⟨hκ, hB⟩
  | cons hab _ ih =>
    cases i with
    | zero => exact hab
    | succ i => simpa using ih i

theorem near_self {B : K} {l : List (Fl R)} (h : ∀ x ∈ l, |x.val| ≤ B) : List.Forall₂ (NearB 0 B) l (l.map Fl.val) := by
  rw [List.forall₂_map_right_iff, List.forall₂_same]
  intro x hx
  exact ⟨by simp, h x hx⟩

theorem near_mono {κ κ' B : K} (h : κ ≤ κ') {l : List (Fl R)} {l' : List K} (hl : List.Forall₂ (NearB κ B) l l') :
    List.Forall₂ (NearB κ' B) l l' := hl.imp fun _ _ h' => ⟨h'.1.trans h, h'.2⟩

theorem near_zero {B : K} {l : List (Fl R)} {l' : List K} (hl : List.Forall₂ (NearB 0 B) l l') :
    l' = l.map Fl.val := by
  induction hl with
  | nil => rfl
  | cons h _ ih =>
    rw [List.map_cons, ← ih]
    have := abs_nonpos_iff.1 h.1
    rw [sub_eq_zero.1 this]

theorem sort_val {argF : List (Fl R) → List ℕ} {argK : List K → List ℕ} (ha : SameOrder argF argK)
    (a o : List (Fl R)) :
    sortbyNdarray argK (a.map Fl.val) (o.map Fl.val) = (sortbyNdarray argF a o).map Fl.val := by
  unfold sortbyNdarray
  rw [ha o, List.map_map]
  apply List.map_congr_left
  intro i _
  rw [Fl.ofRat_zero, ofRat_zero, Function.comp_apply]
  simp only [List.getD_eq_getElem?_getD, List.getElem?_map]
  cases a[i]? <;> simp

theorem sort_length {argF : List (Fl R) → List ℕ} {argK : List K → List ℕ} (ha : SameOrder argF argK)
    (hs : IsArgsort argK) (a o : List (Fl R)) : (sortbyNdarray argF a o).length = o.length := by
  unfold sortbyNdarray
  rw [List.length_map, ← ha o, (hs _).1.length_eq, List.length_range, List.length_map]

theorem sort_mem {argF : List (Fl R) → List ℕ} {argK : List K → List ℕ} (ha : SameOrder argF argK)
    (hs : IsArgsort argK) (a o : List (Fl R)) (hl : a.length = o.length) (x : Fl R) :
    x ∈ sortbyNdarray argF a o ↔ x ∈ a := by
  unfold sortbyNdarray
  rw [← ha o]
  have hp := (hs (o.map Fl.val)).1
  rw [List.length_map] at hp
  constructor
  · intro h
    obtain ⟨i, hi, rfl⟩ := List.mem_map.1 h
    have : i < a.length := by rw [hl]; simpa using (hp.mem_iff).1 hi
    rw [List.getD_eq_getElem?_getD, List.getElem?_eq_getElem this]
    exact List.getElem_mem _
  · intro h
    obtain ⟨i, hi, rfl⟩ := List.getElem_of_mem h
    refine List.mem_map.2 ⟨i, (hp.mem_iff).2 (by rw [← hl]; simpa using hi), ?_⟩
    rw [List.getD_eq_getElem?_getD, List.getElem?_eq_getElem hi]
    rfl

theorem sort_sorted {argF : List (Fl R) → List ℕ} {argK : List K → List ℕ} (ha : SameOrder argF argK)
    (hs : IsArgsort argK) (o : List (Fl R)) : ((sortbyNdarray argF o o).map Fl.val).Pairwise (· ≤ ·) := by
  rw [← sort_val ha o o]
  have := (hs (o.map Fl.val)).2
  unfold sortbyNdarray
  rw [ofRat_zero]
  exact this

theorem npArgmin_val (l : List (Fl R)) : npArgmin (l.map Fl.val) = npArgmin l := by
  unfold npArgmin
  rw [List.findIdx?_map]
  have : ((fun x => (l.map Fl.val).all fun y => NpOps.le x y) ∘ Fl.val) = fun x : Fl R => l.all fun y => NpOps.le x y := by
    funext x
    simp only [Function.comp_apply, List.all_map]
    rfl
  rw [this]

/-! ### The extended column -/

/-- the two columns after the extension -/
structure NearColumns (g κQ Q κU U : K) (ps pb : Fl R) (n : ℕ) (c : Column (Fl R)) (c' : Column K) : Prop where
  p : c'.p = c.p.map Fl.val
  sorted : (c.p.map Fl.val).Pairwise (· ≤ ·)
  spaced : SpacedL g c.p
  surface : ps ∈ c.p
  boundary : pb ∈ c.p
  length : c.p.length = n
  q : List.Forall₂ (NearB κQ Q) c.q c'.q
  u : List.Forall₂ (NearB κU U) c.u c'.u
  v : List.Forall₂ (NearB κU U) c.v c'.v
  lq : c.q.length = n
  lu : c.u.length = n
  lv : c.v.length = n

theorem sorted_head {l : List (Fl R)} (hs : (l.map Fl.val).Pairwise (· ≤ ·)) {x z : Fl R} (hz : z ∈ l)
    (hx : z.val < x.val) (h : 0 < l.length) : l[0].val < x.val := by
  refine lt_of_le_of_lt ?_ hx
  cases l with
  | nil => simp at h
  | cons a l =>
    simp only [List.map_cons, List.pairwise_cons] at hs
    rcases List.mem_cons.1 hz with rfl | hz
    · exact le_rfl
    · exact hs.1 _ (List.mem_map_of_mem hz)

theorem SpacedL.sub {g : K} {l l' : List (Fl R)} (h : SpacedL g l) (hl : ∀ x ∈ l', x ∈ l) : SpacedL g l' :=
  fun x hx y hy => h x (hl x hx) y (hl y hy)

theorem sized_index {B : K} {l : List (Fl R)} (h : ∀ x ∈ l, |x.val| ≤ B) (i : ℤ) :
    BothEnd (fun x y => y = x.val ∧ |x.val| ≤ B) (npIndex l i) (npIndex (l.map Fl.val) i) := by
  rw [npIndex_map]
  unfold npIndex
  generalize (if i < 0 then i + (l.length : ℤ) else i) = k
  by_cases hk : k < 0
  · right; exact ⟨.indexError, by rw [if_pos hk], by rw [if_pos hk]; rfl⟩
  · rw [if_neg hk]
    cases hl : l[k.toNat]? with
    | none => right; exact ⟨.indexError, rfl, rfl⟩
    | some x => left; exact ⟨x, x.val, rfl, rfl, rfl, h x (List.mem_of_getElem? hl)⟩

/-- **the extension** of a column in floats and in exact arithmetic with the same boundary -/
theorem extend_close (A : Accurate R u η) {argF : List (Fl R) → List ℕ} {argK : List K → List ℕ}
    (ha : SameOrder argF argK) (hs : IsArgsort argK) {g Q U : K} (factor offset : Fl R) (c : Column (Fl R))
    (s : Surface (Fl R)) (hQ : 0 ≤ Q) (hU : 0 ≤ U) (hg : 0 < g)
    (hsp : SpacedL g ((factor * s.ps + offset) :: s.ps :: 0 :: c.p))
    (hlq : c.q.length = c.p.length) (hlu : c.u.length = c.p.length) (hlv : c.v.length = c.p.length)
    (hq : ∀ x ∈ s.qs :: c.q, |x.val| ≤ Q) (hu : ∀ x ∈ s.us :: c.u, |x.val| ≤ U) (hv : ∀ x ∈ s.vs :: c.v, |x.val| ≤ U)
    (hb : 0 < (factor * s.ps + offset).val)
    (hη1 : η ≤ u * g) (hη2 : η ≤ u * Q) (hη3 : η ≤ u * (Q * g)) (hη4 : η ≤ u * U) (hη5 : η ≤ u * (U * g)) :
    BothEnd (fun a b => a.2 = factor * s.ps + offset ∧ b.2 = a.2.val ∧
        NearColumns g (32 * (u * Q)) Q (32 * (u * U)) U s.ps (factor * s.ps + offset) (c.p.length + 3) a.1 b.1 ∧
        ∀ x ∈ a.1.p, x ∈ (factor * s.ps + offset) :: s.ps :: 0 :: c.p)
      (extendPressurelevels argF factor offset c s)
      (extendPressurelevels argK 0 (factor * s.ps + offset).val (exactLevels c)
        ⟨s.ps.val, s.qs.val, s.us.val, s.vs.val⟩) := by
  have huQ : 0 ≤ 32 * (u * Q) := by have := A.u_nonneg; positivity
  have huU : 0 ≤ 32 * (u * U) := by have := A.u_nonneg; positivity
  set pb := factor * s.ps + offset with hpb
  have hpbK : (0 : K) * s.ps.val + pb.val = pb.val := by ring
  unfold extendPressurelevels
  simp only [exactLevels, hpbK, npArgmin_val]
  cases hmin : npArgmin c.p with
  | error e => exact Or.inr ⟨e, rfl, rfl⟩
  | ok i =>
  have hvi := sized_index (B := U) (fun x hx => hv x (List.mem_cons_of_mem _ hx)) (i : ℤ) (l := c.v)
  have hui := sized_index (B := U) (fun x hx => hu x (List.mem_cons_of_mem _ hx)) (i : ℤ) (l := c.u)
  refine BothEnd.bind (r := fun a b => a = i ∧ b = i) (Or.inl ⟨i, i, rfl, rfl, rfl, rfl⟩) fun a b hab => ?_
  obtain ⟨rfl, rfl⟩ := hab
  refine BothEnd.bind hvi fun vt vt' hvt => ?_
  obtain ⟨rfl, hvt⟩ := hvt
  refine BothEnd.bind hui fun ut ut' hut => ?_
  obtain ⟨rfl, hut⟩ := hut
  have z : (ofRat 0 : K) = (0 : Fl R).val := by rw [ofRat_zero]; rfl
  simp only [Fl.ofRat_zero, z, ← List.map_cons, ← hpb]
  set P1 := s.ps :: 0 :: c.p with hP1
  -- the first sort
  have sorted1 := sort_sorted ha hs P1
  have mem1 : ∀ x, x ∈ sortbyNdarray argF P1 P1 ↔ x ∈ P1 := sort_mem ha hs P1 P1 rfl
  have len1 : ∀ a, (sortbyNdarray argF a P1).length = P1.length := fun a => sort_length ha hs a P1
  rw [sort_val ha, sort_val ha, sort_val ha, sort_val ha]
  set E := sortbyNdarray argF P1 P1 with hE
  have spE : SpacedL g (pb :: E) := hsp.sub fun x hx => by
    rcases List.mem_cons.1 hx with rfl | hx
    · exact List.mem_cons_self
    · exact List.mem_cons_of_mem _ ((mem1 x).1 hx)
  have h0 : ∀ h : 0 < E.length, E[0].val < pb.val := fun h =>
    sorted_head sorted1 ((mem1 0).2 (by simp [hP1])) (by simpa using hb) h
  have bU : ∀ (l : List (Fl R)) (t x : Fl R), l.length = c.p.length → (∀ y ∈ x :: l, |y.val| ≤ U) → |t.val| ≤ U →
      ∀ y ∈ sortbyNdarray argF (x :: t :: l) P1, |y.val| ≤ U := by
    intro l t x hl h ht y hy
    have := (sort_mem ha hs _ P1 (by simp [hP1, hl]) y).1 hy
    simp only [List.mem_cons] at this h
    rcases this with rfl | rfl | this
    · exact h _ (Or.inl rfl)
    · exact ht
    · exact h _ (Or.inr this)
  have bQ : ∀ y ∈ sortbyNdarray argF (s.qs :: 0 :: c.q) P1, |y.val| ≤ Q := by
    intro y hy
    have := (sort_mem ha hs _ P1 (by simp [hP1, hlq]) y).1 hy
    simp only [List.mem_cons] at this hq
    rcases this with rfl | rfl | this
    · exact hq _ (Or.inl rfl)
    · simpa using hQ
    · exact hq _ (Or.inr this)
  have bu := bU c.u ut s.us hlu hu hut
  have bv := bU c.v vt s.vs hlv hv hvt
  have iu := interpolate_close A pb E _ (by rw [len1, len1]) sorted1 hU hg spE bu h0 hη1 hη4 hη5
  have iv := interpolate_close A pb E _ (by rw [len1, len1]) sorted1 hU hg spE bv h0 hη1 hη4 hη5
  have iq := interpolate_close A pb E _ (by rw [len1, len1]) sorted1 hQ hg spE bQ h0 hη1 hη2 hη3
  refine BothEnd.bind iu fun xu yu hxu => ?_
  refine BothEnd.bind iv fun xv yv hxv => ?_
  refine BothEnd.bind iq fun xq yq hxq => ?_
  left
  refine ⟨_, _, rfl, rfl, rfl, rfl, ?_, ?_⟩
  swap
  · intro x hx
    rcases List.mem_cons.1 ((sort_mem ha hs _ (pb :: E) rfl x).1 hx) with h | h
    · rw [h]; exact List.mem_cons_self
    · exact List.mem_cons_of_mem _ ((mem1 x).1 h)
  have hlen : (pb :: E).length = c.p.length + 3 := by
    rw [List.length_cons, len1]; rfl
  have memE : ∀ x, x ∈ sortbyNdarray argF (pb :: E) (pb :: E) ↔ x ∈ pb :: E := sort_mem ha hs _ _ rfl
  refine ⟨?_, ?_, ?_, ?_, ?_, ?_, ?_, ?_, ?_, ?_, ?_, ?_⟩
  · exact sort_val ha (pb :: E) (pb :: E)
  · exact sort_sorted ha hs _
  · exact spE.sub fun x hx => (memE x).1 hx
  · exact (memE _).2 (List.mem_cons_of_mem _ ((mem1 _).2 List.mem_cons_self))
  · exact (memE _).2 List.mem_cons_self
  · rw [sort_length ha hs, hlen]
  · exact sort_close ha huQ hQ (pb :: E) (.cons hxq (near_mono huQ (near_self bQ)))
  · exact sort_close ha huU hU (pb :: E) (.cons hxu (near_mono huU (near_self bu)))
  · exact sort_close ha huU hU (pb :: E) (.cons hxv (near_mono huU (near_self bv)))
  · exact (sort_length ha hs _ _).trans hlen
  · exact (sort_length ha hs _ _).trans hlen
  · exact (sort_length ha hs _ _).trans hlen

end Wam
