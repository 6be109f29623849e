import Verif.Spec.Excerpt
import Verif.Lemmas.RunEnds

/-! # Locality of a step, for every number type -/
set_option linter.unusedSectionVars false
set_option linter.unusedVariables false

namespace Wam
open Spec

namespace Local
variable {m n M N : ℕ} {α : Type*} [Add α] [Sub α] [Mul α] [Div α] [Neg α] [NpOps α]

theorem padWith_mid (l r : α) (f : Fin n → α) (k : Fin (n + 2)) (i : Fin n) (h : k.val = i.val + 1) :
    Arr.padWith l r f k = f i := by
  have : k = i.castSucc.succ := by apply Fin.ext; simp [h]
  subst this
  unfold Arr.padWith
  rw [Fin.cons_succ, Fin.snoc_castSucc]

theorem padYZero_mid (a : Arr m n α) (k : Fin (m + 2)) (j : Fin n) (i : Fin m) (h : k.val = i.val + 1) :
    Arr.padYZero a k j = a i j := padWith_mid _ _ (fun i' => a i' j) k i h

theorem padXWrap_mid (a : Arr m (n + 1) α) (i : Fin m) (k : Fin (n + 3)) (j : Fin (n + 1)) (h : k.val = j.val + 1) :
    Arr.padXWrap a i k = a i j := padWith_mid _ _ (a i) k j h

theorem padXYZero_mid (a : Arr m n α) (k : Fin (m + 2)) (l : Fin (n + 2)) (i : Fin m) (j : Fin n)
    (h : k.val = i.val + 1) (h' : l.val = j.val + 1) : Arr.padXYZero a k l = a i j := by
  unfold Arr.padXYZero
  rw [padYZero_mid _ k l i h, padWith_mid _ _ (a i) l j h']

/-- the value of `donorCell` from the nine numbers it uses -/
def nine (c w e no so uw ue vn vs : α) : α :=
  ((if NpOps.lt (ofRat 0) uw then uw * w else uw * c) - (if NpOps.lt (ofRat 0) ue then ue * c else ue * e)) +
    ((if NpOps.lt (ofRat 0) vs then vs * so else vs * c) - (if NpOps.lt (ofRat 0) vn then vn * c else vn * no))

theorem donorCell_nine (sp : Arr (m + 2) (n + 2) α) (up : Arr m (n + 1) α) (vp : Arr (m + 1) n α) (i : Fin m) (j : Fin n) :
    donorCell sp up vp i j = nine (sp i.castSucc.succ j.castSucc.succ) (sp i.castSucc.succ j.castSucc.castSucc)
      (sp i.castSucc.succ j.succ.succ) (sp i.castSucc.castSucc j.castSucc.succ) (sp i.succ.succ j.castSucc.succ)
      (up i j.castSucc) (up i j.succ) (vp i.castSucc j) (vp i.succ j) := by
  simp only [donorCell, nine, Arr.rowsInner, Arr.colsInner, Arr.rowsButFirst, Arr.rowsButLast, Arr.colsButFirst,
    Arr.colsButLast]
  rfl

/-- sign change of backtracking -/
def sg (sgn : Bool) (x : α) : α := if sgn then -x else x

/-- mean of two cells -/
def mean (x y : α) : α := ofRat (1 / 2) * (x + y)

/-- advection at a cell that is not on the edge of the grid, from the cell and its four neighbours -/
theorem advect_inner (periodic sgn : Bool) (s fx fy : Arr (m + 2) (n + 2) α) (i iN iS : Fin (m + 2))
    (j jW jE : Fin (n + 2)) (h1 : iN.val + 1 = i.val) (h2 : iS.val = i.val + 1) (h3 : jW.val + 1 = j.val)
    (h4 : jE.val = j.val + 1) :
    advect periodic sgn s fx fy i j = nine (s i j) (s i jW) (s i jE) (s iN j) (s iS j) (sg sgn (mean (fx i jW) (fx i j)))
      (sg sgn (mean (fx i j) (fx i jE))) (sg sgn (mean (fy iN j) (fy i j))) (sg sgn (mean (fy i j) (fy iS j))) := by
  have hiS := iS.isLt
  have hjE := jE.isLt
  have ei : (⟨i.val - 1, by omega⟩ : Fin m).castSucc.succ = i := Fin.ext (by simp; omega)
  have eiN : (⟨i.val - 1, by omega⟩ : Fin (m + 1)).castSucc = iN := Fin.ext (by simp; omega)
  have eiN' : (⟨i.val - 1, by omega⟩ : Fin (m + 1)).succ = i := Fin.ext (by simp; omega)
  have eiS : (⟨i.val, by omega⟩ : Fin (m + 1)).castSucc = i := Fin.ext (by simp)
  have eiS' : (⟨i.val, by omega⟩ : Fin (m + 1)).succ = iS := Fin.ext (by simp; omega)
  have ej : (⟨j.val - 1, by omega⟩ : Fin n).castSucc.succ = j := Fin.ext (by simp; omega)
  have ejN : (⟨j.val - 1, by omega⟩ : Fin (n + 1)).castSucc = jW := Fin.ext (by simp; omega)
  have ejN' : (⟨j.val - 1, by omega⟩ : Fin (n + 1)).succ = j := Fin.ext (by simp; omega)
  have ejS : (⟨j.val, by omega⟩ : Fin (n + 1)).castSucc = j := Fin.ext (by simp)
  have ejS' : (⟨j.val, by omega⟩ : Fin (n + 1)).succ = jE := Fin.ext (by simp; omega)
  cases periodic
  · simp only [advect, Bool.false_eq_true, if_false, horizontalAdvectionClosed]
    rw [donorCell_nine, padXYZero_mid s _ _ i j (by simp) (by simp), padXYZero_mid s _ _ i jW (by simp) (by simp; omega),
      padXYZero_mid s _ _ i jE (by simp) (by simp; omega), padXYZero_mid s _ _ iN j (by simp; omega) (by simp),
      padXYZero_mid s _ _ iS j (by simp; omega) (by simp),
      padXYZero_mid (n := n + 1) _ _ _ ⟨i.val - 1, by omega⟩ ⟨j.val - 1, by omega⟩ (by simp; omega) (by simp; omega),
      padXYZero_mid (n := n + 1) _ _ _ ⟨i.val - 1, by omega⟩ ⟨j.val, by omega⟩ (by simp; omega) (by simp),
      padXYZero_mid (m := m + 1) _ _ _ ⟨i.val - 1, by omega⟩ ⟨j.val - 1, by omega⟩ (by simp; omega) (by simp; omega),
      padXYZero_mid (m := m + 1) _ _ _ ⟨i.val, by omega⟩ ⟨j.val - 1, by omega⟩ (by simp) (by simp; omega)]
    simp only [staggerX, staggerY, Arr.rowsInner, Arr.colsInner, Arr.rowsButFirst, Arr.rowsButLast, Arr.colsButFirst,
      Arr.colsButLast, ei, eiN, eiN', eiS, eiS', ej, ejN, ejN', ejS, ejS', sg, mean]
  · simp only [advect, if_true, horizontalAdvectionPeriodic]
    rw [donorCell_nine, padYZero_mid _ _ _ i (by simp), padYZero_mid _ _ _ i (by simp), padYZero_mid _ _ _ i (by simp),
      padYZero_mid _ _ _ iN (by simp; omega), padYZero_mid _ _ _ iS (by simp; omega),
      padXWrap_mid s _ _ j (by simp), padXWrap_mid s _ _ jW (by simp; omega), padXWrap_mid s _ _ jE (by simp; omega),
      padXWrap_mid s _ _ j (by simp), padXWrap_mid s _ _ j (by simp),
      padYZero_mid (n := n + 3) _ _ _ ⟨i.val - 1, by omega⟩ (by simp; omega),
      padYZero_mid (n := n + 3) _ _ _ ⟨i.val - 1, by omega⟩ (by simp; omega),
      padYZero_mid (m := m + 1) _ _ _ ⟨i.val - 1, by omega⟩ (by simp; omega),
      padYZero_mid (m := m + 1) _ _ _ ⟨i.val, by omega⟩ (by simp)]
    simp only [staggerXPeriodic, staggerYPeriodic, Arr.rowsInner]
    rw [padWith_mid (n := n + 1) _ _ _ _ ⟨j.val - 1, by omega⟩ (by simp; omega),
      padWith_mid (n := n + 1) _ _ _ _ ⟨j.val, by omega⟩ (by simp)]
    simp only [Arr.rowsButFirst, Arr.rowsButLast, Arr.colsButFirst,
      Arr.colsButLast, ei, eiN, eiN', eiS, eiS', ej, ejN, ejN', ejS, ejS', sg, mean]

/-- with periodic boundaries: advection in a row that is not the first or last, from that row and its neighbours -/
theorem advect_rows (sgn : Bool) (s fx fy : Arr (m + 2) (n + 2) α) (S FX FY : Arr (M + 2) (n + 2) α)
    (i iN iS : Fin (m + 2)) (I IN IS : Fin (M + 2)) (j : Fin (n + 2))
    (h1 : iN.val + 1 = i.val) (h2 : iS.val = i.val + 1) (h3 : IN.val + 1 = I.val) (h4 : IS.val = I.val + 1)
    (hs : s i = S I) (hsN : s iN = S IN) (hsS : s iS = S IS) (hx : fx i = FX I)
    (hy : fy i = FY I) (hyN : fy iN = FY IN) (hyS : fy iS = FY IS) :
    advect true sgn s fx fy i j = advect true sgn S FX FY I j := by
  have hiS := iS.isLt
  have hIS := IS.isLt
  have ei : (⟨i.val - 1, by omega⟩ : Fin m).castSucc.succ = i := Fin.ext (by simp; omega)
  have eiN : (⟨i.val - 1, by omega⟩ : Fin (m + 1)).castSucc = iN := Fin.ext (by simp; omega)
  have eiN' : (⟨i.val - 1, by omega⟩ : Fin (m + 1)).succ = i := Fin.ext (by simp; omega)
  have eiS : (⟨i.val, by omega⟩ : Fin (m + 1)).castSucc = i := Fin.ext (by simp)
  have eiS' : (⟨i.val, by omega⟩ : Fin (m + 1)).succ = iS := Fin.ext (by simp; omega)
  have eI : (⟨I.val - 1, by omega⟩ : Fin M).castSucc.succ = I := Fin.ext (by simp; omega)
  have eIN : (⟨I.val - 1, by omega⟩ : Fin (M + 1)).castSucc = IN := Fin.ext (by simp; omega)
  have eIN' : (⟨I.val - 1, by omega⟩ : Fin (M + 1)).succ = I := Fin.ext (by simp; omega)
  have eIS : (⟨I.val, by omega⟩ : Fin (M + 1)).castSucc = I := Fin.ext (by simp)
  have eIS' : (⟨I.val, by omega⟩ : Fin (M + 1)).succ = IS := Fin.ext (by simp; omega)
  simp only [advect, if_true, horizontalAdvectionPeriodic]
  rw [donorCell_nine, donorCell_nine]
  rw [padYZero_mid _ _ _ i (by simp), padYZero_mid _ _ _ i (by simp), padYZero_mid _ _ _ i (by simp),
      padYZero_mid _ _ _ iN (by simp; omega), padYZero_mid _ _ _ iS (by simp; omega),
      padYZero_mid (n := n + 3) _ _ _ ⟨i.val - 1, by omega⟩ (by simp; omega),
      padYZero_mid (n := n + 3) _ _ _ ⟨i.val - 1, by omega⟩ (by simp; omega),
      padYZero_mid (m := m + 1) _ _ _ ⟨i.val - 1, by omega⟩ (by simp; omega),
      padYZero_mid (m := m + 1) _ _ _ ⟨i.val, by omega⟩ (by simp)]
  rw [padYZero_mid _ _ _ I (by simp), padYZero_mid _ _ _ I (by simp), padYZero_mid _ _ _ I (by simp),
      padYZero_mid _ _ _ IN (by simp; omega), padYZero_mid _ _ _ IS (by simp; omega),
      padYZero_mid (n := n + 3) _ _ _ ⟨I.val - 1, by omega⟩ (by simp; omega),
      padYZero_mid (n := n + 3) _ _ _ ⟨I.val - 1, by omega⟩ (by simp; omega),
      padYZero_mid (m := M + 1) _ _ _ ⟨I.val - 1, by omega⟩ (by simp; omega),
      padYZero_mid (m := M + 1) _ _ _ ⟨I.val, by omega⟩ (by simp)]
  simp only [Arr.padXWrap, staggerXPeriodic, staggerYPeriodic, Arr.rowsInner, Arr.rowsButFirst, Arr.rowsButLast, Arr.colsButFirst,
      Arr.colsButLast, ei, eiN, eiN', eiS, eiS', eI, eIN, eIN', eIS, eIS', hs, hsN, hsS, hx, hy, hyN, hyS]

variable (p : Place m n M N)

theorem deep_mono {ps : Bool} {k l : ℕ} (h : k ≤ l) {i : Fin (m + 2)} {j : Fin (n + 2)} (hd : Deep ps l i j) : Deep ps k i j :=
  ⟨⟨by have := hd.1.1; omega, by have := hd.1.2; omega⟩, hd.2.imp id fun h' => ⟨by have := h'.1; omega, by have := h'.2; omega⟩⟩

/-- neighbours in the row direction -/
theorem deep_row {ps : Bool} {k : ℕ} {i i' : Fin (m + 2)} {j : Fin (n + 2)} (hd : Deep ps (k + 1) i j)
    (h : i'.val + 1 = i.val ∨ i'.val = i.val + 1) : Deep ps k i' j :=
  ⟨⟨by have := hd.1.1; omega, by have := hd.1.2; omega⟩, hd.2.imp id fun h' => ⟨by have := h'.1; omega, by have := h'.2; omega⟩⟩

/-- neighbours in the column direction -/
theorem deep_col {k : ℕ} {i : Fin (m + 2)} {j j' : Fin (n + 2)} (hd : Deep false (k + 1) i j)
    (h : j'.val + 1 = j.val ∨ j'.val = j.val + 1) : Deep false k i j' :=
  ⟨⟨by have := hd.1.1; omega, by have := hd.1.2; omega⟩, hd.2.imp id fun h' => ⟨by have := h'.1; omega, by have := h'.2; omega⟩⟩

theorem c_id (p : Place m n M n) (j : Fin (n + 2)) : p.c j = j := by
  apply Fin.ext
  have := p.cols
  simp only [Place.c]; omega

theorem advect_cut (ps pb : Bool) (hf : p.Fits ps pb) (sgn : Bool) (s : Arr (m + 2) (n + 2) α) (S FX FY : Arr (M + 2) (N + 2) α)
    (k : ℕ) (hs : ∀ i j, Deep ps k i j → s i j = S (p.r i) (p.c j)) (i : Fin (m + 2)) (j : Fin (n + 2))
    (h : Deep ps (k + 1) i j) :
    advect ps sgn s (p.cut FX) (p.cut FY) i j = advect pb sgn S FX FY (p.r i) (p.c j) := by
  have h1 := h.1.1
  have h2 := h.1.2
  have hi := i.isLt
  have hj := j.isLt
  have hrow := p.rows
  have hcol := p.cols
  cases hps : ps with
  | false =>
    subst hps
    have h3 := h.2.resolve_left (by simp)
    rw [advect_inner false sgn s _ _ i ⟨i.val - 1, by omega⟩ ⟨i.val + 1, by omega⟩ j ⟨j.val - 1, by omega⟩ ⟨j.val + 1, by omega⟩
        (by simp; omega) (by simp) (by simp; omega) (by simp),
      advect_inner pb sgn S FX FY (p.r i) (p.r ⟨i.val - 1, by omega⟩) (p.r ⟨i.val + 1, by omega⟩) (p.c j)
        (p.c ⟨j.val - 1, by omega⟩) (p.c ⟨j.val + 1, by omega⟩)
        (by simp [Place.r]; omega) (by simp [Place.r]; omega) (by simp [Place.c]; omega) (by simp [Place.c]; omega)]
    rw [hs i j (deep_mono (Nat.le_succ k) h), hs _ j (deep_row h (Or.inl (by simp; omega))),
      hs _ j (deep_row h (Or.inr (by simp))), hs i _ (deep_col h (Or.inl (by simp; omega))), hs i _ (deep_col h (Or.inr (by simp)))]
    rfl
  | true =>
    obtain ⟨rfl, rfl⟩ := hf hps
    subst hps
    rw [c_id]
    have hrow' : ∀ i' : Fin (m + 2), Deep true k i' j → s i' = S (p.r i') := by
      intro i' hi'
      funext j'
      rw [hs i' j' ⟨hi'.1, Or.inl rfl⟩, c_id]
    have hcut : ∀ (f : Arr (M + 2) (n + 2) α) i', p.cut f i' = f (p.r i') := by
      intro f i'
      funext j'
      rw [Place.cut, c_id]
    exact advect_rows sgn s _ _ S FX FY i ⟨i.val - 1, by omega⟩ ⟨i.val + 1, by omega⟩ (p.r i) (p.r ⟨i.val - 1, by omega⟩)
      (p.r ⟨i.val + 1, by omega⟩) j (by simp; omega) (by simp) (by simp [Place.r]; omega) (by simp [Place.r]; omega)
      (hrow' i (deep_mono (Nat.le_succ k) h)) (hrow' _ (deep_row h (Or.inl (by simp; omega))))
      (hrow' _ (deep_row h (Or.inr (by simp)))) (hcut _ _) (hcut _ _) (hcut _ _) (hcut _ _)

theorem npGradient_inner (f : Fin (n + 2) → α) (j jW jE : Fin (n + 2)) (h1 : jW.val + 1 = j.val) (h2 : jE.val = j.val + 1) :
    npGradient f j = (f jE - f jW) / ofRat 2 := by
  have := jE.isLt
  unfold npGradient
  rw [dif_neg (by omega), dif_neg (by omega)]
  congr 3 <;> apply Fin.ext <;> simp <;> omega

theorem divergence_cut (ps pb : Bool) (hf : p.Fits ps pb) (FX FY : Arr (M + 2) (N + 2) α) (i : Fin (m + 2)) (j : Fin (n + 2))
    (h : Deep ps 1 i j) : divergence (p.cut FX) (p.cut FY) i j = divergence FX FY (p.r i) (p.c j) := by
  have h1 := h.1.1
  have h2 := h.1.2
  have hi := i.isLt
  have hj := j.isLt
  have hrow := p.rows
  have hcol := p.cols
  have hy : npGradient (fun i' => p.cut FY i' j) i = npGradient (fun i' => FY i' (p.c j)) (p.r i) := by
    rw [npGradient_inner _ i ⟨i.val - 1, by omega⟩ ⟨i.val + 1, by omega⟩ (by simp; omega) (by simp),
      npGradient_inner _ (p.r i) (p.r ⟨i.val - 1, by omega⟩) (p.r ⟨i.val + 1, by omega⟩)
        (by simp [Place.r]; omega) (by simp [Place.r]; omega)]
    rfl
  have hx : npGradient (fun j' => p.cut FX i j') j = npGradient (fun j' => FX (p.r i) j') (p.c j) := by
    cases hps : ps with
    | false =>
      subst hps
      have h3 := h.2.resolve_left (by simp)
      rw [npGradient_inner _ j ⟨j.val - 1, by omega⟩ ⟨j.val + 1, by omega⟩ (by simp; omega) (by simp),
        npGradient_inner _ (p.c j) (p.c ⟨j.val - 1, by omega⟩) (p.c ⟨j.val + 1, by omega⟩)
          (by simp [Place.c]; omega) (by simp [Place.c]; omega)]
      rfl
    | true =>
      obtain ⟨_, rfl⟩ := hf hps
      rw [c_id]
      congr 1
      funext j'
      rw [Place.cut, c_id]
  unfold divergence
  rw [hx, hy]

theorem calculateFz_cut (ps pb : Bool) (hf : p.Fits ps pb) (g : GridInfo (M + 2) α) (F : Fluxes (M + 2) (N + 2) α)
    (S0 S1 : States (M + 2) (N + 2) α) (dt kvf : α) (i : Fin (m + 2)) (j : Fin (n + 2)) (h : Deep ps 1 i j) :
    calculateFz (p.cutGrid g).a (p.cutFluxes F) (p.cutStates S0) (p.cutStates S1) dt kvf i j =
      calculateFz g.a F S0 S1 dt kvf (p.r i) (p.c j) := by
  have hu := divergence_cut p ps pb hf F.fx_upper F.fy_upper i j h
  have hl := divergence_cut p ps pb hf F.fx_lower F.fy_lower i j h
  unfold calculateFz
  show fzLimit _ _ _ _ _ _ (fzClosure _ _ _ _ _ _ (divergence (p.cut F.fx_upper) (p.cut F.fy_upper) i j)
    (divergence (p.cut F.fx_lower) (p.cut F.fy_lower) i j) _ _) = _
  rw [hu, hl]
  rfl

theorem boundary_cut (ps pb : Bool) (hf : p.Fits ps pb) (i : Fin (m + 2)) (j : Fin (n + 2)) (h : Deep ps 1 i j) :
    getBoundary ps i j = false ∧ getBoundary pb (p.r i) (p.c j) = false := by
  have h1 := h.1.1
  have h2 := h.1.2
  have hi := i.isLt
  have hj := j.isLt
  have hrow := p.rows
  have hcol := p.cols
  cases hps : ps with
  | false =>
    subst hps
    have h3 := h.2.resolve_left (by simp)
    constructor
    · simp only [getBoundary, Bool.false_eq_true, if_false]
      exact if_pos (by omega)
    · cases pb
      · simp only [getBoundary, Bool.false_eq_true, if_false, Place.r, Place.c]
        exact if_pos (by omega)
      · simp only [getBoundary, if_true, Place.r, Place.c]
        exact if_pos (by omega)
  | true =>
    obtain ⟨rfl, rfl⟩ := hf hps
    constructor
    · simp only [getBoundary, if_true]
      exact if_pos (by omega)
    · simp only [getBoundary, if_true, Place.r]
      exact if_pos (by omega)

/-- one forward step on the small and on the large grid -/
theorem forwardtrack_cut (ps pb : Bool) (hf : p.Fits ps pb) (dt kvf : α) (g : GridInfo (M + 2) α)
    (F : Fluxes (M + 2) (N + 2) α) (S0 S1 : States (M + 2) (N + 2) α) (mask : Arr (M + 2) (N + 2) α)
    (o : FwdOutput (m + 2) (n + 2) α) (O : FwdOutput (M + 2) (N + 2) α) (k : ℕ)
    (ho : ∀ i j, Deep ps k i j → SameCellFwd o i j O (p.r i) (p.c j)) (i : Fin (m + 2)) (j : Fin (n + 2)) (h : Deep ps (k + 1) i j) :
    SameCellFwd
      (forwardtrack ps dt kvf (p.cutGrid g).a (p.cutFluxes F)
        (calculateFz (p.cutGrid g).a (p.cutFluxes F) (p.cutStates S0) (p.cutStates S1) dt kvf)
        (p.cutStates S1) (p.cutStates S0) (p.cut mask) o) i j
      (forwardtrack pb dt kvf g.a F (calculateFz g.a F S0 S1 dt kvf) S1 S0 mask O) (p.r i) (p.c j) := by
  have h1 : Deep ps 1 i j := deep_mono (by omega) h
  have hk := ho i j (deep_mono (by omega) h)
  obtain ⟨b1, b2⟩ := boundary_cut p ps pb hf i j h1
  have hz := calculateFz_cut p ps pb hf g F S0 S1 dt kvf i j h1
  have al := advect_cut p ps pb hf false (fun i j => relStorage (o.s_track_lower i j) ((p.cutStates S0).s_lower i j))
    (fun i j => relStorage (O.s_track_lower i j) (S0.s_lower i j)) F.fx_lower F.fy_lower k
    (fun i j hd => by simp only [(ho i j hd).s_track_lower]; rfl) i j h
  have au := advect_cut p ps pb hf false (fun i j => relStorage (o.s_track_upper i j) ((p.cutStates S0).s_upper i j))
    (fun i j => relStorage (O.s_track_upper i j) (S0.s_upper i j)) F.fx_upper F.fy_upper k
    (fun i j hd => by simp only [(ho i j hd).s_track_upper]; rfl) i j h
  have e1 : (fwdTransport ps dt kvf (p.cutGrid g).a (p.cutFluxes F)
        (calculateFz (p.cutGrid g).a (p.cutFluxes F) (p.cutStates S0) (p.cutStates S1) dt kvf)
        (p.cutStates S0) (p.cut mask) o.s_track_lower o.s_track_upper).1 i j =
      (fwdTransport pb dt kvf g.a F (calculateFz g.a F S0 S1 dt kvf) S0 mask O.s_track_lower O.s_track_upper).1 (p.r i) (p.c j) := by
    simp only [fwdTransport]
    rw [hz]
    rw [show advect ps false (fun i j => relStorage (o.s_track_lower i j) ((p.cutStates S0).s_lower i j))
      (p.cutFluxes F).fx_lower (p.cutFluxes F).fy_lower i j = _ from al]
    rw [hk.s_track_lower, hk.s_track_upper]
    rfl
  have e2 : (fwdTransport ps dt kvf (p.cutGrid g).a (p.cutFluxes F)
        (calculateFz (p.cutGrid g).a (p.cutFluxes F) (p.cutStates S0) (p.cutStates S1) dt kvf)
        (p.cutStates S0) (p.cut mask) o.s_track_lower o.s_track_upper).2 i j =
      (fwdTransport pb dt kvf g.a F (calculateFz g.a F S0 S1 dt kvf) S0 mask O.s_track_lower O.s_track_upper).2 (p.r i) (p.c j) := by
    simp only [fwdTransport]
    rw [hz]
    rw [show advect ps false (fun i j => relStorage (o.s_track_upper i j) ((p.cutStates S0).s_upper i j))
      (p.cutFluxes F).fx_upper (p.cutFluxes F).fy_upper i j = _ from au]
    rw [hk.s_track_lower, hk.s_track_upper]
    rfl
  simp only [forwardtrack]
  constructor <;> simp only [e1, e2, b1, b2, hk.s_track_lower, hk.s_track_upper, hk.p_track_upper, hk.p_track_lower,
    hk.tagged_evap, hk.losses, hk.gains] <;> rfl

/-- one backward step on the small and on the large grid -/
theorem backtrack_cut (ps pb : Bool) (hf : p.Fits ps pb) (dt kvf : α) (g : GridInfo (M + 2) α)
    (F : Fluxes (M + 2) (N + 2) α) (S0 S1 : States (M + 2) (N + 2) α) (mask : Arr (M + 2) (N + 2) α)
    (o : BwdOutput (m + 2) (n + 2) α) (O : BwdOutput (M + 2) (N + 2) α) (k : ℕ)
    (ho : ∀ i j, Deep ps k i j → SameCellBwd o i j O (p.r i) (p.c j)) (i : Fin (m + 2)) (j : Fin (n + 2)) (h : Deep ps (k + 1) i j) :
    SameCellBwd
      (backtrack ps dt kvf (p.cutGrid g).a (p.cutFluxes F)
        (calculateFz (p.cutGrid g).a (p.cutFluxes F) (p.cutStates S0) (p.cutStates S1) dt kvf)
        (p.cutStates S1) (p.cutStates S0) (p.cut mask) o) i j
      (backtrack pb dt kvf g.a F (calculateFz g.a F S0 S1 dt kvf) S1 S0 mask O) (p.r i) (p.c j) := by
  have h1 : Deep ps 1 i j := deep_mono (by omega) h
  have hk := ho i j (deep_mono (by omega) h)
  obtain ⟨b1, b2⟩ := boundary_cut p ps pb hf i j h1
  have hz := calculateFz_cut p ps pb hf g F S0 S1 dt kvf i j h1
  have al := advect_cut p ps pb hf true (fun i j => relStorage (o.s_track_lower i j) ((p.cutStates S1).s_lower i j))
    (fun i j => relStorage (O.s_track_lower i j) (S1.s_lower i j)) F.fx_lower F.fy_lower k
    (fun i j hd => by simp only [(ho i j hd).s_track_lower]; rfl) i j h
  have au := advect_cut p ps pb hf true (fun i j => relStorage (o.s_track_upper i j) ((p.cutStates S1).s_upper i j))
    (fun i j => relStorage (O.s_track_upper i j) (S1.s_upper i j)) F.fx_upper F.fy_upper k
    (fun i j hd => by simp only [(ho i j hd).s_track_upper]; rfl) i j h
  have e1 : (bwdTransport ps dt kvf (p.cutGrid g).a (p.cutFluxes F)
        (calculateFz (p.cutGrid g).a (p.cutFluxes F) (p.cutStates S0) (p.cutStates S1) dt kvf)
        (p.cutStates S1) (p.cut mask) o.s_track_lower o.s_track_upper).1 i j =
      (bwdTransport pb dt kvf g.a F (calculateFz g.a F S0 S1 dt kvf) S1 mask O.s_track_lower O.s_track_upper).1 (p.r i) (p.c j) := by
    simp only [bwdTransport]
    rw [hz]
    rw [show advect ps true (fun i j => relStorage (o.s_track_lower i j) ((p.cutStates S1).s_lower i j))
      (p.cutFluxes F).fx_lower (p.cutFluxes F).fy_lower i j = _ from al]
    rw [hk.s_track_lower, hk.s_track_upper]
    rfl
  have e2 : (bwdTransport ps dt kvf (p.cutGrid g).a (p.cutFluxes F)
        (calculateFz (p.cutGrid g).a (p.cutFluxes F) (p.cutStates S0) (p.cutStates S1) dt kvf)
        (p.cutStates S1) (p.cut mask) o.s_track_lower o.s_track_upper).2 i j =
      (bwdTransport pb dt kvf g.a F (calculateFz g.a F S0 S1 dt kvf) S1 mask O.s_track_lower O.s_track_upper).2 (p.r i) (p.c j) := by
    simp only [bwdTransport]
    rw [hz]
    rw [show advect ps true (fun i j => relStorage (o.s_track_upper i j) ((p.cutStates S1).s_upper i j))
      (p.cutFluxes F).fx_upper (p.cutFluxes F).fy_upper i j = _ from au]
    rw [hk.s_track_lower, hk.s_track_upper]
    rfl
  simp only [backtrack]
  constructor <;> simp only [e1, e2, b1, b2, hk.s_track_lower, hk.s_track_upper, hk.e_track, hk.tagged_precip, hk.losses, hk.gains] <;> rfl


/-! ### Runs -/

theorem cut_states_ok (src : Source M N α) (t : ℤ) {S} (h : src.states t = .ok S) : (p.cutSource src).states t = .ok (p.cutStates S) := by
  simp only [Place.cutSource, h]; rfl

theorem serves_cut {src : Source M N α} {inp : Input M N α} {A B : ℤ} (h : Serves src inp A B) :
    Serves (p.cutSource src) (p.cutInput inp) A B where
  states := fun t h1 h2 => by simp only [Place.cutSource, h.states t h1 h2]; rfl
  fluxes := fun t h1 h2 => by simp only [Place.cutSource, h.fluxes t h1 h2]; rfl
  region := by
    obtain ⟨r, hr, hr'⟩ := h.region
    refine ⟨p.cutRegion r, by simp only [Place.cutSource, hr]; rfl, fun t h1 h2 => ?_⟩
    have := hr' t h1 h2
    cases r with
    | stationary mask =>
      simp only [regionAt, Except.ok.injEq] at this
      simp only [regionAt, Place.cutRegion, this]; rfl
    | moving f =>
      simp only [regionAt] at this
      simp only [regionAt, Place.cutRegion, this]; rfl

theorem runnable_cut {cfg : RunConfig α} {src : Source M N α} {inp : Input M N α} (h : Runnable cfg src inp) (ps : Bool) :
    Runnable { cfg with periodic_boundary := ps } (p.cutSource src) (p.cutInput inp) :=
  ⟨h.timestep_pos, h.ordered, serves_cut p h.serves⟩

theorem maskAt_cut (cfg : RunConfig α) (ps : Bool) (inp : Input M N α) (t : ℤ) :
    maskAt { cfg with periodic_boundary := ps } (p.cutInput inp) t = p.cut (maskAt cfg inp t) := by
  unfold maskAt
  by_cases h : inWindow cfg t
  · rw [if_pos h, if_pos (show inWindow { cfg with periodic_boundary := ps } t from h)]; rfl
  · rw [if_neg h, if_neg (show ¬ inWindow { cfg with periodic_boundary := ps } t from h)]; rfl

theorem fwdStepAt_cut (cfg : RunConfig α) (ps : Bool) (g : GridInfo (M + 2) α) (inp : Input M N α) (t : ℤ)
    (o : FwdOutput (m + 2) (n + 2) α) :
    fwdStepAt { cfg with periodic_boundary := ps } (p.cutGrid g) (p.cutInput inp) t o =
      forwardtrack ps (ofRat cfg.timestep) cfg.kvf (p.cutGrid g).a
        (p.cutFluxes (stableFluxes cfg g (inp.fluxes (t + cfg.halfDt)) (inp.states t)))
        (calculateFz (p.cutGrid g).a (p.cutFluxes (stableFluxes cfg g (inp.fluxes (t + cfg.halfDt)) (inp.states t)))
          (p.cutStates (inp.states t)) (p.cutStates (inp.states (t + cfg.dt))) (ofRat cfg.timestep) cfg.kvf)
        (p.cutStates (inp.states (t + cfg.dt))) (p.cutStates (inp.states t)) (p.cut (maskAt cfg inp t)) o := by
  rw [← maskAt_cut p cfg ps inp t]; rfl

theorem bwdStepAt_cut (cfg : RunConfig α) (ps : Bool) (g : GridInfo (M + 2) α) (inp : Input M N α) (t : ℤ)
    (o : BwdOutput (m + 2) (n + 2) α) :
    bwdStepAt { cfg with periodic_boundary := ps } (p.cutGrid g) (p.cutInput inp) t o =
      backtrack ps (ofRat cfg.timestep) cfg.kvf (p.cutGrid g).a
        (p.cutFluxes (stableFluxes cfg g (inp.fluxes (t - cfg.halfDt)) (inp.states t)))
        (calculateFz (p.cutGrid g).a (p.cutFluxes (stableFluxes cfg g (inp.fluxes (t - cfg.halfDt)) (inp.states t)))
          (p.cutStates (inp.states (t - cfg.dt))) (p.cutStates (inp.states t)) (ofRat cfg.timestep) cfg.kvf)
        (p.cutStates (inp.states t)) (p.cutStates (inp.states (t - cfg.dt))) (p.cut (maskAt cfg inp t)) o := by
  rw [← maskAt_cut p cfg ps inp t]; rfl

theorem fwd_out_cut (cfg : RunConfig α) (ps : Bool) (hf : p.Fits ps cfg.periodic_boundary) (g : GridInfo (M + 2) α)
    (inp : Input M N α) (o : FwdOutput (m + 2) (n + 2) α) (O : FwdOutput (M + 2) (N + 2) α)
    (ho : ∀ i j, SameCellFwd o i j O (p.r i) (p.c j)) (k : ℕ) :
    (∀ i j, Deep ps k i j → SameCellFwd ((fwdProc { cfg with periodic_boundary := ps } (p.cutGrid g) (p.cutInput inp)).out o k) i j
      ((fwdProc cfg g inp).out O k) (p.r i) (p.c j)) ∧
    (∀ i j, Deep ps (k + 1) i j → SameCellFwd ((fwdProc { cfg with periodic_boundary := ps } (p.cutGrid g) (p.cutInput inp)).full o k) i j
      ((fwdProc cfg g inp).full O k) (p.r i) (p.c j)) := by
  have hstep : ∀ k, (∀ i j, Deep ps k i j → SameCellFwd ((fwdProc { cfg with periodic_boundary := ps } (p.cutGrid g) (p.cutInput inp)).out o k) i j
      ((fwdProc cfg g inp).out O k) (p.r i) (p.c j)) →
    (∀ i j, Deep ps (k + 1) i j → SameCellFwd ((fwdProc { cfg with periodic_boundary := ps } (p.cutGrid g) (p.cutInput inp)).full o k) i j
      ((fwdProc cfg g inp).full O k) (p.r i) (p.c j)) := by
    intro k hk i j hd
    show SameCellFwd (fwdStepAt { cfg with periodic_boundary := ps } (p.cutGrid g) (p.cutInput inp) (cfg.fwdTime k) _) i j
      (fwdStepAt cfg g inp (cfg.fwdTime k) _) (p.r i) (p.c j)
    rw [fwdStepAt_cut]
    exact forwardtrack_cut p ps cfg.periodic_boundary hf _ _ g _ _ _ _ _ _ k hk i j hd
  have hout : ∀ k, ∀ i j, Deep ps k i j → SameCellFwd ((fwdProc { cfg with periodic_boundary := ps } (p.cutGrid g) (p.cutInput inp)).out o k) i j
      ((fwdProc cfg g inp).out O k) (p.r i) (p.c j) := by
    intro k
    induction k with
    | zero => exact fun i j _ => ho i j
    | succ k ih =>
      intro i j hd
      have h := hstep k ih i j hd
      have hw : (fwdProc { cfg with periodic_boundary := ps } (p.cutGrid g) (p.cutInput inp)).write (k + 1) =
        (fwdProc cfg g inp).write (k + 1) := rfl
      simp only [Proc.out]
      rw [hw]
      split
      · have h' : SameCellFwd (FwdOutput.flush ((fwdProc { cfg with periodic_boundary := ps } (p.cutGrid g) (p.cutInput inp)).full o k)) i j
            (FwdOutput.flush ((fwdProc cfg g inp).full O k)) (p.r i) (p.c j) := by
          constructor <;> simp only [FwdOutput.flush, h.s_track_upper, h.s_track_lower, h.p_track_upper, h.p_track_lower,
            h.tagged_evap, h.losses, h.gains]
        exact h'
      · exact h
  exact ⟨hout k, hstep k (hout k)⟩

theorem bwd_out_cut (cfg : RunConfig α) (ps : Bool) (hf : p.Fits ps cfg.periodic_boundary) (g : GridInfo (M + 2) α)
    (inp : Input M N α) (o : BwdOutput (m + 2) (n + 2) α) (O : BwdOutput (M + 2) (N + 2) α)
    (ho : ∀ i j, SameCellBwd o i j O (p.r i) (p.c j)) (k : ℕ) :
    (∀ i j, Deep ps k i j → SameCellBwd ((bwdProc { cfg with periodic_boundary := ps } (p.cutGrid g) (p.cutInput inp)).out o k) i j
      ((bwdProc cfg g inp).out O k) (p.r i) (p.c j)) ∧
    (∀ i j, Deep ps (k + 1) i j → SameCellBwd ((bwdProc { cfg with periodic_boundary := ps } (p.cutGrid g) (p.cutInput inp)).full o k) i j
      ((bwdProc cfg g inp).full O k) (p.r i) (p.c j)) := by
  have hstep : ∀ k, (∀ i j, Deep ps k i j → SameCellBwd ((bwdProc { cfg with periodic_boundary := ps } (p.cutGrid g) (p.cutInput inp)).out o k) i j
      ((bwdProc cfg g inp).out O k) (p.r i) (p.c j)) →
    (∀ i j, Deep ps (k + 1) i j → SameCellBwd ((bwdProc { cfg with periodic_boundary := ps } (p.cutGrid g) (p.cutInput inp)).full o k) i j
      ((bwdProc cfg g inp).full O k) (p.r i) (p.c j)) := by
    intro k hk i j hd
    show SameCellBwd (bwdStepAt { cfg with periodic_boundary := ps } (p.cutGrid g) (p.cutInput inp) (cfg.bwdTime k) _) i j
      (bwdStepAt cfg g inp (cfg.bwdTime k) _) (p.r i) (p.c j)
    rw [bwdStepAt_cut]
    exact backtrack_cut p ps cfg.periodic_boundary hf _ _ g _ _ _ _ _ _ k hk i j hd
  have hout : ∀ k, ∀ i j, Deep ps k i j → SameCellBwd ((bwdProc { cfg with periodic_boundary := ps } (p.cutGrid g) (p.cutInput inp)).out o k) i j
      ((bwdProc cfg g inp).out O k) (p.r i) (p.c j) := by
    intro k
    induction k with
    | zero => exact fun i j _ => ho i j
    | succ k ih =>
      intro i j hd
      have h := hstep k ih i j hd
      have hw : (bwdProc { cfg with periodic_boundary := ps } (p.cutGrid g) (p.cutInput inp)).write (k + 1) =
        (bwdProc cfg g inp).write (k + 1) := rfl
      simp only [Proc.out]
      rw [hw]
      split
      · have h' : SameCellBwd (BwdOutput.flush ((bwdProc { cfg with periodic_boundary := ps } (p.cutGrid g) (p.cutInput inp)).full o k)) i j
            (BwdOutput.flush ((bwdProc cfg g inp).full O k)) (p.r i) (p.c j) := by
          constructor <;> simp only [BwdOutput.flush, h.s_track_upper, h.s_track_lower, h.e_track, h.tagged_precip, h.losses, h.gains]
        exact h'
      · exact h
  exact ⟨hout k, hstep k (hout k)⟩

end Local

end Wam
