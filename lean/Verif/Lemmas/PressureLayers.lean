import Verif.Lemmas.PressureColumn

/-! Rounding errors on pressure levels: midpoints, masks and sums over layers. -/

set_option linter.unusedSectionVars false
set_option linter.unusedVariables false

namespace Wam
open Spec

variable {K : Type} [Field K] [LinearOrder K] [IsStrictOrderedRing K] {R : Rounding K} {u η : K}

theorem mid_near (A : Accurate R u η) {B : K} (hB : 0 ≤ B) (hη : η ≤ u) (hηB : η ≤ u * B) {l : List (Fl R)} {l' : List K}
    (h : List.Forall₂ (NearB (32 * (u * B)) B) l l') :
    List.Forall₂ (NearB (42 * (u * B)) B) (interpMid l) (interpMid l') := by
  induction h with
  | nil => exact .nil
  | cons hab hl ih =>
    cases hl with
    | nil => exact .nil
    | cons hcd hl =>
      exact .cons ⟨mid_close A _ _ hB hη hηB hab.1 hcd.1 hab.2 hcd.2, mid_abs hab.2 hcd.2⟩ ih

theorem mid_mask (A : Accurate R u η) (hη : η ≤ u) {P g : K} (hg : 8 * (u * P) ≤ g) (hηg : η ≤ u * g) (z : Fl R)
    {l : List (Fl R)} (hs : (l.map Fl.val).Pairwise (· ≤ ·)) (hsp : SpacedL g l) (h0 : ∀ x ∈ l, 0 ≤ x.val)
    (hP : ∀ x ∈ l, x.val ≤ P) (hz : z ∈ l ∨ ∀ x ∈ l, z.val ≤ x.val) :
    (interpMid (l.map Fl.val)).map (fun p => decide (p < z.val)) = (interpMid l).map fun p => decide (p < z) := by
  induction l with
  | nil => rfl
  | cons a l ih =>
    cases l with
    | nil => rfl
    | cons b l =>
      have hs' := hs
      simp only [List.map_cons, List.pairwise_cons] at hs
      have hab : a.val ≤ b.val := hs.1 _ List.mem_cons_self
      have hab' : a.val = b.val ∨ g ≤ b.val - a.val := by
        rcases hab.lt_or_eq with h | h
        · exact Or.inr (hsp a (by simp) b (by simp) h)
        · exact Or.inl h
      have hbz : b.val ≤ z.val ∨ z.val ≤ a.val := by
        rcases hz with hz | hz
        · rcases List.mem_cons.1 hz with rfl | hz
          · exact Or.inr le_rfl
          · rcases List.mem_cons.1 hz with rfl | hz
            · exact Or.inl le_rfl
            · exact Or.inl (hs.2.1 _ (List.mem_map_of_mem hz))
        · exact Or.inr (hz a List.mem_cons_self)
      have hz' : z ∈ b :: l ∨ ∀ x ∈ b :: l, z.val ≤ x.val := by
        rcases hz with hz | hz
        · rcases List.mem_cons.1 hz with rfl | hz
          · right
            intro x hx
            exact hs.1 _ (by rw [← List.map_cons]; exact List.mem_map_of_mem hx)
          · exact Or.inl hz
        · exact Or.inr fun x hx => hz x (List.mem_cons_of_mem _ hx)
      have ih := ih (by simpa using hs.2) (hsp.sub fun x hx => List.mem_cons_of_mem _ hx)
        (fun x hx => h0 x (List.mem_cons_of_mem _ hx)) (fun x hx => hP x (List.mem_cons_of_mem _ hx)) hz'
      have key := mid_lt_iff A hη a b z hab hab' hg hηg (h0 a (by simp)) (hP b (by simp)) hbz
      simp only [List.map_cons, interpMid] at ih ⊢
      rw [ih]
      congr 1
      rw [decide_eq_decide, Fl.lt_def]
      exact key.symm

theorem dp_within (A : Accurate R u η) {P g : K} (hP0 : 0 ≤ P) (hg : 0 ≤ g) (hηg : η ≤ u * g) {l : List (Fl R)}
    (hs : (l.map Fl.val).Pairwise (· ≤ ·)) (hsp : SpacedL g l) (h0 : ∀ x ∈ l, 0 ≤ x.val) (hP : ∀ x ∈ l, x.val ≤ P) :
    ThicknessWithin (2 * (u * P)) (npDiff l) (npDiff (l.map Fl.val)) := by
  have hu := A.u_nonneg
  induction l with
  | nil => exact .nil
  | cons a l ih =>
    cases l with
    | nil => exact .nil
    | cons b l =>
      simp only [List.map_cons, List.pairwise_cons] at hs
      have hab : a.val ≤ b.val := hs.1 _ List.mem_cons_self
      refine .cons ?_ (ih (by simpa using hs.2) (hsp.sub fun x hx => List.mem_cons_of_mem _ hx)
        (fun x hx => h0 x (List.mem_cons_of_mem _ hx)) (fun x hx => hP x (List.mem_cons_of_mem _ hx)))
      rw [Fl.val_sub]
      rcases hab.lt_or_eq with h | h
      · have h1 := (rnd_gap A hg (hsp a (by simp) b (by simp) h) hηg).1
        have h2 : u * (b.val - a.val) ≤ u * P :=
          mul_le_mul_of_nonneg_left (by linarith [h0 a (by simp), hP b (by simp)]) hu
        linarith
      · rw [h, sub_self, R.zero, sub_zero, abs_zero]
        positivity

theorem dp_sum {l : List K} (a P : K) (hs : (a :: l).Pairwise (· ≤ ·)) (hP : ∀ x ∈ a :: l, x ≤ P) :
    (∀ d ∈ npDiff (a :: l), 0 ≤ d) ∧ (npDiff (a :: l)).sum ≤ P - a := by
  induction l generalizing a with
  | nil => simp only [npDiff]; exact ⟨by simp, by simpa using hP a (by simp)⟩
  | cons b l ih =>
    rw [List.pairwise_cons] at hs
    obtain ⟨h1, h2⟩ := ih b hs.2 (fun x hx => hP x (List.mem_cons_of_mem _ hx))
    rw [npDiff, List.sum_cons]
    refine ⟨?_, by linarith⟩
    intro d hd
    rcases List.mem_cons.1 hd with rfl | hd
    · linarith [hs.1 b (by simp)]
    · exact h1 d hd

/-! ### Sums over the levels -/

/-- two values near each other, or NaN in both -/
def OptNear (κ B B' : K) : Option K → Option K → Prop
  | none, none => True
  | some x, some y => |x - y| ≤ κ ∧ |x| ≤ B' ∧ |y| ≤ B
  | _, _ => False

private theorem cwvK_cons (a : Option K) (q : List (Option K)) (d : K) (dp : List K) :
    cwvK (a :: q) (d :: dp) = (a.map fun q => q * d / (grav : K)) :: cwvK q dp := rfl

private theorem gpos : (0 : K) < grav := by unfold grav; push_cast; norm_num

theorem water_near {κ B B' : K} (hκ : 0 ≤ κ) (m : List Bool) {q q' : List (Option K)}
    (h : List.Forall₂ (OptNear κ B B') q q') (dp : List K) (hd : ∀ d ∈ dp, 0 ≤ d) :
    |nanSum (whereMask m (cwvK q dp)) - nanSum (whereMask m (cwvK q' dp))| ≤ κ * dp.sum / grav := by
  have hg := gpos (K := K)
  induction h generalizing m dp with
  | nil =>
    have hs := List.sum_nonneg hd
    have e : cwvK ([] : List (Option K)) dp = [] := by simp [cwvK]
    rw [e, sub_self, abs_zero]
    positivity
  | @cons a b q q' hab hl ih =>
    cases dp with
    | nil => simp [cwvK, sub_self]
    | cons d dp =>
      cases m with
      | nil =>
        have hs := List.sum_nonneg hd
        have e : ∀ l : List (Option K), whereMask [] l = [] := fun l => by simp [whereMask]
        rw [e, e, sub_self, abs_zero]
        positivity
      | cons t m =>
        have hd0 : 0 ≤ d := hd d (by simp)
        have ih := ih m dp fun x hx => hd x (List.mem_cons_of_mem _ hx)
        rw [cwvK_cons, cwvK_cons, List.sum_cons]
        have e : κ * (d + dp.sum) / grav = κ * d / grav + κ * dp.sum / grav := by ring
        rw [e]
        have hκd : 0 ≤ κ * d / grav := by positivity
        change |nanSum ((if t then _ else none) :: whereMask m (cwvK q dp)) -
          nanSum ((if t then _ else none) :: whereMask m (cwvK q' dp))| ≤ _
        cases t with
        | false =>
          simp only [Bool.false_eq_true, if_false, nanSum_none_K]
          linarith
        | true =>
          simp only [if_true]
          match a, b, hab with
          | none, none, _ =>
            simp only [Option.map_none, nanSum_none_K]
            linarith
          | some x, some y, hab =>
            simp only [Option.map_some, nanSum_some_K]
            have h1 : |x * d / grav - y * d / grav| ≤ κ * d / grav := by
              have : x * d / grav - y * d / grav = (x - y) * d / grav := by ring
              rw [this, abs_div, abs_mul, abs_of_nonneg hd0, abs_of_pos hg]
              exact div_le_div_of_nonneg_right (mul_le_mul_of_nonneg_right hab.1 hd0) hg.le
            calc _ = |(x * d / grav - y * d / grav) + (nanSum (whereMask m (cwvK q dp)) - nanSum (whereMask m (cwvK q' dp)))| := by
                  congr 1; ring
              _ ≤ _ := abs_add_le _ _
              _ ≤ _ := add_le_add h1 ih

theorem flux_near {κ B B' κx Bx Bx' : K} (hκ : 0 ≤ κ) (hκx : 0 ≤ κx) (hB : 0 ≤ B) (hBx : 0 ≤ Bx') (m : List Bool)
    {q q' : List (Option K)} (h : List.Forall₂ (OptNear κ B B') q q') {w w' : List (Option K)}
    (hw : List.Forall₂ (OptNear κx Bx Bx') w w') (dp : List K) (hd : ∀ d ∈ dp, 0 ≤ d) :
    |nanSum (whereMask m (mulNan w (cwvK q dp))) - nanSum (whereMask m (mulNan w' (cwvK q' dp)))| ≤
      (Bx' * κ + κx * B) * dp.sum / grav := by
  have hg := gpos (K := K)
  have hC : 0 ≤ Bx' * κ + κx * B := by positivity
  induction h generalizing m dp w w' with
  | nil =>
    have hs := List.sum_nonneg hd
    have e : cwvK ([] : List (Option K)) dp = [] := by simp [cwvK]
    have e2 : ∀ l : List (Option K), mulNan l [] = [] := fun l => by simp [mulNan]
    rw [e, e2, e2, sub_self, abs_zero]
    positivity
  | @cons a b q q' hab hl ih =>
    cases dp with
    | nil =>
      have e2 : ∀ l : List (Option K), mulNan l [] = [] := fun l => by simp [mulNan]
      have e : ∀ l : List (Option K), cwvK l [] = [] := fun l => by simp [cwvK]
      rw [e, e, e2, e2, sub_self, abs_zero]; simp
    | cons d dp =>
      cases hw with
      | nil =>
        have hs := List.sum_nonneg hd
        have e2 : ∀ l : List (Option K), mulNan [] l = [] := fun l => by simp [mulNan]
        rw [e2, e2, sub_self, abs_zero]
        positivity
      | @cons x x' w w' hx hw =>
        cases m with
        | nil =>
          have hs := List.sum_nonneg hd
          have e : ∀ l : List (Option K), whereMask [] l = [] := fun l => by simp [whereMask]
          rw [e, e, sub_self, abs_zero]
          positivity
        | cons t m =>
          have hd0 : 0 ≤ d := hd d (by simp)
          have ih := ih m hw dp fun x hx => hd x (List.mem_cons_of_mem _ hx)
          rw [cwvK_cons, cwvK_cons, List.sum_cons]
          have e : (Bx' * κ + κx * B) * (d + dp.sum) / grav =
            (Bx' * κ + κx * B) * d / grav + (Bx' * κ + κx * B) * dp.sum / grav := by ring
          rw [e]
          have hκd : 0 ≤ (Bx' * κ + κx * B) * d / grav := by positivity
          match x, x', hx, a, b, hab, t with
          | none, none, _, a, b, _, t =>
            have e1 : ∀ (o : Option K) (l : List (Option K)), nanSum (whereMask (t :: m) (mulNan (none :: l) (o :: cwvK q dp))) =
                nanSum (whereMask m (mulNan l (cwvK q dp))) := by
              intro o l; cases t <;> rfl
            have e2 : ∀ (o : Option K) (l : List (Option K)), nanSum (whereMask (t :: m) (mulNan (none :: l) (o :: cwvK q' dp))) =
                nanSum (whereMask m (mulNan l (cwvK q' dp))) := by
              intro o l; cases t <;> rfl
            rw [e1, e2]
            linarith
          | some x, some x', _, none, none, _, t =>
            have e1 : nanSum (whereMask (t :: m) (mulNan (some x :: w) (none :: cwvK q dp))) =
                nanSum (whereMask m (mulNan w (cwvK q dp))) := by cases t <;> rfl
            have e2 : nanSum (whereMask (t :: m) (mulNan (some x' :: w') (none :: cwvK q' dp))) =
                nanSum (whereMask m (mulNan w' (cwvK q' dp))) := by cases t <;> rfl
            rw [Option.map_none, e1, e2]
            linarith
          | some x, some x', _, some a, some b, _, false =>
            change |nanSum (whereMask m (mulNan w (cwvK q dp))) - nanSum (whereMask m (mulNan w' (cwvK q' dp)))| ≤ _
            linarith
          | some x, some x', hx, some a, some b, hab, true =>
            change |(x * (a * d / grav) + nanSum (whereMask m (mulNan w (cwvK q dp)))) -
              (x' * (b * d / grav) + nanSum (whereMask m (mulNan w' (cwvK q' dp))))| ≤ _
            have h1 : |x * (a * d / grav) - x' * (b * d / grav)| ≤ (Bx' * κ + κx * B) * d / grav := by
              have : x * (a * d / grav) - x' * (b * d / grav) = (x * (a - b) + (x - x') * b) * d / grav := by ring
              rw [this, abs_div, abs_mul, abs_of_nonneg hd0, abs_of_pos hg]
              refine div_le_div_of_nonneg_right (mul_le_mul_of_nonneg_right ?_ hd0) hg.le
              refine (abs_add_le _ _).trans ?_
              rw [abs_mul, abs_mul]
              exact add_le_add (mul_le_mul hx.2.1 hab.1 (abs_nonneg _) hBx)
                (mul_le_mul hx.1 hab.2.2 (abs_nonneg _) hκx)
            calc _ = |(x * (a * d / grav) - x' * (b * d / grav)) +
                  (nanSum (whereMask m (mulNan w (cwvK q dp))) - nanSum (whereMask m (mulNan w' (cwvK q' dp))))| := by
                  congr 1; ring
              _ ≤ _ := abs_add_le _ _
              _ ≤ _ := add_le_add h1 ih

/-! ### Size of the sums -/

private theorem nanSum_zero {l : List (Option K)} (h : ∀ x, some x ∈ l → x = 0) : nanSum l = 0 := by
  induction l with
  | nil => exact nanSum_nil_K
  | cons a l ih =>
    have := ih fun x hx => h x (List.mem_cons_of_mem _ hx)
    cases a with
    | none => exact this
    | some x => rw [nanSum_some_K, this, h x List.mem_cons_self, add_zero]

private theorem mask_sub {m : List Bool} {l : List (Option K)} {x : K} (h : some x ∈ whereMask m l) : some x ∈ l := by
  rw [whereMask, ← List.map_uncurry_zip_eq_zipWith] at h
  obtain ⟨⟨t, a⟩, hm, e⟩ := List.mem_map.1 h
  simp only [Function.uncurry] at e
  split at e
  · rw [← e]; exact (List.of_mem_zip hm).2
  · cases e

private theorem cwv_zero {q : List (Option K)} {dp : List K} (hq : ∀ x, some x ∈ q → x = 0) :
    ∀ x, some x ∈ cwvK q dp → x = 0 := by
  intro x h
  rw [cwvK, ← List.map_uncurry_zip_eq_zipWith] at h
  obtain ⟨⟨a, d⟩, hm, e⟩ := List.mem_map.1 h
  cases a with
  | none => cases e
  | some a =>
    have e : a * d / ofRat (980665 / 100000) = x := Option.some.inj e
    rw [← e, hq a (List.of_mem_zip hm).1, zero_mul, zero_div]

private theorem mul_zero_water {w cw : List (Option K)} (hq : ∀ x, some x ∈ cw → x = 0) :
    ∀ x, some x ∈ mulNan w cw → x = 0 := by
  intro x h
  rw [mulNan, ← List.map_uncurry_zip_eq_zipWith] at h
  obtain ⟨⟨a, d⟩, hm, e⟩ := List.mem_map.1 h
  match a, d, hm, e with
  | some a, some d, hm, e =>
    have e : a * d = x := Option.some.inj e
    rw [← e, hq d (List.of_mem_zip hm).2, mul_zero]

private theorem to_zero {C : K} {q : List (Option K)} (h : ∀ x, some x ∈ q → |x| ≤ C) :
    List.Forall₂ (OptNear C 0 C) q (q.map (·.map fun _ => 0)) := by
  rw [List.forall₂_map_right_iff, List.forall₂_same]
  intro a ha
  cases a with
  | none => trivial
  | some x =>
    have := h x ha
    exact ⟨by rw [sub_zero]; exact this, this, by simp⟩

private theorem zeros {q : List (Option K)} : ∀ x, some x ∈ q.map (·.map fun _ => (0 : K)) → x = 0 := by
  intro x hx
  obtain ⟨a, -, e⟩ := List.mem_map.1 hx
  cases a with
  | none => cases e
  | some a => exact (Option.some.inj e).symm

theorem water_size {C : K} (hC : 0 ≤ C) (m : List Bool) {q : List (Option K)} (h : ∀ x, some x ∈ q → |x| ≤ C)
    (dp : List K) (hd : ∀ d ∈ dp, 0 ≤ d) : nanSum (whereMask m (cwvK q dp)) ≤ C * dp.sum / grav := by
  have := water_near hC m (to_zero h) dp hd
  rw [nanSum_zero fun x hx => cwv_zero zeros x (mask_sub hx), sub_zero] at this
  exact (abs_le.1 this).2

theorem flux_size {C D : K} (hC : 0 ≤ C) (hD : 0 ≤ D) (m : List Bool) {q w : List (Option K)}
    (h : ∀ x, some x ∈ q → |x| ≤ C) (hw : ∀ x, some x ∈ w → |x| ≤ D)
    (dp : List K) (hd : ∀ d ∈ dp, 0 ≤ d) : nanSum (whereMask m (mulNan w (cwvK q dp))) ≤ D * C * dp.sum / grav := by
  have := flux_near hC hD le_rfl hD m (to_zero h) (to_zero hw) dp hd
  rw [nanSum_zero fun x hx => mul_zero_water (cwv_zero zeros) x (mask_sub hx), sub_zero, mul_zero, add_zero] at this
  exact (abs_le.1 this).2

/-! ### Masks of pairs of columns -/

theorem mask_near {κ B B' : K} {l : List (Fl R)} {l' : List K} (hB : κ + B ≤ B') (h : List.Forall₂ (NearB κ B) l l')
    (m : List Bool) :
    List.Forall₂ (OptNear κ B B') (exactO (whereMask m (l.map some))) (whereMask m (l'.map some)) := by
  induction h generalizing m with
  | nil => cases m <;> exact .nil
  | @cons x y l l' hxy hl ih =>
    cases m with
    | nil => exact .nil
    | cons t m =>
      refine .cons ?_ (ih m)
      cases t
      · trivial
      · refine ⟨hxy.1, ?_, hxy.2⟩
        calc |x.val| = |(x.val - y) + y| := by congr 1; ring
          _ ≤ _ := abs_add_le _ _
          _ ≤ κ + B := add_le_add hxy.1 hxy.2
          _ ≤ B' := hB

theorem optNear_size {κ B B' : K} {l l' : List (Option K)} (h : List.Forall₂ (OptNear κ B B') l l') :
    ∀ x, some x ∈ l → |x| ≤ B' := by
  induction h with
  | nil => intro x hx; simp at hx
  | @cons a b l l' hab hl ih =>
    intro x hx
    rcases List.mem_cons.1 hx with rfl | hx
    · cases b with
      | none => exact hab.elim
      | some y => exact hab.2.1
    · exact ih x hx

/-- the mask of the upper layer -/
theorem upper_mask {α : Type} [NpOps α] (m : List Bool) (l : List α) (z : α) :
    (whereMask m (l.map some)).map (fun p => ltNan p z) = List.zipWith (· && ·) m (l.map fun p => NpOps.lt p z) := by
  induction l generalizing m with
  | nil => cases m <;> simp [whereMask]
  | cons a l ih =>
    cases m with
    | nil => simp [whereMask]
    | cons t m =>
      have := ih m
      simp only [whereMask, List.map_cons, List.zipWith_cons_cons] at this ⊢
      rw [this]
      cases t <;> rfl

end Wam
