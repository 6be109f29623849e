import Verif.Lemmas.Run
import Verif.Props.Step
import Mathlib.Tactic.FinCases
import Mathlib.Algebra.BigOperators.Intervals

/-! # Accumulation and flushing in exact arithmetic -/

set_option linter.unusedSectionVars false

namespace Wam
open Spec

namespace Proc
variable {ω M : Type*} [AddCommMonoid M]

/-- A process whose dataset consists of a state (`core`) and accumulators (`acc`): the step depends
on the state only, adds to the accumulators, and the flush clears them. -/
structure Linear (p : Proc ω) (core : ω → ω) (acc : ω → M) : Prop where
  step_core : ∀ k x, core (p.step k x) = core (p.step k (core x))
  acc_step : ∀ k x, acc (p.step k x) = acc x + acc (p.step k (core x))
  flush_eq : ∀ x, p.flush x = core x
  acc_core : ∀ x, acc (core x) = 0
  core_core : ∀ x, core (core x) = core x

/-- state after `k` steps -/
def coreAt (p : Proc ω) (core : ω → ω) (o : ω) : ℕ → ω
  | 0 => core o
  | k + 1 => core (p.step k (coreAt p core o k))

/-- what step `k` adds to the accumulators -/
def inc (p : Proc ω) (core : ω → ω) (acc : ω → M) (o : ω) (k : ℕ) : M :=
  acc (p.step k (p.coreAt core o k))

variable {p : Proc ω} {core : ω → ω} {acc : ω → M} (h : p.Linear core acc) (o : ω)
include h

theorem Linear.core_out (k : ℕ) : core (p.out o k) = p.coreAt core o k := by
  induction k with
  | zero => rfl
  | succ k ih =>
    simp only [out, coreAt]
    split
    · rw [h.flush_eq, h.core_core, h.step_core, ih]
    · rw [h.step_core, ih]

theorem Linear.core_full (k : ℕ) : core (p.full o k) = p.coreAt core o (k + 1) := by
  rw [full, h.step_core, h.core_out]; rfl

theorem Linear.acc_full (k : ℕ) : acc (p.full o k) = acc (p.out o k) + p.inc core acc o k := by
  rw [full, h.acc_step, h.core_out]; rfl

theorem Linear.sum_files (k : ℕ) :
    ((p.files o k).map fun x => acc x.2).sum + acc (p.out o k) =
      acc o + ∑ i ∈ Finset.range k, p.inc core acc o i :=
  p.budget o acc k (p.inc core acc o) (fun i _ => h.acc_full o i)
    (fun x => by rw [h.flush_eq, h.acc_core]) k le_rfl

theorem Linear.acc_out_of_write (k : ℕ) (hk : p.write (k + 1) = true) :
    acc (p.out o (k + 1)) = 0 := by
  simp only [out, hk, if_true]
  rw [h.flush_eq, h.acc_core]

/-- a file holds what was accumulated since the last flush -/
theorem Linear.acc_full_since (j k : ℕ) (hj : acc (p.out o j) = 0) (hjk : j ≤ k)
    (hn : ∀ i, j < i → i ≤ k → p.write i = false) :
    acc (p.full o k) = ∑ i ∈ Finset.Ico j (k + 1), p.inc core acc o i := by
  induction k with
  | zero =>
    obtain rfl : j = 0 := by omega
    rw [h.acc_full, hj]; simp
  | succ k ih =>
    rcases Nat.lt_or_ge k j with hlt | hge
    · obtain rfl : j = k + 1 := by omega
      rw [h.acc_full, hj]; simp
    · rw [h.acc_full, Finset.sum_Ico_succ_top (by omega), ← ih hge (fun i h1 h2 => hn i h1 (by omega))]
      congr 1
      simp only [out, hn (k + 1) (by omega) le_rfl]
      simp [full]

end Proc

section
variable {m n : ℕ} {K : Type*} [Field K] [LinearOrder K] [IsStrictOrderedRing K]

/-- only the tracked storages -/
def FwdOutput.core (o : FwdOutput (m + 2) (n + 2) K) : FwdOutput (m + 2) (n + 2) K :=
  { FwdOutput.zeros with s_track_upper := o.s_track_upper, s_track_lower := o.s_track_lower }

/-- only the tracked storages -/
def BwdOutput.core (o : BwdOutput (m + 2) (n + 2) K) : BwdOutput (m + 2) (n + 2) K :=
  { BwdOutput.zeros with s_track_upper := o.s_track_upper, s_track_lower := o.s_track_lower }

/-- the accumulators as a tuple -/
def FwdOutput.acc (o : FwdOutput (m + 2) (n + 2) K) : Fin 5 → Arr (m + 2) (n + 2) K :=
  ![o.p_track_upper, o.p_track_lower, o.tagged_evap, o.losses, o.gains]

/-- the accumulators as a tuple -/
def BwdOutput.acc (o : BwdOutput (m + 2) (n + 2) K) : Fin 4 → Arr (m + 2) (n + 2) K :=
  ![o.e_track, o.tagged_precip, o.losses, o.gains]

theorem FwdOutput.acc_0 (o : FwdOutput (m + 2) (n + 2) K) : o.acc 0 = o.p_track_upper := rfl
theorem FwdOutput.acc_1 (o : FwdOutput (m + 2) (n + 2) K) : o.acc 1 = o.p_track_lower := rfl
theorem FwdOutput.acc_2 (o : FwdOutput (m + 2) (n + 2) K) : o.acc 2 = o.tagged_evap := rfl
theorem FwdOutput.acc_3 (o : FwdOutput (m + 2) (n + 2) K) : o.acc 3 = o.losses := rfl
theorem FwdOutput.acc_4 (o : FwdOutput (m + 2) (n + 2) K) : o.acc 4 = o.gains := rfl
theorem BwdOutput.acc_0 (o : BwdOutput (m + 2) (n + 2) K) : o.acc 0 = o.e_track := rfl
theorem BwdOutput.acc_1 (o : BwdOutput (m + 2) (n + 2) K) : o.acc 1 = o.tagged_precip := rfl
theorem BwdOutput.acc_2 (o : BwdOutput (m + 2) (n + 2) K) : o.acc 2 = o.losses := rfl
theorem BwdOutput.acc_3 (o : BwdOutput (m + 2) (n + 2) K) : o.acc 3 = o.gains := rfl

theorem fwd_linear (cfg : RunConfig K) (g : GridInfo (m + 2) K) (inp : Input m n K) :
    (fwdProc cfg g inp).Linear FwdOutput.core FwdOutput.acc where
  step_core _ x := rfl
  acc_step k x := by
    funext f i j
    fin_cases f <;>
    simp [FwdOutput.acc_0, FwdOutput.acc_1, FwdOutput.acc_2, FwdOutput.acc_3, FwdOutput.acc_4, fwdProc, fwdStepAt, forwardtrack, FwdOutput.core, FwdOutput.zeros]
  flush_eq x := by simp [fwdProc, FwdOutput.flush, FwdOutput.core, FwdOutput.zeros]
  acc_core x := by
    funext f i j
    fin_cases f <;> simp [FwdOutput.acc_0, FwdOutput.acc_1, FwdOutput.acc_2, FwdOutput.acc_3, FwdOutput.acc_4, FwdOutput.core, FwdOutput.zeros]
  core_core x := rfl

theorem bwd_linear (cfg : RunConfig K) (g : GridInfo (m + 2) K) (inp : Input m n K) :
    (bwdProc cfg g inp).Linear BwdOutput.core BwdOutput.acc where
  step_core _ x := rfl
  acc_step k x := by
    funext f i j
    fin_cases f <;>
    simp [BwdOutput.acc_0, BwdOutput.acc_1, BwdOutput.acc_2, BwdOutput.acc_3, bwdProc, bwdStepAt, backtrack, BwdOutput.core, BwdOutput.zeros]
  flush_eq x := by simp [bwdProc, BwdOutput.flush, BwdOutput.core, BwdOutput.zeros]
  acc_core x := by
    funext f i j
    fin_cases f <;> simp [BwdOutput.acc_0, BwdOutput.acc_1, BwdOutput.acc_2, BwdOutput.acc_3, BwdOutput.core, BwdOutput.zeros]
  core_core x := rfl

theorem sum_map_apply {ι X : Type*} (l : List X) (f : X → ι → K) (i : ι) :
    (l.map f).sum i = (l.map fun x => f x i).sum := by
  induction l with
  | nil => rfl
  | cons a l ih => simp [ih]

/-- `npSum` is the sum -/
theorem npSum_eq (f : Arr m n K) : npSum f = ∑ i, ∑ j, f i j := by
  have key : ∀ (l : List (Fin n)) (g : Fin n → K) (z : K),
      l.foldl (fun acc j => acc + g j) z = z + (l.map g).sum := by
    intro l g
    induction l with
    | nil => simp
    | cons a l ih => intro z; simp [ih, add_assoc]
  have key2 : ∀ (l : List (Fin m)) (z : K),
      l.foldl (fun acc i => (List.finRange n).foldl (fun acc j => acc + f i j) acc) z =
        z + (l.map fun i => ∑ j, f i j).sum := by
    intro l
    induction l with
    | nil => simp
    | cons a l ih =>
      intro z
      rw [List.foldl_cons, ih, key, List.map_cons, List.sum_cons, add_assoc]
      congr 2
  unfold npSum
  have : ∀ x : K, NpOps.isnan x = false := fun _ => rfl
  simp only [this, Bool.false_eq_true, if_false]
  rw [key2]
  have h0 : (ofRat 0 : K) = 0 := by simp [NpOps.ofRat]
  rw [h0, zero_add, ← List.ofFn_eq_map, List.sum_ofFn]

end

end Wam
