import Verif.Lemmas.Limit
import Mathlib.Topology.Algebra.Order.Archimedean
import Mathlib.Analysis.SpecificLimits.Basic

/-!
# C110: results depend continuously on the data
-/
set_option linter.unusedSectionVars false
set_option linter.unusedVariables false

namespace Wam
open Spec Filter Topology

variable {m n : ℕ} {P : Type*}

section
variable {K : Type*} [Field K] [LinearOrder K] [IsStrictOrderedRing K] [TopologicalSpace K] [OrderTopology K]
variable {ι : Type*} {l : Filter ι}

/-- **C110** (forward).  A family of runs that differ in their data, in the tagging region, in `kvf` and in the tracked storage
they start from.  If all these tend to those of one run in which both layers hold water and the water moves everywhere, then the
runs write files at the same times, and every field of every file tends, in every cell, to that of the limit. -/
theorem C110_forward (cfg : ι → RunConfig K) (cfg₀ : RunConfig K) (same : ∀ k, cfg k = { cfg₀ with kvf := (cfg k).kvf })
    (hk : Tendsto (fun k => (cfg k).kvf) l (𝓝 cfg₀.kvf)) (k0 : 0 ≤ cfg₀.kvf)
    (src : ι → Source m n K) (src₀ : Source m n K) (grid : ∀ k, (src k).grid = src₀.grid)
    (inp : ι → Input m n K) (inp₀ : Input m n K) (run : ∀ k, Runnable (cfg k) (src k) (inp k)) (run₀ : Runnable cfg₀ src₀ inp₀)
    (data : DataTend l inp inp₀ cfg₀.tracking_start_date cfg₀.tracking_end_date)
    (lively : Lively src₀.grid inp₀ cfg₀.tracking_start_date cfg₀.tracking_end_date)
    (path : ι → ℤ → P) (path₀ : ℤ → P) (disk : ι → P → Option (FwdOutput (m + 2) (n + 2) K)) (disk₀ : P → Option (FwdOutput (m + 2) (n + 2) K))
    (start_lower : Tends l (fun k => (startFwd (cfg k) (path k) (disk k)).1) (startFwd cfg₀ path₀ disk₀).1)
    (start_upper : Tends l (fun k => (startFwd (cfg k) (path k) (disk k)).2) (startFwd cfg₀ path₀ disk₀).2)
    {s : ι → LoopState (FwdOutput (m + 2) (n + 2) K) K} {s₀ : LoopState (FwdOutput (m + 2) (n + 2) K) K}
    (hs : ∀ k, EndsIn (fwdRun (cfg k) (src k) (path k) (disk k)) (s k)) (hs₀ : EndsIn (fwdRun cfg₀ src₀ path₀ disk₀) s₀) :
    FilesTend (FwdTend l) (fun k => (s k).files) s₀.files := by
  obtain ⟨o₀, r₀, ho₀, e₀⟩ := fwd_ends cfg₀ src₀ inp₀ path₀ disk₀ run₀ hs₀
  choose o r ho e using fun k => fwd_ends (cfg k) (src k) (inp k) (path k) (disk k) (run k) (hs k)
  have i₀ := fwd_init_eq cfg₀ src₀ path₀ disk₀ o₀ ho₀
  have ik := fun k => fwd_init_eq (cfg k) (src k) (path k) (disk k) (o k) (ho k)
  have steps : ∀ k, (cfg k).steps = cfg₀.steps := fun k => by rw [same k]; rfl
  have f₀ : s₀.files = (fwdProc cfg₀ src₀.grid inp₀).files o₀ cfg₀.steps := by rw [e₀]; rfl
  have fk : (fun k => (s k).files) = fun k => (fwdProc (cfg k) src₀.grid (inp k)).files (o k) cfg₀.steps := by
    funext k; rw [e k, ← grid k, ← steps k]; rfl
  rw [f₀, fk]
  refine Proc.tend_files (FwdTend l) (fun k => fwdProc (cfg k) src₀.grid (inp k)) (fwdProc cfg₀ src₀.grid inp₀) o o₀ cfg₀.steps
    (fun k q => by rw [same k]; rfl) (fun k q => by rw [same k]; rfl) (fun q hq x x₀ hx => ?_) (fun x x₀ hx => ?_) ?_ _ le_rfl
  · have b := (lt_stepCount (cfg₀.dt_pos run₀.timestep_pos) q).mp hq
    have dpos := cfg₀.dt_pos run₀.timestep_pos
    have tm : ∀ k, (cfg k).fwdTime q = cfg₀.fwdTime q := fun k => by rw [same k]; rfl
    simp only [fwdProc, tm]
    refine fwd_step_tend cfg cfg₀ same hk k0 run₀.timestep_pos src₀.grid data lively _ ?_ ?_ x x₀ hx
    · unfold RunConfig.fwdTime
      have : 0 ≤ (q : ℤ) * cfg₀.dt := by positivity
      omega
    · rw [← RunConfig.fwdTime_succ]; unfold RunConfig.fwdTime; push_cast; exact b
  · exact ⟨hx.s_track_upper, hx.s_track_lower, fun i j => (hx.p_track_upper i j).mul_const _, fun i j => (hx.p_track_lower i j).mul_const _,
      fun i j => (hx.tagged_evap i j).mul_const _, fun i j => (hx.losses i j).mul_const _, fun i j => (hx.gains i j).mul_const _⟩
  · rw [i₀, show o = _ from funext ik]
    exact ⟨start_upper, start_lower, fun i j => tendsto_const_nhds, fun i j => tendsto_const_nhds,
      fun i j => tendsto_const_nhds, fun i j => tendsto_const_nhds, fun i j => tendsto_const_nhds⟩

/-- **C110** (backward).  A family of runs that differ in their data, in the tagging region, in `kvf` and in the tracked storage
they start from.  If all these tend to those of one run in which both layers hold water and the water moves everywhere, then the
runs write files at the same times, and every field of every file tends, in every cell, to that of the limit. -/
theorem C110_backward (cfg : ι → RunConfig K) (cfg₀ : RunConfig K) (same : ∀ k, cfg k = { cfg₀ with kvf := (cfg k).kvf })
    (hk : Tendsto (fun k => (cfg k).kvf) l (𝓝 cfg₀.kvf)) (k0 : 0 ≤ cfg₀.kvf)
    (src : ι → Source m n K) (src₀ : Source m n K) (grid : ∀ k, (src k).grid = src₀.grid)
    (inp : ι → Input m n K) (inp₀ : Input m n K) (run : ∀ k, Runnable (cfg k) (src k) (inp k)) (run₀ : Runnable cfg₀ src₀ inp₀)
    (data : DataTend l inp inp₀ cfg₀.tracking_start_date cfg₀.tracking_end_date)
    (lively : Lively src₀.grid inp₀ cfg₀.tracking_start_date cfg₀.tracking_end_date)
    (path : ι → ℤ → P) (path₀ : ℤ → P) (disk : ι → P → Option (BwdOutput (m + 2) (n + 2) K)) (disk₀ : P → Option (BwdOutput (m + 2) (n + 2) K))
    (start_lower : Tends l (fun k => (startBwd (cfg k) (path k) (disk k)).1) (startBwd cfg₀ path₀ disk₀).1)
    (start_upper : Tends l (fun k => (startBwd (cfg k) (path k) (disk k)).2) (startBwd cfg₀ path₀ disk₀).2)
    {s : ι → LoopState (BwdOutput (m + 2) (n + 2) K) K} {s₀ : LoopState (BwdOutput (m + 2) (n + 2) K) K}
    (hs : ∀ k, EndsIn (bwdRun (cfg k) (src k) (path k) (disk k)) (s k)) (hs₀ : EndsIn (bwdRun cfg₀ src₀ path₀ disk₀) s₀) :
    FilesTend (BwdTend l) (fun k => (s k).files) s₀.files := by
  obtain ⟨o₀, r₀, ho₀, e₀⟩ := bwd_ends cfg₀ src₀ inp₀ path₀ disk₀ run₀ hs₀
  choose o r ho e using fun k => bwd_ends (cfg k) (src k) (inp k) (path k) (disk k) (run k) (hs k)
  have i₀ := bwd_init_eq cfg₀ src₀ path₀ disk₀ o₀ ho₀
  have ik := fun k => bwd_init_eq (cfg k) (src k) (path k) (disk k) (o k) (ho k)
  have steps : ∀ k, (cfg k).steps = cfg₀.steps := fun k => by rw [same k]; rfl
  have f₀ : s₀.files = (bwdProc cfg₀ src₀.grid inp₀).files o₀ cfg₀.steps := by rw [e₀]; rfl
  have fk : (fun k => (s k).files) = fun k => (bwdProc (cfg k) src₀.grid (inp k)).files (o k) cfg₀.steps := by
    funext k; rw [e k, ← grid k, ← steps k]; rfl
  rw [f₀, fk]
  refine Proc.tend_files (BwdTend l) (fun k => bwdProc (cfg k) src₀.grid (inp k)) (bwdProc cfg₀ src₀.grid inp₀) o o₀ cfg₀.steps
    (fun k q => by rw [same k]; rfl) (fun k q => by rw [same k]; rfl) (fun q hq x x₀ hx => ?_) (fun x x₀ hx => ?_) ?_ _ le_rfl
  · have b := (lt_stepCount (cfg₀.dt_pos run₀.timestep_pos) q).mp hq
    have dpos := cfg₀.dt_pos run₀.timestep_pos
    have tm : ∀ k, (cfg k).bwdTime q = cfg₀.bwdTime q := fun k => by rw [same k]; rfl
    simp only [bwdProc, tm]
    refine bwd_step_tend cfg cfg₀ same hk k0 run₀.timestep_pos src₀.grid data lively _ ?_ ?_ x x₀ hx
    · rw [← RunConfig.bwdTime_succ]; unfold RunConfig.bwdTime; push_cast; linarith
    · unfold RunConfig.bwdTime
      have : 0 ≤ (q : ℤ) * cfg₀.dt := by positivity
      omega
  · exact ⟨hx.s_track_upper, hx.s_track_lower, fun i j => (hx.e_track i j).mul_const _, fun i j => (hx.tagged_precip i j).mul_const _, fun i j => (hx.losses i j).mul_const _, fun i j => (hx.gains i j).mul_const _⟩
  · rw [i₀, show o = _ from funext ik]
    exact ⟨start_upper, start_lower, fun i j => tendsto_const_nhds,
      fun i j => tendsto_const_nhds, fun i j => tendsto_const_nhds, fun i j => tendsto_const_nhds⟩

end

/-! ### With a tolerance -/

theorem tends_of_within {f : ℕ → Arr m n ℝ} {f₀ : Arr m n ℝ} (h : ∀ N : ℕ, Within (1 / ((N : ℝ) + 1)) (f N) f₀) :
    Tends atTop f f₀ := fun i j => by
  refine tendsto_iff_dist_tendsto_zero.mpr ?_
  exact squeeze_zero (fun _ => dist_nonneg) (fun N => h N i j) tendsto_one_div_add_atTop_nhds_zero_nat

theorem within_of_tends {f : ℕ → Arr m n ℝ} {f₀ : Arr m n ℝ} (h : Tends atTop f f₀) {ε : ℝ} (hε : 0 < ε) :
    ∀ᶠ N in atTop, Within ε (f N) f₀ := by
  refine eventually_all.mpr fun i => eventually_all.mpr fun j => ?_
  have := (tendsto_iff_dist_tendsto_zero.mp (h i j)).eventually (gt_mem_nhds hε)
  filter_upwards [this] with N hN
  exact hN.le

theorem dataTend_of_within {inp : ℕ → Input m n ℝ} {inp₀ : Input m n ℝ} {A B : ℤ}
    (h : ∀ N : ℕ, DataWithin (1 / ((N : ℝ) + 1)) (inp N) inp₀ A B) : DataTend atTop inp inp₀ A B :=
  { s_upper := fun t a b => tends_of_within fun N => (h N).s_upper t a b
    s_lower := fun t a b => tends_of_within fun N => (h N).s_lower t a b
    fx_upper := fun t a b => tends_of_within fun N => (h N).fx_upper t a b
    fy_upper := fun t a b => tends_of_within fun N => (h N).fy_upper t a b
    fx_lower := fun t a b => tends_of_within fun N => (h N).fx_lower t a b
    fy_lower := fun t a b => tends_of_within fun N => (h N).fy_lower t a b
    evap := fun t a b => tends_of_within fun N => (h N).evap t a b
    precip := fun t a b => tends_of_within fun N => (h N).precip t a b
    region := fun t a b => tends_of_within fun N => (h N).region t a b }

theorem fwdWithin_of_tend {o : ℕ → FwdOutput m n ℝ} {o₀ : FwdOutput m n ℝ} (h : FwdTend atTop o o₀) {ε : ℝ} (hε : 0 < ε) :
    ∀ᶠ N in atTop, FwdWithin ε (o N) o₀ := by
  filter_upwards [within_of_tends h.s_track_upper hε, within_of_tends h.s_track_lower hε, within_of_tends h.p_track_upper hε,
    within_of_tends h.p_track_lower hε, within_of_tends h.tagged_evap hε, within_of_tends h.losses hε, within_of_tends h.gains hε]
    with N h1 h2 h3 h4 h5 h6 h7
  exact ⟨h1, h2, h3, h4, h5, h6, h7⟩

theorem bwdWithin_of_tend {o : ℕ → BwdOutput m n ℝ} {o₀ : BwdOutput m n ℝ} (h : BwdTend atTop o o₀) {ε : ℝ} (hε : 0 < ε) :
    ∀ᶠ N in atTop, BwdWithin ε (o N) o₀ := by
  filter_upwards [within_of_tends h.s_track_upper hε, within_of_tends h.s_track_lower hε, within_of_tends h.e_track hε,
    within_of_tends h.tagged_precip hε, within_of_tends h.losses hε, within_of_tends h.gains hε]
    with N h1 h2 h3 h4 h5 h6
  exact ⟨h1, h2, h3, h4, h5, h6⟩

theorem filesClose_of_tend {ω : Type*} {T : (ℕ → ω) → ω → Prop} {close : ω → ω → Prop}
    (hT : ∀ o o₀, T o o₀ → ∀ᶠ N in atTop, close (o N) o₀) {files : ℕ → List (ℤ × ω)} {files₀ : List (ℤ × ω)}
    (h : FilesTend T files files₀) : ∀ᶠ N in atTop, FilesClose close (files N) files₀ := by
  obtain ⟨h1, h2⟩ := h
  have len : ∀ N, (files N).length = files₀.length := fun N => by have := congrArg List.length (h1 N); simpa using this
  have ev : ∀ q : Fin files₀.length, ∀ᶠ N in atTop, ∀ x, (files N)[(q : ℕ)]? = some x →
      x.1 = (files₀[(q : ℕ)]).1 ∧ close x.2 (files₀[(q : ℕ)]).2 := by
    intro q
    obtain ⟨o, e, t⟩ := h2 q (files₀[(q : ℕ)]).1 (files₀[(q : ℕ)]).2 (by simp)
    filter_upwards [hT _ _ t] with N hN x hx
    rw [e N] at hx
    injection hx with hx; subst hx
    exact ⟨rfl, hN⟩
  filter_upwards [eventually_all.mpr ev] with N hN
  refine List.forall₂_iff_get.mpr ⟨len N, fun q a b => ?_⟩
  exact hN ⟨q, b⟩ _ (by simp)

/-- **C110** (forward, with a tolerance).  However accurate the results must be, there is an accuracy of the data that is
sufficient: for every `ε` there is a `δ` such that every run whose data, region, `kvf` and initial tracked storage are within
`δ` of those of the given run writes files at the same times as that run, and every field of every file is within `ε`, in every
cell. -/
theorem C110_forward_tolerance (cfg₀ : RunConfig ℝ) (k0 : 0 ≤ cfg₀.kvf) (src₀ : Source m n ℝ) (inp₀ : Input m n ℝ)
    (run₀ : Runnable cfg₀ src₀ inp₀) (lively : Lively src₀.grid inp₀ cfg₀.tracking_start_date cfg₀.tracking_end_date)
    (path₀ : ℤ → P) (disk₀ : P → Option (FwdOutput (m + 2) (n + 2) ℝ))
    {s₀ : LoopState (FwdOutput (m + 2) (n + 2) ℝ) ℝ} (hs₀ : EndsIn (fwdRun cfg₀ src₀ path₀ disk₀) s₀) (ε : ℝ) (hε : 0 < ε) :
    ∃ δ > 0, ∀ (kvf : ℝ) (src : Source m n ℝ) (inp : Input m n ℝ) (path : ℤ → P)
      (disk : P → Option (FwdOutput (m + 2) (n + 2) ℝ)) (s : LoopState (FwdOutput (m + 2) (n + 2) ℝ) ℝ),
      src.grid = src₀.grid → Runnable { cfg₀ with kvf := kvf } src inp → |kvf - cfg₀.kvf| ≤ δ →
      DataWithin δ inp inp₀ cfg₀.tracking_start_date cfg₀.tracking_end_date →
      Within δ (startFwd { cfg₀ with kvf := kvf } path disk).1 (startFwd cfg₀ path₀ disk₀).1 →
      Within δ (startFwd { cfg₀ with kvf := kvf } path disk).2 (startFwd cfg₀ path₀ disk₀).2 →
      EndsIn (fwdRun { cfg₀ with kvf := kvf } src path disk) s → FilesClose (FwdWithin ε) s.files s₀.files := by
  by_contra hcon
  push Not at hcon
  choose kvf src inp path disk s hg hr hk hd hl hu he hbad using
    fun N : ℕ => hcon (1 / ((N : ℝ) + 1)) (by positivity)
  have tk : Tendsto kvf atTop (𝓝 cfg₀.kvf) := by
    refine tendsto_iff_dist_tendsto_zero.mpr ?_
    exact squeeze_zero (fun _ => dist_nonneg) hk tendsto_one_div_add_atTop_nhds_zero_nat
  have := C110_forward (l := atTop) (fun N => { cfg₀ with kvf := kvf N }) cfg₀ (fun _ => rfl) tk k0 src src₀ hg inp inp₀ hr run₀
    (dataTend_of_within hd) lively path path₀ disk disk₀ (tends_of_within hl) (tends_of_within hu) he hs₀
  obtain ⟨N, hN⟩ := (filesClose_of_tend (fun _ _ t => fwdWithin_of_tend t hε) this).exists
  exact hbad N hN

/-- **C110** (backward, with a tolerance).  However accurate the results must be, there is an accuracy of the data that is
sufficient: for every `ε` there is a `δ` such that every run whose data, region, `kvf` and initial tracked storage are within
`δ` of those of the given run writes files at the same times as that run, and every field of every file is within `ε`, in every
cell. -/
theorem C110_backward_tolerance (cfg₀ : RunConfig ℝ) (k0 : 0 ≤ cfg₀.kvf) (src₀ : Source m n ℝ) (inp₀ : Input m n ℝ)
    (run₀ : Runnable cfg₀ src₀ inp₀) (lively : Lively src₀.grid inp₀ cfg₀.tracking_start_date cfg₀.tracking_end_date)
    (path₀ : ℤ → P) (disk₀ : P → Option (BwdOutput (m + 2) (n + 2) ℝ))
    {s₀ : LoopState (BwdOutput (m + 2) (n + 2) ℝ) ℝ} (hs₀ : EndsIn (bwdRun cfg₀ src₀ path₀ disk₀) s₀) (ε : ℝ) (hε : 0 < ε) :
    ∃ δ > 0, ∀ (kvf : ℝ) (src : Source m n ℝ) (inp : Input m n ℝ) (path : ℤ → P)
      (disk : P → Option (BwdOutput (m + 2) (n + 2) ℝ)) (s : LoopState (BwdOutput (m + 2) (n + 2) ℝ) ℝ),
      src.grid = src₀.grid → Runnable { cfg₀ with kvf := kvf } src inp → |kvf - cfg₀.kvf| ≤ δ →
      DataWithin δ inp inp₀ cfg₀.tracking_start_date cfg₀.tracking_end_date →
      Within δ (startBwd { cfg₀ with kvf := kvf } path disk).1 (startBwd cfg₀ path₀ disk₀).1 →
      Within δ (startBwd { cfg₀ with kvf := kvf } path disk).2 (startBwd cfg₀ path₀ disk₀).2 →
      EndsIn (bwdRun { cfg₀ with kvf := kvf } src path disk) s → FilesClose (BwdWithin ε) s.files s₀.files := by
  by_contra hcon
  push Not at hcon
  choose kvf src inp path disk s hg hr hk hd hl hu he hbad using
    fun N : ℕ => hcon (1 / ((N : ℝ) + 1)) (by positivity)
  have tk : Tendsto kvf atTop (𝓝 cfg₀.kvf) := by
    refine tendsto_iff_dist_tendsto_zero.mpr ?_
    exact squeeze_zero (fun _ => dist_nonneg) hk tendsto_one_div_add_atTop_nhds_zero_nat
  have := C110_backward (l := atTop) (fun N => { cfg₀ with kvf := kvf N }) cfg₀ (fun _ => rfl) tk k0 src src₀ hg inp inp₀ hr run₀
    (dataTend_of_within hd) lively path path₀ disk disk₀ (tends_of_within hl) (tends_of_within hu) he hs₀
  obtain ⟨N, hN⟩ := (filesClose_of_tend (fun _ _ t => bwdWithin_of_tend t hε) this).exists
  exact hbad N hN

end Wam
