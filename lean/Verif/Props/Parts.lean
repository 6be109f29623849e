import Verif.Spec.Parts
import Verif.Props.Superposition
import Verif.Props.Complete

/-!
# C129: a run is the sum of its parts
-/
set_option linter.unusedSectionVars false
set_option linter.unusedVariables false

namespace Wam
open Spec
variable {K : Type*} [Field K] [LinearOrder K] [IsStrictOrderedRing K] {m n : ℕ} {P : Type*} {ι : Type*}

/-- same weather, another region -/
private def withRegion (inp : Input m n K) (r : ℤ → Arr (m + 2) (n + 2) K) : Input m n K :=
  { states := inp.states, fluxes := inp.fluxes, region := r }

/-- a source that always delivers `inp` -/
private def sourceOf (g : GridInfo (m + 2) K) (w : Fin (m + 2) → K) (inp : Input m n K) : Source m n K :=
  { states := fun t => .ok (inp.states t), fluxes := fun t => .ok (inp.fluxes t), grid := g
    region := .ok (.moving fun t => .ok (inp.region t)), weight := w }

private theorem sourceOf_runnable {cfg : RunConfig K} (h0 : 0 < cfg.timestep) (h1 : cfg.tracking_start_date ≤ cfg.tracking_end_date)
    (g : GridInfo (m + 2) K) (w : Fin (m + 2) → K) (inp : Input m n K) : Runnable cfg (sourceOf g w inp) inp :=
  { timestep_pos := h0, ordered := h1
    serves := { states := fun _ _ _ => rfl, fluxes := fun _ _ _ => rfl, region := ⟨_, rfl, fun _ _ _ => rfl⟩ } }

/-! ### forward -/

/-- sum over a finite set of parts -/
private def fwdSumOn (S : Finset ι) (y : ι → FwdOutput m n K) : FwdOutput m n K :=
  { s_track_lower := fun i j => ∑ l ∈ S, (y l).s_track_lower i j
    s_track_upper := fun i j => ∑ l ∈ S, (y l).s_track_upper i j
    p_track_lower := fun i j => ∑ l ∈ S, (y l).p_track_lower i j
    p_track_upper := fun i j => ∑ l ∈ S, (y l).p_track_upper i j
    tagged_evap := fun i j => ∑ l ∈ S, (y l).tagged_evap i j
    losses := fun i j => ∑ l ∈ S, (y l).losses i j
    gains := fun i j => ∑ l ∈ S, (y l).gains i j }

private theorem fwdSumOn_insert [DecidableEq ι] {S : Finset ι} {l : ι} (hl : l ∉ S) (y : ι → FwdOutput m n K) :
    fwdSumOn (insert l S) y = fwdComb 1 1 (y l) (fwdSumOn S y) := by
  simp [fwdSumOn, fwdComb, Finset.sum_insert hl]

private theorem fwdSumOn_empty (y : ι → FwdOutput m n K) (x x' : FwdOutput m n K) :
    fwdSumOn ∅ y = fwdComb 0 0 x x' := by
  simp [fwdSumOn, fwdComb]

private theorem fwd_parts [Fintype ι] (cfg : RunConfig K) (src : Source m n K) (inp : Input m n K) (h : Runnable cfg src inp)
    (hp : Physical inp cfg.tracking_start_date cfg.tracking_end_date)
    (ha : ∀ i, 0 < src.grid.a i) (hk : 0 ≤ cfg.kvf) (calm : CalmFwd cfg src.grid inp)
    (r : ι → ℤ → Arr (m + 2) (n + 2) K)
    (r0 : ∀ l t, cfg.tracking_start_date ≤ t → t ≤ cfg.tracking_end_date → ∀ i j, 0 ≤ r l t i j)
    (hr : ∀ t, cfg.tracking_start_date ≤ t → t ≤ cfg.tracking_end_date → ∀ i j, inp.region t i j = ∑ l, r l t i j)
    (o1 : ι → FwdOutput (m + 2) (n + 2) K) (ho1 : ∀ l, FwdLE FwdOutput.zeros (o1 l))
    (n0 : ∀ k ≤ cfg.steps, ∀ i j,
      ((fwdProc cfg src.grid inp).out (fwdSum o1) k).s_track_lower i j < (inp.states (cfg.fwdTime k)).s_lower i j ∧
      ((fwdProc cfg src.grid inp).out (fwdSum o1) k).s_track_upper i j < (inp.states (cfg.fwdTime k)).s_upper i j) :
    ∀ k < cfg.steps, (fwdProc cfg src.grid inp).full (fwdSum o1) k =
      fwdSum fun l => (fwdProc cfg src.grid (withRegion inp (r l))).full (o1 l) k := by
  classical
  have z : (ofRat 0 : K) = 0 := ofRat_zero
  have q0 : ∀ l i j, 0 ≤ (o1 l).s_track_lower i j ∧ 0 ≤ (o1 l).s_track_upper i j ∧ 0 ≤ (o1 l).p_track_lower i j ∧
      0 ≤ (o1 l).p_track_upper i j ∧ 0 ≤ (o1 l).tagged_evap i j ∧ 0 ≤ (o1 l).losses i j := fun l i j => by
    have := ho1 l
    refine ⟨?_, ?_, ?_, ?_, ?_, ?_⟩ <;> rw [← z]
    exacts [this.s_track_lower i j, this.s_track_upper i j, this.p_track_lower i j, this.p_track_upper i j,
      this.tagged_evap i j, this.losses i j]
  -- the input of the parts in `S`
  let I : Finset ι → Input m n K := fun S => withRegion inp fun t i j => ∑ l ∈ S, r l t i j
  have w : ∀ S, SameWeather inp (I S) := fun S => ⟨rfl, rfl⟩
  have R : ∀ J : Input m n K, Runnable cfg (sourceOf src.grid src.weight J) J := fun J =>
    sourceOf_runnable h.timestep_pos h.ordered _ _ J
  have phys : ∀ q : ℤ → Arr (m + 2) (n + 2) K,
      (∀ t, cfg.tracking_start_date ≤ t → t ≤ cfg.tracking_end_date → ∀ i j, 0 ≤ q t i j) →
      Physical (withRegion inp q) cfg.tracking_start_date cfg.tracking_end_date := fun q hq =>
    ⟨hp.wet, hp.precip, hp.evap, hq⟩
  have pI : ∀ S, Physical (I S) cfg.tracking_start_date cfg.tracking_end_date := fun S =>
    phys _ fun t a b i j => Finset.sum_nonneg fun l _ => r0 l t a b i j
  -- no sum of parts ever fills a layer
  have less : ∀ S : Finset ι, ∀ k ≤ cfg.steps, ∀ i j,
      ((fwdProc cfg src.grid (I S)).out (fwdSumOn S o1) k).s_track_lower i j < (inp.states (cfg.fwdTime k)).s_lower i j ∧
      ((fwdProc cfg src.grid (I S)).out (fwdSumOn S o1) k).s_track_upper i j < (inp.states (cfg.fwdTime k)).s_upper i j := by
    intro S k hk' i j
    have le := (fwd_out_le cfg (sourceOf src.grid src.weight (I S)) (I S) inp (R _) ⟨rfl, rfl⟩ (pI S)
      (fun t a b i j => by
        rw [hr t a b]
        exact Finset.sum_le_univ_sum_of_nonneg fun l => r0 l t a b i j)
      ha hk calm (fwdSumOn S o1) (fwdSum o1)
      ⟨fun i j => Finset.sum_le_univ_sum_of_nonneg fun l => (q0 l i j).1,
       fun i j => Finset.sum_le_univ_sum_of_nonneg fun l => (q0 l i j).2.1,
       fun i j => Finset.sum_le_univ_sum_of_nonneg fun l => (q0 l i j).2.2.1,
       fun i j => Finset.sum_le_univ_sum_of_nonneg fun l => (q0 l i j).2.2.2.1,
       fun i j => Finset.sum_le_univ_sum_of_nonneg fun l => (q0 l i j).2.2.2.2.1,
       fun i j => Finset.sum_le_univ_sum_of_nonneg fun l => (q0 l i j).2.2.2.2.2⟩).1 k hk'
    exact ⟨(le.s_track_lower i j).trans_lt (n0 k hk' i j).1, (le.s_track_upper i j).trans_lt (n0 k hk' i j).2⟩
  have single : ∀ l, I {l} = withRegion inp (r l) := fun l => by simp [I]
  have single' : ∀ l, fwdSumOn {l} o1 = o1 l := fun l => by simp [fwdSumOn]
  have key : ∀ S : Finset ι,
      ∀ k < cfg.steps, (fwdProc cfg src.grid (I S)).full (fwdSumOn S o1) k =
        fwdSumOn S fun l => (fwdProc cfg src.grid (withRegion inp (r l))).full (o1 l) k := by
    intro S
    induction S using Finset.induction_on with
    | empty =>
      intro k hk'
      have e := fwdSumOn_empty o1 (fwdSumOn ∅ o1) (fwdSumOn ∅ o1)
      have := (fwd_out_comb cfg (sourceOf src.grid src.weight (I ∅)) (sourceOf src.grid src.weight (I ∅))
        (sourceOf src.grid src.weight (I ∅)) (I ∅) (I ∅) (I ∅) 0 0 le_rfl le_rfl (R _) (R _) (R _) rfl rfl ⟨rfl, rfl⟩ ⟨rfl, rfl⟩
        (pI _) (pI _) (pI _) (fun t a b i j => by simp [I, withRegion]) ha hk calm (fwdSumOn ∅ o1) (fwdSumOn ∅ o1)
        (fun i j => by simp [fwdSumOn]) (fun i j => by simp [fwdSumOn])
        (by rw [← e]; exact less ∅) (less ∅) (less ∅)).2 k hk'
      rw [← e] at this
      rw [show (fwdProc cfg src.grid (I ∅)).full (fwdSumOn ∅ o1) k = _ from this]
      exact (fwdSumOn_empty _ _ _).symm
    | insert l S hl ih =>
      intro k hk'
      have e := fwdSumOn_insert hl o1
      have := (fwd_out_comb cfg (sourceOf src.grid src.weight (I (insert l S))) (sourceOf src.grid src.weight (I {l}))
        (sourceOf src.grid src.weight (I S)) (I (insert l S)) (I {l}) (I S) 1 1 zero_le_one zero_le_one (R _) (R _) (R _) rfl rfl
        ⟨rfl, rfl⟩ ⟨rfl, rfl⟩ (pI _) (pI _) (pI _) (fun t a b i j => by simp [I, withRegion, Finset.sum_insert hl]) ha hk calm
        (o1 l) (fwdSumOn S o1) (fun i j => ⟨(q0 l i j).1, (q0 l i j).2.1⟩)
        (fun i j => ⟨Finset.sum_nonneg fun l _ => (q0 l i j).1, Finset.sum_nonneg fun l _ => (q0 l i j).2.1⟩)
        (by rw [← e]; exact less _) (by have := less {l}; rw [single'] at this; exact this) (less S)).2 k hk'
      rw [← e] at this
      rw [show (fwdProc cfg src.grid (I (insert l S))).full (fwdSumOn (insert l S) o1) k = _ from this, fwdSumOn_insert hl]
      congr 1
      · rw [single]; rfl
      · exact ih k hk'
  intro k hk'
  have all := key Finset.univ k hk'
  refine Eq.trans ?_ all
  show _ = (fwdProc cfg src.grid (I Finset.univ)).full (fwdSum o1) k
  have st : ∀ k < cfg.steps, (fwdProc cfg src.grid inp).step k = (fwdProc cfg src.grid (I Finset.univ)).step k := by
    intro k hk'
    have t0 := cfg.fwdTime_mem h.timestep_pos h.ordered k hk'.le
    have : inp.region (cfg.fwdTime k) = (I Finset.univ).region (cfg.fwdTime k) := by
      funext i j; exact hr _ t0.1 t0.2 i j
    funext x
    simp only [fwdProc, fwdStepAt, maskAt, this]
    rfl
  rw [Proc.full, Proc.full, st k hk', Proc.out_congr (fwdSum o1) cfg.steps st (fun _ _ _ => rfl) rfl k hk'.le]

/-- the same run, with tagging all the time -/
private def alwaysTagging (cfg : RunConfig K) : RunConfig K :=
  { cfg with tagging_start_date := cfg.tracking_start_date, tagging_end_date := cfg.tracking_end_date }

private theorem maskAt_always (cfg : RunConfig K) (inp : Input m n K) (q : ℤ → Arr (m + 2) (n + 2) K) (t : ℤ)
    (h0 : cfg.tracking_start_date ≤ t) (h1 : t ≤ cfg.tracking_end_date) :
    maskAt (alwaysTagging cfg) (withRegion inp q) t = q t := by
  unfold maskAt
  rw [if_pos (show inWindow (alwaysTagging cfg) t from ⟨h0, h1⟩)]
  rfl

private theorem maskAt_tagged (cfg : RunConfig K) (inp : Input m n K) (t : ℤ) : maskAt cfg inp t = tagged cfg inp t := by
  funext i j
  by_cases h : cfg.tagging_start_date ≤ t ∧ t ≤ cfg.tagging_end_date
  · unfold maskAt tagged
    rw [if_pos (show inWindow cfg t from h), if_pos h]
  · unfold maskAt tagged
    rw [if_neg (show ¬ inWindow cfg t from h), if_neg h, ofRat_zero]

/-- **C129** (forward).  A run is divided into any number of parts: parts of the tagging region, parts of the tagging period, the water
that was tracked before, or any mixture.  As long as in the whole run no layer is ever completely filled with tracked water, the files
of the parts are written at the same times as those of the whole run, and every number in a file of the whole run is the sum of the
numbers in the files of the parts. -/
theorem C129_forward [Fintype ι] (cfg : RunConfig K) (src : Source m n K) (inp : Input m n K) (path : ℤ → P)
    (disk : P → Option (FwdOutput (m + 2) (n + 2) K)) (part : ι → Part m n K P (FwdOutput (m + 2) (n + 2) K))
    (h : Runnable cfg src inp) (hp : Physical inp cfg.tracking_start_date cfg.tracking_end_date)
    (ha : ∀ i, 0 < src.grid.a i) (hk : 0 ≤ cfg.kvf) (calm : CalmFwd cfg src.grid inp)
    (nf : NeverFullFwd inp (fwdRun cfg src path disk)) (div : DividedFwd cfg src inp path disk part)
    {s : LoopState (FwdOutput (m + 2) (n + 2) K) K} (hs : EndsIn (fwdRun cfg src path disk) s)
    {s' : ι → LoopState (FwdOutput (m + 2) (n + 2) K) K}
    (hs' : ∀ l, EndsIn (fwdRun ((part l).cfg cfg) (part l).src (part l).path (part l).disk) (s' l)) :
    (∀ l, (s' l).files.map Prod.fst = s.files.map Prod.fst) ∧
    ∀ t x, (t, x) ∈ s.files → ∀ y : ι → FwdOutput (m + 2) (n + 2) K, (∀ l, (t, y l) ∈ (s' l).files) → x = fwdSum y := by
  obtain ⟨o, rr, ho, rfl⟩ := fwd_ends cfg src inp path disk h hs
  choose o1 r1 ho1 e1 using fun l => fwd_ends ((part l).cfg cfg) (part l).src (part l).inp (part l).path (part l).disk (div.runnable l) (hs' l)
  have dpos := cfg.dt_pos h.timestep_pos
  have oe := fwd_init_eq cfg src path disk o ho
  have o1e := fun l => fwd_init_eq ((part l).cfg cfg) (part l).src (part l).path (part l).disk (o1 l) (ho1 l)
  have osum : o = fwdSum o1 := by
    rw [oe, show o1 = _ from funext o1e]
    have := div.start
    have a1 : (startFwd cfg path disk).1 = fun i j => ∑ l, (startFwd ((part l).cfg cfg) (part l).path (part l).disk).1 i j := by
      funext i j; exact (this i j).1
    have a2 : (startFwd cfg path disk).2 = fun i j => ∑ l, (startFwd ((part l).cfg cfg) (part l).path (part l).disk).2 i j := by
      funext i j; exact (this i j).2
    rw [a1, a2]
    simp [fwdSum, FwdOutput.zeros, ofRat_zero]
  have ozero : ∀ l, FwdLE FwdOutput.zeros (o1 l) := by
    intro l
    rw [o1e l]
    refine ⟨fun i j => ?_, fun i j => ?_, fun _ _ => le_rfl, fun _ _ => le_rfl, fun _ _ => le_rfl, fun _ _ => le_rfl⟩
    · show (ofRat 0 : K) ≤ _
      rw [ofRat_zero]; exact (div.start_nonneg l i j).1
    · show (ofRat 0 : K) ≤ _
      rw [ofRat_zero]; exact (div.start_nonneg l i j).2
  let r : ι → ℤ → Arr (m + 2) (n + 2) K := fun l => tagged ((part l).cfg cfg) (part l).inp
  have r0 : ∀ l t, cfg.tracking_start_date ≤ t → t ≤ cfg.tracking_end_date → ∀ i j, 0 ≤ r l t i j := by
    intro l t a b i j
    show 0 ≤ tagged _ _ t i j
    unfold tagged
    split
    · exact div.region l t a b i j
    · exact le_rfl
  let J : Input m n K := withRegion inp fun t i j => ∑ l, r l t i j
  -- the steps of the whole run and of the parts
  have tag : ∀ k < cfg.steps, ∀ i j, tagged cfg inp (cfg.fwdTime k) i j = ∑ l, r l (cfg.fwdTime k) i j := fun k hk' =>
    div.tags k ((lt_stepCount dpos k).mp hk')
  have whole : ∀ k < cfg.steps, (fwdProc cfg src.grid inp).step k = (fwdProc (alwaysTagging cfg) src.grid J).step k := by
    intro k hk'
    have t0 := cfg.fwdTime_mem h.timestep_pos h.ordered k hk'.le
    have e : maskAt cfg inp (cfg.fwdTime k) = maskAt (alwaysTagging cfg) J (cfg.fwdTime k) := by
      rw [maskAt_tagged, maskAt_always cfg inp _ _ t0.1 t0.2]
      funext i j; exact tag k hk' i j
    funext x
    show fwdStepAt cfg src.grid inp (cfg.fwdTime k) x = fwdStepAt (alwaysTagging cfg) src.grid J (cfg.fwdTime k) x
    unfold fwdStepAt
    rw [e]
    rfl
  have parts : ∀ l, ∀ k < cfg.steps, (fwdProc ((part l).cfg cfg) (part l).src.grid (part l).inp).step k =
      (fwdProc (alwaysTagging cfg) src.grid (withRegion inp (r l))).step k := by
    intro l k hk'
    have t0 := cfg.fwdTime_mem h.timestep_pos h.ordered k hk'.le
    have e : maskAt ((part l).cfg cfg) (part l).inp (cfg.fwdTime k) = maskAt (alwaysTagging cfg) (withRegion inp (r l)) (cfg.fwdTime k) := by
      rw [maskAt_tagged, maskAt_always cfg inp _ _ t0.1 t0.2]
    funext x
    show fwdStepAt ((part l).cfg cfg) (part l).src.grid (part l).inp (cfg.fwdTime k) x =
      fwdStepAt (alwaysTagging cfg) src.grid (withRegion inp (r l)) (cfg.fwdTime k) x
    unfold fwdStepAt
    rw [e, div.grid l, (div.weather l).1, (div.weather l).2]
    rfl
  have n0 := fwd_not_full cfg src inp path disk h o ho nf
  have main := fwd_parts (alwaysTagging cfg) (sourceOf src.grid src.weight J) J (sourceOf_runnable (cfg := alwaysTagging cfg) h.timestep_pos h.ordered _ _ J)
    ⟨hp.wet, hp.precip, hp.evap, fun t a b i j => Finset.sum_nonneg fun l _ => r0 l t a b i j⟩ ha hk calm r r0 (fun _ _ _ _ _ => rfl)
    o1 ozero (by
      intro k hk' i j
      have := n0 k hk' i j
      rw [osum, Proc.out_congr (fwdSum o1) cfg.steps whole (fun _ _ _ => rfl) rfl k hk'] at this
      exact this)
  have fw : (fwdStateAt cfg src inp rr o cfg.steps).files = (fwdProc (alwaysTagging cfg) src.grid J).files (fwdSum o1) cfg.steps := by
    show (fwdProc cfg src.grid inp).files o cfg.steps = _
    rw [osum]
    exact Proc.files_congr (fwdSum o1) cfg.steps whole (fun _ _ _ => rfl) rfl (fun _ _ _ => rfl) cfg.steps le_rfl
  have fp : ∀ l, (s' l).files = (fwdProc (alwaysTagging cfg) src.grid (withRegion inp (r l))).files (o1 l) cfg.steps := by
    intro l
    rw [e1 l]
    show (fwdProc ((part l).cfg cfg) (part l).src.grid (part l).inp).files (o1 l) cfg.steps = _
    exact Proc.files_congr (o1 l) cfg.steps (parts l) (fun _ _ _ => rfl) rfl (fun _ _ _ => rfl) cfg.steps le_rfl
  constructor
  · intro l
    rw [fw, fp l, Proc.files_time, Proc.files_time]
    rfl
  · intro t x hx y hy
    rw [fw] at hx
    obtain ⟨a, ha', hwa, hxa⟩ := (Proc.mem_files _ _).mp hx
    have tx : t = cfg.fwdTime (a + 1) := congrArg Prod.fst hxa
    have vx : x = _ := congrArg Prod.snd hxa
    have vy : y = fun l => (fwdProc (alwaysTagging cfg) src.grid (withRegion inp (r l))).full (o1 l) a := by
      funext l
      have := hy l
      rw [fp l] at this
      obtain ⟨b, hb', hwb, hyb⟩ := (Proc.mem_files _ _).mp this
      have ty : t = cfg.fwdTime (b + 1) := congrArg Prod.fst hyb
      have ab : a = b := by
        rw [ty] at tx
        unfold RunConfig.fwdTime at tx
        have := mul_right_cancel₀ dpos.ne' (add_left_cancel tx)
        have : (b + 1 : ℕ) = (a + 1 : ℕ) := by exact_mod_cast this
        omega
      rw [ab]
      exact congrArg Prod.snd hyb
    rw [vx, vy]
    exact main a ha'

/-- **C129** (forward, periods).  A run that starts without tracked water is given once for a tagging period and once for each of any
number of shorter periods, such that every time step in the tagging period begins in exactly one of the shorter periods, and the other
time steps in none.  Then the files of the run are the sums of the files for the shorter periods: the contributions of, for example,
single days are what they add to the result. -/
theorem C129_periods_forward [Fintype ι] (cfg : RunConfig K) (src : Source m n K) (inp : Input m n K) (path : ℤ → P)
    (disk : P → Option (FwdOutput (m + 2) (n + 2) K))
    (h : Runnable cfg src inp) (hp : Physical inp cfg.tracking_start_date cfg.tracking_end_date)
    (ha : ∀ i, 0 < src.grid.a i) (hk : 0 ≤ cfg.kvf) (calm : CalmFwd cfg src.grid inp)
    (nf : NeverFullFwd inp (fwdRun cfg src path disk)) (cold : cfg.restart = false) (first last : ι → ℤ)
    (cover : ∀ k : ℕ, cfg.tracking_start_date + (k + 1) * (cfg.timestep * 1000000) ≤ cfg.tracking_end_date →
      let t := cfg.tracking_start_date + k * (cfg.timestep * 1000000)
      (cfg.tagging_start_date ≤ t ∧ t ≤ cfg.tagging_end_date → ∃! l, first l ≤ t ∧ t ≤ last l) ∧
      (¬ (cfg.tagging_start_date ≤ t ∧ t ≤ cfg.tagging_end_date) → ∀ l, ¬ (first l ≤ t ∧ t ≤ last l)))
    (path' : ι → ℤ → P) (disk' : ι → P → Option (FwdOutput (m + 2) (n + 2) K))
    {s : LoopState (FwdOutput (m + 2) (n + 2) K) K} (hs : EndsIn (fwdRun cfg src path disk) s)
    {s' : ι → LoopState (FwdOutput (m + 2) (n + 2) K) K}
    (hs' : ∀ l, EndsIn (fwdRun { cfg with tagging_start_date := first l, tagging_end_date := last l } src (path' l) (disk' l)) (s' l)) :
    (∀ l, (s' l).files.map Prod.fst = s.files.map Prod.fst) ∧
    ∀ t x, (t, x) ∈ s.files → ∀ y : ι → FwdOutput (m + 2) (n + 2) K, (∀ l, (t, y l) ∈ (s' l).files) → x = fwdSum y := by
  let part : ι → Part m n K P (FwdOutput (m + 2) (n + 2) K) := fun l =>
    { tagging_start_date := first l, tagging_end_date := last l, restart := cfg.restart, src := src, inp := inp,
      path := path' l, disk := disk' l }
  have zero : ∀ (c : RunConfig K) (p : ℤ → P) (d : P → Option (FwdOutput (m + 2) (n + 2) K)), c.restart = false →
      startFwd c p d = (fun _ _ => 0, fun _ _ => 0) := by
    intro c p d hc
    unfold startFwd
    rw [hc]
  refine C129_forward cfg src inp path disk part h hp ha hk calm nf ?_ hs hs'
  refine ⟨fun l => ⟨h.timestep_pos, h.ordered, h.serves⟩, fun _ => rfl, fun _ => ⟨rfl, rfl⟩, fun _ => hp.region, ?_, ?_, ?_⟩
  · intro k hk' t i j
    obtain ⟨c1, c2⟩ := cover k hk'
    show (if cfg.tagging_start_date ≤ t ∧ t ≤ cfg.tagging_end_date then inp.region t i j else 0) =
      ∑ l, if first l ≤ t ∧ t ≤ last l then inp.region t i j else 0
    split
    · rename_i hw
      obtain ⟨l, hl, only⟩ := c1 hw
      rw [Finset.sum_eq_single_of_mem l (Finset.mem_univ l) fun q _ hq => if_neg fun hc => hq (only q hc), if_pos hl]
    · rename_i hw
      exact (Finset.sum_eq_zero fun l _ => if_neg (c2 hw l)).symm
  · intro l i j
    rw [zero ((part l).cfg cfg) _ _ cold]
    exact ⟨le_rfl, le_rfl⟩
  · intro i j
    rw [zero cfg _ _ cold]
    refine ⟨(Finset.sum_eq_zero fun l _ => ?_).symm, (Finset.sum_eq_zero fun l _ => ?_).symm⟩ <;> rw [zero ((part l).cfg cfg) _ _ cold]

/-! ### backward -/

/-- sum over a finite set of parts -/
private def bwdSumOn (S : Finset ι) (y : ι → BwdOutput m n K) : BwdOutput m n K :=
  { s_track_lower := fun i j => ∑ l ∈ S, (y l).s_track_lower i j
    s_track_upper := fun i j => ∑ l ∈ S, (y l).s_track_upper i j
    e_track := fun i j => ∑ l ∈ S, (y l).e_track i j
    tagged_precip := fun i j => ∑ l ∈ S, (y l).tagged_precip i j
    losses := fun i j => ∑ l ∈ S, (y l).losses i j
    gains := fun i j => ∑ l ∈ S, (y l).gains i j }

private theorem bwdSumOn_insert [DecidableEq ι] {S : Finset ι} {l : ι} (hl : l ∉ S) (y : ι → BwdOutput m n K) :
    bwdSumOn (insert l S) y = bwdComb 1 1 (y l) (bwdSumOn S y) := by
  simp [bwdSumOn, bwdComb, Finset.sum_insert hl]

private theorem bwdSumOn_empty (y : ι → BwdOutput m n K) (x x' : BwdOutput m n K) :
    bwdSumOn ∅ y = bwdComb 0 0 x x' := by
  simp [bwdSumOn, bwdComb]

private theorem bwd_parts [Fintype ι] (cfg : RunConfig K) (src : Source m n K) (inp : Input m n K) (h : Runnable cfg src inp)
    (hp : Physical inp cfg.tracking_start_date cfg.tracking_end_date)
    (ha : ∀ i, 0 < src.grid.a i) (hk : 0 ≤ cfg.kvf) (calm : CalmBwd cfg src.grid inp)
    (r : ι → ℤ → Arr (m + 2) (n + 2) K)
    (r0 : ∀ l t, cfg.tracking_start_date ≤ t → t ≤ cfg.tracking_end_date → ∀ i j, 0 ≤ r l t i j)
    (hr : ∀ t, cfg.tracking_start_date ≤ t → t ≤ cfg.tracking_end_date → ∀ i j, inp.region t i j = ∑ l, r l t i j)
    (o1 : ι → BwdOutput (m + 2) (n + 2) K) (ho1 : ∀ l, BwdLE BwdOutput.zeros (o1 l))
    (n0 : ∀ k ≤ cfg.steps, ∀ i j,
      ((bwdProc cfg src.grid inp).out (bwdSum o1) k).s_track_lower i j < (inp.states (cfg.bwdTime k)).s_lower i j ∧
      ((bwdProc cfg src.grid inp).out (bwdSum o1) k).s_track_upper i j < (inp.states (cfg.bwdTime k)).s_upper i j) :
    ∀ k < cfg.steps, (bwdProc cfg src.grid inp).full (bwdSum o1) k =
      bwdSum fun l => (bwdProc cfg src.grid (withRegion inp (r l))).full (o1 l) k := by
  classical
  have z : (ofRat 0 : K) = 0 := ofRat_zero
  have q0 : ∀ l i j, 0 ≤ (o1 l).s_track_lower i j ∧ 0 ≤ (o1 l).s_track_upper i j ∧ 0 ≤ (o1 l).e_track i j ∧
      0 ≤ (o1 l).tagged_precip i j ∧ 0 ≤ (o1 l).losses i j := fun l i j => by
    have := ho1 l
    refine ⟨?_, ?_, ?_, ?_, ?_⟩ <;> rw [← z]
    exacts [this.s_track_lower i j, this.s_track_upper i j, this.e_track i j,
      this.tagged_precip i j, this.losses i j]
  -- the input of the parts in `S`
  let I : Finset ι → Input m n K := fun S => withRegion inp fun t i j => ∑ l ∈ S, r l t i j
  have w : ∀ S, SameWeather inp (I S) := fun S => ⟨rfl, rfl⟩
  have R : ∀ J : Input m n K, Runnable cfg (sourceOf src.grid src.weight J) J := fun J =>
    sourceOf_runnable h.timestep_pos h.ordered _ _ J
  have phys : ∀ q : ℤ → Arr (m + 2) (n + 2) K,
      (∀ t, cfg.tracking_start_date ≤ t → t ≤ cfg.tracking_end_date → ∀ i j, 0 ≤ q t i j) →
      Physical (withRegion inp q) cfg.tracking_start_date cfg.tracking_end_date := fun q hq =>
    ⟨hp.wet, hp.precip, hp.evap, hq⟩
  have pI : ∀ S, Physical (I S) cfg.tracking_start_date cfg.tracking_end_date := fun S =>
    phys _ fun t a b i j => Finset.sum_nonneg fun l _ => r0 l t a b i j
  -- no sum of parts ever fills a layer
  have less : ∀ S : Finset ι, ∀ k ≤ cfg.steps, ∀ i j,
      ((bwdProc cfg src.grid (I S)).out (bwdSumOn S o1) k).s_track_lower i j < (inp.states (cfg.bwdTime k)).s_lower i j ∧
      ((bwdProc cfg src.grid (I S)).out (bwdSumOn S o1) k).s_track_upper i j < (inp.states (cfg.bwdTime k)).s_upper i j := by
    intro S k hk' i j
    have le := (bwd_out_le cfg (sourceOf src.grid src.weight (I S)) (I S) inp (R _) ⟨rfl, rfl⟩ (pI S)
      (fun t a b i j => by
        rw [hr t a b]
        exact Finset.sum_le_univ_sum_of_nonneg fun l => r0 l t a b i j)
      ha hk calm (bwdSumOn S o1) (bwdSum o1)
      ⟨fun i j => Finset.sum_le_univ_sum_of_nonneg fun l => (q0 l i j).1,
       fun i j => Finset.sum_le_univ_sum_of_nonneg fun l => (q0 l i j).2.1,
       fun i j => Finset.sum_le_univ_sum_of_nonneg fun l => (q0 l i j).2.2.1,
       fun i j => Finset.sum_le_univ_sum_of_nonneg fun l => (q0 l i j).2.2.2.1,
       fun i j => Finset.sum_le_univ_sum_of_nonneg fun l => (q0 l i j).2.2.2.2⟩).1 k hk'
    exact ⟨(le.s_track_lower i j).trans_lt (n0 k hk' i j).1, (le.s_track_upper i j).trans_lt (n0 k hk' i j).2⟩
  have single : ∀ l, I {l} = withRegion inp (r l) := fun l => by simp [I]
  have single' : ∀ l, bwdSumOn {l} o1 = o1 l := fun l => by simp [bwdSumOn]
  have key : ∀ S : Finset ι,
      ∀ k < cfg.steps, (bwdProc cfg src.grid (I S)).full (bwdSumOn S o1) k =
        bwdSumOn S fun l => (bwdProc cfg src.grid (withRegion inp (r l))).full (o1 l) k := by
    intro S
    induction S using Finset.induction_on with
    | empty =>
      intro k hk'
      have e := bwdSumOn_empty o1 (bwdSumOn ∅ o1) (bwdSumOn ∅ o1)
      have := (bwd_out_comb cfg (sourceOf src.grid src.weight (I ∅)) (sourceOf src.grid src.weight (I ∅))
        (sourceOf src.grid src.weight (I ∅)) (I ∅) (I ∅) (I ∅) 0 0 le_rfl le_rfl (R _) (R _) (R _) rfl rfl ⟨rfl, rfl⟩ ⟨rfl, rfl⟩
        (pI _) (pI _) (pI _) (fun t a b i j => by simp [I, withRegion]) ha hk calm (bwdSumOn ∅ o1) (bwdSumOn ∅ o1)
        (fun i j => by simp [bwdSumOn]) (fun i j => by simp [bwdSumOn])
        (by rw [← e]; exact less ∅) (less ∅) (less ∅)).2 k hk'
      rw [← e] at this
      rw [show (bwdProc cfg src.grid (I ∅)).full (bwdSumOn ∅ o1) k = _ from this]
      exact (bwdSumOn_empty _ _ _).symm
    | insert l S hl ih =>
      intro k hk'
      have e := bwdSumOn_insert hl o1
      have := (bwd_out_comb cfg (sourceOf src.grid src.weight (I (insert l S))) (sourceOf src.grid src.weight (I {l}))
        (sourceOf src.grid src.weight (I S)) (I (insert l S)) (I {l}) (I S) 1 1 zero_le_one zero_le_one (R _) (R _) (R _) rfl rfl
        ⟨rfl, rfl⟩ ⟨rfl, rfl⟩ (pI _) (pI _) (pI _) (fun t a b i j => by simp [I, withRegion, Finset.sum_insert hl]) ha hk calm
        (o1 l) (bwdSumOn S o1) (fun i j => ⟨(q0 l i j).1, (q0 l i j).2.1⟩)
        (fun i j => ⟨Finset.sum_nonneg fun l _ => (q0 l i j).1, Finset.sum_nonneg fun l _ => (q0 l i j).2.1⟩)
        (by rw [← e]; exact less _) (by have := less {l}; rw [single'] at this; exact this) (less S)).2 k hk'
      rw [← e] at this
      rw [show (bwdProc cfg src.grid (I (insert l S))).full (bwdSumOn (insert l S) o1) k = _ from this, bwdSumOn_insert hl]
      congr 1
      · rw [single]; rfl
      · exact ih k hk'
  intro k hk'
  have all := key Finset.univ k hk'
  refine Eq.trans ?_ all
  show _ = (bwdProc cfg src.grid (I Finset.univ)).full (bwdSum o1) k
  have st : ∀ k < cfg.steps, (bwdProc cfg src.grid inp).step k = (bwdProc cfg src.grid (I Finset.univ)).step k := by
    intro k hk'
    have t0 := cfg.bwdTime_mem h.timestep_pos h.ordered k hk'.le
    have : inp.region (cfg.bwdTime k) = (I Finset.univ).region (cfg.bwdTime k) := by
      funext i j; exact hr _ t0.1 t0.2 i j
    funext x
    simp only [bwdProc, bwdStepAt, maskAt, this]
    rfl
  rw [Proc.full, Proc.full, st k hk', Proc.out_congr (bwdSum o1) cfg.steps st (fun _ _ _ => rfl) rfl k hk'.le]

/-- **C129** (backward).  A run is divided into any number of parts: parts of the tagging region, parts of the tagging period, the water
that was tracked before, or any mixture.  As long as in the whole run no layer is ever completely filled with tracked water, the files
of the parts are written at the same times as those of the whole run, and every number in a file of the whole run is the sum of the
numbers in the files of the parts. -/
theorem C129_backward [Fintype ι] (cfg : RunConfig K) (src : Source m n K) (inp : Input m n K) (path : ℤ → P)
    (disk : P → Option (BwdOutput (m + 2) (n + 2) K)) (part : ι → Part m n K P (BwdOutput (m + 2) (n + 2) K))
    (h : Runnable cfg src inp) (hp : Physical inp cfg.tracking_start_date cfg.tracking_end_date)
    (ha : ∀ i, 0 < src.grid.a i) (hk : 0 ≤ cfg.kvf) (calm : CalmBwd cfg src.grid inp)
    (nf : NeverFullBwd inp (bwdRun cfg src path disk)) (div : DividedBwd cfg src inp path disk part)
    {s : LoopState (BwdOutput (m + 2) (n + 2) K) K} (hs : EndsIn (bwdRun cfg src path disk) s)
    {s' : ι → LoopState (BwdOutput (m + 2) (n + 2) K) K}
    (hs' : ∀ l, EndsIn (bwdRun ((part l).cfg cfg) (part l).src (part l).path (part l).disk) (s' l)) :
    (∀ l, (s' l).files.map Prod.fst = s.files.map Prod.fst) ∧
    ∀ t x, (t, x) ∈ s.files → ∀ y : ι → BwdOutput (m + 2) (n + 2) K, (∀ l, (t, y l) ∈ (s' l).files) → x = bwdSum y := by
  obtain ⟨o, rr, ho, rfl⟩ := bwd_ends cfg src inp path disk h hs
  choose o1 r1 ho1 e1 using fun l => bwd_ends ((part l).cfg cfg) (part l).src (part l).inp (part l).path (part l).disk (div.runnable l) (hs' l)
  have dpos := cfg.dt_pos h.timestep_pos
  have oe := bwd_init_eq cfg src path disk o ho
  have o1e := fun l => bwd_init_eq ((part l).cfg cfg) (part l).src (part l).path (part l).disk (o1 l) (ho1 l)
  have osum : o = bwdSum o1 := by
    rw [oe, show o1 = _ from funext o1e]
    have := div.start
    have a1 : (startBwd cfg path disk).1 = fun i j => ∑ l, (startBwd ((part l).cfg cfg) (part l).path (part l).disk).1 i j := by
      funext i j; exact (this i j).1
    have a2 : (startBwd cfg path disk).2 = fun i j => ∑ l, (startBwd ((part l).cfg cfg) (part l).path (part l).disk).2 i j := by
      funext i j; exact (this i j).2
    rw [a1, a2]
    simp [bwdSum, BwdOutput.zeros, ofRat_zero]
  have ozero : ∀ l, BwdLE BwdOutput.zeros (o1 l) := by
    intro l
    rw [o1e l]
    refine ⟨fun i j => ?_, fun i j => ?_, fun _ _ => le_rfl, fun _ _ => le_rfl, fun _ _ => le_rfl⟩
    · show (ofRat 0 : K) ≤ _
      rw [ofRat_zero]; exact (div.start_nonneg l i j).1
    · show (ofRat 0 : K) ≤ _
      rw [ofRat_zero]; exact (div.start_nonneg l i j).2
  let r : ι → ℤ → Arr (m + 2) (n + 2) K := fun l => tagged ((part l).cfg cfg) (part l).inp
  have r0 : ∀ l t, cfg.tracking_start_date ≤ t → t ≤ cfg.tracking_end_date → ∀ i j, 0 ≤ r l t i j := by
    intro l t a b i j
    show 0 ≤ tagged _ _ t i j
    unfold tagged
    split
    · exact div.region l t a b i j
    · exact le_rfl
  let J : Input m n K := withRegion inp fun t i j => ∑ l, r l t i j
  -- the steps of the whole run and of the parts
  have tag : ∀ k < cfg.steps, ∀ i j, tagged cfg inp (cfg.bwdTime k) i j = ∑ l, r l (cfg.bwdTime k) i j := fun k hk' =>
    div.tags k (by
    have := (lt_stepCount dpos k).mp hk'
    show cfg.tracking_start_date ≤ cfg.tracking_end_date - (k + 1) * cfg.dt
    linarith)
  have whole : ∀ k < cfg.steps, (bwdProc cfg src.grid inp).step k = (bwdProc (alwaysTagging cfg) src.grid J).step k := by
    intro k hk'
    have t0 := cfg.bwdTime_mem h.timestep_pos h.ordered k hk'.le
    have e : maskAt cfg inp (cfg.bwdTime k) = maskAt (alwaysTagging cfg) J (cfg.bwdTime k) := by
      rw [maskAt_tagged, maskAt_always cfg inp _ _ t0.1 t0.2]
      funext i j; exact tag k hk' i j
    funext x
    show bwdStepAt cfg src.grid inp (cfg.bwdTime k) x = bwdStepAt (alwaysTagging cfg) src.grid J (cfg.bwdTime k) x
    unfold bwdStepAt
    rw [e]
    rfl
  have parts : ∀ l, ∀ k < cfg.steps, (bwdProc ((part l).cfg cfg) (part l).src.grid (part l).inp).step k =
      (bwdProc (alwaysTagging cfg) src.grid (withRegion inp (r l))).step k := by
    intro l k hk'
    have t0 := cfg.bwdTime_mem h.timestep_pos h.ordered k hk'.le
    have e : maskAt ((part l).cfg cfg) (part l).inp (cfg.bwdTime k) = maskAt (alwaysTagging cfg) (withRegion inp (r l)) (cfg.bwdTime k) := by
      rw [maskAt_tagged, maskAt_always cfg inp _ _ t0.1 t0.2]
    funext x
    show bwdStepAt ((part l).cfg cfg) (part l).src.grid (part l).inp (cfg.bwdTime k) x =
      bwdStepAt (alwaysTagging cfg) src.grid (withRegion inp (r l)) (cfg.bwdTime k) x
    unfold bwdStepAt
    rw [e, div.grid l, (div.weather l).1, (div.weather l).2]
    rfl
  have n0 := bwd_not_full cfg src inp path disk h o ho nf
  have main := bwd_parts (alwaysTagging cfg) (sourceOf src.grid src.weight J) J (sourceOf_runnable (cfg := alwaysTagging cfg) h.timestep_pos h.ordered _ _ J)
    ⟨hp.wet, hp.precip, hp.evap, fun t a b i j => Finset.sum_nonneg fun l _ => r0 l t a b i j⟩ ha hk calm r r0 (fun _ _ _ _ _ => rfl)
    o1 ozero (by
      intro k hk' i j
      have := n0 k hk' i j
      rw [osum, Proc.out_congr (bwdSum o1) cfg.steps whole (fun _ _ _ => rfl) rfl k hk'] at this
      exact this)
  have fw : (bwdStateAt cfg src inp rr o cfg.steps).files = (bwdProc (alwaysTagging cfg) src.grid J).files (bwdSum o1) cfg.steps := by
    show (bwdProc cfg src.grid inp).files o cfg.steps = _
    rw [osum]
    exact Proc.files_congr (bwdSum o1) cfg.steps whole (fun _ _ _ => rfl) rfl (fun _ _ _ => rfl) cfg.steps le_rfl
  have fp : ∀ l, (s' l).files = (bwdProc (alwaysTagging cfg) src.grid (withRegion inp (r l))).files (o1 l) cfg.steps := by
    intro l
    rw [e1 l]
    show (bwdProc ((part l).cfg cfg) (part l).src.grid (part l).inp).files (o1 l) cfg.steps = _
    exact Proc.files_congr (o1 l) cfg.steps (parts l) (fun _ _ _ => rfl) rfl (fun _ _ _ => rfl) cfg.steps le_rfl
  constructor
  · intro l
    rw [fw, fp l, Proc.files_time, Proc.files_time]
    rfl
  · intro t x hx y hy
    rw [fw] at hx
    obtain ⟨a, ha', hwa, hxa⟩ := (Proc.mem_files _ _).mp hx
    have tx : t = cfg.bwdTime (a + 1) := congrArg Prod.fst hxa
    have vx : x = _ := congrArg Prod.snd hxa
    have vy : y = fun l => (bwdProc (alwaysTagging cfg) src.grid (withRegion inp (r l))).full (o1 l) a := by
      funext l
      have := hy l
      rw [fp l] at this
      obtain ⟨b, hb', hwb, hyb⟩ := (Proc.mem_files _ _).mp this
      have ty : t = cfg.bwdTime (b + 1) := congrArg Prod.fst hyb
      have ab : a = b := by
        rw [ty] at tx
        unfold RunConfig.bwdTime at tx
        have := mul_right_cancel₀ dpos.ne' (sub_right_injective tx)
        have : (b + 1 : ℕ) = (a + 1 : ℕ) := by exact_mod_cast this
        omega
      rw [ab]
      exact congrArg Prod.snd hyb
    rw [vx, vy]
    exact main a ha'

/-- **C129** (backward, periods).  A run that starts without tracked water is given once for a tagging period and once for each of any
number of shorter periods, such that every time step in the tagging period begins in exactly one of the shorter periods, and the other
time steps in none.  Then the files of the run are the sums of the files for the shorter periods: the contributions of, for example,
single days are what they add to the result. -/
theorem C129_periods_backward [Fintype ι] (cfg : RunConfig K) (src : Source m n K) (inp : Input m n K) (path : ℤ → P)
    (disk : P → Option (BwdOutput (m + 2) (n + 2) K))
    (h : Runnable cfg src inp) (hp : Physical inp cfg.tracking_start_date cfg.tracking_end_date)
    (ha : ∀ i, 0 < src.grid.a i) (hk : 0 ≤ cfg.kvf) (calm : CalmBwd cfg src.grid inp)
    (nf : NeverFullBwd inp (bwdRun cfg src path disk)) (cold : cfg.restart = false) (first last : ι → ℤ)
    (cover : ∀ k : ℕ, cfg.tracking_start_date ≤ cfg.tracking_end_date - (k + 1) * (cfg.timestep * 1000000) →
      let t := cfg.tracking_end_date - k * (cfg.timestep * 1000000)
      (cfg.tagging_start_date ≤ t ∧ t ≤ cfg.tagging_end_date → ∃! l, first l ≤ t ∧ t ≤ last l) ∧
      (¬ (cfg.tagging_start_date ≤ t ∧ t ≤ cfg.tagging_end_date) → ∀ l, ¬ (first l ≤ t ∧ t ≤ last l)))
    (path' : ι → ℤ → P) (disk' : ι → P → Option (BwdOutput (m + 2) (n + 2) K))
    {s : LoopState (BwdOutput (m + 2) (n + 2) K) K} (hs : EndsIn (bwdRun cfg src path disk) s)
    {s' : ι → LoopState (BwdOutput (m + 2) (n + 2) K) K}
    (hs' : ∀ l, EndsIn (bwdRun { cfg with tagging_start_date := first l, tagging_end_date := last l } src (path' l) (disk' l)) (s' l)) :
    (∀ l, (s' l).files.map Prod.fst = s.files.map Prod.fst) ∧
    ∀ t x, (t, x) ∈ s.files → ∀ y : ι → BwdOutput (m + 2) (n + 2) K, (∀ l, (t, y l) ∈ (s' l).files) → x = bwdSum y := by
  let part : ι → Part m n K P (BwdOutput (m + 2) (n + 2) K) := fun l =>
    { tagging_start_date := first l, tagging_end_date := last l, restart := cfg.restart, src := src, inp := inp,
      path := path' l, disk := disk' l }
  have zero : ∀ (c : RunConfig K) (p : ℤ → P) (d : P → Option (BwdOutput (m + 2) (n + 2) K)), c.restart = false →
      startBwd c p d = (fun _ _ => 0, fun _ _ => 0) := by
    intro c p d hc
    unfold startBwd
    rw [hc]
  refine C129_backward cfg src inp path disk part h hp ha hk calm nf ?_ hs hs'
  refine ⟨fun l => ⟨h.timestep_pos, h.ordered, h.serves⟩, fun _ => rfl, fun _ => ⟨rfl, rfl⟩, fun _ => hp.region, ?_, ?_, ?_⟩
  · intro k hk' t i j
    obtain ⟨c1, c2⟩ := cover k hk'
    show (if cfg.tagging_start_date ≤ t ∧ t ≤ cfg.tagging_end_date then inp.region t i j else 0) =
      ∑ l, if first l ≤ t ∧ t ≤ last l then inp.region t i j else 0
    split
    · rename_i hw
      obtain ⟨l, hl, only⟩ := c1 hw
      rw [Finset.sum_eq_single_of_mem l (Finset.mem_univ l) fun q _ hq => if_neg fun hc => hq (only q hc), if_pos hl]
    · rename_i hw
      exact (Finset.sum_eq_zero fun l _ => if_neg (c2 hw l)).symm
  · intro l i j
    rw [zero ((part l).cfg cfg) _ _ cold]
    exact ⟨le_rfl, le_rfl⟩
  · intro i j
    rw [zero cfg _ _ cold]
    refine ⟨(Finset.sum_eq_zero fun l _ => ?_).symm, (Finset.sum_eq_zero fun l _ => ?_).symm⟩ <;> rw [zero ((part l).cfg cfg) _ _ cold]

/-! ### a concrete case -/

section demo
open Demo

private theorem partEnds (first last : ℤ) (mask) :
    ∃ s, EndsIn (fwdRun { cfg with tagging_start_date := first, tagging_end_date := last } (srcOf mask) path fun _ => none) s := by
  have run : Runnable { cfg with tagging_start_date := first, tagging_end_date := last } (srcOf mask) (inpOf mask) :=
    ⟨(runnableOf mask).timestep_pos, (runnableOf mask).ordered, (runnableOf mask).serves⟩
  obtain ⟨r, _, _, hrun⟩ := fwd_run_eq _ (srcOf mask) (inpOf mask) path (fun _ => none) run FwdOutput.zeros rfl
  exact ⟨_, _, fun fuel hf => (hrun fuel).trans (if_neg (not_lt.mpr hf))⟩

/-- two regions, each in two periods: four parts -/
private def four (l : Bool × Bool) : Part 1 1 ℚ ℤ (FwdOutput 3 3 ℚ) :=
  { tagging_start_date := if l.1 then step else 2 * step, tagging_end_date := if l.1 then step else 2 * step, restart := false
    src := srcOf (if l.2 then maskA else maskB), inp := inpOf (if l.2 then maskA else maskB), path := path, disk := fun _ => none }

private theorem four_divides : DividedFwd cfg (srcOf maskAB) (inpOf maskAB) path (fun _ => none) four where
  runnable l := ⟨(runnableOf maskAB).timestep_pos, (runnableOf maskAB).ordered, (runnableOf _).serves⟩
  grid l := rfl
  weather l := ⟨rfl, rfl⟩
  region l t _ _ i j := by
    show 0 ≤ (if l.2 then maskA else maskB) i j
    split
    · exact maskA_nonneg i j
    · exact maskB_nonneg i j
  tags := by
    intro k hk
    have hk4 := few_steps hk
    have : ∀ k : Fin 4, ∀ i j : Fin 3,
        tagged cfg (inpOf maskAB) (cfg.tracking_start_date + (k.val : ℤ) * (cfg.timestep * 1000000)) i j =
        ∑ l, tagged ((four l).cfg cfg) (four l).inp (cfg.tracking_start_date + (k.val : ℤ) * (cfg.timestep * 1000000)) i j := by decide +kernel
    exact this ⟨k, hk4⟩
  start_nonneg _ _ _ := ⟨le_rfl, le_rfl⟩
  start i j := ⟨(Finset.sum_eq_zero fun _ _ => rfl).symm, (Finset.sum_eq_zero fun _ _ => rfl).symm⟩

/-- two regions, each in two periods, of a run that writes two files -/
example : ∃ s : LoopState (FwdOutput 3 3 ℚ) ℚ, ∃ s' : Bool × Bool → LoopState (FwdOutput 3 3 ℚ) ℚ,
    EndsIn (fwdRun cfg (srcOf maskAB) path fun _ => none) s ∧ s.files.map Prod.fst = [2 * step, 4 * step] ∧
    (∀ l, (s' l).files.map Prod.fst = s.files.map Prod.fst) ∧
    ∀ t x, (t, x) ∈ s.files → ∀ y : Bool × Bool → FwdOutput 3 3 ℚ, (∀ l, (t, y l) ∈ (s' l).files) → x = fwdSum y := by
  obtain ⟨s, hs, ht⟩ := C94_completes_forward cfg (by decide) (srcOf maskAB) path (fun _ => none)
    ((C94_iff_forward cfg (by decide) (srcOf maskAB) path _).mp (ends_fwd maskAB))
  choose s' hs' using fun l : Bool × Bool => partEnds (four l).tagging_start_date (four l).tagging_end_date (if l.2 then maskA else maskB)
  have := C129_forward cfg (srcOf maskAB) (inpOf maskAB) path (fun _ => none) four (runnableOf _) (physicalOf _ maskAB_nonneg) area_pos
    (by decide) (calm_fwd _) never_full_fwd four_divides hs hs'
  exact ⟨s, s', hs, by rw [ht]; decide +kernel, this.1, this.2⟩

/-- two periods -/
example : ∃ s : LoopState (FwdOutput 3 3 ℚ) ℚ, ∃ s' : Bool → LoopState (FwdOutput 3 3 ℚ) ℚ,
    EndsIn (fwdRun cfg (srcOf maskAB) path fun _ => none) s ∧
    (∀ l, (s' l).files.map Prod.fst = s.files.map Prod.fst) ∧
    ∀ t x, (t, x) ∈ s.files → ∀ y : Bool → FwdOutput 3 3 ℚ, (∀ l, (t, y l) ∈ (s' l).files) → x = fwdSum y := by
  obtain ⟨s, hs⟩ := ends_fwd maskAB
  let at' : Bool → ℤ := fun l => if l then step else 2 * step
  choose s' hs' using fun l : Bool => partEnds (at' l) (at' l) maskAB
  have := C129_periods_forward cfg (srcOf maskAB) (inpOf maskAB) path (fun _ => none) (runnableOf _) (physicalOf _ maskAB_nonneg) area_pos
    (by decide) (calm_fwd _) never_full_fwd rfl at' at' (by
      intro k hk
      have hk4 := few_steps hk
      have : ∀ k : Fin 4, ((cfg.tagging_start_date ≤ cfg.tracking_start_date + (k.val : ℤ) * (cfg.timestep * 1000000) ∧
            cfg.tracking_start_date + (k.val : ℤ) * (cfg.timestep * 1000000) ≤ cfg.tagging_end_date) →
          ∃ l, (at' l ≤ cfg.tracking_start_date + (k.val : ℤ) * (cfg.timestep * 1000000) ∧
            cfg.tracking_start_date + (k.val : ℤ) * (cfg.timestep * 1000000) ≤ at' l) ∧
            ∀ l', (at' l' ≤ cfg.tracking_start_date + (k.val : ℤ) * (cfg.timestep * 1000000) ∧
              cfg.tracking_start_date + (k.val : ℤ) * (cfg.timestep * 1000000) ≤ at' l') → l' = l) ∧
          (¬ (cfg.tagging_start_date ≤ cfg.tracking_start_date + (k.val : ℤ) * (cfg.timestep * 1000000) ∧
            cfg.tracking_start_date + (k.val : ℤ) * (cfg.timestep * 1000000) ≤ cfg.tagging_end_date) →
          ∀ l, ¬ (at' l ≤ cfg.tracking_start_date + (k.val : ℤ) * (cfg.timestep * 1000000) ∧
            cfg.tracking_start_date + (k.val : ℤ) * (cfg.timestep * 1000000) ≤ at' l)) := by decide +kernel
      exact this ⟨k, hk4⟩) (fun _ => path) (fun _ _ => none) hs hs'
  exact ⟨s, s', hs, this.1, this.2⟩

private theorem partEndsB (first last : ℤ) (mask) :
    ∃ s, EndsIn (bwdRun { cfgB with tagging_start_date := first, tagging_end_date := last } (srcOf mask) path fun _ => none) s := by
  have run : Runnable { cfgB with tagging_start_date := first, tagging_end_date := last } (srcOf mask) (inpOf mask) :=
    ⟨(runnableB mask).timestep_pos, (runnableB mask).ordered, (runnableB mask).serves⟩
  obtain ⟨r, _, _, hrun⟩ := bwd_run_eq _ (srcOf mask) (inpOf mask) path (fun _ => none) run BwdOutput.zeros rfl
  exact ⟨_, _, fun fuel hf => (hrun fuel).trans (if_neg (not_lt.mpr hf))⟩

/-- two regions, each in two periods: fourB parts -/
private def fourB (l : Bool × Bool) : Part 1 1 ℚ ℤ (BwdOutput 3 3 ℚ) :=
  { tagging_start_date := if l.1 then step else 2 * step, tagging_end_date := if l.1 then step else 2 * step, restart := false
    src := srcOf (if l.2 then maskA else maskB), inp := inpOf (if l.2 then maskA else maskB), path := path, disk := fun _ => none }

private theorem fourB_divides : DividedBwd cfgB (srcOf maskAB) (inpOf maskAB) path (fun _ => none) fourB where
  runnable l := ⟨(runnableB maskAB).timestep_pos, (runnableB maskAB).ordered, (runnableB _).serves⟩
  grid l := rfl
  weather l := ⟨rfl, rfl⟩
  region l t _ _ i j := by
    show 0 ≤ (if l.2 then maskA else maskB) i j
    split
    · exact maskA_nonneg i j
    · exact maskB_nonneg i j
  tags := by
    intro k hk
    have hk4 : k < 4 := few_steps (by
      show (0 : ℤ) + _ ≤ 4 * step
      have : (0 : ℤ) ≤ 4 * step - (k + 1) * (600 * 1000000) := hk
      have e : (cfg.timestep : ℤ) = 600 := rfl
      rw [e]; linarith)
    have : ∀ k : Fin 4, ∀ i j : Fin 3,
        tagged cfgB (inpOf maskAB) (cfgB.tracking_end_date - (k.val : ℤ) * (cfgB.timestep * 1000000)) i j =
        ∑ l, tagged ((fourB l).cfg cfg) (fourB l).inp (cfgB.tracking_end_date - (k.val : ℤ) * (cfgB.timestep * 1000000)) i j := by decide +kernel
    exact this ⟨k, hk4⟩
  start_nonneg _ _ _ := ⟨le_rfl, le_rfl⟩
  start i j := ⟨(Finset.sum_eq_zero fun _ _ => rfl).symm, (Finset.sum_eq_zero fun _ _ => rfl).symm⟩

/-- two regions, each in two periods, of a run that writes two files -/
example : ∃ s : LoopState (BwdOutput 3 3 ℚ) ℚ, ∃ s' : Bool × Bool → LoopState (BwdOutput 3 3 ℚ) ℚ,
    EndsIn (bwdRun cfgB (srcOf maskAB) path fun _ => none) s ∧ s.files.map Prod.fst = [2 * step, 0] ∧
    (∀ l, (s' l).files.map Prod.fst = s.files.map Prod.fst) ∧
    ∀ t x, (t, x) ∈ s.files → ∀ y : Bool × Bool → BwdOutput 3 3 ℚ, (∀ l, (t, y l) ∈ (s' l).files) → x = bwdSum y := by
  obtain ⟨s, hs, ht⟩ := C94_completes_backward cfgB (by decide) (srcOf maskAB) path (fun _ => none)
    ((C94_iff_backward cfgB (by decide) (srcOf maskAB) path _).mp (ends_bwd maskAB))
  choose s' hs' using fun l : Bool × Bool => partEndsB (fourB l).tagging_start_date (fourB l).tagging_end_date (if l.2 then maskA else maskB)
  have := C129_backward cfgB (srcOf maskAB) (inpOf maskAB) path (fun _ => none) fourB (runnableB _) (physicalOf _ maskAB_nonneg) area_pos
    (by decide) (calm_bwd _) never_full_bwd fourB_divides hs hs'
  exact ⟨s, s', hs, by rw [ht]; decide +kernel, this.1, this.2⟩

/-- two periods -/
example : ∃ s : LoopState (BwdOutput 3 3 ℚ) ℚ, ∃ s' : Bool → LoopState (BwdOutput 3 3 ℚ) ℚ,
    EndsIn (bwdRun cfgB (srcOf maskAB) path fun _ => none) s ∧
    (∀ l, (s' l).files.map Prod.fst = s.files.map Prod.fst) ∧
    ∀ t x, (t, x) ∈ s.files → ∀ y : Bool → BwdOutput 3 3 ℚ, (∀ l, (t, y l) ∈ (s' l).files) → x = bwdSum y := by
  obtain ⟨s, hs⟩ := ends_bwd maskAB
  let at' : Bool → ℤ := fun l => if l then step else 2 * step
  choose s' hs' using fun l : Bool => partEndsB (at' l) (at' l) maskAB
  have := C129_periods_backward cfgB (srcOf maskAB) (inpOf maskAB) path (fun _ => none) (runnableB _) (physicalOf _ maskAB_nonneg) area_pos
    (by decide) (calm_bwd _) never_full_bwd rfl at' at' (by
      intro k hk
      have hk4 : k < 4 := few_steps (by
      show (0 : ℤ) + _ ≤ 4 * step
      have : (0 : ℤ) ≤ 4 * step - (k + 1) * (600 * 1000000) := hk
      have e : (cfg.timestep : ℤ) = 600 := rfl
      rw [e]; linarith)
      have : ∀ k : Fin 4, ((cfgB.tagging_start_date ≤ cfgB.tracking_end_date - (k.val : ℤ) * (cfgB.timestep * 1000000) ∧
            cfgB.tracking_end_date - (k.val : ℤ) * (cfgB.timestep * 1000000) ≤ cfgB.tagging_end_date) →
          ∃ l, (at' l ≤ cfgB.tracking_end_date - (k.val : ℤ) * (cfgB.timestep * 1000000) ∧
            cfgB.tracking_end_date - (k.val : ℤ) * (cfgB.timestep * 1000000) ≤ at' l) ∧
            ∀ l', (at' l' ≤ cfgB.tracking_end_date - (k.val : ℤ) * (cfgB.timestep * 1000000) ∧
              cfgB.tracking_end_date - (k.val : ℤ) * (cfgB.timestep * 1000000) ≤ at' l') → l' = l) ∧
          (¬ (cfgB.tagging_start_date ≤ cfgB.tracking_end_date - (k.val : ℤ) * (cfgB.timestep * 1000000) ∧
            cfgB.tracking_end_date - (k.val : ℤ) * (cfgB.timestep * 1000000) ≤ cfgB.tagging_end_date) →
          ∀ l, ¬ (at' l ≤ cfgB.tracking_end_date - (k.val : ℤ) * (cfgB.timestep * 1000000) ∧
            cfgB.tracking_end_date - (k.val : ℤ) * (cfgB.timestep * 1000000) ≤ at' l)) := by decide +kernel
      exact this ⟨k, hk4⟩) (fun _ => path) (fun _ _ => none) hs hs'
  exact ⟨s, s', hs, this.1, this.2⟩

end demo

end Wam
