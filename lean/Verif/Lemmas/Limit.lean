import Verif.Spec.Limit
import Verif.Lemmas.RunEnds
import Verif.Props.RunPhysics
import Mathlib.Topology.Algebra.Order.Field
import Mathlib.Topology.Order.Lattice

/-! # One step depends continuously on the data -/
set_option linter.unusedSectionVars false
set_option linter.unusedVariables false

namespace Wam
open Spec Filter Topology

variable {m n : ℕ} {K : Type*} [Field K] [LinearOrder K] [IsStrictOrderedRing K] [TopologicalSpace K] [OrderTopology K]
variable {ι : Type*} {l : Filter ι}

theorem tendsto_carried {q a b : ι → K} {q₀ a₀ b₀ : K} (hq : Tendsto q l (𝓝 q₀)) (ha : Tendsto a l (𝓝 a₀))
    (hb : Tendsto b l (𝓝 b₀)) : Tendsto (fun k => carried (q k) (a k) (b k)) l (𝓝 (carried q₀ a₀ b₀)) :=
  ((hq.max tendsto_const_nhds).mul ha).sub ((hq.neg.max tendsto_const_nhds).mul hb)

theorem tends_at2 {f : ι → Arr m n K} {f₀ : Arr m n K} (h : Tends l f f₀) (i j : ℤ) :
    Tendsto (fun k => at2 (f k) i j) l (𝓝 (at2 f₀ i j)) := by
  unfold at2
  split_ifs
  · exact h _ _
  · exact tendsto_const_nhds

theorem tends_faceX (p : Bool) {f : ι → Arr m n K} {f₀ : Arr m n K} (h : Tends l f f₀) (i j : ℤ) :
    Tendsto (fun k => faceX p (f k) i j) l (𝓝 (faceX p f₀ i j)) := by
  unfold faceX
  split_ifs
  · exact ((tends_at2 h _ _).add (tends_at2 h _ _)).div_const _
  · exact tendsto_const_nhds

theorem tends_faceY (p : Bool) {f : ι → Arr m n K} {f₀ : Arr m n K} (h : Tends l f f₀) (i j : ℤ) :
    Tendsto (fun k => faceY p (f k) i j) l (𝓝 (faceY p f₀ i j)) := by
  unfold faceY
  split_ifs
  · exact ((tends_at2 h _ _).add (tends_at2 h _ _)).div_const _
  · exact tendsto_const_nhds

theorem tends_inflow (p : Bool) {r fx fy : ι → Arr m n K} {r₀ fx₀ fy₀ : Arr m n K} (hr : Tends l r r₀)
    (hx : Tends l fx fx₀) (hy : Tends l fy fy₀) : Tends l (fun k => inflow p (r k) (fx k) (fy k)) (inflow p r₀ fx₀ fy₀) := by
  intro i j
  unfold inflow tendency
  exact (((tendsto_carried (tends_faceX p hx _ _) (tends_at2 hr _ _) (hr i j)).sub
    (tendsto_carried (tends_faceX p hx _ _) (hr i j) (tends_at2 hr _ _))).add
    (tendsto_carried (tends_faceY p hy _ _) (tends_at2 hr _ _) (hr i j))).sub
    (tendsto_carried (tends_faceY p hy _ _) (hr i j) (tends_at2 hr _ _))

theorem tends_neg {f : ι → Arr m n K} {f₀ : Arr m n K} (h : Tends l f f₀) :
    Tends l (fun k i j => -f k i j) (fun i j => -f₀ i j) := fun i j => (h i j).neg

theorem tends_advect (p sgn : Bool) {r fx fy : ι → Arr (m + 2) (n + 2) K} {r₀ fx₀ fy₀ : Arr (m + 2) (n + 2) K}
    (hr : Tends l r r₀) (hx : Tends l fx fx₀) (hy : Tends l fy fy₀) :
    Tends l (fun k => advect p sgn (r k) (fx k) (fy k)) (advect p sgn r₀ fx₀ fy₀) := by
  intro i j
  cases sgn
  · simp only [advect_eq_inflow]; exact tends_inflow p hr hx hy i j
  · simp only [advect_eq_inflow_neg]; exact tends_inflow p hr (tends_neg hx) (tends_neg hy) i j

theorem tendsto_vadv {fv rl ru : ι → K} {fv₀ rl₀ ru₀ : K} (hf : Tendsto fv l (𝓝 fv₀)) (hl : Tendsto rl l (𝓝 rl₀))
    (hu : Tendsto ru l (𝓝 ru₀)) :
    Tendsto (fun k => verticalAdvection (fv k) (rl k) (ru k)) l (𝓝 (verticalAdvection fv₀ rl₀ ru₀)) := by
  have e : ∀ x y z : K, verticalAdvection x y z = carried x z y := by
    intro x y z
    unfold verticalAdvection carried
    simp only [np_le, ofRat_zero, decide_eq_true_eq]
    split_ifs with h
    · rw [max_eq_left h, max_eq_right (by linarith)]; ring
    · push Not at h; rw [max_eq_right h.le, max_eq_left (by linarith)]; ring
  simp only [e]
  exact tendsto_carried hf hu hl

theorem tendsto_vdisp {fv rl ru kv : ι → K} {fv₀ rl₀ ru₀ kv₀ : K} (hf : Tendsto fv l (𝓝 fv₀)) (hl : Tendsto rl l (𝓝 rl₀))
    (hu : Tendsto ru l (𝓝 ru₀)) (hk : Tendsto kv l (𝓝 kv₀)) :
    Tendsto (fun k => verticalDispersion (fv k) (rl k) (ru k) (kv k)) l (𝓝 (verticalDispersion fv₀ rl₀ ru₀ kv₀)) := by
  unfold verticalDispersion
  simp only [np_abs]
  exact (hk.mul (hf.abs)).mul (hu.sub hl)

theorem tendsto_rel {t s : ι → K} {t₀ s₀ : K} (ht : Tendsto t l (𝓝 t₀)) (hs : Tendsto s l (𝓝 s₀)) (h : s₀ ≠ 0) :
    Tendsto (fun k => relStorage (t k) (s k)) l (𝓝 (relStorage t₀ s₀)) := by
  unfold relStorage
  simp only [np_min]
  exact (ht.div hs h).min tendsto_const_nhds

theorem stabilize_smooth (dt a s fx fy f : K) : stabilizeComponent dt a s fx fy f =
    f * dt * min 1 (1 / 2 / (|fx * dt| + |fy * dt|) * (s * a)) / dt := by
  unfold stabilizeComponent
  simp only [np_abs, np_min, ofRat_one, ofRat_two]
  have e : min |f * dt| (1 / 2 * |f * dt| / (|fx * dt| + |fy * dt|) * (s * a)) =
      |f * dt| * min 1 (1 / 2 / (|fx * dt| + |fy * dt|) * (s * a)) := by
    rw [mul_min_of_nonneg _ _ (abs_nonneg _)]
    congr 1
    · ring
    · ring
  rw [e, ← mul_assoc, sign_mul_abs]

theorem tendsto_stabilize (dt a : K) (hdt : dt ≠ 0) {s fx fy f : ι → K} {s₀ fx₀ fy₀ f₀ : K} (hs : Tendsto s l (𝓝 s₀))
    (hx : Tendsto fx l (𝓝 fx₀)) (hy : Tendsto fy l (𝓝 fy₀)) (hf : Tendsto f l (𝓝 f₀)) (h : fx₀ ≠ 0 ∨ fy₀ ≠ 0) :
    Tendsto (fun k => stabilizeComponent dt a (s k) (fx k) (fy k) (f k)) l (𝓝 (stabilizeComponent dt a s₀ fx₀ fy₀ f₀)) := by
  simp only [stabilize_smooth]
  have pos : |fx₀ * dt| + |fy₀ * dt| ≠ 0 := by
    rcases h with h | h
    · have := abs_pos.mpr (mul_ne_zero h hdt); have := abs_nonneg (fy₀ * dt); positivity
    · have := abs_pos.mpr (mul_ne_zero h hdt); have := abs_nonneg (fx₀ * dt); positivity
  refine ((hf.mul_const dt).mul (tendsto_const_nhds.min (Tendsto.mul ?_ (hs.mul_const a)))).div_const dt
  exact tendsto_const_nhds.div ((hx.mul_const dt).abs.add (hy.mul_const dt).abs) pos

theorem sign_clamp (x c : K) (hc : 0 ≤ c) : NpOps.sign x * min |x| c = max (-c) (min x c) := by
  rw [np_sign]
  split_ifs with h1 h2
  · rw [abs_of_pos h1, one_mul, max_eq_right]
    exact le_min (by linarith) (by linarith)
  · rw [abs_of_neg h2, min_eq_left (a := x) (by linarith), neg_one_mul, ← max_neg_neg, neg_neg, max_comm]
  · have : x = 0 := le_antisymm (not_lt.1 h1) (not_lt.1 h2)
    rw [this]; simp [hc]

theorem tendsto_fzLimit (dt : K) {kv s0u s0l s1u s1l fz : ι → K} {kv₀ s0u₀ s0l₀ s1u₀ s1l₀ fz₀ : K}
    (hk : Tendsto kv l (𝓝 kv₀)) (h1 : Tendsto s0u l (𝓝 s0u₀)) (h2 : Tendsto s0l l (𝓝 s0l₀)) (h3 : Tendsto s1u l (𝓝 s1u₀))
    (h4 : Tendsto s1l l (𝓝 s1l₀)) (hf : Tendsto fz l (𝓝 fz₀)) (k0 : 0 ≤ kv₀) (p1 : 0 < s0u₀) (p2 : 0 < s0l₀) (p3 : 0 < s1u₀)
    (p4 : 0 < s1l₀) :
    Tendsto (fun k => fzLimit dt (kv k) (s0u k) (s0l k) (s1u k) (s1l k) (fz k)) l
      (𝓝 (fzLimit dt kv₀ s0u₀ s0l₀ s1u₀ s1l₀ fz₀)) := by
  unfold fzLimit
  simp only [np_abs, np_min, ofRat_one, ofRat_two]
  refine Tendsto.div_const ?_ dt
  have hc : Tendsto (fun k => 1 / (kv k + 1) * min ((s1u k + s0u k) / 2) ((s1l k + s0l k) / 2)) l
      (𝓝 (1 / (kv₀ + 1) * min ((s1u₀ + s0u₀) / 2) ((s1l₀ + s0l₀) / 2))) :=
    (tendsto_const_nhds.div (hk.add_const 1) (by positivity)).mul
      (((h3.add h1).div_const 2).min ((h4.add h2).div_const 2))
  have c0 : 0 < 1 / (kv₀ + 1) * min ((s1u₀ + s0u₀) / 2) ((s1l₀ + s0l₀) / 2) := by positivity
  rw [sign_clamp _ _ c0.le]
  refine Tendsto.congr' ?_ (hc.neg.max (hf.min hc))
  filter_upwards [hc.eventually (lt_mem_nhds c0)] with k h
  rw [sign_clamp _ _ h.le]

theorem tendsto_fzClosure (dt a : K) {s0u s0l s1u s1l du dl p e : ι → K} {s0u₀ s0l₀ s1u₀ s1l₀ du₀ dl₀ p₀ e₀ : K}
    (h1 : Tendsto s0u l (𝓝 s0u₀)) (h2 : Tendsto s0l l (𝓝 s0l₀)) (h3 : Tendsto s1u l (𝓝 s1u₀))
    (h4 : Tendsto s1l l (𝓝 s1l₀)) (hu : Tendsto du l (𝓝 du₀)) (hl : Tendsto dl l (𝓝 dl₀)) (hp : Tendsto p l (𝓝 p₀))
    (he : Tendsto e l (𝓝 e₀)) (p1 : 0 < s0u₀) (p2 : 0 < s0l₀) (p3 : 0 < s1u₀) (p4 : 0 < s1l₀) :
    Tendsto (fun k => fzClosure dt a (s0u k) (s0l k) (s1u k) (s1l k) (du k) (dl k) (p k) (e k)) l
      (𝓝 (fzClosure dt a s0u₀ s0l₀ s1u₀ s1l₀ du₀ dl₀ p₀ e₀)) := by
  unfold fzClosure
  simp only [ofRat_two]
  have mu := (h3.add h1).div_const 2
  have ml := (h4.add h2).div_const 2
  have ru := mu.div (mu.add ml) (by positivity)
  have rl := ml.div (mu.add ml) (by positivity)
  have fu := (h3.sub h1).add (((hu.add (hp.mul ru)).const_mul dt).div_const a)
  have fl := (h4.sub h2).add ((((hl.add (hp.mul rl)).sub he).const_mul dt).div_const a)
  exact fl.sub ((h4.div (h4.add h3) (by positivity)).mul (fu.add fl))

theorem tends_gradient {f : ι → Fin (n + 2) → K} {f₀ : Fin (n + 2) → K} (h : ∀ j, Tendsto (fun k => f k j) l (𝓝 (f₀ j))) (j) :
    Tendsto (fun k => npGradient (f k) j) l (𝓝 (npGradient f₀ j)) := by
  unfold npGradient
  split_ifs
  · exact (h _).sub (h _)
  · exact (h _).sub (h _)
  · exact ((h _).sub (h _)).div_const _

theorem tends_divergence {fx fy : ι → Arr (m + 2) (n + 2) K} {fx₀ fy₀ : Arr (m + 2) (n + 2) K}
    (hx : Tends l fx fx₀) (hy : Tends l fy fy₀) :
    Tends l (fun k => divergence (fx k) (fy k)) (divergence fx₀ fy₀) := fun i j =>
  (tends_gradient (fun j' => hx i j') j).sub (tends_gradient (fun i' => hy i' j) i)

theorem tendsto_gain {x : ι → K} {x₀ : K} (h : Tendsto x l (𝓝 x₀)) :
    Tendsto (fun k => if NpOps.lt (x k) (ofRat 0) then -x k else ofRat 0) l
      (𝓝 (if NpOps.lt x₀ (ofRat 0) then -x₀ else ofRat 0)) := by
  have e : ∀ x : K, (if NpOps.lt x (ofRat 0) then -x else ofRat 0) = max (-x) 0 := by
    intro x
    simp only [np_lt, ofRat_zero, decide_eq_true_eq]
    split_ifs with h
    · rw [max_eq_left (by linarith)]
    · rw [max_eq_right (by linarith)]
  simp only [e]
  exact h.neg.max tendsto_const_nhds

/-- all four results of the bookkeeping tend -/
theorem tendsto_settle (b : Bool) {tl tu Sl Su : ι → K} {tl₀ tu₀ Sl₀ Su₀ : K} (h1 : Tendsto tl l (𝓝 tl₀))
    (h2 : Tendsto tu l (𝓝 tu₀)) (h3 : Tendsto Sl l (𝓝 Sl₀)) (h4 : Tendsto Su l (𝓝 Su₀)) :
    Tendsto (fun k => (settle b (tl k) (tu k) (Sl k) (Su k)).lower) l (𝓝 (settle b tl₀ tu₀ Sl₀ Su₀).lower) ∧
    Tendsto (fun k => (settle b (tl k) (tu k) (Sl k) (Su k)).upper) l (𝓝 (settle b tl₀ tu₀ Sl₀ Su₀).upper) ∧
    Tendsto (fun k => (settle b (tl k) (tu k) (Sl k) (Su k)).losses) l (𝓝 (settle b tl₀ tu₀ Sl₀ Su₀).losses) ∧
    Tendsto (fun k => (settle b (tl k) (tu k) (Sl k) (Su k)).gains) l (𝓝 (settle b tl₀ tu₀ Sl₀ Su₀).gains) := by
  have a1 : Tendsto (fun k => if b then ofRat 0 else tl k) l (𝓝 (if b then ofRat 0 else tl₀)) := by
    cases b
    · exact h1
    · exact tendsto_const_nhds
  have a2 : Tendsto (fun k => if b then ofRat 0 else tu k) l (𝓝 (if b then ofRat 0 else tu₀)) := by
    cases b
    · exact h2
    · exact tendsto_const_nhds
  have a3 : Tendsto (fun k => if b then tu k + tl k else ofRat 0) l (𝓝 (if b then tu₀ + tl₀ else ofRat 0)) := by
    cases b
    · exact tendsto_const_nhds
    · exact h2.add h1
  have z : ∀ {x : ι → K} {x₀ : K}, Tendsto x l (𝓝 x₀) → Tendsto (fun k => maximum (ofRat 0) (x k)) l (𝓝 (maximum (ofRat 0) x₀)) :=
    fun h => tendsto_const_nhds.max h
  have z' : ∀ {x : ι → K} {x₀ : K}, Tendsto x l (𝓝 x₀) → Tendsto (fun k => maximum (x k) (ofRat 0)) l (𝓝 (maximum x₀ (ofRat 0))) :=
    fun h => h.max tendsto_const_nhds
  have ol := z (a1.sub h3)
  have ou := z (a2.sub h4)
  have b1 := (a1.sub ol).add ou
  have b2 := (a2.sub ou).add ol
  have c1 := z' b1
  have c2 := z' b2
  exact ⟨c1.min h3, c2.min h4, a3.add ((z (c1.sub h3)).add (z (c2.sub h4))), (tendsto_gain b1).add (tendsto_gain b2)⟩

/-- all fluxes tend -/
structure FluxTend (l : Filter ι) (F : ι → Fluxes m n K) (F₀ : Fluxes m n K) : Prop where
  fx_upper : Tends l (fun k => (F k).fx_upper) F₀.fx_upper
  fy_upper : Tends l (fun k => (F k).fy_upper) F₀.fy_upper
  fx_lower : Tends l (fun k => (F k).fx_lower) F₀.fx_lower
  fy_lower : Tends l (fun k => (F k).fy_lower) F₀.fy_lower
  evap : Tends l (fun k => (F k).evap) F₀.evap
  precip : Tends l (fun k => (F k).precip) F₀.precip

/-- both storages tend, to something positive -/
structure StateTend (l : Filter ι) (S : ι → States m n K) (S₀ : States m n K) : Prop where
  s_upper : Tends l (fun k => (S k).s_upper) S₀.s_upper
  s_lower : Tends l (fun k => (S k).s_lower) S₀.s_lower
  wet : ∀ i j, 0 < S₀.s_upper i j ∧ 0 < S₀.s_lower i j

theorem fluxTend_stable (cfg : ι → RunConfig K) (cfg₀ : RunConfig K) (hc : ∀ k, (cfg k).timestep = cfg₀.timestep)
    (hdt : 0 < cfg₀.timestep) (g : GridInfo (m + 2) K) {F : ι → Fluxes (m + 2) (n + 2) K} {F₀} (h : FluxTend l F F₀)
    {S : ι → States (m + 2) (n + 2) K} {S₀} (hS : StateTend l S S₀)
    (hu : ∀ i j, F₀.fx_upper i j * g.dy ≠ 0 ∨ F₀.fy_upper i j * g.dx i ≠ 0)
    (hl : ∀ i j, F₀.fx_lower i j * g.dy ≠ 0 ∨ F₀.fy_lower i j * g.dx i ≠ 0) :
    FluxTend l (fun k => stableFluxes (cfg k) g (F k) (S k)) (stableFluxes cfg₀ g F₀ S₀) := by
  have d : (ofRat (cfg₀.timestep : ℚ) : K) ≠ 0 := by rw [ofRat_int]; exact_mod_cast hdt.ne'
  simp only [stableFluxes, hc]
  have xu : Tends l (fun k => (scaleFluxes g (F k)).fx_upper) (scaleFluxes g F₀).fx_upper :=
    fun i j => (h.fx_upper i j).mul_const _
  have yu : Tends l (fun k => (scaleFluxes g (F k)).fy_upper) (scaleFluxes g F₀).fy_upper :=
    fun i j => (h.fy_upper i j).mul_const _
  have xl : Tends l (fun k => (scaleFluxes g (F k)).fx_lower) (scaleFluxes g F₀).fx_lower :=
    fun i j => (h.fx_lower i j).mul_const _
  have yl : Tends l (fun k => (scaleFluxes g (F k)).fy_lower) (scaleFluxes g F₀).fy_lower :=
    fun i j => (h.fy_lower i j).mul_const _
  exact
    { fx_upper := fun i j => tendsto_stabilize _ _ d (hS.s_upper i j) (xu i j) (yu i j) (xu i j) (hu i j)
      fy_upper := fun i j => tendsto_stabilize _ _ d (hS.s_upper i j) (xu i j) (yu i j) (yu i j) (hu i j)
      fx_lower := fun i j => tendsto_stabilize _ _ d (hS.s_lower i j) (xl i j) (yl i j) (xl i j) (hl i j)
      fy_lower := fun i j => tendsto_stabilize _ _ d (hS.s_lower i j) (xl i j) (yl i j) (yl i j) (hl i j)
      evap := h.evap
      precip := h.precip }

theorem tends_fz (dt : K) (a : Fin (m + 2) → K) {kv : ι → K} {kv₀ : K} (hk : Tendsto kv l (𝓝 kv₀)) (k0 : 0 ≤ kv₀)
    {F : ι → Fluxes (m + 2) (n + 2) K} {F₀} (h : FluxTend l F F₀)
    {S0 S1 : ι → States (m + 2) (n + 2) K} {S0₀ S1₀} (h0 : StateTend l S0 S0₀) (h1 : StateTend l S1 S1₀) :
    Tends l (fun k => calculateFz a (F k) (S0 k) (S1 k) dt (kv k)) (calculateFz a F₀ S0₀ S1₀ dt kv₀) := fun i j =>
  tendsto_fzLimit dt hk (h0.s_upper i j) (h0.s_lower i j) (h1.s_upper i j) (h1.s_lower i j)
    (tendsto_fzClosure dt (a i) (h0.s_upper i j) (h0.s_lower i j) (h1.s_upper i j) (h1.s_lower i j)
      (tends_divergence h.fx_upper h.fy_upper i j) (tends_divergence h.fx_lower h.fy_lower i j) (h.precip i j) (h.evap i j)
      (h0.wet i j).1 (h0.wet i j).2 (h1.wet i j).1 (h1.wet i j).2)
    k0 (h0.wet i j).1 (h0.wet i j).2 (h1.wet i j).1 (h1.wet i j).2

/-- a forward step tends -/
theorem fwdTend_step (p : Bool) (dt : K) (a : Fin (m + 2) → K) {kv : ι → K} {kv₀ : K} (hk : Tendsto kv l (𝓝 kv₀))
    {F : ι → Fluxes (m + 2) (n + 2) K} {F₀} (h : FluxTend l F F₀) {fz : ι → Arr (m + 2) (n + 2) K} {fz₀} (hz : Tends l fz fz₀)
    {S0 S1 : ι → States (m + 2) (n + 2) K} {S0₀ S1₀} (h0 : StateTend l S0 S0₀) (h1 : StateTend l S1 S1₀)
    {r : ι → Arr (m + 2) (n + 2) K} {r₀} (hr : Tends l r r₀) {o : ι → FwdOutput (m + 2) (n + 2) K} {o₀} (ho : FwdTend l o o₀) :
    FwdTend l (fun k => forwardtrack p dt (kv k) a (F k) (fz k) (S1 k) (S0 k) (r k) (o k))
      (forwardtrack p dt kv₀ a F₀ fz₀ S1₀ S0₀ r₀ o₀) := by
  have tot : ∀ i j, S0₀.s_upper i j + S0₀.s_lower i j ≠ 0 := fun i j => (add_pos (h0.wet i j).1 (h0.wet i j).2).ne'
  have pl : Tends l (fun k i j => (F k).precip i j * (S0 k).s_lower i j / ((S0 k).s_upper i j + (S0 k).s_lower i j))
      (fun i j => F₀.precip i j * S0₀.s_lower i j / (S0₀.s_upper i j + S0₀.s_lower i j)) := fun i j =>
    ((h.precip i j).mul (h0.s_lower i j)).div ((h0.s_upper i j).add (h0.s_lower i j)) (tot i j)
  have pu : Tends l (fun k i j => (F k).precip i j * (S0 k).s_upper i j / ((S0 k).s_upper i j + (S0 k).s_lower i j))
      (fun i j => F₀.precip i j * S0₀.s_upper i j / (S0₀.s_upper i j + S0₀.s_lower i j)) := fun i j =>
    ((h.precip i j).mul (h0.s_upper i j)).div ((h0.s_upper i j).add (h0.s_lower i j)) (tot i j)
  have rl : Tends l (fun k i j => relStorage ((o k).s_track_lower i j) ((S0 k).s_lower i j))
      (fun i j => relStorage (o₀.s_track_lower i j) (S0₀.s_lower i j)) := fun i j =>
    tendsto_rel (ho.s_track_lower i j) (h0.s_lower i j) (h0.wet i j).2.ne'
  have ru : Tends l (fun k i j => relStorage ((o k).s_track_upper i j) ((S0 k).s_upper i j))
      (fun i j => relStorage (o₀.s_track_upper i j) (S0₀.s_upper i j)) := fun i j =>
    tendsto_rel (ho.s_track_upper i j) (h0.s_upper i j) (h0.wet i j).1.ne'
  have al := tends_advect p false rl h.fx_lower h.fy_lower
  have au := tends_advect p false ru h.fx_upper h.fy_upper
  have va := fun i j => tendsto_vadv (hz i j) (rl i j) (ru i j)
  have vd := fun i j => tendsto_vdisp (hz i j) (rl i j) (ru i j) hk
  have tl : Tends l (fun k => (fwdTransport p dt (kv k) a (F k) (fz k) (S0 k) (r k) (o k).s_track_lower (o k).s_track_upper).1)
      (fwdTransport p dt kv₀ a F₀ fz₀ S0₀ r₀ o₀.s_track_lower o₀.s_track_upper).1 := fun i j =>
    (ho.s_track_lower i j).add ((((((al i j).div_const _).add (va i j)).add (vd i j)).add
      ((hr i j).mul (h.evap i j))).sub ((pl i j).mul (rl i j)) |>.const_mul dt)
  have tu : Tends l (fun k => (fwdTransport p dt (kv k) a (F k) (fz k) (S0 k) (r k) (o k).s_track_lower (o k).s_track_upper).2)
      (fwdTransport p dt kv₀ a F₀ fz₀ S0₀ r₀ o₀.s_track_lower o₀.s_track_upper).2 := fun i j =>
    (ho.s_track_upper i j).add ((((((au i j).div_const _).sub (va i j)).sub (vd i j))).sub
      ((pu i j).mul (ru i j)) |>.const_mul dt)
  have st := fun i j => tendsto_settle (getBoundary p i j) (tl i j) (tu i j) (h1.s_lower i j) (h1.s_upper i j)
  exact
    { s_track_lower := fun i j => (st i j).1
      s_track_upper := fun i j => (st i j).2.1
      tagged_evap := fun i j => (ho.tagged_evap i j).add (((hr i j).mul (h.evap i j)).mul_const dt)
      p_track_lower := fun i j => (ho.p_track_lower i j).add (((pl i j).mul (rl i j)).mul_const dt)
      p_track_upper := fun i j => (ho.p_track_upper i j).add (((pu i j).mul (ru i j)).mul_const dt)
      losses := fun i j => (ho.losses i j).add (st i j).2.2.1
      gains := fun i j => (ho.gains i j).add (st i j).2.2.2 }

/-- a backward step tends -/
theorem bwdTend_step (p : Bool) (dt : K) (a : Fin (m + 2) → K) {kv : ι → K} {kv₀ : K} (hk : Tendsto kv l (𝓝 kv₀))
    {F : ι → Fluxes (m + 2) (n + 2) K} {F₀} (h : FluxTend l F F₀) {fz : ι → Arr (m + 2) (n + 2) K} {fz₀} (hz : Tends l fz fz₀)
    {S0 S1 : ι → States (m + 2) (n + 2) K} {S0₀ S1₀} (h0 : StateTend l S0 S0₀) (h1 : StateTend l S1 S1₀)
    {r : ι → Arr (m + 2) (n + 2) K} {r₀} (hr : Tends l r r₀) {o : ι → BwdOutput (m + 2) (n + 2) K} {o₀} (ho : BwdTend l o o₀) :
    BwdTend l (fun k => backtrack p dt (kv k) a (F k) (fz k) (S1 k) (S0 k) (r k) (o k))
      (backtrack p dt kv₀ a F₀ fz₀ S1₀ S0₀ r₀ o₀) := by
  have tot : ∀ i j, S1₀.s_upper i j + S1₀.s_lower i j ≠ 0 := fun i j => (add_pos (h1.wet i j).1 (h1.wet i j).2).ne'
  have pl : Tends l (fun k i j => r k i j * (F k).precip i j * (S1 k).s_lower i j / ((S1 k).s_upper i j + (S1 k).s_lower i j))
      (fun i j => r₀ i j * F₀.precip i j * S1₀.s_lower i j / (S1₀.s_upper i j + S1₀.s_lower i j)) := fun i j =>
    (((hr i j).mul (h.precip i j)).mul (h1.s_lower i j)).div ((h1.s_upper i j).add (h1.s_lower i j)) (tot i j)
  have pu : Tends l (fun k i j => r k i j * (F k).precip i j * (S1 k).s_upper i j / ((S1 k).s_upper i j + (S1 k).s_lower i j))
      (fun i j => r₀ i j * F₀.precip i j * S1₀.s_upper i j / (S1₀.s_upper i j + S1₀.s_lower i j)) := fun i j =>
    (((hr i j).mul (h.precip i j)).mul (h1.s_upper i j)).div ((h1.s_upper i j).add (h1.s_lower i j)) (tot i j)
  have rl : Tends l (fun k i j => relStorage ((o k).s_track_lower i j) ((S1 k).s_lower i j))
      (fun i j => relStorage (o₀.s_track_lower i j) (S1₀.s_lower i j)) := fun i j =>
    tendsto_rel (ho.s_track_lower i j) (h1.s_lower i j) (h1.wet i j).2.ne'
  have ru : Tends l (fun k i j => relStorage ((o k).s_track_upper i j) ((S1 k).s_upper i j))
      (fun i j => relStorage (o₀.s_track_upper i j) (S1₀.s_upper i j)) := fun i j =>
    tendsto_rel (ho.s_track_upper i j) (h1.s_upper i j) (h1.wet i j).1.ne'
  have al := tends_advect p true rl h.fx_lower h.fy_lower
  have au := tends_advect p true ru h.fx_upper h.fy_upper
  have va := fun i j => tendsto_vadv (hz i j).neg (rl i j) (ru i j)
  have vd := fun i j => tendsto_vdisp (hz i j).neg (rl i j) (ru i j) hk
  have tl : Tends l (fun k => (bwdTransport p dt (kv k) a (F k) (fz k) (S1 k) (r k) (o k).s_track_lower (o k).s_track_upper).1)
      (bwdTransport p dt kv₀ a F₀ fz₀ S1₀ r₀ o₀.s_track_lower o₀.s_track_upper).1 := fun i j =>
    (ho.s_track_lower i j).add ((((((al i j).div_const _).add (va i j)).add (vd i j)).add
      (pl i j)).sub ((h.evap i j).mul (rl i j)) |>.const_mul dt)
  have tu : Tends l (fun k => (bwdTransport p dt (kv k) a (F k) (fz k) (S1 k) (r k) (o k).s_track_lower (o k).s_track_upper).2)
      (bwdTransport p dt kv₀ a F₀ fz₀ S1₀ r₀ o₀.s_track_lower o₀.s_track_upper).2 := fun i j =>
    (ho.s_track_upper i j).add ((((((au i j).div_const _).sub (va i j)).sub (vd i j))).add
      (pu i j) |>.const_mul dt)
  have st := fun i j => tendsto_settle (getBoundary p i j) (tl i j) (tu i j) (h0.s_lower i j) (h0.s_upper i j)
  exact
    { s_track_lower := fun i j => (st i j).1
      s_track_upper := fun i j => (st i j).2.1
      tagged_precip := fun i j => (ho.tagged_precip i j).add (((hr i j).mul (h.precip i j)).mul_const dt)
      e_track := fun i j => (ho.e_track i j).add (((h.evap i j).mul (rl i j)).mul_const dt)
      losses := fun i j => (ho.losses i j).add (st i j).2.2.1
      gains := fun i j => (ho.gains i j).add (st i j).2.2.2 }

/-! ### The whole run -/

section
variable {ω : Type*} (T : (ι → ω) → ω → Prop) (p : ι → Proc ω) (p₀ : Proc ω) (o : ι → ω) (o₀ : ω) (N : ℕ)
  (hw : ∀ k q, (p k).write q = p₀.write q) (ht : ∀ k q, (p k).time q = p₀.time q)
  (hs : ∀ q < N, ∀ x x₀, T x x₀ → T (fun k => (p k).step q (x k)) (p₀.step q x₀))
  (hf : ∀ x x₀, T x x₀ → T (fun k => (p k).flush (x k)) (p₀.flush x₀)) (h0 : T o o₀)
include hw hs hf h0

theorem Proc.tend_out : ∀ q ≤ N, T (fun k => (p k).out (o k) q) (p₀.out o₀ q) := by
  intro q hq
  induction q with
  | zero => exact h0
  | succ q ih =>
    have := hs q (by omega) _ _ (ih (by omega))
    simp only [Proc.out, hw]
    by_cases c : p₀.write (q + 1) = true
    · simp only [c, if_true]; exact hf _ _ this
    · simp only [c, if_false]; exact this

include ht in
theorem Proc.tend_files : ∀ q ≤ N, FilesTend T (fun k => (p k).files (o k) q) (p₀.files o₀ q) := by
  intro q hq
  induction q with
  | zero => exact ⟨fun _ => rfl, fun q t o₀ h => by simp [Proc.files] at h⟩
  | succ q ih =>
    obtain ⟨h1, h2⟩ := ih (by omega)
    have full := hs q (by omega) _ _ (Proc.tend_out T p p₀ o o₀ N hw hs hf h0 q (by omega))
    have len : ∀ k, ((p k).files (o k) q).length = (p₀.files o₀ q).length := fun k => by
      have := congrArg List.length (h1 k); simpa using this
    simp only [Proc.files, hw, ht]
    by_cases c : p₀.write (q + 1) = true
    · simp only [c, if_true]
      refine ⟨fun k => by simp [h1 k], fun r t x₀ hx => ?_⟩
      rcases lt_trichotomy r (p₀.files o₀ q).length with hr | hr | hr
      · rw [List.getElem?_append_left hr] at hx
        obtain ⟨x, e, hT⟩ := h2 r t x₀ hx
        exact ⟨x, fun k => by rw [List.getElem?_append_left (by rw [len k]; exact hr)]; exact e k, hT⟩
      · rw [List.getElem?_append_right (by omega), hr] at hx
        simp at hx
        obtain ⟨rfl, rfl⟩ := hx
        refine ⟨fun k => (p k).full (o k) q, fun k => ?_, full⟩
        rw [List.getElem?_append_right (by rw [len k]; omega), len k, hr]
        simp
      · rw [List.getElem?_append_right (by omega)] at hx
        rw [List.getElem?_eq_none (by simp; omega)] at hx
        simp at hx
    · simp only [c, Bool.false_eq_true, if_false, List.append_nil]; exact ⟨h1, h2⟩

end

theorem maskTend (cfg : ι → RunConfig K) (cfg₀ : RunConfig K) (hc : ∀ k, cfg k = { cfg₀ with kvf := (cfg k).kvf })
    {inp : ι → Input m n K} {inp₀ : Input m n K} (t : ℤ) (h : Tends l (fun k => (inp k).region t) (inp₀.region t)) :
    Tends l (fun k => maskAt (cfg k) (inp k) t) (maskAt cfg₀ inp₀ t) := by
  have e : ∀ k, inWindow (cfg k) t ↔ inWindow cfg₀ t := fun k => by rw [hc k]; rfl
  unfold maskAt
  simp only [e]
  split_ifs
  · exact h
  · exact fun i j => tendsto_const_nhds

theorem dataTend_states {inp : ι → Input m n K} {inp₀ : Input m n K} {A B : ℤ} (h : DataTend l inp inp₀ A B)
    {g : GridInfo (m + 2) K} (hl : Lively g inp₀ A B) (t : ℤ) (h1 : A ≤ t) (h2 : t ≤ B) :
    StateTend l (fun k => (inp k).states t) (inp₀.states t) :=
  ⟨h.s_upper t h1 h2, h.s_lower t h1 h2, hl.wet t h1 h2⟩

theorem dataTend_fluxes {inp : ι → Input m n K} {inp₀ : Input m n K} {A B : ℤ} (h : DataTend l inp inp₀ A B)
    (t : ℤ) (h1 : A ≤ t) (h2 : t ≤ B) : FluxTend l (fun k => (inp k).fluxes t) (inp₀.fluxes t) :=
  ⟨h.fx_upper t h1 h2, h.fy_upper t h1 h2, h.fx_lower t h1 h2, h.fy_lower t h1 h2, h.evap t h1 h2, h.precip t h1 h2⟩

theorem fwd_step_tend (cfg : ι → RunConfig K) (cfg₀ : RunConfig K) (hc : ∀ k, cfg k = { cfg₀ with kvf := (cfg k).kvf })
    (hk : Tendsto (fun k => (cfg k).kvf) l (𝓝 cfg₀.kvf)) (k0 : 0 ≤ cfg₀.kvf) (hdt : 0 < cfg₀.timestep) (g : GridInfo (m + 2) K)
    {inp : ι → Input m n K} {inp₀ : Input m n K} {A B : ℤ} (h : DataTend l inp inp₀ A B) (hl : Lively g inp₀ A B)
    (t : ℤ) (h1 : A ≤ t) (h2 : t + cfg₀.dt ≤ B) (x : ι → FwdOutput (m + 2) (n + 2) K) (x₀) (hx : FwdTend l x x₀) :
    FwdTend l (fun k => fwdStepAt (cfg k) g (inp k) t (x k)) (fwdStepAt cfg₀ g inp₀ t x₀) := by
  have dpos := cfg₀.dt_pos hdt
  have half := cfg₀.dt_eq
  have S0 := dataTend_states h hl t h1 (by omega)
  have S1 := dataTend_states h hl (t + cfg₀.dt) (by omega) h2
  have F := fluxTend_stable cfg cfg₀ (fun k => by rw [hc k]) hdt g (dataTend_fluxes h (t + cfg₀.halfDt) (by omega) (by omega)) S0
    (hl.upper _ (by omega) (by omega)) (hl.lower _ (by omega) (by omega))
  have z := tends_fz (ofRat (cfg₀.timestep : ℚ)) g.a hk k0 F S0 S1
  have r := maskTend (l := l) cfg cfg₀ hc t (h.region t h1 (by omega))
  have := fwdTend_step cfg₀.periodic_boundary (ofRat (cfg₀.timestep : ℚ)) g.a hk F z S0 S1 r hx
  have e1 : ∀ k, (cfg k).dt = cfg₀.dt := fun k => by rw [hc k]; rfl
  have e2 : ∀ k, (cfg k).halfDt = cfg₀.halfDt := fun k => by rw [hc k]; rfl
  have e3 : ∀ k, (cfg k).periodic_boundary = cfg₀.periodic_boundary := fun k => by rw [hc k]
  have e4 : ∀ k, (cfg k).timestep = cfg₀.timestep := fun k => by rw [hc k]
  simp only [fwdStepAt, e1, e2, e3, e4]
  exact this

theorem bwd_step_tend (cfg : ι → RunConfig K) (cfg₀ : RunConfig K) (hc : ∀ k, cfg k = { cfg₀ with kvf := (cfg k).kvf })
    (hk : Tendsto (fun k => (cfg k).kvf) l (𝓝 cfg₀.kvf)) (k0 : 0 ≤ cfg₀.kvf) (hdt : 0 < cfg₀.timestep) (g : GridInfo (m + 2) K)
    {inp : ι → Input m n K} {inp₀ : Input m n K} {A B : ℤ} (h : DataTend l inp inp₀ A B) (hl : Lively g inp₀ A B)
    (t : ℤ) (h1 : A ≤ t - cfg₀.dt) (h2 : t ≤ B) (x : ι → BwdOutput (m + 2) (n + 2) K) (x₀) (hx : BwdTend l x x₀) :
    BwdTend l (fun k => bwdStepAt (cfg k) g (inp k) t (x k)) (bwdStepAt cfg₀ g inp₀ t x₀) := by
  have dpos := cfg₀.dt_pos hdt
  have half := cfg₀.dt_eq
  have S1 := dataTend_states h hl t (by omega) h2
  have S0 := dataTend_states h hl (t - cfg₀.dt) h1 (by omega)
  have F := fluxTend_stable cfg cfg₀ (fun k => by rw [hc k]) hdt g (dataTend_fluxes h (t - cfg₀.halfDt) (by omega) (by omega)) S1
    (hl.upper _ (by omega) (by omega)) (hl.lower _ (by omega) (by omega))
  have z := tends_fz (ofRat (cfg₀.timestep : ℚ)) g.a hk k0 F S0 S1
  have r := maskTend (l := l) cfg cfg₀ hc t (h.region t (by omega) h2)
  have := bwdTend_step cfg₀.periodic_boundary (ofRat (cfg₀.timestep : ℚ)) g.a hk F z S0 S1 r hx
  have e1 : ∀ k, (cfg k).dt = cfg₀.dt := fun k => by rw [hc k]; rfl
  have e2 : ∀ k, (cfg k).halfDt = cfg₀.halfDt := fun k => by rw [hc k]; rfl
  have e3 : ∀ k, (cfg k).periodic_boundary = cfg₀.periodic_boundary := fun k => by rw [hc k]
  have e4 : ∀ k, (cfg k).timestep = cfg₀.timestep := fun k => by rw [hc k]
  simp only [bwdStepAt, e1, e2, e3, e4]
  exact this

end Wam
