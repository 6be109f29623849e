import Verif.Spec.Full
import Verif.Lemmas.Cone
import Verif.Props.Balance
import Verif.Props.RunPhysics

/-! # A step in cells in which all water is tagged -/
set_option linter.unusedSectionVars false
set_option linter.unusedVariables false

namespace Wam
open Spec

namespace Full
variable {m n : ℕ} {K : Type*} [Field K] [LinearOrder K] [IsStrictOrderedRing K]

theorem settle_full (tl tu Sl Su x : K) (hl : 0 ≤ Sl) (hu : 0 ≤ Su) (hx : 0 ≤ x) (h : tl + tu = Sl + Su + x) :
    (settle false tl tu Sl Su).lower = Sl ∧ (settle false tl tu Sl Su).upper = Su ∧
    (settle false tl tu Sl Su).losses = x ∧ (settle false tl tu Sl Su).gains = 0 := by
  simp only [settle, np_min, np_max, np_lt, ofRat_zero, Bool.false_eq_true, if_false]
  have key : ∀ ol ou : K, max 0 (tl - Sl) = ol → max 0 (tu - Su) = ou → 0 ≤ ol → 0 ≤ ou →
      tl - ol + ou = Sl + (tl - Sl - ol + ou) → 0 ≤ tl - Sl - ol + ou → 0 ≤ tu - Su - ou + ol → 
      min (max (tl - ol + ou) 0) Sl = Sl ∧ min (max (tu - ou + ol) 0) Su = Su ∧
      0 + (max 0 (max (tl - ol + ou) 0 - Sl) + max 0 (max (tu - ou + ol) 0 - Su)) = x ∧
      (if decide (tl - ol + ou < 0) = true then -(tl - ol + ou) else 0) +
        (if decide (tu - ou + ol < 0) = true then -(tu - ou + ol) else 0) = 0 := by
    intro ol ou e1 e2 h1 h2 _ h3 h4
    have a1 : Sl ≤ tl - ol + ou := by linarith
    have a2 : Su ≤ tu - ou + ol := by linarith
    rw [max_eq_left (hl.trans a1), max_eq_left (hu.trans a2), min_eq_right a1, min_eq_right a2,
      max_eq_right (by linarith : (0 : K) ≤ tl - ol + ou - Sl), max_eq_right (by linarith : (0 : K) ≤ tu - ou + ol - Su)]
    refine ⟨rfl, rfl, by linarith, ?_⟩
    rw [if_neg (by rw [decide_eq_true_eq, not_lt]; exact hl.trans a1),
      if_neg (by rw [decide_eq_true_eq, not_lt]; exact hu.trans a2), add_zero]
  refine key _ _ rfl rfl (le_max_left _ _) (le_max_left _ _) (by ring) ?_ ?_
  · rcases le_total 0 (tl - Sl) with h1 | h1
    · rw [max_eq_right h1]
      have := le_max_left 0 (tu - Su); linarith
    · rw [max_eq_left h1]
      have := le_max_right 0 (tu - Su); linarith
  · rcases le_total 0 (tu - Su) with h1 | h1
    · rw [max_eq_right h1]
      have := le_max_left 0 (tl - Sl); linarith
    · rw [max_eq_left h1]
      have := le_max_right 0 (tl - Sl); linarith

theorem relStorage_self (s : K) (h : 0 < s) : relStorage s s = 1 := by
  simp [relStorage, np_min, div_self h.ne']

theorem advect_full (periodic sgn : Bool) (r fx fy gx gy : Arr (m + 2) (n + 2) K) (i : Fin (m + 2)) (j : Fin (n + 2))
    (h : ∀ i' j', cellSteps periodic i i' j j' ≤ 1 → r i' j' = 1)
    (hx : ∀ i' j', cellSteps periodic i i' j j' ≤ 1 → fx i' j' = gx i' j')
    (hy : ∀ i' j', cellSteps periodic i i' j j' ≤ 1 → fy i' j' = gy i' j') :
    advect periodic sgn r fx fy i j = (if sgn then -1 else 1) * convergence periodic gx gy i j := by
  rw [Cone.advect_cone periodic sgn r (fun _ _ => 1) fx gx fy gy i j h hx hy, C03_constant_field, mul_one]

theorem moderate_fluxes {cfg : RunConfig K} {g : GridInfo (m + 2) K} {F : Fluxes (m + 2) (n + 2) K}
    {S : States (m + 2) (n + 2) K} {i : Fin (m + 2)} {j : Fin (n + 2)} (hdt : 0 < (cfg.timestep : K)) (ha : 0 < g.a i)
    (hS : 0 < S.s_upper i j ∧ 0 < S.s_lower i j) (h : AtMostHalf (cfg.timestep : K) g F S i j) :
    (stableFluxes cfg g F S).fx_lower i j = F.fx_lower i j * g.dy ∧
    (stableFluxes cfg g F S).fy_lower i j = F.fy_lower i j * g.dx i ∧
    (stableFluxes cfg g F S).fx_upper i j = F.fx_upper i j * g.dy ∧
    (stableFluxes cfg g F S).fy_upper i j = F.fy_upper i j * g.dx i := by
  have key : ∀ s fx fy : K, 0 < s → halfCell (cfg.timestep : K) (g.a i) s (fx * g.dy) (fy * g.dx i) →
      stabilizeComponent (cfg.timestep : K) (g.a i) s (fx * g.dy) (fy * g.dx i) (fx * g.dy) = fx * g.dy ∧
      stabilizeComponent (cfg.timestep : K) (g.a i) s (fx * g.dy) (fy * g.dx i) (fy * g.dx i) = fy * g.dx i := by
    intro s fx fy hs hh
    obtain ⟨θ, -, -, e1, e2, e3, -⟩ := transport_stabilize (cfg.timestep : K) (g.a i) g.dy (g.dx i) s fx fy hdt ha hs.le
    rw [e3.2 hh, one_mul] at e1 e2
    exact ⟨e1, e2⟩
  have hl := key _ _ _ hS.2 h.1
  have hu := key _ _ _ hS.1 h.2
  simp only [stableFluxes, stabilizeFluxes, scaleFluxes, ofRat_int]
  exact ⟨hl.1, hl.2, hu.1, hu.2⟩

theorem vertical_one (f kvf : K) : verticalAdvection f 1 1 = f ∧ verticalDispersion f 1 1 kvf = 0 := by
  constructor <;> simp [verticalAdvection, verticalDispersion]

theorem fwd_step_full (cfg : RunConfig K) (g : GridInfo (m + 2) K) (inp : Input m n K) (t : ℤ)
    (o : FwdOutput (m + 2) (n + 2) K) (i : Fin (m + 2)) (j : Fin (n + 2)) (hdt : 0 < (cfg.timestep : K))
    (ha : ∀ i, 0 < g.a i)
    (h0 : ∀ i j, 0 < (inp.states t).s_upper i j ∧ 0 < (inp.states t).s_lower i j)
    (h1 : 0 < (inp.states (t + cfg.dt)).s_upper i j ∧ 0 < (inp.states (t + cfg.dt)).s_lower i j)
    (hin : ¬ isBoundary cfg.periodic_boundary i j) (hm : maskAt cfg inp t i j = 1)
    (hmod : ∀ i' j', cellSteps cfg.periodic_boundary i i' j j' ≤ 1 →
      AtMostHalf (cfg.timestep : K) g (inp.fluxes (t + cfg.halfDt)) (inp.states t) i' j')
    (hfull : ∀ i' j', cellSteps cfg.periodic_boundary i i' j j' ≤ 1 →
      o.s_track_lower i' j' = (inp.states t).s_lower i' j' ∧ o.s_track_upper i' j' = (inp.states t).s_upper i' j')
    (hsup : (inp.states (t + cfg.dt)).s_lower i j + (inp.states (t + cfg.dt)).s_upper i j ≤
      suppliedFwd cfg.periodic_boundary (cfg.timestep : K) g (inp.fluxes (t + cfg.halfDt)) (inp.states t) i j) :
    (fwdStepAt cfg g inp t o).s_track_lower i j = (inp.states (t + cfg.dt)).s_lower i j ∧
    (fwdStepAt cfg g inp t o).s_track_upper i j = (inp.states (t + cfg.dt)).s_upper i j ∧
    (fwdStepAt cfg g inp t o).losses i j = o.losses i j +
      (suppliedFwd cfg.periodic_boundary (cfg.timestep : K) g (inp.fluxes (t + cfg.halfDt)) (inp.states t) i j -
        ((inp.states (t + cfg.dt)).s_lower i j + (inp.states (t + cfg.dt)).s_upper i j)) ∧
    (fwdStepAt cfg g inp t o).gains i j = o.gains i j ∧
    (fwdStepAt cfg g inp t o).p_track_lower i j + (fwdStepAt cfg g inp t o).p_track_upper i j =
      o.p_track_lower i j + o.p_track_upper i j + (inp.fluxes (t + cfg.halfDt)).precip i j * cfg.timestep := by
  have hself : cellSteps cfg.periodic_boundary i i j j ≤ 1 := by rw [Cone.cellSteps_self]; omega
  have hb : getBoundary cfg.periodic_boundary i j = false := by
    rw [Bool.eq_false_iff, ne_eq, getBoundary_iff]; exact hin
  set S0 := inp.states t with hS0
  set S1 := inp.states (t + cfg.dt) with hS1
  set F := inp.fluxes (t + cfg.halfDt) with hF
  set Q := stableFluxes cfg g F S0 with hQ
  set fz := calculateFz g.a Q S0 S1 (ofRat cfg.timestep) cfg.kvf with hfz
  have hq := fun i' j' h => moderate_fluxes hdt (ha i') (h0 i' j') (hmod i' j' h)
  have rl : ∀ i' j', cellSteps cfg.periodic_boundary i i' j j' ≤ 1 →
      relStorage (o.s_track_lower i' j') (S0.s_lower i' j') = 1 := fun i' j' h => by
    rw [(hfull i' j' h).1]; exact relStorage_self _ (h0 i' j').2
  have ru : ∀ i' j', cellSteps cfg.periodic_boundary i i' j j' ≤ 1 →
      relStorage (o.s_track_upper i' j') (S0.s_upper i' j') = 1 := fun i' j' h => by
    rw [(hfull i' j' h).2]; exact relStorage_self _ (h0 i' j').1
  have al := advect_full cfg.periodic_boundary false (fun i j => relStorage (o.s_track_lower i j) (S0.s_lower i j))
    Q.fx_lower Q.fy_lower (fun i j => F.fx_lower i j * g.dy) (fun i j => F.fy_lower i j * g.dx i) i j rl
    (fun i' j' h => (hq i' j' h).1) (fun i' j' h => (hq i' j' h).2.1)
  have au := advect_full cfg.periodic_boundary false (fun i j => relStorage (o.s_track_upper i j) (S0.s_upper i j))
    Q.fx_upper Q.fy_upper (fun i j => F.fx_upper i j * g.dy) (fun i j => F.fy_upper i j * g.dx i) i j ru
    (fun i' j' h => (hq i' j' h).2.2.1) (fun i' j' h => (hq i' j' h).2.2.2)
  have rl0 := rl i j hself
  have ru0 := ru i j hself
  have hv := vertical_one (fz i j) cfg.kvf
  have hs0 : S0.s_upper i j + S0.s_lower i j ≠ 0 := (add_pos (h0 i j).1 (h0 i j).2).ne'
  have hp : F.precip i j * S0.s_lower i j / (S0.s_upper i j + S0.s_lower i j) +
      F.precip i j * S0.s_upper i j / (S0.s_upper i j + S0.s_lower i j) = F.precip i j := by
    field_simp; ring
  have hpe : Q.precip i j = F.precip i j := rfl
  have hev : Q.evap i j = F.evap i j := rfl
  set T := fwdTransport cfg.periodic_boundary (ofRat cfg.timestep) cfg.kvf g.a Q fz S0 (maskAt cfg inp t)
    o.s_track_lower o.s_track_upper with hT
  have hsum : T.1 i j + T.2 i j = S1.s_lower i j + S1.s_upper i j +
      (suppliedFwd cfg.periodic_boundary (cfg.timestep : K) g F S0 i j - (S1.s_lower i j + S1.s_upper i j)) := by
    rw [hT]
    simp only [fwdTransport]
    rw [al, au, rl0, ru0, hv.1, hv.2, hm, hpe, hev, (hfull i j hself).1, (hfull i j hself).2, ofRat_int]
    simp only [suppliedFwd, columnInflow, Bool.false_eq_true, if_false, one_mul, mul_one, add_div]
    linear_combination -(cfg.timestep : K) * hp
  obtain ⟨e1, e2, e3, e4⟩ := settle_full _ _ _ _ _ h1.2.le h1.1.le (sub_nonneg.2 hsup) hsum
  refine ⟨?_, ?_, ?_, ?_, ?_⟩
  · show (settle (getBoundary cfg.periodic_boundary i j) (T.1 i j) (T.2 i j) (S1.s_lower i j) (S1.s_upper i j)).lower = _
    rw [hb]; exact e1
  · show (settle (getBoundary cfg.periodic_boundary i j) (T.1 i j) (T.2 i j) (S1.s_lower i j) (S1.s_upper i j)).upper = _
    rw [hb]; exact e2
  · show o.losses i j +
      (settle (getBoundary cfg.periodic_boundary i j) (T.1 i j) (T.2 i j) (S1.s_lower i j) (S1.s_upper i j)).losses = _
    rw [hb, e3]
  · show o.gains i j +
      (settle (getBoundary cfg.periodic_boundary i j) (T.1 i j) (T.2 i j) (S1.s_lower i j) (S1.s_upper i j)).gains = _
    rw [hb, e4, add_zero]
  · show (o.p_track_lower i j + Q.precip i j * S0.s_lower i j / (S0.s_upper i j + S0.s_lower i j) *
        relStorage (o.s_track_lower i j) (S0.s_lower i j) * ofRat cfg.timestep) +
      (o.p_track_upper i j + Q.precip i j * S0.s_upper i j / (S0.s_upper i j + S0.s_lower i j) *
        relStorage (o.s_track_upper i j) (S0.s_upper i j) * ofRat cfg.timestep) = _
    rw [rl0, ru0, hpe, ofRat_int]
    linear_combination (cfg.timestep : K) * hp

theorem bwd_step_full (cfg : RunConfig K) (g : GridInfo (m + 2) K) (inp : Input m n K) (t : ℤ)
    (o : BwdOutput (m + 2) (n + 2) K) (i : Fin (m + 2)) (j : Fin (n + 2)) (hdt : 0 < (cfg.timestep : K))
    (ha : ∀ i, 0 < g.a i)
    (h0 : ∀ i j, 0 < (inp.states t).s_upper i j ∧ 0 < (inp.states t).s_lower i j)
    (h1 : 0 < (inp.states (t - cfg.dt)).s_upper i j ∧ 0 < (inp.states (t - cfg.dt)).s_lower i j)
    (hin : ¬ isBoundary cfg.periodic_boundary i j) (hm : maskAt cfg inp t i j = 1)
    (hmod : ∀ i' j', cellSteps cfg.periodic_boundary i i' j j' ≤ 1 →
      AtMostHalf (cfg.timestep : K) g (inp.fluxes (t - cfg.halfDt)) (inp.states t) i' j')
    (hfull : ∀ i' j', cellSteps cfg.periodic_boundary i i' j j' ≤ 1 →
      o.s_track_lower i' j' = (inp.states t).s_lower i' j' ∧ o.s_track_upper i' j' = (inp.states t).s_upper i' j')
    (hsup : (inp.states (t - cfg.dt)).s_lower i j + (inp.states (t - cfg.dt)).s_upper i j ≤
      suppliedBwd cfg.periodic_boundary (cfg.timestep : K) g (inp.fluxes (t - cfg.halfDt)) (inp.states t) i j) :
    (bwdStepAt cfg g inp t o).s_track_lower i j = (inp.states (t - cfg.dt)).s_lower i j ∧
    (bwdStepAt cfg g inp t o).s_track_upper i j = (inp.states (t - cfg.dt)).s_upper i j ∧
    (bwdStepAt cfg g inp t o).losses i j = o.losses i j +
      (suppliedBwd cfg.periodic_boundary (cfg.timestep : K) g (inp.fluxes (t - cfg.halfDt)) (inp.states t) i j -
        ((inp.states (t - cfg.dt)).s_lower i j + (inp.states (t - cfg.dt)).s_upper i j)) ∧
    (bwdStepAt cfg g inp t o).gains i j = o.gains i j ∧
    (bwdStepAt cfg g inp t o).e_track i j =
      o.e_track i j + (inp.fluxes (t - cfg.halfDt)).evap i j * cfg.timestep := by
  have hself : cellSteps cfg.periodic_boundary i i j j ≤ 1 := by rw [Cone.cellSteps_self]; omega
  have hb : getBoundary cfg.periodic_boundary i j = false := by
    rw [Bool.eq_false_iff, ne_eq, getBoundary_iff]; exact hin
  set S0 := inp.states (t - cfg.dt) with hS0
  set S1 := inp.states t with hS1
  set F := inp.fluxes (t - cfg.halfDt) with hF
  set Q := stableFluxes cfg g F S1 with hQ
  set fz := calculateFz g.a Q S0 S1 (ofRat cfg.timestep) cfg.kvf with hfz
  have hq := fun i' j' h => moderate_fluxes hdt (ha i') (h0 i' j') (hmod i' j' h)
  have rl : ∀ i' j', cellSteps cfg.periodic_boundary i i' j j' ≤ 1 →
      relStorage (o.s_track_lower i' j') (S1.s_lower i' j') = 1 := fun i' j' h => by
    rw [(hfull i' j' h).1]; exact relStorage_self _ (h0 i' j').2
  have ru : ∀ i' j', cellSteps cfg.periodic_boundary i i' j j' ≤ 1 →
      relStorage (o.s_track_upper i' j') (S1.s_upper i' j') = 1 := fun i' j' h => by
    rw [(hfull i' j' h).2]; exact relStorage_self _ (h0 i' j').1
  have al := advect_full cfg.periodic_boundary true (fun i j => relStorage (o.s_track_lower i j) (S1.s_lower i j))
    Q.fx_lower Q.fy_lower (fun i j => F.fx_lower i j * g.dy) (fun i j => F.fy_lower i j * g.dx i) i j rl
    (fun i' j' h => (hq i' j' h).1) (fun i' j' h => (hq i' j' h).2.1)
  have au := advect_full cfg.periodic_boundary true (fun i j => relStorage (o.s_track_upper i j) (S1.s_upper i j))
    Q.fx_upper Q.fy_upper (fun i j => F.fx_upper i j * g.dy) (fun i j => F.fy_upper i j * g.dx i) i j ru
    (fun i' j' h => (hq i' j' h).2.2.1) (fun i' j' h => (hq i' j' h).2.2.2)
  have rl0 := rl i j hself
  have ru0 := ru i j hself
  have hv := vertical_one (-fz i j) cfg.kvf
  have hs0 : S1.s_upper i j + S1.s_lower i j ≠ 0 := (add_pos (h0 i j).1 (h0 i j).2).ne'
  have hp : F.precip i j * S1.s_lower i j / (S1.s_upper i j + S1.s_lower i j) +
      F.precip i j * S1.s_upper i j / (S1.s_upper i j + S1.s_lower i j) = F.precip i j := by
    field_simp; ring
  have hpe : Q.precip i j = F.precip i j := rfl
  have hev : Q.evap i j = F.evap i j := rfl
  set T := bwdTransport cfg.periodic_boundary (ofRat cfg.timestep) cfg.kvf g.a Q fz S1 (maskAt cfg inp t)
    o.s_track_lower o.s_track_upper with hT
  have hsum : T.1 i j + T.2 i j = S0.s_lower i j + S0.s_upper i j +
      (suppliedBwd cfg.periodic_boundary (cfg.timestep : K) g F S1 i j - (S0.s_lower i j + S0.s_upper i j)) := by
    rw [hT]
    simp only [bwdTransport]
    rw [al, au, rl0, ru0, hv.1, hv.2, hm, hpe, hev, (hfull i j hself).1, (hfull i j hself).2, ofRat_int]
    simp only [suppliedBwd, columnInflow, if_true, one_mul, mul_one, add_div]
    linear_combination (cfg.timestep : K) * hp
  obtain ⟨e1, e2, e3, e4⟩ := settle_full _ _ _ _ _ h1.2.le h1.1.le (sub_nonneg.2 hsup) hsum
  refine ⟨?_, ?_, ?_, ?_, ?_⟩
  · show (settle (getBoundary cfg.periodic_boundary i j) (T.1 i j) (T.2 i j) (S0.s_lower i j) (S0.s_upper i j)).lower = _
    rw [hb]; exact e1
  · show (settle (getBoundary cfg.periodic_boundary i j) (T.1 i j) (T.2 i j) (S0.s_lower i j) (S0.s_upper i j)).upper = _
    rw [hb]; exact e2
  · show o.losses i j +
      (settle (getBoundary cfg.periodic_boundary i j) (T.1 i j) (T.2 i j) (S0.s_lower i j) (S0.s_upper i j)).losses = _
    rw [hb, e3]
  · show o.gains i j +
      (settle (getBoundary cfg.periodic_boundary i j) (T.1 i j) (T.2 i j) (S0.s_lower i j) (S0.s_upper i j)).gains = _
    rw [hb, e4, add_zero]
  · show o.e_track i j + Q.evap i j * relStorage (o.s_track_lower i j) (S1.s_lower i j) * ofRat cfg.timestep = _
    rw [rl0, hev, ofRat_int, mul_one]

end Full

end Wam
