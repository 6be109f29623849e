import Verif.Props.Causal
import Verif.Props.Mirror
import Verif.Props.Units
import Verif.Props.ShiftArchive
import Verif.Props.Legacy
import Verif.Props.Template
import Verif.Props.NaNRun

/-!
# Concrete cases for theorems about the other direction

The hypotheses of the theorems applied here are met by the data of the examples beside their counterparts.
-/

namespace Wam
open Spec

namespace BackwardCases
open Demo

/-- the data of `Lemmas/Demo`, from twenty minutes on -/
private def late : Source 1 1 ℚ :=
  { src with
    states := fun t => if 2 * step ≤ t then src.states t else .error .fileNotFound
    fluxes := fun t => if 2 * step ≤ t then src.fluxes t else .error .fileNotFound }

private theorem late_agrees : AgreeOn (2 * step) cfg.tracking_end_date src late where
  states := fun t h _ => if_pos h
  fluxes := fun t h _ => if_pos h
  region := .stationary _
  grid := rfl
  weight := rfl

private theorem finishes : ∃ s, bwdRun cfg src path (fun _ => none) 4 = .finished s ∧ s.files.map Prod.fst = [2 * step, 0] := by
  obtain ⟨o, ho⟩ := bwd_init_ok cfg src inp path (fun _ => none) runnable (by decide)
  obtain ⟨r, _, _, hrun⟩ := bwd_run_eq cfg src inp path _ runnable o ho
  refine ⟨_, (hrun 4).trans (if_neg (by decide)), ?_⟩
  rfl

/-- C104: the backward run on these data fails, but its first file is that of the whole run -/
example : ∃ s, bwdRun cfg src path (fun _ => none) 4 = .finished s ∧ ∃ f,
    s.files.head? = some f ∧ since (2 * step) (lastState (bwdRun cfg late path (fun _ => none) 4)).files = [f] := by
  obtain ⟨s, h4, hf⟩ := finishes
  refine ⟨s, h4, ?_⟩
  have h := (C104_causal_backward cfg cfg (by decide) src late (2 * step) ⟨rfl, rfl, rfl, rfl, rfl, fun _ _ _ => Iff.rfl⟩ rfl
    (.inl rfl) late_agrees path path (fun _ => none) (fun _ => none) (fun _ => rfl) 4).1
  rw [h4] at h
  obtain ⟨f, g, hl⟩ : ∃ f g, s.files = [f, g] := by
    rcases hs : s.files with _ | ⟨f, _ | ⟨g, _ | _⟩⟩ <;> rw [hs] at hf <;> simp at hf
    exact ⟨f, g, rfl⟩
  rw [hl] at hf
  simp only [List.map_cons, List.map_nil, List.cons.injEq, and_true] at hf
  refine ⟨f, by rw [hl]; rfl, h.trans ?_⟩
  show since (2 * step) s.files = [f]
  rw [hl]
  unfold since
  rw [List.filter_cons, if_pos (by simp [hf.1]), List.filter_cons, if_neg (by rw [hf.2]; decide), List.filter_nil]

/-- C101: the backward run of `Lemmas/Demo` and its mirror image -/
example : ∃ s s', bwdRun cfg src path (fun _ => none) 4 = .finished s ∧
    bwdRun cfg (MirrorDemo.both.source src) path (fun _ => none) 4 = .finished s' ∧ s.files.length = 2 ∧
    s'.files = s.files.map (fun x => (x.1, MirrorDemo.both.bwd x.2)) := by
  have h := C101_mirror_backward MirrorDemo.both cfg src path path (fun _ => none) (fun _ => none) (fun h => by cases h) 4
  obtain ⟨s, h4, hf⟩ := finishes
  rw [h4] at h ⊢
  generalize bwdRun cfg (MirrorDemo.both.source src) path (fun _ => none) 4 = q at h ⊢
  cases h with
  | finished h => exact ⟨_, _, rfl, rfl, by simpa using congrArg List.length hf, h.files⟩

/-- C102: the backward run of `Lemmas/Demo` with water in thousandths -/
example : ∃ s s', bwdRun cfg src path (fun _ => none) 4 = .finished s ∧
    bwdRun cfg (unitSource (fun x => 1000 * x) src) path (fun _ => none) 4 = .finished s' ∧ s.files.length = 2 ∧
    s'.files = s.files.map (fun x => (x.1, unitBwd (fun x => 1000 * x) x.2)) := by
  have h := C102_units_backward 1000 (by norm_num) cfg src path path (fun _ => none) (fun _ => none) (fun h => by cases h) 4
  obtain ⟨s, h4, hf⟩ := finishes
  rw [h4] at h ⊢
  generalize bwdRun cfg (unitSource (fun x => 1000 * x) src) path (fun _ => none) 4 = q at h ⊢
  cases h with
  | finished h => exact ⟨_, _, rfl, rfl, by simpa using congrArg List.length hf, h.files⟩

example (cfg : RunConfig (Fl (unbounded 53 (by norm_num) : Rounding ℚ))) (src : Source 3 4 (Fl (unbounded 53 (by norm_num) : Rounding ℚ)))
    (path : ℤ → ℤ) (hr : cfg.restart = false) (fuel : ℕ) :=
  C102_rounded_backward (P := ℤ) (P' := ℤ) _ _ (by norm_num) (unbounded_two_zpow 53 (by norm_num) 10) cfg src path path
    (fun _ => none) (fun _ => none) (fun h => by rw [hr] at h; cases h) fuel

end BackwardCases

/-- C103: a backward run of twelve hours on the two archives -/
example [NpTrig ℚ] (fuel : ℕ) :=
  C103_archive_backward (m := 1) (n := 1) (P := ℤ) (P' := ℤ) ShiftDemo.δ 0 64800000000
    ⟨0, 43200000000, 0, 21600000000, 1800, 21600000000, 3, false, false⟩ ShiftDemo.io ShiftDemo.io' ShiftDemo.files
    ShiftDemo.files' (.box ⟨0, 0, 20, 20⟩) ShiftDemo.moved (by decide) (by decide) (by decide) (by decide) (by decide) (by decide)
    (by decide) (by decide) (by decide) (by decide) id id (fun _ => none) (fun _ => none) (fun h => by cases h) fuel

/-- C125: a boundary that lies below the surface -/
example := C125_boundary_below_surface (95000 : ℚ) 96000 40 (by norm_num) (by norm_num) (by norm_num)

/-- C80: an unknown field is an error wherever the rest is fine -/
example : formatTemplate "{yr}_{variable}".toList (era5Args .standard true "sp" 0) = .error .keyError :=
  C80_unknown_field (era5Args .standard true "sp" 0) "yr".toList "_{variable}".toList "_sp".toList (by decide) (by decide)
    (by decide +kernel)

/-- C09: a restart file with a missing value, forwards -/
example : ∃ (cfg : RunConfig (XF ℚ)) (src : Source 1 1 (XF ℚ)) (f : FwdOutput 3 3 (XF ℚ)) (s : LoopState (FwdOutput 3 3 (XF ℚ)) (XF ℚ)),
    EndsIn (fwdRun cfg src id fun _ => some f) s ∧ s.files ≠ [] ∧
    ∀ y ∈ s.files, y.2.s_track_lower 1 1 = XF.nan ∧ y.2.s_track_upper 1 1 = XF.nan ∧ y.2.losses 1 1 = XF.nan := by
  let cfg : RunConfig (XF ℚ) :=
    { tracking_start_date := 0, tracking_end_date := 1200000000, tagging_start_date := 0,
      tagging_end_date := 0, timestep := 600, output_frequency := 600000000, kvf := XF.fin 3,
      periodic_boundary := false, restart := true }
  let one : Arr 3 3 (XF ℚ) := fun _ _ => XF.fin 1
  let inp : Input 1 1 (XF ℚ) :=
    { states := fun _ => ⟨one, one⟩
      fluxes := fun _ => ⟨one, one, one, one, one, one⟩
      region := fun _ => one }
  let src : Source 1 1 (XF ℚ) :=
    { states := fun t => .ok (inp.states t), fluxes := fun t => .ok (inp.fluxes t)
      grid := ⟨fun _ => XF.fin 1, XF.fin 1, fun _ => XF.fin 1⟩
      region := .ok (.stationary one), weight := fun _ => XF.fin 1 }
  let f : FwdOutput 3 3 (XF ℚ) :=
    { s_track_upper := fun i j => if i = 1 ∧ j = 1 then XF.nan else XF.fin 0, s_track_lower := one, p_track_upper := one
      p_track_lower := one, tagged_evap := one, losses := one, gains := one }
  have hrun : Runnable cfg src inp := ⟨by decide, by decide, ⟨fun _ _ _ => rfl, fun _ _ _ => rfl, ⟨_, rfl, fun _ _ _ => rfl⟩⟩⟩
  obtain ⟨o, ho⟩ := fwd_init_ok cfg src inp id (fun _ => some f) hrun (fun _ => rfl)
  obtain ⟨r, _, _, he⟩ := fwd_run_eq cfg src inp id _ hrun _ ho
  have hs : EndsIn (fwdRun cfg src id fun _ => some f) _ := ⟨cfg.steps, fun fuel hf => (he fuel).trans (if_neg (not_lt.mpr hf))⟩
  refine ⟨cfg, src, f, _, hs, ?_, (C09_run_forward cfg src inp id (fun _ => some f) hrun hs 1 1 (by unfold isBoundary; decide)).2 f rfl rfl
    ?_⟩
  · intro h0
    have := ((C25_output_order_forward cfg src inp id (fun _ => some f) hrun hs).2.2 (by decide)).1
    rw [h0] at this
    cases this
  · first | exact Or.inr rfl | exact Or.inl rfl

end Wam
