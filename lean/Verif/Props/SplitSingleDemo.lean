import Verif.Props.SplitSingle
import Verif.Props.SplitDemo

/-! # C117 on an example: the demonstration of C115, with the files read in single precision -/

set_option linter.unusedSectionVars false
set_option linter.unusedVariables false

namespace Wam.SplitSingleDemo
open Spec SplitDemo

local instance : NpTrig ℚ := DomainDemo.trig

/-- files are read in single precision -/
noncomputable def lib32 : Library 3 3 ℚ :=
  { lib with
    readFwd := fun text => (lib.readFwd text).map fun o => o.cast (binary32 : Rounding ℚ).rnd
    readBwd := fun text => (lib.readBwd text).map fun o => o.cast (binary32 : Rounding ℚ).rnd }

theorem read32 (o : FwdOutput 5 5 ℚ) : lib32.readFwd (lib32.showFwd o) = some (o.cast (binary32 : Rounding ℚ).rnd) := by
  show (lib.readFwd (lib.showFwd o)).map _ = _
  rw [readFwd]
  rfl

theorem readBack32 (o : BwdOutput 5 5 ℚ) : lib32.readBwd (lib32.showBwd o) = some (o.cast (binary32 : Rounding ℚ).rnd) := by
  show (lib.readBwd (lib.showBwd o)).map _ = _
  rw [readBwd]
  rfl

abbrev grid : GridInfo 5 ℚ := getGridInfo (fun i : Fin (3 + 2) => DomainDemo.lat.getD i 0) fun j : Fin (3 + 2) => DomainDemo.lon.getD j 0

theorem grid_eq (b : Bool) (t : ℤ) (ht : 0 ≤ t) (ht' : t ≤ 3600000000) :
    (experimentSource (m := 3) (n := 3) (dataFiles lib (cfg b 0 3600000000 false) fs)
      (cfg b 0 3600000000 false).ioConfig (taggingOf lib (cfg b 0 3600000000 false) fs) t).grid = grid := by
  unfold experimentSource
  rw [load b 0 3600000000 false .states t ht ht']
  rfl

abbrev S : States 5 5 ℚ := DomainDemo.inp.states 0
abbrev F : Fluxes 5 5 ℚ := stabilizeFluxes ((1800 : ℤ) : ℚ) grid.a (scaleFluxes grid (DomainDemo.inp.fluxes 0)) S
abbrev fz : Arr 5 5 ℚ := calculateFz (m := 3) (n := 3) grid.a F S S ((1800 : ℤ) : ℚ) 3

theorem calmF : CalmFwd (cfg false 0 3600000000 false).runConfig grid DomainDemo.inp := by
  intro k _
  constructor
  · exact (by decide +kernel : ∀ i j : Fin 5, ((1800 : ℤ) : ℚ) *
        (outflow false F.fx_lower F.fy_lower i j / grid.a i + max (-fz i j) 0
        + 3 * |fz i j| + share (F.precip i j) (S.s_lower i j) (S.s_upper i j)) ≤ S.s_lower i j)
  · exact (by decide +kernel : ∀ i j : Fin 5, ((1800 : ℤ) : ℚ) *
        (outflow false F.fx_upper F.fy_upper i j / grid.a i + max (fz i j) 0
        + 3 * |fz i j| + share (F.precip i j) (S.s_upper i j) (S.s_lower i j)) ≤ S.s_upper i j)

theorem calmB : CalmBwd (cfg true 0 3600000000 false).runConfig grid DomainDemo.inp := by
  intro k _
  constructor
  · exact (by decide +kernel : ∀ i j : Fin 5, ((1800 : ℤ) : ℚ) *
        (outflow false (fun i j => -F.fx_lower i j) (fun i j => -F.fy_lower i j) i j / grid.a i + max (fz i j) 0
        + 3 * |fz i j| + F.evap i j) ≤ S.s_lower i j)
  · exact (by decide +kernel : ∀ i j : Fin 5, ((1800 : ℤ) : ℚ) *
        (outflow false (fun i j => -F.fx_upper i j) (fun i j => -F.fy_upper i j) i j / grid.a i + max (-fz i j) 0
        + 3 * |fz i j|) ≤ S.s_upper i j)

/-- C117_forward: output after half an hour and after an hour -/
example : ∃ one two : ℤ → FwdOutput 5 5 ℚ,
    (secondF.act lib32 parseF (after (firstF.act lib32 parseF) fs)).2 = .ok () ∧
    after (wholeF.act lib32 parseF) fs ["out".toList, "forwardtrack_1970-01-01T01-00.nc".toList] =
      some (.file (lib32.showFwd (one 3600000000))) ∧
    after (secondF.act lib32 parseF) (after (firstF.act lib32 parseF) fs) ["out".toList, "forwardtrack_1970-01-01T01-00.nc".toList] =
      some (.file (lib32.showFwd (two 3600000000))) ∧ two half = one half ∧
    fwdStorageGap grid.a (one 3600000000) (two 3600000000) + fwdFateGap grid.a (one 3600000000) (two 3600000000) ≤
      1 / 2 ^ 24 * (total grid.a (one half).s_track_lower + total grid.a (one half).s_track_upper) +
        2 * (1 / 2 ^ 150) * total grid.a (fun _ (_ : Fin 5) => (1 : ℚ)) := by
  have hg : (fwdSource lib32 (cfg false 0 3600000000 false) fs).grid = grid := grid_eq false 0 (by decide) (by decide)
  have h := C117_forward lib32 first_ok parseF fs (cfg false 0 3600000000 false) rfl DomainDemo.inp
    (served false 0 (by decide) (by decide)) (by show (60 : ℤ) ∣ 1800; decide) DomainDemo.physical
    (by rw [hg]; exact DomainDemo.area_pos) (by show (0 : ℚ) ≤ 3; norm_num) (by rw [hg]; exact calmF)
    (fun h => by cases h) (years false)
    (fun p h => apart h) half ⟨1, le_rfl, by decide, by decide, .inl (by decide)⟩
    (axes false 0 half (by decide) (by decide) (by decide) (by decide)) wholeF firstF secondF
    (ready _ _ _ "a".toList _ _ _ _ rfl (by decide +kernel) rfl)
    (by rw [ending]; exact ready _ _ _ "b".toList _ _ _ _ rfl (by decide +kernel) rfl)
    (by rw [starting, restarting]; exact ready _ _ _ "c".toList _ _ _ _ rfl (by decide +kernel) rfl)
    binary32 accurate32 (fun o _ => read32 o)
  obtain ⟨-, -, h2, one, two, h3, h4, h5⟩ := h
  have tE : ForwardOutputTime (cfg false 0 3600000000 false) 3600000000 := ⟨2, by decide, by decide, by decide, .inl (by decide)⟩
  have tB : ForwardOutputTime (cfg false 0 3600000000 false) half := ⟨1, by decide, by decide, by decide, .inl (by decide)⟩
  have e : forwardFile (cfg false 0 3600000000 false) 3600000000 = ["out".toList, "forwardtrack_1970-01-01T01-00.nc".toList] := by
    decide +kernel
  have h3' := h3 3600000000 tE
  rw [e] at h3'
  refine ⟨one, two, h2, h3'.1, h3'.2, h4 half tB le_rfl, ?_⟩
  have := h5 3600000000 tE (by decide) {3600000000} (by
    intro t ht
    rw [Finset.mem_singleton] at ht
    subst ht
    exact ⟨tE, by decide, le_rfl⟩)
  rw [hg, Finset.sum_singleton] at this
  exact this

/-- C117_backward: output after half an hour and after an hour -/
example : ∃ one two : ℤ → BwdOutput 5 5 ℚ,
    (secondB.act lib32 parseB (after (firstB.act lib32 parseB) fs)).2 = .ok () ∧
    after (wholeB.act lib32 parseB) fs ["out".toList, "backtrack_1970-01-01T00-00.nc".toList] =
      some (.file (lib32.showBwd (one 0))) ∧
    after (secondB.act lib32 parseB) (after (firstB.act lib32 parseB) fs) ["out".toList, "backtrack_1970-01-01T00-00.nc".toList] =
      some (.file (lib32.showBwd (two 0))) ∧ two half = one half ∧
    bwdStorageGap grid.a (one 0) (two 0) + bwdFateGap grid.a (one 0) (two 0) ≤
      1 / 2 ^ 24 * (total grid.a (one half).s_track_lower + total grid.a (one half).s_track_upper) +
        2 * (1 / 2 ^ 150) * total grid.a (fun _ (_ : Fin 5) => (1 : ℚ)) := by
  have hg : (bwdSource lib32 (cfg true 0 3600000000 false) fs).grid = grid := grid_eq true 3600000000 (by decide) (by decide)
  have h := C117_backward lib32 first_ok parseB fs (cfg true 0 3600000000 false) rfl DomainDemo.inp
    (served true 3600000000 (by decide) (by decide)) (by show (60 : ℤ) ∣ 1800; decide) DomainDemo.physical
    (by rw [hg]; exact DomainDemo.area_pos) (by show (0 : ℚ) ≤ 3; norm_num) (by rw [hg]; exact calmB)
    (fun h => by cases h) (years true)
    (fun p h => apart h) half ⟨1, le_rfl, by decide, by decide, .inl (by decide)⟩
    (axes true 3600000000 half (by decide) (by decide) (by decide) (by decide)) wholeB firstB secondB
    (ready _ _ _ "a".toList _ _ _ _ rfl (by decide +kernel) rfl)
    (by rw [starting]; exact ready _ _ _ "b".toList _ _ _ _ rfl (by decide +kernel) rfl)
    (by rw [ending, restarting]; exact ready _ _ _ "c".toList _ _ _ _ rfl (by decide +kernel) rfl)
    binary32 accurate32 (fun o _ => readBack32 o)
  obtain ⟨-, -, h2, one, two, h3, h4, h5⟩ := h
  have tE : BackwardOutputTime (cfg true 0 3600000000 false) 0 := ⟨2, by decide, by decide, by decide, .inl (by decide)⟩
  have tB : BackwardOutputTime (cfg true 0 3600000000 false) half := ⟨1, by decide, by decide, by decide, .inl (by decide)⟩
  have e : backwardFile (cfg true 0 3600000000 false) 0 = ["out".toList, "backtrack_1970-01-01T00-00.nc".toList] := by
    decide +kernel
  have h3' := h3 0 tE
  rw [e] at h3'
  refine ⟨one, two, h2, h3'.1, h3'.2, h4 half tB le_rfl, ?_⟩
  have := h5 0 tE (by decide) {0} (by
    intro t ht
    rw [Finset.mem_singleton] at ht
    subst ht
    exact ⟨tE, by decide, le_rfl⟩)
  rw [hg, Finset.sum_singleton] at this
  exact this

end Wam.SplitSingleDemo
