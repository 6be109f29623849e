import Verif.Props.Split
import Verif.Props.CommandDemo
import Mathlib.Data.Rat.Encodable
import Mathlib.Data.Countable.Basic

/-! # C115 on an example

An hour in two time steps, on the data of the demonstration of C100; in two parts, of one time step each. -/

set_option linter.unusedSectionVars false
set_option linter.unusedVariables false

namespace Wam.SplitDemo
open Spec

local instance : NpTrig ℚ := DomainDemo.trig

/-! ### Files that can be read back -/

theorem countable_arr (m n : ℕ) : Countable (Arr m n ℚ) := by
  unfold Arr
  have : Countable (Fin n → ℚ) := inferInstance
  exact inferInstance

theorem codes (β : Type) [Countable β] : ∃ (shw : β → List Char) (read : List Char → Option β), ∀ o, read (shw o) = some o := by
  obtain ⟨f, hf⟩ := exists_injective_nat β
  classical
  refine ⟨fun o => List.replicate (f o) 'a', fun text => if h : ∃ o, text = List.replicate (f o) 'a' then some h.choose else none, ?_⟩
  intro o
  have h : ∃ o', List.replicate (f o) 'a' = List.replicate (f o') 'a' := ⟨o, rfl⟩
  simp only
  rw [dif_pos h]
  have := congrArg List.length h.choose_spec
  rw [List.length_replicate, List.length_replicate] at this
  rw [← hf this]

instance : Countable (FwdOutput 5 5 ℚ) := by
  have := countable_arr 5 5
  refine Function.Injective.countable (β := Fin 7 → Arr 5 5 ℚ) (f := fun o => ![o.s_track_upper, o.s_track_lower, o.p_track_upper,
    o.p_track_lower, o.tagged_evap, o.losses, o.gains]) ?_
  intro a b h
  have e := fun k => congrFun h k
  have e0 := e 0; have e1 := e 1; have e2 := e 2; have e3 := e 3; have e4 := e 4; have e5 := e 5; have e6 := e 6
  cases a; cases b
  simp only [Matrix.cons_val] at e0 e1 e2 e3 e4 e5 e6
  simp only [FwdOutput.mk.injEq]
  exact ⟨e0, e1, e2, e3, e4, e5, e6⟩

instance : Countable (BwdOutput 5 5 ℚ) := by
  have := countable_arr 5 5
  refine Function.Injective.countable (β := Fin 6 → Arr 5 5 ℚ) (f := fun o => ![o.s_track_upper, o.s_track_lower, o.e_track,
    o.tagged_precip, o.losses, o.gains]) ?_
  intro a b h
  have e := fun k => congrFun h k
  have e0 := e 0; have e1 := e 1; have e2 := e 2; have e3 := e 3; have e4 := e 4; have e5 := e 5
  cases a; cases b
  simp only [Matrix.cons_val] at e0 e1 e2 e3 e4 e5
  simp only [BwdOutput.mk.injEq]
  exact ⟨e0, e1, e2, e3, e4, e5⟩

noncomputable def lib : Library 3 3 ℚ where
  readData _ := .ok ⟨.standard, [(0, DomainDemo.data), (3600000000, DomainDemo.data)]⟩
  remote _ := .error .fileNotFound
  readTag _ := .error .valueError
  first _ := none
  mask _ _ := .error .valueError
  showMask _ := []
  showCorrection _ := "c".toList
  showFwd := (codes (FwdOutput 5 5 ℚ)).choose
  readFwd := (codes (FwdOutput 5 5 ℚ)).choose_spec.choose
  showBwd := (codes (BwdOutput 5 5 ℚ)).choose
  readBwd := (codes (BwdOutput 5 5 ℚ)).choose_spec.choose

theorem readFwd (o : FwdOutput 5 5 ℚ) : lib.readFwd (lib.showFwd o) = some o := (codes _).choose_spec.choose_spec o
theorem readBwd (o : BwdOutput 5 5 ℚ) : lib.readBwd (lib.showBwd o) = some o := (codes _).choose_spec.choose_spec o
theorem first_ok : ∀ q name, lib.first q = some name → q name = true := fun _ _ h => by cases h

/-! ### Configurations -/

def fs : FileSystem := fun p =>
  if p = [] ∨ p = ["in".toList] then some .dir
  else if p = ["a.yaml".toList] then some (.file "a".toList)
  else if p = ["b.yaml".toList] then some (.file "b".toList)
  else if p = ["c.yaml".toList] then some (.file "c".toList)
  else if p = ["in".toList, "1970-01-01_fluxes_storages.nc".toList] then some (.file "d".toList)
  else none

def half : ℤ := 1800000000

def settings (backward restart : Bool) : TrackSettings ℚ :=
  { backward := backward, timestep := 1800, input_frequency := 3600000000, output_frequency := 1800000000, kvf := 3
    periodic_boundary := false, restart := restart, tracking_domain := none
    tagging_region := .box ⟨5, 50, 5, 50⟩ }

def file (backward : Bool) (start stop : ℤ) (restart : Bool) : FileSettings (TrackSettings ℚ) :=
  { settings := { calendar := none
                  dates := fun
                    | .tracking_start_date => some (.date start)
                    | .tracking_end_date => some (.date stop)
                    | .tagging_start_date => some (.date 0)
                    | .tagging_end_date => some (.date 3600000000)
                    | .preprocess_start_date => some (.date 0)
                    | .preprocess_end_date => some (.date 3600000000)
                  rest := .ok (settings backward restart) }
    folders := { preprocessed := .ok (some ⟨true, ["in".toList]⟩), output := .ok ⟨true, ["out".toList]⟩ } }

def cfg (backward : Bool) (start stop : ℤ) (restart : Bool) : Loaded (TrackSettings ℚ) :=
  { config := { dates := fun
                  | .tracking_start_date => start
                  | .tracking_end_date => stop
                  | .tagging_start_date => 0
                  | .tagging_end_date => 3600000000
                  | .preprocess_start_date => 0
                  | .preprocess_end_date => 3600000000
                calendar := "standard".toList
                rest := settings backward restart }
    preprocessed := some ["in".toList]
    output := ["out".toList] }

theorem ending (b r : Bool) (x y z : ℤ) : endingAt z (cfg b x y r) = cfg b x z r := by
  have : (fun f => if f = .tracking_end_date then z else (cfg b x y r).config.dates f) = (cfg b x z r).config.dates := by
    funext f
    cases f <;> rfl
  unfold endingAt
  rw [this]
  rfl

theorem starting (b r : Bool) (x y z : ℤ) : startingAt z (cfg b x y r) = cfg b z y r := by
  have : (fun f => if f = .tracking_start_date then z else (cfg b x y r).config.dates f) = (cfg b z y r).config.dates := by
    funext f
    cases f <;> rfl
  unfold startingAt
  rw [this]
  rfl

theorem restarting (b r : Bool) (x y : ℤ) : withRestart true (cfg b x y r) = cfg b x y true := rfl

theorem loaded (b : Bool) (x y : ℤ) (r : Bool) (h : makeConfig (file b x y r).settings = .ok (cfg b x y r).config) :
    LoadedFrom [] (file b x y r) (cfg b x y r) := ⟨h, ⟨_, rfl, rfl⟩, ⟨_, rfl, rfl⟩⟩

/-- the call with the file `stem.yaml` -/
def call (stem stamp : List Char) (b : Bool) (x y : ℤ) (r : Bool) : TrackCall ℚ := ⟨[], [], stem, stamp, file b x y r⟩

theorem wellFormed : WellFormed fs where
  root := rfl
  parent := by
    intro p c h
    have one : ∀ x : List Char, p ++ [c] = [x] → fs p = some .dir := by
      intro x hx
      have : p = [] := by
        have := congrArg List.length hx
        simp at this
        exact this
      subst this; rfl
    unfold fs at h
    split at h
    · next hc =>
      rcases hc with hc | hc
      · exact absurd hc (by simp)
      · exact one _ hc
    · split at h
      · next hc => exact one _ hc
      · split at h
        · next hc => exact one _ hc
        · split at h
          · next hc => exact one _ hc
          · split at h
            · next hc =>
              have : p = ["in".toList] := by
                rw [show ["in".toList, "1970-01-01_fluxes_storages.nc".toList] = ["in".toList] ++
                  ["1970-01-01_fluxes_storages.nc".toList] from rfl] at hc
                exact (List.append_inj' hc rfl).1
              subst this; rfl
            · exact absurd rfl h

theorem folders_short {b : Bool} {x y : ℤ} {r : Bool} {p : FPath} (h : ConfigFolder [] (file b x y r).folders p) :
    p = [] ∨ p = ["in".toList] ∨ p = ["out".toList] := TrackDemo.folders_short (b := b) h

theorem input {b : Bool} {x y : ℤ} {r : Bool} {p : FPath} (h : TrackInput (cfg b x y r) p) :
    (∃ name, p = ["in".toList, name]) ∨ ∃ name, p = ["out".toList, name ++ ".nc".toList] := by
  cases h with
  | data pre t h =>
    injection h with h
    subst h
    exact .inl ⟨_, rfl⟩
  | tag _ h => cases h
  | shape _ h => cases h
  | axes _ _ _ _ h => cases h
  | forward h => exact .inr ⟨_, rfl⟩
  | backward h => exact .inr ⟨_, rfl⟩

theorem plain {b : Bool} {x y : ℤ} {r : Bool} {p : FPath} (h : TrackInput (withRestart false (cfg b x y r)) p) :
    ∃ name, p = ["in".toList, name] := by
  cases h with
  | data pre t h =>
    injection h with h
    subst h
    exact ⟨_, rfl⟩
  | tag _ h => cases h
  | shape _ h => cases h
  | axes _ _ _ _ h => cases h
  | forward h => cases h
  | backward h => cases h

theorem apart {b : Bool} {x y : ℤ} {r : Bool} {p : FPath} (h : TrackInput (withRestart false (cfg b x y r)) p) :
    ¬ Below ["out".toList] p := by
  obtain ⟨name, rfl⟩ := plain h
  intro h
  obtain ⟨a, r, h⟩ := TrackDemo.below_out h
  injection h with h _
  exact absurd h (by decide +kernel)

theorem ready (parse : List Char → Except Err (FileSettings (TrackSettings ℚ))) (stem stamp text : List Char) (b : Bool) (x y : ℤ)
    (r : Bool) (hxy : makeConfig (file b x y r).settings = .ok (cfg b x y r).config) (hf : fs [stem ++ ".yaml".toList] = some (.file text)) (hp : parse text = .ok (file b x y r)) :
    (call stem stamp b x y r).Ready parse fs (cfg b x y r) where
  given := ⟨⟨text, hf, hp⟩, loaded b x y r hxy, yaml_ne_log _ _⟩
  input := by
    intro p h
    constructor
    · intro h'
      rcases input h with ⟨name, rfl⟩ | ⟨name, rfl⟩ <;> rcases folders_short h' with h | h | h <;>
        exact absurd (congrArg List.length h) (by simp)
    · intro h'
      rcases input h with ⟨name, rfl⟩ | ⟨name, rfl⟩
      · generalize hq : ["in".toList, name] = q at h'
        rcases h' with _ | _ <;>
        · injection hq with hq _
          exact absurd hq (by decide +kernel)
      · generalize hq : ["out".toList, name ++ ".nc".toList] = q at h'
        rcases h' with _ | _
        · injection hq with _ hq
          injection hq with hq
          exact nc_ne_log _ _ hq
        · injection hq with _ hq
          injection hq with hq
          have h2 := congrArg List.getLast? hq
          rw [show ".nc".toList = ['.', 'n'] ++ ['c'] from rfl] at h2
          have h3 : (call stem stamp b x y r).stem ++ ".yaml".toList = (stem ++ ['.', 'y', 'a', 'm']) ++ ['l'] := by
            show stem ++ (['.', 'y', 'a', 'm'] ++ ['l']) = _
            rw [List.append_assoc]
          rw [h3, ← List.append_assoc, List.getLast?_concat, List.getLast?_concat] at h2
          injection h2 with h2
          revert h2
          decide
  room :=
    { wf := wellFormed
      folders := by
        intro p h text'
        rcases folders_short h with rfl | rfl | rfl
        · exact fun h => by cases h
        · have : fs ["in".toList] = some .dir := by decide +kernel
          show fs ["in".toList] ≠ _
          rw [this]; simp
        · show fs ["out".toList] ≠ _
          have : fs ["out".toList] = none := by decide +kernel
          rw [this]; simp
      debug := by
        intro text'
        have : fs ["out".toList, "debug".toList] = none := by decide +kernel
        show fs ["out".toList, "debug".toList] ≠ _
        rw [this]; simp
      files := by
        intro p h
        have hb : Below ["out".toList] p := by
          rcases h with h | h
          · cases h <;> exact ⟨_, by simp, rfl⟩
          · exact below_of_trackFile h
        obtain ⟨a, q, rfl⟩ := TrackDemo.below_out hb
        unfold fs
        rw [if_neg (by rintro (h | h) <;> exact absurd (congrArg List.length h) (by simp))]
        split
        · simp
        · split
          · simp
          · split
            · simp
            · split <;> simp
      apart := by
        intro p h h'
        obtain ⟨a, q, rfl⟩ := TrackDemo.below_out h'
        rcases folders_short h with h | h | h <;> exact absurd (congrArg List.length h) (by simp)
      own := by
        intro h
        obtain ⟨a, q, h⟩ := TrackDemo.below_out h
        exact absurd (congrArg List.length h) (by simp [call]) }

/-! ### The data -/

theorem read (b : Bool) (x y : ℤ) (r : Bool) (sub : Subset) :
    readSlice (dataFiles lib (cfg b x y r) fs) (sliceKey (cfg b x y r).ioConfig 0 sub) =
      .ok { DomainDemo.data with vars := sub.variables } ∧
    readSlice (dataFiles lib (cfg b x y r) fs) (sliceKey (cfg b x y r).ioConfig 3600000000 sub) =
      .ok { DomainDemo.data with vars := sub.variables } := by
  have key : ∀ t, t = 0 ∨ t = 3600000000 → dataFiles lib (cfg b x y r) fs (sliceKey (cfg b x y r).ioConfig t sub).filename =
      .ok ⟨.standard, [(0, DomainDemo.data), (3600000000, DomainDemo.data)]⟩ := by
    intro t ht
    have : fs ["in".toList, (sliceKey (cfg b x y r).ioConfig t sub).filename.drop 1] = some (.file "d".toList) := by
      have hn : (sliceKey (cfg b x y r).ioConfig t sub).filename.drop 1 = "1970-01-01_fluxes_storages.nc".toList := by
        show (inputPath .standard t []).drop 1 = _
        rcases ht with rfl | rfl <;> decide +kernel
      rw [hn]
      decide +kernel
    show (match fs ["in".toList, (sliceKey (cfg b x y r).ioConfig t sub).filename.drop 1] with
      | some (.file text) => lib.readData text
      | _ => .error .fileNotFound) = _
    rw [this]
    rfl
  have time0 : selectTime ⟨.standard, [(0, DomainDemo.data), (3600000000, DomainDemo.data)]⟩
      (isoSecondString (dateTimeOf .standard 0)) = .ok DomainDemo.data := rfl
  have time1 : selectTime ⟨.standard, [(0, DomainDemo.data), (3600000000, DomainDemo.data)]⟩
      (isoSecondString (dateTimeOf .standard 3600000000)) = .ok DomainDemo.data := rfl
  have vars : DomainDemo.data.getVars sub.variables = .ok { DomainDemo.data with vars := sub.variables } := by cases sub <;> rfl
  constructor
  · unfold readSlice
    rw [key 0 (.inl rfl)]
    have ht : (sliceKey (cfg b x y r).ioConfig 0 sub).time = isoSecondString (dateTimeOf .standard 0) := rfl
    have hs : (sliceKey (cfg b x y r).ioConfig 0 sub).subset = sub := rfl
    have hb : (sliceKey (cfg b x y r).ioConfig 0 sub).bbox = none := rfl
    simp only [bind, Except.bind]
    rw [ht, time0, hs, hb]
    simp only []
    rw [vars]
    rfl
  · unfold readSlice
    rw [key _ (.inr rfl)]
    have ht : (sliceKey (cfg b x y r).ioConfig 3600000000 sub).time = isoSecondString (dateTimeOf .standard 3600000000) := rfl
    have hs : (sliceKey (cfg b x y r).ioConfig 3600000000 sub).subset = sub := rfl
    have hb : (sliceKey (cfg b x y r).ioConfig 3600000000 sub).bbox = none := rfl
    simp only [bind, Except.bind]
    rw [ht, time1, hs, hb]
    simp only []
    rw [vars]
    rfl

theorem load (b : Bool) (x y : ℤ) (r : Bool) (sub : Subset) (t : ℤ) (h0 : 0 ≤ t) (h1 : t ≤ 3600000000) :
    loadData (dataFiles lib (cfg b x y r) fs) (cfg b x y r).ioConfig t sub =
      .ok { DomainDemo.data with vars := sub.variables } := by
  have hfr : (cfg b x y r).ioConfig.input_frequency = 3600000000 := rfl
  unfold loadData loadDataWith
  by_cases e0 : t = 0
  · subst e0
    rw [if_pos (.inl (by rw [hfr]; decide))]
    exact (read b x y r sub).1
  by_cases e1 : t = 3600000000
  · subst e1
    rw [if_pos (.inl (by rw [hfr]; decide))]
    exact (read b x y r sub).2
  have hf : floorTime t (cfg b x y r).ioConfig.input_frequency = 0 := by rw [hfr]; unfold floorTime; omega
  have hc : ceilTime t (cfg b x y r).ioConfig.input_frequency = 3600000000 := by rw [hfr]; unfold ceilTime; omega
  rw [hf, hc, if_neg (by omega)]
  simp only [(read b x y r sub).1, (read b x y r sub).2, bind, Except.bind, pure, Except.pure, Dataset.lerp, sub_self, mul_zero,
    add_zero]

theorem served (b : Bool) (t : ℤ) (ht : 0 ≤ t) (ht' : t ≤ 3600000000) :
    Runnable (cfg b 0 3600000000 false).runConfig (experimentSource (m := 3) (n := 3) (dataFiles lib (cfg b 0 3600000000 false) fs)
      (cfg b 0 3600000000 false).ioConfig (taggingOf lib (cfg b 0 3600000000 false) fs) t) DomainDemo.inp where
  timestep_pos := by show (0 : ℤ) < 1800; decide
  ordered := by show (0 : ℤ) ≤ 3600000000; decide
  serves :=
    { states := fun t h0 h1 => by
        show (loadData _ _ t .states).map Dataset.toStates = _
        rw [load _ _ _ _ _ t h0 h1]
        rfl
      fluxes := fun t h0 h1 => by
        show (loadData _ _ t .fluxes).map Dataset.toFluxes = _
        rw [load _ _ _ _ _ t h0 h1]
        rfl
      region := by
        refine ⟨.stationary (DomainDemo.inp.region 0), ?_, fun t _ _ => rfl⟩
        unfold experimentSource archiveSource
        simp only
        rw [load b 0 3600000000 false .states t ht ht']
        have : taggingOf lib (cfg b 0 3600000000 false) fs = DomainDemo.tag := rfl
        rw [this]
        unfold DomainDemo.tag trackingRegion
        simp only
        congr 2
        funext i j
        revert i j
        decide +kernel }

theorem axes (b : Bool) (t u : ℤ) (ht : 0 ≤ t) (ht' : t ≤ 3600000000) (hu : 0 ≤ u) (hu' : u ≤ 3600000000) :
    SameAxes lib (cfg b 0 3600000000 false) fs t u :=
  ⟨_, _, load b 0 3600000000 false .states t ht ht', load b 0 3600000000 false .states u hu hu', rfl, rfl⟩

theorem years (b : Bool) : ∀ t, 0 ≤ t → t ≤ 3600000000 → FourDigitYear (cfg b 0 3600000000 false).calendar t := by
  intro t h0 h1
  have hy : FourDigitYear .standard 0 := by unfold FourDigitYear; decide +kernel
  have : (cfg b 0 3600000000 false).calendar = .standard := by cases b <;> decide +kernel
  rw [this]
  exact FourDigitYear.sameDay hy (by unfold SameDay; omega)

def parseF (text : List Char) : Except Err (FileSettings (TrackSettings ℚ)) :=
  if text = "a".toList then .ok (file false 0 3600000000 false)
  else if text = "b".toList then .ok (file false 0 half false)
  else .ok (file false half 3600000000 true)

def parseB (text : List Char) : Except Err (FileSettings (TrackSettings ℚ)) :=
  if text = "a".toList then .ok (file true 0 3600000000 false)
  else if text = "b".toList then .ok (file true half 3600000000 false)
  else .ok (file true 0 half true)

def wholeF := call "a".toList "T".toList false 0 3600000000 false
def firstF := call "b".toList "T".toList false 0 half false
def secondF := call "c".toList "U".toList false half 3600000000 true

/-- C115_forward, with C115_same_output_forward: output after half an hour and after an hour -/
example : (secondF.act lib parseF (after (firstF.act lib parseF) fs)).2 = .ok () ∧
    (∃ o, after (wholeF.act lib parseF) fs ["out".toList, "forwardtrack_1970-01-01T00-30.nc".toList] = some (.file (lib.showFwd o)) ∧
      after (secondF.act lib parseF) (after (firstF.act lib parseF) fs) ["out".toList, "forwardtrack_1970-01-01T00-30.nc".toList] =
        some (.file (lib.showFwd o))) ∧
    ∃ o, after (wholeF.act lib parseF) fs ["out".toList, "forwardtrack_1970-01-01T01-00.nc".toList] = some (.file (lib.showFwd o)) ∧
      after (secondF.act lib parseF) (after (firstF.act lib parseF) fs) ["out".toList, "forwardtrack_1970-01-01T01-00.nc".toList] =
        some (.file (lib.showFwd o)) := by
  have h := C115_forward lib first_ok parseF fs (cfg false 0 3600000000 false) rfl DomainDemo.inp
    (served false 0 (by decide) (by decide)) (by show (60 : ℤ) ∣ 1800; decide) (fun h => by cases h) (years false)
    (fun p h => apart h) half ⟨1, le_rfl, by decide, by decide, .inl (by decide)⟩
    (axes false 0 half (by decide) (by decide) (by decide) (by decide)) wholeF firstF secondF
    (ready _ _ _ "a".toList _ _ _ _ rfl (by decide +kernel) rfl)
    (by rw [ending]; exact ready _ _ _ "b".toList _ _ _ _ rfl (by decide +kernel) rfl)
    (by rw [starting, restarting]; exact ready _ _ _ "c".toList _ _ _ _ rfl (by decide +kernel) rfl)
    (fun o _ => readFwd o)
  refine ⟨h.2.2.1, ?_, ?_⟩
  · have := h.2.2.2 half ⟨1, le_rfl, by decide, by decide, .inl (by decide)⟩
    have e : forwardFile (cfg false 0 3600000000 false) half = ["out".toList, "forwardtrack_1970-01-01T00-30.nc".toList] := by
      decide +kernel
    rwa [e] at this
  · have := h.2.2.2 3600000000 ⟨2, by decide, by decide, by decide, .inl (by decide)⟩
    have e : forwardFile (cfg false 0 3600000000 false) 3600000000 = ["out".toList, "forwardtrack_1970-01-01T01-00.nc".toList] := by
      decide +kernel
    rwa [e] at this

def wholeB := call "a".toList "T".toList true 0 3600000000 false
def firstB := call "b".toList "T".toList true half 3600000000 false
def secondB := call "c".toList "U".toList true 0 half true

/-- C115_backward, with C115_same_output_backward -/
example : (secondB.act lib parseB (after (firstB.act lib parseB) fs)).2 = .ok () ∧
    (∃ o, after (wholeB.act lib parseB) fs ["out".toList, "backtrack_1970-01-01T00-30.nc".toList] = some (.file (lib.showBwd o)) ∧
      after (secondB.act lib parseB) (after (firstB.act lib parseB) fs) ["out".toList, "backtrack_1970-01-01T00-30.nc".toList] =
        some (.file (lib.showBwd o))) ∧
    ∃ o, after (wholeB.act lib parseB) fs ["out".toList, "backtrack_1970-01-01T00-00.nc".toList] = some (.file (lib.showBwd o)) ∧
      after (secondB.act lib parseB) (after (firstB.act lib parseB) fs) ["out".toList, "backtrack_1970-01-01T00-00.nc".toList] =
        some (.file (lib.showBwd o)) := by
  have h := C115_backward lib first_ok parseB fs (cfg true 0 3600000000 false) rfl DomainDemo.inp
    (served true 3600000000 (by decide) (by decide)) (by show (60 : ℤ) ∣ 1800; decide) (fun h => by cases h) (years true)
    (fun p h => apart h) half ⟨1, le_rfl, by decide, by decide, .inl (by decide)⟩
    (axes true 3600000000 half (by decide) (by decide) (by decide) (by decide)) wholeB firstB secondB
    (ready _ _ _ "a".toList _ _ _ _ rfl (by decide +kernel) rfl)
    (by rw [starting]; exact ready _ _ _ "b".toList _ _ _ _ rfl (by decide +kernel) rfl)
    (by rw [ending, restarting]; exact ready _ _ _ "c".toList _ _ _ _ rfl (by decide +kernel) rfl)
    (fun o _ => readBwd o)
  refine ⟨h.2.2.1, ?_, ?_⟩
  · have := h.2.2.2 half ⟨1, le_rfl, by decide, by decide, .inl (by decide)⟩
    have e : backwardFile (cfg true 0 3600000000 false) half = ["out".toList, "backtrack_1970-01-01T00-30.nc".toList] := by
      decide +kernel
    rwa [e] at this
  · have := h.2.2.2 0 ⟨2, by decide, by decide, by decide, .inl (by decide)⟩
    have e : backwardFile (cfg true 0 3600000000 false) 0 = ["out".toList, "backtrack_1970-01-01T00-00.nc".toList] := by
      decide +kernel
    rwa [e] at this

end Wam.SplitDemo
