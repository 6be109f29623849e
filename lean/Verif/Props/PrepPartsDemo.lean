import Verif.Props.PrepParts
import Verif.Props.WorksDemo

/-! # C116 on an example

Two days in steps of six hours. -/

set_option linter.unusedSectionVars false
set_option linter.unusedVariables false

namespace Wam.PrepPartsDemo
open Spec

/-- three configuration files and raw data -/
def fs : FileSystem := fun p =>
  if p = [] then some .dir
  else if p = ["a.yaml".toList] then some (.file "a".toList)
  else if p = ["b.yaml".toList] then some (.file "b".toList)
  else if p = ["c.yaml".toList] then some (.file "c".toList)
  else if p = ["raw".toList] then some (.file "r".toList)
  else none

def file (start stop : ℤ) : FileSettings Unit :=
  { settings := { calendar := none
                  dates := fun
                    | .tracking_start_date => some (.date 0)
                    | .tracking_end_date => some (.date 3600000000)
                    | .tagging_start_date => some (.date 0)
                    | .tagging_end_date => some (.date 3600000000)
                    | .preprocess_start_date => some (.date start)
                    | .preprocess_end_date => some (.date stop)
                  rest := .ok () }
    folders := { preprocessed := .ok (some ⟨true, ["in".toList]⟩), output := .ok ⟨true, ["out".toList]⟩ } }

def cfg (start stop : ℤ) : Loaded Unit :=
  { config := { dates := fun
                  | .tracking_start_date => 0
                  | .tracking_end_date => 3600000000
                  | .tagging_start_date => 0
                  | .tagging_end_date => 3600000000
                  | .preprocess_start_date => start
                  | .preprocess_end_date => stop
                calendar := "standard".toList
                rest := () }
    preprocessed := some ["in".toList]
    output := ["out".toList] }

def call (stem stamp : List Char) (start stop : ℤ) : PrepCall Unit := ⟨[], [], stem, stamp, file start stop, cfg start stop⟩

/-- six hours -/
def freq (_ : Unit) : ℤ := 21600000000

/-- one number for each time, if `/raw` is there -/
def compute (_ : Loaded Unit) (fs : FileSystem) (t : ℤ) : Except Err (Dataset ℤ ℤ) :=
  match fs ["raw".toList] with
  | some (.file _) => .ok ⟨[0], [0], [.precip], fun _ _ _ => t / 21600000000⟩
  | _ => .error .fileNotFound

/-- a file with one digit for each time: the number of that time -/
def shw (f : DataFile ℤ ℤ) : List Char := f.entries.map fun e => Char.ofNat (48 + (e.2.data .precip 0 0).toNat)

theorem looks (cfg : Loaded Unit) : LooksOnlyAt (compute cfg) (· = ["raw".toList]) := by
  intro fs₁ fs₂ h
  funext t
  unfold compute
  rw [h _ rfl]

theorem wellFormed : WellFormed fs where
  root := rfl
  parent := by
    intro p c h
    have one : ∀ x : List Char, p ++ [c] = [x] → fs p = some .dir := by
      intro x hx
      have : p = [] := by
        have := congrArg List.length hx
        simp at this
        exact this
      subst this; rfl
    unfold fs at h
    split at h
    · next hc => exact absurd hc (by simp)
    · split at h
      · next hc => exact one _ hc
      · split at h
        · next hc => exact one _ hc
        · split at h
          · next hc => exact one _ hc
          · split at h
            · next hc => exact one _ hc
            · exact absurd rfl h

theorem folders_short {x y : ℤ} {p : FPath} (h : ConfigFolder [] (file x y).folders p) :
    p = [] ∨ p = ["in".toList] ∨ p = ["out".toList] := WorksDemo.folders_short (b := false) h

theorem folders_above {x y : ℤ} {a : List Char} {p : FPath} (h : ConfigFolder [] (file x y).folders p) : ¬ Below [a] p :=
  WorksDemo.folders_above (b := false) h

theorem fs_long {p : FPath} (h : 2 ≤ p.length) : fs p = none := by
  unfold fs
  rw [if_neg (by rintro rfl; simp at h), if_neg (by rintro rfl; simp at h), if_neg (by rintro rfl; simp at h),
    if_neg (by rintro rfl; simp at h), if_neg (by rintro rfl; simp at h)]

theorem ready (parse : List Char → Except Err (FileSettings Unit)) (stem stamp text : List Char) (x y : ℤ)
    (hxy : makeConfig (file x y).settings = .ok (cfg x y).config) (hf : fs [stem ++ ".yaml".toList] = some (.file text))
    (hp : parse text = .ok (file x y)) :
    (call stem stamp x y).Ready parse (· = ["raw".toList]) ["in".toList] .standard fs where
  given := ⟨⟨text, hf, hp⟩, ⟨hxy, ⟨_, rfl, rfl⟩, ⟨_, rfl, rfl⟩⟩, yaml_ne_log _ _⟩
  folder := rfl
  calendar := rfl
  raw := by
    rintro p rfl
    refine ⟨?_, WorksDemo.short_not_below⟩
    intro h
    rcases folders_short h with h | h | h
    · cases h
    · injection h with h; exact absurd h (by decide +kernel)
    · injection h with h; exact absurd h (by decide +kernel)
  room :=
    { wf := wellFormed
      folders := by
        intro p h text
        rcases folders_short h with rfl | rfl | rfl
        · show some Node.dir ≠ _; simp
        · have : fs ["in".toList] = none := by decide +kernel
          rw [this]; simp
        · have : fs ["out".toList] = none := by decide +kernel
          rw [this]; simp
      files := by
        intro p h
        rw [fs_long (WorksDemo.below_two (x := "in".toList) (h.elim WorksDemo.record_below WorksDemo.day_below))]
        simp
      apart := fun p h => folders_above h
      own := WorksDemo.short_not_below }

/-- `a.yaml` is for both days, `b.yaml` for the first one, `c.yaml` for the second one -/
def parse (text : List Char) : Except Err (FileSettings Unit) :=
  if text = "a".toList then .ok (file 0 151200000000)
  else if text = "b".toList then .ok (file 0 64800000000)
  else .ok (file 86400000000 151200000000)

def whole := call "a".toList "S".toList 0 151200000000
def first := call "b".toList "T".toList 0 64800000000
def second := call "c".toList "U".toList 86400000000 151200000000

def act := PrepCall.act shw freq compute (fun _ => false) parse

theorem years : ∀ t ∈ whole.times freq, FourDigitYear .standard t := by
  unfold FourDigitYear
  decide +kernel

theorem whole_ends : (act whole fs).2 = .ok () := by
  unfold act PrepCall.act
  exact (C112_preprocess shw freq compute (fun _ => false) parse [] [] "a".toList "S".toList fs (file 0 151200000000)
    (cfg 0 151200000000) ["in".toList] (ready parse "a".toList "S".toList "a".toList _ _ rfl (by decide +kernel) rfl).given rfl
    (· = ["raw".toList]) (looks _)
    (fun p hp => ⟨((ready parse "a".toList "S".toList "a".toList 0 151200000000 rfl (by decide +kernel) rfl).raw p hp).1,
      fun h => ((ready parse "a".toList "S".toList "a".toList 0 151200000000 rfl (by decide +kernel) rfl).raw p hp).2
        (WorksDemo.record_below h)⟩)
    (ready parse "a".toList "S".toList "a".toList _ _ rfl (by decide +kernel) rfl).room).1.2 (by decide +kernel)

/-- C116_two_commands, with C116_parts, C116_cut and C116_last: the second day first -/
example : ∀ l, l = [first, second] ∨ l = [second, first] → AllEnd (l.map act) fs ∧
    ∀ t ∈ whole.times freq, ∃ f, HoldsDay .standard (compute whole.cfg fs) (whole.times freq) t f ∧
      after (act whole) fs (preprocessedFile ["in".toList] .standard t) = some (.file (shw f)) ∧
      afterAll (l.map act) fs (preprocessedFile ["in".toList] .standard t) = some (.file (shw f)) := by
  intro l hl
  have hmem : ∀ x ∈ whole :: l, x = whole ∨ x = first ∨ x = second := by
    intro x hx
    rcases hl with rfl | rfl <;> simp at hx <;> tauto
  refine C116_two_commands shw freq compute (fun _ => false) parse (· = ["raw".toList]) ["in".toList] .standard whole first second l hl fs
    (fun x _ => looks _) ?_ (fun x _ => rfl) 0 64800000000 151200000000 21600000000 (by decide) 3 (by decide) (by decide) (by decide)
    rfl rfl rfl (by decide +kernel) years whole_ends
  intro x hx
  rcases hmem x hx with rfl | rfl | rfl
  · exact ready parse _ _ "a".toList _ _ rfl (by decide +kernel) rfl
  · exact ready parse _ _ "b".toList _ _ rfl (by decide +kernel) rfl
  · exact ready parse _ _ "c".toList _ _ rfl (by decide +kernel) rfl

/-- the files: four times each -/
example : after (act whole) fs ["in".toList, "1970-01-01_fluxes_storages.nc".toList] = some (.file "0123".toList) ∧
    afterAll ([second, first].map act) fs ["in".toList, "1970-01-01_fluxes_storages.nc".toList] = some (.file "0123".toList) ∧
    after (act whole) fs ["in".toList, "1970-01-02_fluxes_storages.nc".toList] = some (.file "4567".toList) ∧
    afterAll ([second, first].map act) fs ["in".toList, "1970-01-02_fluxes_storages.nc".toList] = some (.file "4567".toList) := by
  decide +kernel

/-! ### A cut at noon -/

def parseN (text : List Char) : Except Err (FileSettings Unit) :=
  if text = "b".toList then .ok (file 0 21600000000) else .ok (file 43200000000 151200000000)

def morning := call "b".toList "T".toList 0 21600000000
def rest := call "c".toList "U".toList 43200000000 151200000000

theorem noon_ends : AllEnd ([morning, rest].map (PrepCall.act shw freq compute (fun _ => false) parseN)) fs := by
  refine ⟨?_, ?_, trivial⟩ <;> decide +kernel

/-- C116_cut_day_is_lost: 00:00 is not in the file -/
example : ∃ f, afterAll ([morning, rest].map (PrepCall.act shw freq compute (fun _ => false) parseN)) fs
    (preprocessedFile ["in".toList] .standard 0) = some (.file (shw f)) ∧ ∀ e ∈ f.entries, e.1 ≠ 0 := by
  have hmem : ∀ x ∈ [morning, rest], x = morning ∨ x = rest := by
    intro x hx
    simpa using hx
  refine C116_cut_day_is_lost shw freq compute (fun _ => false) parseN (· = ["raw".toList]) ["in".toList] .standard morning rest fs
    (fun x _ => looks _) ?_ noon_ends ?_ 0 43200000000 (by decide +kernel) (by decide +kernel) (by decide) (by decide +kernel)
  · intro x hx
    rcases hmem x hx with rfl | rfl
    · exact ready parseN _ _ "b".toList _ _ rfl (by decide +kernel) rfl
    · exact ready parseN _ _ "c".toList _ _ rfl (by decide +kernel) rfl
  · unfold FourDigitYear
    decide +kernel

example : afterAll ([morning, rest].map (PrepCall.act shw freq compute (fun _ => false) parseN)) fs
    ["in".toList, "1970-01-01_fluxes_storages.nc".toList] = some (.file "23".toList) := by decide +kernel

end Wam.PrepPartsDemo
