import Verif.Spec.IO

/-! # Specification: where the data that are read come from -/

namespace Wam.Spec

/-- in their calendars, the two times show the same date, hour, minute and second -/
def SameLabel (c : Calendar) (t : ℤ) (c' : Calendar) (t' : ℤ) : Prop :=
  (dateTimeOf c t).date = (dateTimeOf c' t').date ∧ (dateTimeOf c t).hour = (dateTimeOf c' t').hour ∧
    (dateTimeOf c t).minute = (dateTimeOf c' t').minute ∧
    (dateTimeOf c t).second = (dateTimeOf c' t').second

/-- the file holds data for the second of `s` exactly once, and these data are `d` -/
def OnlyEntry {κ α : Type} (f : DataFile κ α) (c : Calendar) (s : ℤ) (d : Dataset κ α) : Prop :=
  ∃ l t r, f.entries = l ++ (t, d) :: r ∧ SameLabel f.calendar t c s ∧
    ∀ e ∈ l ++ r, ¬ SameLabel f.calendar e.1 c s

/-- `ds` consists of the variables `vars` of the only data that the file of the day of `s` in folder
`dir` holds for time `s`: all of their grid if there is no box, otherwise cells of it -/
def SliceFrom {κ α : Type} (files : List Char → Except Err (DataFile κ α)) (c : Calendar)
    (dir : List Char) (box : Option (BoundingBox κ)) (vars : List Var) (s : ℤ) (ds : Dataset κ α) :
    Prop :=
  ∃ f d, files (inputPath c s dir) = .ok f ∧ OnlyEntry f c s d ∧ (∀ v ∈ vars, v ∈ d.vars) ∧
    ds.vars = vars ∧ Attached d ds ∧
    (box = none → ds.latitude = d.latitude ∧ ds.longitude = d.longitude ∧ ds.data = d.data)

/-- `ds` is what the files say about time `t`: at a multiple of the frequency the data of that time,
otherwise the linear interpolation between the data of the two multiples around `t` (if these are on
one grid, which is the case the model covers) -/
def ReadFrom {κ K : Type} [Field K] (files : List Char → Except Err (DataFile κ K)) (c : Calendar)
    (dir : List Char) (box : Option (BoundingBox κ)) (freq : ℤ) (vars : List Var) (t : ℤ)
    (ds : Dataset κ K) : Prop :=
  (freq ∣ t ∧ SliceFrom files c dir box vars t ds) ∨
  ∃ s0 s1 d0 d1, freq ∣ s0 ∧ s0 < t ∧ t < s1 ∧ s1 = s0 + freq ∧
    SliceFrom files c dir box vars s0 d0 ∧ SliceFrom files c dir box vars s1 d1 ∧
    ds.vars = vars ∧
    (d0.latitude = d1.latitude → d0.longitude = d1.longitude →
      ds.latitude = d0.latitude ∧ ds.longitude = d0.longitude ∧
      ∀ v i j, ds.data v i j * ((s1 - s0 : ℤ) : K) =
        d0.data v i j * ((s1 - t : ℤ) : K) + d1.data v i j * ((t - s0 : ℤ) : K))

end Wam.Spec
