import Verif.Model.IO

/-! # Specification of file naming and data loading -/

namespace Wam.Spec

/-- both times lie in the same minute -/
def SameMinute (t t' : ℤ) : Prop := t / 60000000 = t' / 60000000

/-- both times lie in the same second -/
def SameSecond (t t' : ℤ) : Prop := t / 1000000 = t' / 1000000

/-- both times lie on the same day -/
def SameDay (t t' : ℤ) : Prop := t / 86400000000 = t' / 86400000000

instance (t t' : ℤ) : Decidable (SameDay t t') := by unfold SameDay; infer_instance

/-- the year of `t` has at most four digits -/
def FourDigitYear (c : Calendar) (t : ℤ) : Prop :=
  0 ≤ (dateTimeOf c t).date.year ∧ (dateTimeOf c t).date.year < 10000

/-- every cell of `ds'` is a cell of `ds` with the same coordinates and the same data -/
def Attached {κ α : Type*} (ds ds' : Dataset κ α) : Prop :=
  ∀ i j y x, ds'.latitude[i]? = some y → ds'.longitude[j]? = some x →
    ∃ i0 j0, ds.latitude[i0]? = some y ∧ ds.longitude[j0]? = some x ∧
      ∀ v, ds'.data v i j = ds.data v i0 j0

/-- An archive of preprocessed files: for every multiple `s` of the input frequency in `[A, B]` the
file of its day can be read, is in the right calendar, contains only whole-second times of that day,
in increasing order, and holds `weather s` for time `s`. -/
structure Archive {κ α : Type} (files : List Char → Except Err (DataFile κ α)) (c : Calendar)
    (dir : List Char) (freq A B : ℤ) (weather : ℤ → Dataset κ α) : Prop where
  day : ∀ s, A ≤ s → s ≤ B → freq ∣ s → ∃ f, files (inputPath c s dir) = .ok f ∧
    f.calendar = c ∧ (s, weather s) ∈ f.entries ∧ (f.entries.map Prod.fst).Pairwise (· < ·) ∧
    ∀ e ∈ f.entries, SameDay e.1 s ∧ 1000000 ∣ e.1
  year : ∀ s, A ≤ s → s ≤ B → FourDigitYear c s

end Wam.Spec
