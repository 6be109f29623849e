import Verif.Model.Cli

/-!
# DOIs and names
-/

namespace Wam.Spec

/-- the characters a DOI suffix may consist of -/
def suffixChars : List Char :=
  "-._;()/:ABCDEFGHIJKLMNOPQRSTUVWXYZabcdefghijklmnopqrstuvwxyz0123456789".toList

/-- `10`, one character, 4 to 9 digits -/
structure IsPrefix (p : List Char) : Prop where
  shape : ∃ x digits, x ≠ '\n' ∧ p = '1' :: '0' :: x :: digits ∧
    (∀ c ∈ digits, c.isDigit = true) ∧ 4 ≤ digits.length ∧ digits.length ≤ 9

/-- a non-empty string of allowed characters -/
structure IsSuffix (s : List Char) : Prop where
  nonempty : s ≠ []
  allowed : ∀ c ∈ s, c ∈ suffixChars

/-- `doi` ends in `p/s`, possibly followed by one newline; `before` is what precedes -/
structure EndsInDoi (doi before p s : List Char) : Prop where
  pre : IsPrefix p
  suf : IsSuffix s
  ends : doi = before ++ (p ++ '/' :: s) ∨ doi = before ++ (p ++ '/' :: s) ++ ['\n']

/-- a plain file name inside a folder: relative, one component, not `..` -/
def SimpleName (n : FileName) : Prop :=
  n.absolute = false ∧ ∃ c, n.parts = [c] ∧ c ≠ "..".toList

end Wam.Spec
