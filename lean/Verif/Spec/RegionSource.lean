import Verif.Model.RegionSource

/-! # Specification: names of sets of regions -/

namespace Wam.Spec

/-- `source` names the set of regions `masks`; `part` is the name without what precedes a dot.  Names with "ar6" are
looked up among the AR6 sets by what follows the only dot, other names among all sets. -/
inductive NamesRegions (lib : RegionLibrary) : List Char → List Char → List (ℕ → ℕ → Bool) → Prop
  | ar6 (before part masks) : "ar6".toList <:+: (before ++ '.' :: part) → '.' ∉ before → '.' ∉ part →
      lib.ar6 part = some masks → NamesRegions lib (before ++ '.' :: part) part masks
  | plain (source masks) : ¬ "ar6".toList <:+: source → lib.defined source = some masks →
      NamesRegions lib source source masks

/-- sets of regions that are refused: anything with "land" or "ocean" in the name -/
def Refused (part : List Char) : Prop := "ocean".toList <:+: part ∨ "land".toList <:+: part

/-- sets of regions whose numbers start at one -/
def FromOne (part : List Char) : Prop :=
  "srex".toList <:+: part ∨ "giorgi".toList <:+: part ∨ "prudence".toList <:+: part

end Wam.Spec
