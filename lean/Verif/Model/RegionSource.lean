import Verif.Model.Regions

/-!
# Which regions `mask_with_regionmask` uses

`/repo/src/wam2layers/utils/tagging_region.py:43-90`: the name of the source and the argument `regions`.

SIMPLIFICATIONS: texts are lists of characters; an attribute of `regionmask.defined_regions` that is not a set of
regions (a submodule) counts as missing (the code would fail in line 69); only integers as numbers of regions.
-/

namespace Wam

/-- the sets of regions of the package `regionmask`: attributes of `defined_regions` and of `defined_regions.ar6`,
tagging_region.py:50-66; a set of regions gives one mask per region (`mask_3D`, line 69) -/
structure RegionLibrary where
  defined : List Char → Option (List (ℕ → ℕ → Bool))
  ar6 : List Char → Option (List (ℕ → ℕ → Bool))

/-- the argument `regions`: a number or a list, tagging_region.py:72,86-90 -/
inductive RegionsArg where
  | one (k : ℤ)
  | many (l : List ℤ)

/-- `text.split(".")`, tagging_region.py:51 -/
def splitDot : List Char → List (List Char)
  | [] => [[]]
  | c :: s =>
    if c = '.' then [] :: splitDot s
    else match splitDot s with
      | w :: ws => (c :: w) :: ws
      | [] => [[c]]

/-- `word in text`, tagging_region.py:50,74-76,80 -/
def hasWord (word text : List Char) : Bool := decide (word <:+: text)

/-- the set of regions with its (remaining) name, tagging_region.py:50-66.  Unpacking into two names raises
`ValueError` unless there is exactly one dot. -/
def availableRegions (lib : RegionLibrary) (source : List Char) : Except Err (List Char × List (ℕ → ℕ → Bool)) :=
  if hasWord ['a', 'r', '6'] source then
    match splitDot source with
    | [_, part] =>
      match lib.ar6 part with
      | some masks => .ok (part, masks)
      | none => .error .keyError
    | _ => .error .valueError
  else
    match lib.defined source with
    | some masks => .ok (source, masks)
    | none => .error .keyError

/-- sources that count from one, tagging_region.py:74-79 -/
def countsFromOne (part : List Char) : Bool :=
  hasWord ['s', 'r', 'e', 'x'] part || hasWord ['g', 'i', 'o', 'r', 'g', 'i'] part ||
    hasWord ['p', 'r', 'u', 'd', 'e', 'n', 'c', 'e'] part

/-- `mask_with_regionmask(region_source, regions, ...)` up to the file, tagging_region.py:43-110 -/
def maskWithRegionmask {κ α : Type} [Add α] [Div α] [NpOps α] (lib : RegionLibrary) (latitude longitude : List κ)
    (source : List Char) (regions : RegionsArg) : Except Err (TagFile κ α) :=
  match availableRegions lib source with
  | .error e => .error e
  | .ok (part, masks) =>
    if hasWord ['o', 'c', 'e', 'a', 'n'] part || hasWord ['l', 'a', 'n', 'd'] part then .error .keyError
    else match regions with
      | .one _ => .error .keyError
      | .many l => maskWithRegions latitude longitude masks (countsFromOne part) l

end Wam
