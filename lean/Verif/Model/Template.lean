import Verif.Model.Run
import Verif.Model.Calendar
import Mathlib.Data.Nat.Digits.Defs

/-!
# File names of the raw input data

`config.filename_template.format(...)` of `/repo/src/wam2layers/preprocessing/era5.py:90-111` and
`/repo/src/wam2layers/utils/calendar.py:81-83`: Python's `str.format` for the replacement fields that
`Config.filename_template` documents (config.py:74-94).
-/

namespace Wam

/-- the keyword arguments of `template.format`, era5.py:103-111 -/
structure TemplateArgs where
  year : ℤ
  month : ℕ
  day : ℕ
  hour : ℕ
  minute : ℕ
  levtype : List Char
  var : List Char

/-- a piece of a parsed template: literal text, or a replacement field `{name:spec}`,
config.py:74-94 -/
inductive Piece where
  | text (s : List Char)
  | field (name spec : List Char)
  deriving DecidableEq

/-- where the parser of `str.format` is: in literal text, in a field name, in a format specification,
era5.py:103 -/
inductive ParseMode where
  | text
  | name (acc : List Char)
  | spec (name acc : List Char)

/-- The parser of `str.format`, era5.py:103: `{{` and `}}` are braces, `{name}` and `{name:spec}`
are replacement fields, a single brace is a `ValueError`.  The template is parsed before the fields are filled in (Python
does both at once: with several mistakes it reports the first).  Not modelled: conversions (`!r`), attribute
access, indexing and nested fields; they count as part of the name or end in an error. -/
def parseTemplate : ParseMode → List Char → Except Err (List Piece)
  | .text, [] => .ok []
  | .text, '{' :: '{' :: rest => do return .text ['{'] :: (← parseTemplate .text rest)
  | .text, '}' :: '}' :: rest => do return .text ['}'] :: (← parseTemplate .text rest)
  | .text, '{' :: rest => parseTemplate (.name []) rest
  | .text, '}' :: _ => .error .valueError
  | .text, c :: rest => do return .text [c] :: (← parseTemplate .text rest)
  | .name _, [] => .error .valueError
  | .name acc, '}' :: rest => do return .field acc [] :: (← parseTemplate .text rest)
  | .name acc, ':' :: rest => parseTemplate (.spec acc []) rest
  | .name _, '{' :: _ => .error .valueError
  | .name acc, c :: rest => parseTemplate (.name (acc ++ [c])) rest
  | .spec _ _, [] => .error .valueError
  | .spec name acc, '}' :: rest => do return .field name acc :: (← parseTemplate .text rest)
  | .spec _ _, '{' :: _ => .error .valueError
  | .spec name acc, c :: rest => parseTemplate (.spec name (acc ++ [c])) rest

/-- `str(n)` for a natural number, era5.py:103-111 -/
def natString (n : ℕ) : List Char := if n = 0 then ['0'] else ((Nat.digits 10 n).map digit).reverse

/-- `format(n, "0<width>")`: zeros in front up to the given width, era5.py:103-111 -/
def padString (width : ℕ) (s : List Char) : List Char := List.replicate (width - s.length) '0' ++ s

/-- the width of a format specification `0w` or `0wd` with one digit `w` (config.py:85), `none` for any other
one, which is not modelled -/
def specWidth : List Char → Option ℕ
  | [] => some 0
  | ['0', w] => if w.isDigit then some (w.toNat - 48) else none
  | ['0', w, 'd'] => if w.isDigit then some (w.toNat - 48) else none
  | _ => none

/-- a natural number as argument, era5.py:103-111 -/
def formatNat (n : ℕ) (spec : List Char) : Except Err (List Char) :=
  match specWidth spec with
  | some w => .ok (padString w (natString n))
  | none => .error (.other "format specification not modelled")

/-- a string argument; a `0w` specification of a string is not modelled, era5.py:103-111 -/
def formatStr (s : List Char) (spec : List Char) : Except Err (List Char) :=
  if spec = [] then .ok s else .error (.other "format specification not modelled")

/-- one piece of `template.format(year=..., ..., variable=...)`, era5.py:103-111; an unknown name is a `KeyError` -/
def renderPiece (a : TemplateArgs) : Piece → Except Err (List Char)
  | .text s => .ok s
  | .field name spec =>
    if name = "year".toList then
      -- SIMPLIFICATION: negative years are not modelled
      if a.year < 0 then .error (.other "negative year") else formatNat a.year.toNat spec
    else if name = "month".toList then formatNat a.month spec
    else if name = "day".toList then formatNat a.day spec
    else if name = "hour".toList then formatNat a.hour spec
    else if name = "minute".toList then formatNat a.minute spec
    else if name = "levtype".toList then formatStr a.levtype spec
    else if name = "variable".toList then formatStr a.var spec
    else .error .keyError

/-- all pieces one after the other, era5.py:103-111 -/
def renderPieces (a : TemplateArgs) : List Piece → Except Err (List Char)
  | [] => .ok []
  | p :: ps => do return (← renderPiece a p) ++ (← renderPieces a ps)

/-- `template.format(...)`, era5.py:103-111 -/
def formatTemplate (template : List Char) (a : TemplateArgs) : Except Err (List Char) := do
  renderPieces a (← parseTemplate .text template)

/-- the raw variables of ERA5 that have levels, era5.py:93,119 -/
def levelVariables : List String := ["u", "v", "q"]

/-- the arguments `load_data` passes to `template.format`, era5.py:92-111; `pressure` says whether
`config.level_type` is `"pressure_levels"` -/
def era5Args (c : Calendar) (pressure : Bool) (var : String) (t : ℤ) : TemplateArgs :=
  let d := dateTimeOf c t
  { year := d.date.year, month := d.date.month, day := d.date.day, hour := d.hour, minute := d.minute
    levtype := if var ∈ levelVariables then (if pressure then "_pl".toList else "_ml".toList) else []
    var := var.toList }

end Wam
