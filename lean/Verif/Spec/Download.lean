import Verif.Model.Download
import Verif.Spec.Again

/-!
# What a download leaves on disk
-/

namespace Wam.Spec

/-- a name for a file in a folder: not empty, no slash, no `.` and no `..` -/
def PlainName (n : List Char) : Prop := n ≠ [] ∧ '/' ∉ n ∧ n ≠ ".".toList ∧ n ≠ "..".toList

/-- what follows the last slash of an address -/
def AfterLastSlash (url n : List Char) : Prop :=
  '/' ∉ n ∧ (url = n ∨ ∃ before, url = before ++ '/' :: n)

/-- The record of data set `id`: the server answers, not with an error status, and the answer is JSON. -/
def HasRecord (web : Web) (id : List Char) (info : Article) : Prop :=
  ∃ r, web.get ("https://data.4tu.nl/v2/articles/".toList ++ id) = .ok r ∧ r.broken = none ∧
    (r.status < 400 ∨ 600 ≤ r.status) ∧ web.json r.body = .ok info

/-- `link` is the (first) value of the last field named "Data Link"; all of these have a value -/
def HasLink (info : Article) (link : List Char) : Prop :=
  (∀ f ∈ info.fields, f.1 = "Data Link".toList → f.2 ≠ []) ∧
    ∃ pre post more, info.fields = pre ++ ("Data Link".toList, link :: more) :: post ∧
      ∀ f ∈ post, f.1 ≠ "Data Link".toList

/-- the second text is the first one with `.xml` for every `.html` -/
inductive XmlFor : List Char → List Char → Prop
  | same {s : List Char} (h : ¬ ".html".toList <:+: s) : XmlFor s s
  | next {s t u : List Char} (h : ¬ ".html".toList <:+: s) (ht : XmlFor t u) :
      XmlFor (s ++ ".html".toList ++ t) (s ++ ".xml".toList ++ u)

/-- the addresses in the catalogue of data set `id` -/
def HasCatalogue (web : Web) (id : List Char) (urls : List (List Char)) : Prop :=
  ∃ info link xml, HasRecord web id info ∧ HasLink info link ∧ XmlFor link xml ∧ web.catalog xml = .ok urls

/-- a file that a download may write: under what name, from what address -/
def Offered (web : Web) (id n url : List Char) : Prop :=
  (∃ urls, HasCatalogue web id urls ∧ url ∈ urls ∧ AfterLastSlash url n) ∨
    ∃ info, HasRecord web id info ∧ (n, url) ∈ info.files

/-- Among the files in this order, the last one called `n` comes from `url`. -/
def LastNamed (files : List (List Char × List Char)) (n url : List Char) : Prop :=
  ∃ pre post, files = pre ++ (n, url) :: post ∧ ∀ e ∈ post, e.1 ≠ n

/-- the whole content of a file arrives -/
def Arrives (web : Web) (url body : List Char) : Prop := ∃ status, web.get url = .ok ⟨status, body, none⟩

/-- Two webs differ at most in the status codes of their answers, and not in that for the record of `id`. -/
structure SameButStatus (id : List Char) (w v : Web) : Prop where
  json : w.json = v.json
  catalog : w.catalog = v.catalog
  record : w.get ("https://data.4tu.nl/v2/articles/".toList ++ id) =
    v.get ("https://data.4tu.nl/v2/articles/".toList ++ id)
  body : ∀ url r, w.get url = .ok r → ∃ status, v.get url = .ok ⟨status, r.body, r.broken⟩
  error : ∀ url e, w.get url = .error e → v.get url = .error e

end Wam.Spec
