import Verif.Model.Disk

/-!
# Downloads on disk: `/repo/src/wam2layers/download.py:47-170`, `/repo/src/wam2layers/cli.py:290-306`,
`/repo/src/wam2layers/example_cases.py:3-6`

An action returns its changes one after the other; the content of a file arrives piece by piece, so that a
crash can leave any beginning of it.

SIMPLIFICATIONS: during one command an address always gives the same answer (the record of the data set is asked
for twice); the bytes of an answer are those that arrive; a name with `..` is resolved from its components;
messages of the log are left out.  What the JSON parser and `threddsclient` make of an answer are inputs.
-/

namespace Wam

/-- an answer of a server: its status code, the content that arrives, and the exception with which the
connection breaks, if it does (download.py:71-73,99-101) -/
structure Reply where
  status : ℕ
  body : List Char
  broken : Option Err
  deriving DecidableEq, Repr

/-- The record of a data set (download.py:103-105,122-125): `custom_fields` with names and values, `files` with names and
addresses. -/
structure Article where
  fields : List (List Char × List (List Char))
  files : List (List Char × List Char)
  deriving DecidableEq, Repr

/-- everything that comes from outside: `requests.get` (download.py:71,99,117), `response.json()` (download.py:101,119),
`threddsclient.download_urls` (download.py:143) -/
structure Web where
  get : List Char → Except Err Reply
  json : List Char → Except Err Article
  catalog : List Char → Except Err (List (List Char))

/-- the address of the record of a data set, download.py:99,117 -/
def articleUrl (uuid : List Char) : List Char := "https://data.4tu.nl/v2/articles/".toList ++ uuid

/-- `requests.get`, `raise_for_status` and `json`, download.py:99-101,117-119 -/
def getArticle (web : Web) (uuid : List Char) : Except Err Article :=
  match web.get (articleUrl uuid) with
  | .error e => .error e
  | .ok r =>
    match r.broken with
    | some e => .error e
    | none =>
      if 400 ≤ r.status ∧ r.status < 600 then .error (.other "HTTPError") else web.json r.body

/-- the loop over `custom_fields`: every field with the name sets the variable, download.py:103-105 -/
def dataLink : Option (List Char) → List (List Char × List (List Char)) → Except Err (Option (List Char))
  | link, [] => .ok link
  | link, (name, values) :: fields =>
    if name = "Data Link".toList then
      match values with
      | [] => .error .indexError
      | v :: _ => dataLink (some v) fields
    else dataLink link fields

/-- `.replace(".html", ".xml")`, download.py:107 -/
def replaceHtml : List Char → List Char
  | '.' :: 'h' :: 't' :: 'm' :: 'l' :: s => '.' :: 'x' :: 'm' :: 'l' :: replaceHtml s
  | c :: s => c :: replaceHtml s
  | [] => []

/-- `get_4tu_catalog(uuid)`, download.py:92-108; a variable that was never set is an `UnboundLocalError` -/
def get4tuCatalog (web : Web) (uuid : List Char) : Except Err (List Char) :=
  match getArticle web uuid with
  | .error e => .error e
  | .ok info =>
    match dataLink none info.fields with
    | .error e => .error e
    | .ok none => .error (.other "UnboundLocalError")
    | .ok (some link) => .ok (replaceHtml link)

/-- `files[name] = url` on a dictionary, which keeps the place of a key it has, download.py:125 -/
def setEntry (d : List (List Char × List Char)) (name url : List Char) : List (List Char × List Char) :=
  if d.any (fun e => e.1 = name) then d.map fun e => if e.1 = name then (name, url) else e
  else d ++ [(name, url)]

/-- `get_4tu_files(uuid)`, download.py:111-127 -/
def get4tuFiles (web : Web) (uuid : List Char) : Except Err (List (List Char × List Char)) :=
  match getArticle web uuid with
  | .error e => .error e
  | .ok info => .ok (info.files.foldl (fun d e => setEntry d e.1 e.2) [])

/-- `text.split("/")`, download.py:66 -/
def splitSlashes : List Char → List (List Char)
  | [] => [[]]
  | c :: s => if c = '/' then [] :: splitSlashes s else
    match splitSlashes s with
    | [] => [[c]]
    | part :: parts => (c :: part) :: parts

/-- `url.split("/")[-1]`, download.py:66 -/
def lastPart (url : List Char) : List Char := (splitSlashes url).getLast?.getD []

/-- a file name as `pathlib` reads it: empty parts and single dots are left out, download.py:68 -/
def fileNameOf (text : List Char) : FileName :=
  ⟨text.head? = some '/', (splitSlashes text).filter fun c => c ≠ [] ∧ c ≠ ".".toList⟩

/-- `open(path, "wb")` and copying what arrives: first an empty file, then longer and longer ones,
download.py:72-73 -/
def stream (p : FPath) (content : List Char) : Act Unit := fun fs =>
  if fs p = some .dir then ([], .error (.other "IsADirectoryError"))
  else match fs p.dropLast with
    | some .dir => (content.inits.map fun x => (p, .file x), .ok ())
    | some (.file _) => ([], .error (.other "NotADirectoryError"))
    | none => ([], .error .fileNotFound)

/-- `download(url, destination, local_filename)`, download.py:63-73; the status of the answer is not
looked at -/
def download (web : Web) (url : List Char) (destination : FPath) (localName : Option (List Char)) :
    Act Unit :=
  match web.get url with
  | .error e => Act.fail e
  | .ok r =>
    Act.bind (stream (resolve destination (fileNameOf (localName.getD (lastPart url)))) r.body) fun _ =>
      endWith r.broken

/-- the loop over the addresses of the catalogue, download.py:144-145 -/
def downloadUrls (web : Web) (destination : FPath) : List (List Char) → Act Unit
  | [] => Act.pure ()
  | url :: urls => Act.bind (download web url destination none) fun _ =>
      downloadUrls web destination urls

/-- the loop over the additional files, download.py:149-151 -/
def downloadFiles (web : Web) (destination : FPath) : List (List Char × List Char) → Act Unit
  | [] => Act.pure ()
  | (name, url) :: files => Act.bind (download web url destination (some name)) fun _ =>
      downloadFiles web destination files

/-- a step that only asks servers: a result or an exception (download.py:137-148) -/
def ask {β : Type} (r : Except Err β) : Act β := fun _ => ([], r)

/-- `download_from_4tu(doi, name)`, download.py:130-151 -/
def downloadFrom4tu (web : Web) (cwd : FPath) (doi name : List Char) : Act Unit :=
  Act.bind (osMkdir (cwd ++ [name])) fun _ =>
  Act.bind (ask (get4tuId doi)) fun id =>
  Act.bind (ask (get4tuCatalog web id)) fun link =>
  Act.bind (ask (web.catalog link)) fun urls =>
  Act.bind (downloadUrls web (cwd ++ [name]) urls) fun _ =>
  Act.bind (ask (get4tuFiles web id)) fun files =>
  downloadFiles web (cwd ++ [name]) files

/-- `download_from_doi(doi, name)`, download.py:154-170 -/
def downloadDoi (web : Web) (cwd : FPath) (doi name : List Char) : Act Unit :=
  match parseDoi doi with
  | .error e => Act.fail e
  | .ok (pre, _) =>
    if pre = "10.4121".toList then downloadFrom4tu web cwd doi name
    else if pre = "10.5281".toList then Act.fail (.other "NotImplementedError")
    else Act.fail .valueError

/-- `AVAILABLE_CASES`, example_cases.py:3-6 -/
def availableCases : List (List Char × List Char) :=
  [("example-input-volta".toList, "10.4121/bbe10a2a-39dc-4098-a69f-0f677d06ecdd.v2".toList),
   ("example-input-eiffel".toList, "10.4121/f9572240-f179-4338-9e1b-82c5598529e2.v1".toList)]

/-- the command `wam2layers download CASE`, cli.py:290-306; `click.Choice` rejects other names -/
def downloadCommand (web : Web) (cwd : FPath) (case : List Char) : Act Unit :=
  match availableCases.find? (fun e => e.1 = case) with
  | none => Act.fail (.other "UsageError")
  | some e => downloadDoi web cwd e.2 case

end Wam
