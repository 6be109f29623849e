import Verif.Props.Download

/-!
# C119 on an example: two files in the catalogue, two additional files, one of them with the name of a file in the
catalogue, one of them a 404 page
-/

namespace Wam
open Spec

namespace DownloadDemo

def url1 : List Char := "https://opendap.4tu.nl/volta/1.nc".toList
def url2 : List Char := "https://opendap.4tu.nl/volta/2.nc".toList
def url3 : List Char := "https://data.4tu.nl/file/77".toList
def url4 : List Char := "https://data.4tu.nl/file/78".toList
def recordUrl : List Char := "https://data.4tu.nl/v2/articles/bbe1".toList
def xmlUrl : List Char := "https://opendap.4tu.nl/volta/catalog.xml".toList

def info : Article where
  fields := [("Data Link".toList, ["old.html".toList]), ("Format".toList, []),
    ("Data Link".toList, ["https://opendap.4tu.nl/volta/catalog.html".toList, "more".toList])]
  files := [("config.yaml".toList, url3), ("2.nc".toList, url4)]

def web : Web where
  get := fun url =>
    if url = recordUrl then .ok ⟨200, "record".toList, none⟩
    else if url = url1 then .ok ⟨200, "first".toList, none⟩
    else if url = url2 then .ok ⟨200, "second".toList, none⟩
    else if url = url3 then .ok ⟨404, "<html>not found</html>".toList, none⟩
    else if url = url4 then .ok ⟨200, "better".toList, none⟩
    else .error (.other "ConnectionError")
  json := fun text => if text = "record".toList then .ok info else .error .valueError
  catalog := fun url => if url = xmlUrl then .ok [url1, url2] else .error (.other "HTTPError")

def body (url : List Char) : List Char :=
  if url = url1 then "first".toList else if url = url2 then "second".toList
  else if url = url3 then "<html>not found</html>".toList else "better".toList

def doi : List Char := "https://doi.org/10.4121/bbe1.v2".toList

/-- a home directory with a file in it -/
def fs : FileSystem := fun p =>
  if p = [] ∨ p = ["home".toList] then some .dir
  else if p = ["home".toList, "thesis".toList] then some (.file "mine".toList)
  else none

theorem fs_wellFormed : WellFormed fs where
  root := rfl
  parent := by
    intro p c h
    unfold fs at h
    split at h
    · next hp =>
      rcases hp with hp | hp
      · simp at hp
      · cases p with
        | nil => rfl
        | cons x p => exact absurd (congrArg List.length hp) (by simp)
    split at h
    · next hp =>
      match p, hp with
      | [], hp => exact absurd (congrArg List.length hp) (by simp)
      | [x], hp =>
        have : x = "home".toList := by
          have := congrArg List.head? hp
          simpa using this
        subst this; rfl
      | x :: y :: p, hp => exact absurd (congrArg List.length hp) (by simp)
    · exact absurd rfl h

theorem record : HasRecord web "bbe1".toList info :=
  ⟨⟨200, "record".toList, none⟩, by decide +kernel, rfl, Or.inl (by decide), by decide +kernel⟩

theorem link : HasLink info "https://opendap.4tu.nl/volta/catalog.html".toList := by
  refine ⟨by decide +kernel, [("Data Link".toList, ["old.html".toList]), ("Format".toList, [])], [],
    ["more".toList], rfl, by simp⟩

def listed : List (List Char × List Char) := [("1.nc".toList, url1), ("2.nc".toList, url2)]

theorem catalogue : HasCatalogue web "bbe1".toList (listed.map (·.2)) := by
  refine ⟨info, _, xmlUrl, record, link, ?_, by decide +kernel⟩
  exact XmlFor.next (s := "https://opendap.4tu.nl/volta/catalog".toList) (t := []) (u := [])
    (by decide +kernel) (.same (by decide +kernel))

theorem listed_ok : ∀ e ∈ listed, AfterLastSlash e.2 e.1 ∧ PlainName e.1 ∧ Arrives web e.2 (body e.2) := by
  intro e he
  simp only [listed, List.mem_cons, List.not_mem_nil, or_false] at he
  rcases he with rfl | rfl
  · exact ⟨⟨by decide, Or.inr ⟨"https://opendap.4tu.nl/volta".toList, by decide +kernel⟩⟩,
      ⟨by decide, by decide, by decide, by decide⟩, 200, by decide +kernel⟩
  · exact ⟨⟨by decide, Or.inr ⟨"https://opendap.4tu.nl/volta".toList, by decide +kernel⟩⟩,
      ⟨by decide, by decide, by decide, by decide⟩, 200, by decide +kernel⟩

theorem files_ok : ∀ e ∈ info.files, PlainName e.1 ∧ Arrives web e.2 (body e.2) := by
  intro e he
  simp only [info, List.mem_cons, List.not_mem_nil, or_false] at he
  rcases he with rfl | rfl
  · exact ⟨⟨by decide, by decide, by decide, by decide⟩, 404, by decide +kernel⟩
  · exact ⟨⟨by decide, by decide, by decide, by decide⟩, 200, by decide +kernel⟩

/-- the hypotheses of `C119_complete` hold -/
theorem complete : (downloadDoi web ["home".toList] doi "volta".toList fs).2 = .ok () ∧
    after (downloadDoi web ["home".toList] doi "volta".toList) fs
      ["home".toList, "volta".toList, "1.nc".toList] = some (.file "first".toList) := by
  have h := C119_complete web ["home".toList] doi "volta".toList "bbe1.v2".toList "bbe1".toList fs
    fs_wellFormed rfl (by decide +kernel) (by decide +kernel) (by decide +kernel) info record listed catalogue body
    listed_ok files_ok
  exact ⟨h.1, h.2.2.1 "1.nc".toList url1
    ⟨[], [("2.nc".toList, url2), ("config.yaml".toList, url3), ("2.nc".toList, url4)], rfl, by decide +kernel⟩⟩

/-- the additional file replaces that of the catalogue -/
example : after (downloadDoi web ["home".toList] doi "volta".toList) fs
    ["home".toList, "volta".toList, "2.nc".toList] = some (.file "better".toList) := by decide +kernel

/-- the error page has become the configuration file, and the command ends normally -/
example : after (downloadDoi web ["home".toList] doi "volta".toList) fs
      ["home".toList, "volta".toList, "config.yaml".toList] = some (.file "<html>not found</html>".toList) ∧
    (downloadDoi web ["home".toList] doi "volta".toList fs).2 = .ok () := by decide +kernel

example : after (downloadDoi web ["home".toList] doi "volta".toList) fs ["home".toList, "thesis".toList] =
    some (.file "mine".toList) := by decide +kernel

/-- `C119_moments`: killed while the first file arrives -/
example : ∃ fs', Moment (downloadDoi web ["home".toList] doi "volta".toList) fs fs' ∧
    fs' ["home".toList, "volta".toList, "1.nc".toList] = some (.file "fir".toList) ∧
    fs' ["home".toList, "volta".toList, "2.nc".toList] = none :=
  ⟨_, ⟨5, rfl⟩, by decide +kernel, by decide +kernel⟩

/-- the condition of `C119_moments` holds -/
example : ∀ id info, get4tuId doi = .ok id → HasRecord web id info → ∀ e ∈ info.files, '/' ∉ e.1 := by
  intro id info' hid hr e he
  have hid' : id = "bbe1".toList := by
    have : get4tuId doi = .ok "bbe1".toList := by decide +kernel
    rw [this] at hid
    injection hid with hid
    exact hid.symm
  subst hid'
  have h1 := (getArticle_iff _ _ _).2 hr
  rw [(getArticle_iff _ _ _).2 record] at h1
  injection h1 with h1
  subst h1
  exact (files_ok e he).1.2.1

/-- `C119_not_resumed`: after that, the command fails -/
example : downloadDoi web ["home".toList] doi "volta".toList
      (applyChanges fs ((downloadDoi web ["home".toList] doi "volta".toList fs).1.take 5)) =
    ([], .error (.other "FileExistsError")) := by
  refine C119_not_resumed web web ["home".toList] doi "volta".toList fs _ ⟨5, rfl⟩ ?_
  intro h
  have := congrFun h ["home".toList, "volta".toList]
  revert this
  decide +kernel

/-- `C119_status_ignored`: the same web with the right status for the page -/
def web200 : Web := { web with
  get := fun url => match web.get url with
    | .error e => .error e
    | .ok r => .ok ⟨200, r.body, r.broken⟩ }

example : downloadDoi web ["home".toList] doi "volta".toList = downloadDoi web200 ["home".toList] doi "volta".toList :=
  C119_status_ignored web web200 _ _ _ "bbe1".toList (by decide +kernel)
    ⟨rfl, rfl, by decide +kernel, fun url r h => ⟨200, by unfold web200; simp only; rw [h]⟩,
      fun url e h => by unfold web200; simp only; rw [h]⟩

/-- `C119_no_link` -/
def webNoLink : Web := { web with json := fun _ => .ok { info with fields := [("Format".toList, [])] } }

example : downloadDoi webNoLink ["home".toList] doi "volta".toList fs =
    ([(["home".toList, "volta".toList], .dir)], .error (.other "UnboundLocalError")) :=
  C119_no_link webNoLink _ _ _ "bbe1.v2".toList "bbe1".toList fs rfl (by decide +kernel) (by decide +kernel)
    (by decide +kernel) _ ⟨⟨200, "record".toList, none⟩, by decide +kernel, rfl, Or.inl (by decide), rfl⟩
    (by decide +kernel)

/-- `C119_target_there`: a file of that name stops the download -/
example : ∃ e, downloadDoi web ["home".toList] doi "thesis".toList fs = ([], .error e) :=
  C119_target_there _ _ _ _ _ (by decide +kernel)

/-! ### A record with a name that leads out of the folder -/

def infoBad : Article := { info with files := [("../thesis".toList, url4)] }

def webBad : Web := { web with json := fun text => if text = "record".toList then .ok infoBad else .error .valueError }

theorem recordBad : HasRecord webBad "bbe1".toList infoBad :=
  ⟨⟨200, "record".toList, none⟩, by decide +kernel, rfl, Or.inl (by decide), by decide +kernel⟩

theorem catalogueBad : HasCatalogue webBad "bbe1".toList (listed.map (·.2)) := by
  refine ⟨infoBad, _, xmlUrl, recordBad, link, ?_, by decide +kernel⟩
  exact XmlFor.next (s := "https://opendap.4tu.nl/volta/catalog".toList) (t := []) (u := [])
    (by decide +kernel) (.same (by decide +kernel))

/-- C119_names_not_checked: the thesis is gone -/
example : after (downloadDoi webBad ["home".toList] doi "volta".toList) fs ["home".toList, "thesis".toList] =
    some (.file "better".toList) :=
  (C119_names_not_checked webBad ["home".toList] doi "volta".toList "bbe1.v2".toList "bbe1".toList fs
    fs_wellFormed rfl (by decide +kernel) (by decide +kernel) (by decide +kernel) infoBad recordBad listed catalogueBad body
    listed_ok "thesis".toList url4 ⟨by decide, by decide, by decide, by decide⟩ ⟨200, by decide +kernel⟩ _ (by decide)
    (.inl ⟨rfl, rfl⟩) (by decide +kernel)).2

end DownloadDemo

end Wam
