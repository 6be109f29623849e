import Verif.Model.Disk

/-!
# Exporting a configuration: `Config.to_file`, `/repo/src/wam2layers/config.py:585-609`
-/

namespace Wam

/-- What `to_string` writes, config.py:594-609, as the settings a later `from_yaml` (config.py:506-522) finds in it: dates to the
minute (`toSettings`), folders as the absolute paths that `_expanduser` (config.py:523-530) has made of them.
SIMPLIFICATIONS: a folder that is an address is `none` in a loaded configuration, so an address comes back as "an address"; other
paths (`tagging_region`) are written as they are and are taken to be absolute. -/
def exportSettings {ρ : Type} (cfg : Loaded ρ) : FileSettings ρ :=
  { settings := toSettings cfg.calendar cfg.config
    folders :=
      { preprocessed := .ok (cfg.preprocessed.map fun p => ⟨true, p⟩)
        output := .ok ⟨true, cfg.output⟩ } }

/-- `config.to_file(fname)`, config.py:585-592; `dump` is `json.dumps` of the settings (config.py:604-609) -/
def toFile {ρ : Type} (dump : FileSettings ρ → List Char) (cfg : Loaded ρ) (path : FPath) : Act Unit :=
  save path (dump (exportSettings cfg))

/-- a dictionary of attributes, io.py:167 -/
abbrev Attrs := List (String × List Char)

/-- `attrs[key]` if `key in attrs`, io.py:175-181 -/
def Attrs.get? (attrs : Attrs) (key : String) : Option (List Char) :=
  (attrs.find? fun x => x.1 = key).map fun x => x.2

/-- `get_main_attrs(attrs, config)`, io.py:167-187: the global attributes of an output file; `now` is the time of writing, `version` that
of the package, `text` is `config.to_string()` -/
def getMainAttrs (attrs : Attrs) (backward : Bool) (now version text : List Char) : Attrs :=
  let new_history := "created on ".toList ++ now ++ " using wam2layers version ".toList ++ version ++ "; ".toList
  [("title", "WAM2Layers ".toList ++ (if backward then "backward".toList else "forward".toList) ++ "tracking output file".toList),
   ("history", match attrs.get? "history" with
      | some h => new_history ++ h
      | none => new_history),
   ("source", "Moisture tracking applied to original data; ".toList ++ (attrs.get? "source").getD "UNKNOWN".toList),
   ("references", "doi.org/10.5281/zenodo.7010594, doi.org/10.5194/esd-5-471-2014".toList),
   ("Conventions", "CF-1.6".toList),
   ("WAM2Layers_config", text)]

/-- The global attributes of every output file of a run: `output.attrs = get_main_attrs(output.attrs, config)`, io.py:207, where
`output` was made by `assign_coords` and `expand_dims` (io.py:197-198) from the dataset of the run, which has no attributes
(forwardtrack.py:128-146, backtrack.py:126-144: `xr.Dataset({...})`; a restart copies only values) and is not changed by this. -/
def outputAttrs {ρ : Type} (dump : FileSettings ρ → List Char) (cfg : Loaded ρ) (backward : Bool) (now version : List Char) : Attrs :=
  getMainAttrs [] backward now version (dump (exportSettings cfg))

end Wam
