import Verif.Model.Disk

/-!
# What a command may change on disk
-/

namespace Wam.Spec

/-- `fs'` is the file system at some moment of action `a`, started in `fs`: after any number of its changes -/
def Moment {β : Type} (a : Act β) (fs fs' : FileSystem) : Prop :=
  ∃ k, fs' = applyChanges fs ((a fs).1.take k)

/-- Compared with `fs`, all that is different in `fs'` is: new folders out of `D`; files of `W`, new or with
another content.  Nothing is gone, no folder has become a file or the other way round. -/
def ChangedOnly (D W : FPath → Prop) (fs fs' : FileSystem) : Prop :=
  ∀ p, fs' p = fs p ∨ (D p ∧ fs p = none ∧ fs' p = some .dir) ∨
    (W p ∧ fs p ≠ some .dir ∧ ∃ text, fs' p = some (.file text))

/-- the folder itself and those it lies in -/
def OnTheWayTo (folder p : FPath) : Prop := ∃ rest, p ++ rest = folder

/-- `p` is in the folder, or further down -/
def Below (folder p : FPath) : Prop := ∃ rest, rest ≠ [] ∧ p = folder ++ rest

/-- the folders a configuration names: those that are paths, and not addresses -/
def Named (cwd : FPath) (f : Folders) (p : FPath) : Prop :=
  (∃ name, f.preprocessed = .ok (some name) ∧ p = resolve cwd name) ∨
  (∃ name, f.output = .ok name ∧ p = resolve cwd name)

/-- a folder that reading a configuration may make -/
def ConfigFolder (cwd : FPath) (f : Folders) (p : FPath) : Prop := ∃ q, Named cwd f q ∧ OnTheWayTo q p

/-- the log file and the copy of the configuration file in a folder -/
inductive Record (folder : FPath) (stamp : List Char) (name : List Char) : FPath → Prop
  | log : Record folder stamp name (folder ++ ["wam2layers_".toList ++ stamp ++ ".log".toList])
  | config : Record folder stamp name (folder ++ [name])

/-- the files that tracking writes to the output folder -/
inductive TrackFile (c : Calendar) (folder : FPath) : FPath → Prop
  | forward (t : ℤ) : TrackFile c folder
      (folder ++ ["forwardtrack_".toList ++ minuteString (dateTimeOf c t) ++ ".nc".toList])
  | backward (t : ℤ) : TrackFile c folder
      (folder ++ ["backtrack_".toList ++ minuteString (dateTimeOf c t) ++ ".nc".toList])
  | correction (t : ℤ) : TrackFile c folder
      (folder ++ ["debug".toList,
        "stability_correction_".toList ++ stampString (dateTimeOf c t) ++ ".nc".toList])
  | region : TrackFile c folder (folder ++ ["debug".toList, "tagging_region.nc".toList])

/-- the files that preprocessing writes -/
inductive DayFile (c : Calendar) (folder : FPath) : FPath → Prop
  | day (t : ℤ) : DayFile c folder
      (folder ++ [dayString (dateTimeOf c t).date ++ "_fluxes_storages.nc".toList])

/-- the files that visualisation writes -/
inductive FigureFile (folder : FPath) : FPath → Prop
  | figure (name : List Char) : FigureFile folder (folder ++ ["figures".toList, name ++ ".png".toList])

/-- what tracking writes: output, correction fields, a mask -/
def IsTracking : Saving → Prop
  | .output _ _ => True
  | .correction _ _ => True
  | .region _ => True
  | _ => False

/-- what preprocessing writes -/
def IsPreprocessing : Saving → Prop
  | .day _ _ => True
  | _ => False

/-- what visualisation writes -/
def IsFigure : Saving → Prop
  | .figure _ _ => True
  | _ => False

/-- `cfg` is what the settings `s` become: accepted, the folders relative to the current directory -/
def LoadedFrom {ρ : Type} (cwd : FPath) (s : FileSettings ρ) (cfg : Loaded ρ) : Prop :=
  makeConfig s.settings = .ok cfg.config ∧
    (∃ name, s.folders.output = .ok name ∧ cfg.output = resolve cwd name) ∧
    (∃ pre, s.folders.preprocessed = .ok pre ∧ cfg.preprocessed = pre.map (resolve cwd))

/-- The root is a folder and everything lies in a folder. -/
structure WellFormed (fs : FileSystem) : Prop where
  root : fs [] = some .dir
  parent : ∀ p c, fs (p ++ [c]) ≠ none → fs p = some .dir

end Wam.Spec
