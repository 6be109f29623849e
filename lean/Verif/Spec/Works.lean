import Verif.Spec.PrepCommand

/-!
# Nothing stands in the way of a command
-/

namespace Wam.Spec

/-- Nothing stands in the way of a command that is given with the configuration file `name` in folder `dir` and writes `ss` to
folder `F`: there is no file where it wants a folder, no folder where it writes a file, and it does not write where it wants a
folder, nor over its own configuration file. -/
structure NothingInTheWay (cwd : FPath) (f : Folders) (dir : FPath) (name : List Char) (F : FPath) (stamp : List Char)
    (c : Calendar) (backward : Bool) (ss : List Saving) (fs : FileSystem) : Prop where
  wf : WellFormed fs
  folders : ∀ p, MayMake cwd f F c backward ss p → ∀ text, fs p ≠ some (.file text)
  files : ∀ p, Record F stamp name p ∨ (∃ x ∈ ss, p = x.path c backward F) → fs p ≠ some .dir
  apart : ∀ p, MayMake cwd f F c backward ss p → ¬ (Record F stamp name p ∨ ∃ x ∈ ss, p = x.path c backward F)
  own : ¬ (Record F stamp name (dir ++ [name]) ∨ ∃ x ∈ ss, dir ++ [name] = x.path c backward F)

/-- There is room for the output of `track`, given with the configuration file `stem.yaml` in folder `dir`: no file where a folder of
the configuration or its `debug` folder should be, no folder with the name of one of its files; the configuration file and the
folders of the configuration are not in the output folder. -/
structure RoomForTracking {ρ : Type} (cwd : FPath) (s : FileSettings ρ) (cfg : Loaded ρ) (dir : FPath) (stem stamp : List Char)
    (fs : FileSystem) : Prop where
  wf : WellFormed fs
  folders : ∀ p, ConfigFolder cwd s.folders p → ∀ text, fs p ≠ some (.file text)
  debug : ∀ text, fs (cfg.output ++ ["debug".toList]) ≠ some (.file text)
  files : ∀ p, Record cfg.output stamp (stem ++ ".yaml".toList) p ∨ TrackFile cfg.calendar cfg.output p → fs p ≠ some .dir
  apart : ∀ p, ConfigFolder cwd s.folders p → ¬ Below cfg.output p
  own : ¬ Below cfg.output (dir ++ [stem ++ ".yaml".toList])

/-- the same for `preprocess`, which writes to folder `F` -/
structure RoomForPreprocessing {ρ : Type} (cwd : FPath) (s : FileSettings ρ) (cfg : Loaded ρ) (dir : FPath) (F : FPath)
    (stem stamp : List Char) (fs : FileSystem) : Prop where
  wf : WellFormed fs
  folders : ∀ p, ConfigFolder cwd s.folders p → ∀ text, fs p ≠ some (.file text)
  files : ∀ p, Record F stamp (stem ++ ".yaml".toList) p ∨ DayFile cfg.calendar F p → fs p ≠ some .dir
  apart : ∀ p, ConfigFolder cwd s.folders p → ¬ Below F p
  own : ¬ Below F (dir ++ [stem ++ ".yaml".toList])

end Wam.Spec
