import Verif.Spec.Disk

/-!
# Commands that are interrupted and given again
-/

namespace Wam.Spec

/-- `fs'` is what attempts at a command leave behind when they are started in `fs`: any number of them, one after the
other, each of them ended at any moment (killed, or with an exception, or complete).  The time stamp is different
for every attempt. -/
inductive Attempts (attempt : List Char → Act Unit) : FileSystem → FileSystem → Prop
  | start (fs : FileSystem) : Attempts attempt fs fs
  | next {fs fs₁ fs₂ : FileSystem} (stamp : List Char) (h : Attempts attempt fs fs₁)
      (hm : Moment (attempt stamp) fs₁ fs₂) : Attempts attempt fs fs₂

/-- the log file of any attempt -/
def LogFile (folder p : FPath) : Prop :=
  ∃ stamp : List Char, p = folder ++ ["wam2layers_".toList ++ stamp ++ ".log".toList]

/-- With configuration `cfg`, the experiment looks only at the files of `reads`. -/
def ReadsOnly {ρ : Type} (experiment : Experiment ρ) (cfg : Loaded ρ) (reads : FPath → Prop) : Prop :=
  ∀ fs₁ fs₂, (∀ p, reads p → fs₁ p = fs₂ p) → experiment cfg fs₁ = experiment cfg fs₂

/-- a folder that attempts may make: on the way to a folder of the configuration, or a subfolder for one of `ss` -/
def MayMake (cwd : FPath) (f : Folders) (folder : FPath) (c : Calendar) (backward : Bool) (ss : List Saving)
    (p : FPath) : Prop :=
  ConfigFolder cwd f p ∨ ∃ x ∈ ss, ∃ sub, (x.place c backward).1 = some sub ∧ p = folder ++ [sub]

/-- a file that attempts may write: a log file, the copy of the configuration file, or one of `ss` -/
def MayWrite (folder : FPath) (name : List Char) (c : Calendar) (backward : Bool) (ss : List Saving)
    (p : FPath) : Prop :=
  LogFile folder p ∨ p = folder ++ [name] ∨ ∃ x ∈ ss, p = x.path c backward folder

/-- the file system when an action has ended -/
def after {β : Type} (a : Act β) (fs : FileSystem) : FileSystem := applyChanges fs (a fs).1

end Wam.Spec
