import Verif.Model.Concurrent
import Verif.Spec.PrepCommand

/-!
# Commands that run at the same time
-/

namespace Wam.Spec

/-- a command given by a user, with all that it depends on: how configuration files are read, the current
directory, the configuration file (`name` in folder `dir`), the time of the call, and the experiment -/
structure Job where
  ρ : Type
  parse : List Char → Except Err (FileSettings ρ)
  cwd : FPath
  dir : FPath
  name : List Char
  stamp : List Char
  backward : ρ → Bool
  folder : Loaded ρ → Option FPath
  experiment : Experiment ρ

/-- the command as a process, one call of the operating system after the other -/
def Job.process (j : Job) : Process Unit :=
  commandProc j.parse j.cwd (j.dir ++ [j.name]) j.stamp j.backward j.folder j.experiment

/-- the command when nothing else runs -/
def Job.alone (j : Job) : Act Unit :=
  command j.parse j.cwd (j.dir ++ [j.name]) j.stamp j.backward j.folder j.experiment

/-- what a command is given with, when it starts in `fs`: its settings, the configuration, the folder it writes to (one of those
its configuration names), and the files its experiment looks at.  Its configuration file is not below the folder it
writes to. -/
structure Job.Given (j : Job) (fs : FileSystem) (s : FileSettings j.ρ) (cfg : Loaded j.ρ) (F : FPath) (reads : FPath → Prop) :
    Prop where
  given : GivenWith j.parse j.cwd j.dir j.name j.stamp fs s cfg
  folder : j.folder cfg = some F
  named : Named j.cwd s.folders F
  reads : ReadsOnly j.experiment cfg reads
  own : ¬ Below F (j.dir ++ [j.name])

/-- what a command may change: everything below its folder, and the folders of its configuration that are missing -/
def Mine (cwd : FPath) (f : Folders) (F : FPath) (fs : FileSystem) (p : FPath) : Prop :=
  Below F p ∨ (ConfigFolder cwd f p ∧ fs p = none)

/-- what a command needs: its configuration file, the folders of its configuration, the input of its experiment -/
def Needs (cwd : FPath) (f : Folders) (file : FPath) (reads : FPath → Prop) (p : FPath) : Prop :=
  p = file ∨ ConfigFolder cwd f p ∨ reads p

/-- Commands that are apart, when they start in `fs`: none of them may change what another one may change or needs. -/
def Apart {ι : Type} (cwd : ι → FPath) (f : ι → Folders) (F : ι → FPath) (file : ι → FPath) (reads : ι → FPath → Prop)
    (fs : FileSystem) : Prop :=
  ∀ i j, i ≠ j → ∀ p, Mine (cwd i) (f i) (F i) fs p →
    ¬ Mine (cwd j) (f j) (F j) fs p ∧ ¬ Needs (cwd j) (f j) (file j) (reads j) p

/-- the file system after commands that are given one after the other -/
def inTurn : List Job → FileSystem → FileSystem
  | [], fs => fs
  | j :: js, fs => inTurn js (after j.alone fs)

end Wam.Spec
