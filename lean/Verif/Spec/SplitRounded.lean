import Verif.Spec.SplitMany
import Verif.Spec.Contract
import Verif.Spec.Accuracy
import Verif.Model.Files

/-!
# A tracking run in any number of commands, with rounded files
-/

namespace Wam.Spec

section
variable {m n : ℕ} {K : Type} [Field K] [LinearOrder K]

/-- the water that rounding can add to or take from the tracked storage of `o`: the fraction `u` of it, and the underflow `η` in each layer of each cell -/
def fwdRoundingOf (u η : K) (a : Fin (m + 2) → K) (o : FwdOutput (m + 2) (n + 2) K) : K :=
  u * (total a o.s_track_lower + total a o.s_track_upper) + 2 * η * total a (fun _ (_ : Fin (n + 2)) => (1 : K))

def bwdRoundingOf (u η : K) (a : Fin (m + 2) → K) (o : BwdOutput (m + 2) (n + 2) K) : K :=
  u * (total a o.s_track_lower + total a o.s_track_upper) + 2 * η * total a (fun _ (_ : Fin (n + 2)) => (1 : K))

end

section
variable {m n : ℕ} {K : Type} [Field K] [LinearOrder K] [IsStrictOrderedRing K] [NpTrig K]

/-- Each command's last file, read back when the command has ended, gives its numbers rounded. -/
def ForwardReadsRounded (lib : Library m n K) (parse : List Char → Except Err (FileSettings (TrackSettings K)))
    (cfg : Loaded (TrackSettings K)) (R : Rounding K) : FileSystem → List (TrackCall K × ℤ) → Prop
  | _, [] => True
  | fs, (c, B) :: rest =>
    (∀ o, after (c.act lib parse) fs (forwardFile cfg B) = some (.file (lib.showFwd o)) →
      lib.readFwd (lib.showFwd o) = some (o.cast R.rnd)) ∧
    ForwardReadsRounded lib parse cfg R (after (c.act lib parse) fs) rest

def BackwardReadsRounded (lib : Library m n K) (parse : List Char → Except Err (FileSettings (TrackSettings K)))
    (cfg : Loaded (TrackSettings K)) (R : Rounding K) : FileSystem → List (TrackCall K × ℤ) → Prop
  | _, [] => True
  | fs, (c, B) :: rest =>
    (∀ o, after (c.act lib parse) fs (backwardFile cfg B) = some (.file (lib.showBwd o)) →
      lib.readBwd (lib.showBwd o) = some (o.cast R.rnd)) ∧
    BackwardReadsRounded lib parse cfg R (after (c.act lib parse) fs) rest

end

end Wam.Spec
