import Verif.Spec.Split
import Verif.Spec.PrepParts

/-!
# A tracking run in any number of commands
-/

namespace Wam.Spec

variable {α : Type}

/-- the configuration of the command that tracks forward up to `B`: from the beginning, or from the file of `A` -/
def forwardPiece (cfg : Loaded (TrackSettings α)) : Option ℤ → ℤ → Loaded (TrackSettings α)
  | none, B => endingAt B cfg
  | some A, B => withRestart true (startingAt A (endingAt B cfg))

/-- the configuration of the command that tracks backward down to `B`: from the end, or from the file of `A` -/
def backwardPiece (cfg : Loaded (TrackSettings α)) : Option ℤ → ℤ → Loaded (TrackSettings α)
  | none, B => startingAt B cfg
  | some A, B => withRestart true (endingAt A (startingAt B cfg))

/-- Everything is ready for the commands: each continues where the one before it stops. -/
def PiecesReady (piece : Option ℤ → ℤ → Loaded (TrackSettings α)) (parse : List Char → Except Err (FileSettings (TrackSettings α)))
    (fs : FileSystem) : Option ℤ → List (TrackCall α × ℤ) → Prop
  | _, [] => True
  | from?, (c, B) :: rest => c.Ready parse fs (piece from? B) ∧ PiecesReady piece parse fs (some B) rest

end Wam.Spec
