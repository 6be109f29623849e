import Verif.Model.Run

/-!
# Output files in single precision

`/repo/src/wam2layers/tracking/io.py:190-218`: `write_output` converts every variable to float32 before it
writes the file, and a restart reads the file.  `c` is the conversion of one number (for float32: rounding
to nearest, `Lemmas/Ieee.binary32`).
-/

namespace Wam

variable {m n : ℕ} {α : Type*} {P : Type*}

/-- `output[var] = output[var].astype("float32")` for every variable, io.py:215-217 -/
def FwdOutput.cast (c : α → α) (o : FwdOutput m n α) : FwdOutput m n α :=
  { s_track_upper := fun i j => c (o.s_track_upper i j)
    s_track_lower := fun i j => c (o.s_track_lower i j)
    p_track_upper := fun i j => c (o.p_track_upper i j)
    p_track_lower := fun i j => c (o.p_track_lower i j)
    tagged_evap := fun i j => c (o.tagged_evap i j)
    losses := fun i j => c (o.losses i j)
    gains := fun i j => c (o.gains i j) }

/-- the same for the output of a backward run, io.py:215-217 -/
def BwdOutput.cast (c : α → α) (o : BwdOutput m n α) : BwdOutput m n α :=
  { s_track_upper := fun i j => c (o.s_track_upper i j)
    s_track_lower := fun i j => c (o.s_track_lower i j)
    e_track := fun i j => c (o.e_track i j)
    tagged_precip := fun i j => c (o.tagged_precip i j)
    losses := fun i j => c (o.losses i j)
    gains := fun i j => c (o.gains i j) }

/-- Content of the output folder after a forward run has written its files: each write is
`write_output`, io.py:190-218 -/
def saveFwd [DecidableEq P] (c : α → α) (path : ℤ → P) (disk : P → Option (FwdOutput m n α))
    (files : List (ℤ × FwdOutput m n α)) : P → Option (FwdOutput m n α) :=
  writeFiles path disk (files.map fun x => (x.1, x.2.cast c))

/-- the same for a backward run, io.py:190-218 -/
def saveBwd [DecidableEq P] (c : α → α) (path : ℤ → P) (disk : P → Option (BwdOutput m n α))
    (files : List (ℤ × BwdOutput m n α)) : P → Option (BwdOutput m n α) :=
  writeFiles path disk (files.map fun x => (x.1, x.2.cast c))

end Wam
