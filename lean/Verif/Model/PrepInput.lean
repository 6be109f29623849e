import Verif.Model.InputMore
import Verif.Model.Prep

/-!
# Preprocessing one time, from the raw input to the preprocessed data

The body of the loop of `preprocess`, `/repo/src/wam2layers/preprocessing/shared.py:141-218`.
-/

namespace Wam

/-- how the column is divided: `pressure_boundary_factor`, `pressure_boundary_offset` (config.py:458-503) and
`level_layer_boundary` (config.py:440-456) -/
structure LayerConfig (α : Type) where
  factor : α
  offset : α
  boundary : ℤ

section
variable {α : Type} [Add α] [Sub α] [Mul α] [Div α] [NpOps α]

/-- the column computation at a grid cell, preprocessing/shared.py:153-198: pressure levels or model levels.  Model levels
"All" do not get here (`era5LevelType`). -/
def prepCell {κ : Type} (argsort : List α → List ℕ) (lay : LayerConfig α) (cfg : InputConfig)
    (raw : RawInput κ α) (i j : ℕ) : Except Err (LayerSums α) :=
  match cfg.levelType with
  | .pressure_levels => preprocessPressure argsort lay.factor lay.offset (raw.column i j) (raw.surface i j)
      (raw.tcw.map fun g => g i j)
  | .model_levels =>
    match cfg.levels with
    | .list levels => preprocessModel (era5A α) (era5B α) levels lay.boundary (raw.column i j) (raw.surface i j).ps
        (raw.tcw.map fun g => g i j)
    | .all => .error .valueError

variable {κ : Type} [DecidableEq κ] [Add κ] [Sub κ] [NpOps κ] [NpMod κ]

/-- preprocessing of one time with `data_source == "ERA5"`, preprocessing/shared.py:141-218 -/
def prepEra5 [NpExp α] (argsort : List α → List ℕ) (lay : LayerConfig α) (cfg : InputConfig)
    (disk : List Char → Except Err (RawFile κ α)) (t : ℤ) : Except Err (Dataset κ α) := do
  let raw ← getInputEra5 cfg disk t
  prepTime (prepCell argsort lay cfg) raw

/-- preprocessing of one time with `data_source == "CMIP"`, preprocessing/shared.py:141-218 -/
def prepCmip (argsort : List α → List ℕ) (lay : LayerConfig α) (cfg : InputConfig)
    (ord : Listing κ) (glob : List Char → List (RawFile κ α)) (t : ℤ) : Except Err (Dataset κ α) := do
  let raw ← getInputCmip cfg ord glob t
  prepTime (prepCell argsort lay cfg) raw

/-- preprocessing of one time with `data_source == "ARCO"`, preprocessing/shared.py:141-218 -/
def prepArco [NpExp α] (argsort : List α → List ℕ) (lay : LayerConfig α) (cfg : InputConfig)
    (s : ArcoStore κ α) (t : ℤ) : Except Err (Dataset κ α) := do
  let raw ← getInputArco cfg s t
  prepTime (prepCell argsort lay cfg) raw

end

end Wam
