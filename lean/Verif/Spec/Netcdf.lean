import Verif.Model.Netcdf

/-!
# What a netCDF file of preprocessed data says
-/

namespace Wam.Spec

variable {α : Type}

/-- what is read from variable `name` at position `idx` -/
def reads (file : NcFile α) (name : String) (idx : List ℕ) : Option (Value α) :=
  match file.vars name with
  | none => none
  | some v => decodeValue v.units (v.data idx)

/-- the position along dimension `dim` of variable `name` in `idx` -/
def along (file : NcFile α) (name dim : String) (idx : List ℕ) : ℕ :=
  match file.vars name with
  | none => 0
  | some v => idx.getD (v.dims.idxOf dim) 0

/-- The file holds the times and data of `f`: one position along `time` for each entry, with its date and, on the grid, its data.
All entries are on the same grid, that of the file. -/
structure Represents (file : NcFile α) (f : DataFile α α) (vars : List Var) (lat lon : List α) : Prop where
  lengths : file.length "time" = f.entries.length ∧ file.length "latitude" = lat.length ∧ file.length "longitude" = lon.length
  latitude : ∀ (i : ℕ) (h : i < lat.length), reads file "latitude" [i] = some (.num lat[i])
  longitude : ∀ (j : ℕ) (h : j < lon.length), reads file "longitude" [j] = some (.num lon[j])
  time : ∀ (k : ℕ) (h : k < f.entries.length), reads file "time" [k] = some (.date f.entries[k].1)
  data : ∀ (k : ℕ) (h : k < f.entries.length), ∀ v ∈ vars, ∀ i j, i < lat.length → j < lon.length →
    reads file v.name [k, i, j] = some (.num (f.entries[k].2.data v i j))
  grid : ∀ e ∈ f.entries, e.2.vars = vars ∧ e.2.latitude = lat ∧ e.2.longitude = lon

/-- the variables of a file of preprocessed data, and the reference date of its times -/
structure HasShape (file : NcFile α) (epoch : ℤ) (vars : List Var) : Prop where
  time : ∃ x, file.vars "time" = some ⟨["time"], some epoch, x⟩
  latitude : ∃ x, file.vars "latitude" = some ⟨["latitude"], none, x⟩
  longitude : ∃ x, file.vars "longitude" = some ⟨["longitude"], none, x⟩
  data : ∀ v ∈ vars, ∃ x, file.vars v.name = some ⟨["time", "latitude", "longitude"], none, x⟩

/-- a whole number of seconds after or before the reference date (numbers are written as they are) -/
def SecondsIn (units : Option ℤ) : Value α → Prop
  | .num _ => True
  | .date t => ∃ epoch, units = some epoch ∧ (1000000 : ℤ) ∣ t - epoch

/-- the same dataset, up to the order of its variables -/
def SameDataset (a b : XrDataset α) : Prop := a.size = b.size ∧ a.vars.Perm b.vars

end Wam.Spec
