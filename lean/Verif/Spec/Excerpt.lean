import Verif.Spec.Run

/-! # Specification: a part of a grid

`Place m n M N` says where a small grid (of `m + 2` rows and `n + 2` columns) lies in a large one. -/

namespace Wam.Spec

variable {m n M N : ℕ} {α β : Type*}

/-- position of a small grid in a large grid: row and column of its first cell -/
structure Place (m n M N : ℕ) where
  row : ℕ
  col : ℕ
  rows : row + m ≤ M
  cols : col + n ≤ N

namespace Place
variable (p : Place m n M N)

/-- row of the large grid -/
def r (i : Fin (m + 2)) : Fin (M + 2) := ⟨p.row + i.val, by have := p.rows; have := i.isLt; omega⟩
/-- column of the large grid -/
def c (j : Fin (n + 2)) : Fin (N + 2) := ⟨p.col + j.val, by have := p.cols; have := j.isLt; omega⟩

/-- the part of a field on the large grid -/
def cut (f : Arr (M + 2) (N + 2) α) : Arr (m + 2) (n + 2) α := fun i j => f (p.r i) (p.c j)

/-- is the cell `(I, J)` of the large grid a cell of the small grid? -/
def Covers (I : Fin (M + 2)) (J : Fin (N + 2)) : Prop := ∃ i j, p.r i = I ∧ p.c j = J

/-- the part of the data -/
def cutStates (S : States (M + 2) (N + 2) α) : States (m + 2) (n + 2) α := ⟨p.cut S.s_upper, p.cut S.s_lower⟩

/-- the part of the data -/
def cutFluxes (F : Fluxes (M + 2) (N + 2) α) : Fluxes (m + 2) (n + 2) α :=
  ⟨p.cut F.fx_upper, p.cut F.fy_upper, p.cut F.fx_lower, p.cut F.fy_lower, p.cut F.evap, p.cut F.precip⟩

/-- the part of the grid: the same areas and lengths -/
def cutGrid (g : GridInfo (M + 2) α) : GridInfo (m + 2) α := ⟨fun i => g.a (p.r i), g.dy, fun i => g.dx (p.r i)⟩

/-- the part of the tagging region -/
def cutRegion : Region (M + 2) (N + 2) α → Region (m + 2) (n + 2) α
  | .stationary mask => .stationary (p.cut mask)
  | .moving maskAt => .moving fun t => (maskAt t).map p.cut

/-- a data source restricted to the small grid -/
def cutSource (src : Source M N α) : Source m n α where
  states := fun t => (src.states t).map p.cutStates
  fluxes := fun t => (src.fluxes t).map p.cutFluxes
  grid := p.cutGrid src.grid
  region := src.region.map p.cutRegion
  weight := fun i => src.weight (p.r i)

/-- input data restricted to the small grid -/
def cutInput (inp : Input M N α) : Input m n α where
  states := fun t => p.cutStates (inp.states t)
  fluxes := fun t => p.cutFluxes (inp.fluxes t)
  region := fun t => p.cut (inp.region t)

/-- A run on the small grid may use periodic boundaries only if the run on the large grid does and the small grid has all
columns. -/
def Fits (_p : Place m n M N) (small large : Bool) : Prop := small = true → large = true ∧ n = N

/-- a field on the small grid, extended by zero -/
def extend [Zero α] (f : Arr (m + 2) (n + 2) α) : Arr (M + 2) (N + 2) α := fun I J =>
  if h : p.row ≤ I.val ∧ I.val < p.row + (m + 2) ∧ p.col ≤ J.val ∧ J.val < p.col + (n + 2) then
    f ⟨I.val - p.row, by omega⟩ ⟨J.val - p.col, by omega⟩
  else 0

/-- the part of an output file -/
def cutFwd (o : FwdOutput (M + 2) (N + 2) α) : FwdOutput (m + 2) (n + 2) α :=
  ⟨p.cut o.s_track_upper, p.cut o.s_track_lower, p.cut o.p_track_upper, p.cut o.p_track_lower,
    p.cut o.tagged_evap, p.cut o.losses, p.cut o.gains⟩

/-- the part of an output file -/
def cutBwd (o : BwdOutput (M + 2) (N + 2) α) : BwdOutput (m + 2) (n + 2) α :=
  ⟨p.cut o.s_track_upper, p.cut o.s_track_lower, p.cut o.e_track, p.cut o.tagged_precip, p.cut o.losses, p.cut o.gains⟩

/-- all fields extended by zero -/
def extendFwd [Zero α] (o : FwdOutput (m + 2) (n + 2) α) : FwdOutput (M + 2) (N + 2) α :=
  ⟨p.extend o.s_track_upper, p.extend o.s_track_lower, p.extend o.p_track_upper, p.extend o.p_track_lower,
    p.extend o.tagged_evap, p.extend o.losses, p.extend o.gains⟩

/-- all fields extended by zero -/
def extendBwd [Zero α] (o : BwdOutput (m + 2) (n + 2) α) : BwdOutput (M + 2) (N + 2) α :=
  ⟨p.extend o.s_track_upper, p.extend o.s_track_lower, p.extend o.e_track, p.extend o.tagged_precip,
    p.extend o.losses, p.extend o.gains⟩

end Place

/-- `(i, j)` is at least `k` cells away from the edge cells of the grid (which themselves are 0 cells away); with periodic
boundaries only the first and the last row are edge cells -/
def Deep (periodic : Bool) (k : ℕ) (i : Fin (m + 2)) (j : Fin (n + 2)) : Prop :=
  (k ≤ i.val ∧ i.val + k < m + 2) ∧ (periodic = true ∨ (k ≤ j.val ∧ j.val + k < n + 2))

/-- two forward outputs agree in the cells `(i, j)` and `(i', j')` -/
structure SameCellFwd (o : FwdOutput m n α) (i j) (o' : FwdOutput M N α) (i' j') : Prop where
  s_track_upper : o.s_track_upper i j = o'.s_track_upper i' j'
  s_track_lower : o.s_track_lower i j = o'.s_track_lower i' j'
  p_track_upper : o.p_track_upper i j = o'.p_track_upper i' j'
  p_track_lower : o.p_track_lower i j = o'.p_track_lower i' j'
  tagged_evap : o.tagged_evap i j = o'.tagged_evap i' j'
  losses : o.losses i j = o'.losses i' j'
  gains : o.gains i j = o'.gains i' j'

/-- two backward outputs agree in the cells `(i, j)` and `(i', j')` -/
structure SameCellBwd (o : BwdOutput m n α) (i j) (o' : BwdOutput M N α) (i' j') : Prop where
  s_track_upper : o.s_track_upper i j = o'.s_track_upper i' j'
  s_track_lower : o.s_track_lower i j = o'.s_track_lower i' j'
  e_track : o.e_track i j = o'.e_track i' j'
  tagged_precip : o.tagged_precip i j = o'.tagged_precip i' j'
  losses : o.losses i j = o'.losses i' j'
  gains : o.gains i j = o'.gains i' j'

end Wam.Spec
