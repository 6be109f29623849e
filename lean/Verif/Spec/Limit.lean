import Verif.Spec.Run
import Mathlib.Topology.Order.Basic

/-!
# What it means that data, and results, come arbitrarily close

A family of runs is indexed by `k`; `l` says in which sense `k` goes to a limit (for instance: a sequence of ever better
analyses, a size of perturbation that goes to zero).
-/

namespace Wam.Spec
open Filter Topology

variable {m n : ℕ} {K : Type*} [TopologicalSpace K] {ι : Type*}

/-- the fields `f k` tend to the field `f₀` in every cell -/
def Tends (l : Filter ι) (f : ι → Arr m n K) (f₀ : Arr m n K) : Prop :=
  ∀ i j, Tendsto (fun k => f k i j) l (𝓝 (f₀ i j))

/-- all data of the period `[A, B]` tend to those of `inp₀` -/
structure DataTend (l : Filter ι) (inp : ι → Input m n K) (inp₀ : Input m n K) (A B : ℤ) : Prop where
  s_upper : ∀ t, A ≤ t → t ≤ B → Tends l (fun k => ((inp k).states t).s_upper) (inp₀.states t).s_upper
  s_lower : ∀ t, A ≤ t → t ≤ B → Tends l (fun k => ((inp k).states t).s_lower) (inp₀.states t).s_lower
  fx_upper : ∀ t, A ≤ t → t ≤ B → Tends l (fun k => ((inp k).fluxes t).fx_upper) (inp₀.fluxes t).fx_upper
  fy_upper : ∀ t, A ≤ t → t ≤ B → Tends l (fun k => ((inp k).fluxes t).fy_upper) (inp₀.fluxes t).fy_upper
  fx_lower : ∀ t, A ≤ t → t ≤ B → Tends l (fun k => ((inp k).fluxes t).fx_lower) (inp₀.fluxes t).fx_lower
  fy_lower : ∀ t, A ≤ t → t ≤ B → Tends l (fun k => ((inp k).fluxes t).fy_lower) (inp₀.fluxes t).fy_lower
  evap : ∀ t, A ≤ t → t ≤ B → Tends l (fun k => ((inp k).fluxes t).evap) (inp₀.fluxes t).evap
  precip : ∀ t, A ≤ t → t ≤ B → Tends l (fun k => ((inp k).fluxes t).precip) (inp₀.fluxes t).precip
  region : ∀ t, A ≤ t → t ≤ B → Tends l (fun k => (inp k).region t) (inp₀.region t)

/-- in `[A, B]` both layers hold water everywhere, and in no cell does the water of a layer stand still altogether (where it
does, the stability correction divides zero by zero) -/
structure Lively [Zero K] [Mul K] [LT K] (g : GridInfo (m + 2) K) (inp : Input m n K) (A B : ℤ) : Prop where
  wet : ∀ t, A ≤ t → t ≤ B → ∀ i j, 0 < (inp.states t).s_upper i j ∧ 0 < (inp.states t).s_lower i j
  upper : ∀ t, A ≤ t → t ≤ B → ∀ i j, (inp.fluxes t).fx_upper i j * g.dy ≠ 0 ∨ (inp.fluxes t).fy_upper i j * g.dx i ≠ 0
  lower : ∀ t, A ≤ t → t ≤ B → ∀ i j, (inp.fluxes t).fx_lower i j * g.dy ≠ 0 ∨ (inp.fluxes t).fy_lower i j * g.dx i ≠ 0

/-- all fields of a forward output tend to those of `o₀` -/
structure FwdTend (l : Filter ι) (o : ι → FwdOutput m n K) (o₀ : FwdOutput m n K) : Prop where
  s_track_upper : Tends l (fun k => (o k).s_track_upper) o₀.s_track_upper
  s_track_lower : Tends l (fun k => (o k).s_track_lower) o₀.s_track_lower
  p_track_upper : Tends l (fun k => (o k).p_track_upper) o₀.p_track_upper
  p_track_lower : Tends l (fun k => (o k).p_track_lower) o₀.p_track_lower
  tagged_evap : Tends l (fun k => (o k).tagged_evap) o₀.tagged_evap
  losses : Tends l (fun k => (o k).losses) o₀.losses
  gains : Tends l (fun k => (o k).gains) o₀.gains

/-- all fields of a backward output tend to those of `o₀` -/
structure BwdTend (l : Filter ι) (o : ι → BwdOutput m n K) (o₀ : BwdOutput m n K) : Prop where
  s_track_upper : Tends l (fun k => (o k).s_track_upper) o₀.s_track_upper
  s_track_lower : Tends l (fun k => (o k).s_track_lower) o₀.s_track_lower
  e_track : Tends l (fun k => (o k).e_track) o₀.e_track
  tagged_precip : Tends l (fun k => (o k).tagged_precip) o₀.tagged_precip
  losses : Tends l (fun k => (o k).losses) o₀.losses
  gains : Tends l (fun k => (o k).gains) o₀.gains

/-- Every run of the family has as many files as the limit, with the same time stamps, and the content of each file tends
(in the sense of `tend`) to that of the corresponding file. -/
def FilesTend {ω : Type*} (tend : (ι → ω) → ω → Prop) (files : ι → List (ℤ × ω)) (files₀ : List (ℤ × ω)) : Prop :=
  (∀ k, (files k).map Prod.fst = files₀.map Prod.fst) ∧
  ∀ (q : ℕ) (t : ℤ) (o₀ : ω), files₀[q]? = some (t, o₀) → ∃ o : ι → ω, (∀ k, (files k)[q]? = some (t, o k)) ∧ tend o o₀

/-! The same with a tolerance instead of a limit -/

section
variable {K : Type*} [Lattice K] [AddGroup K]

/-- the two fields differ by at most `ε` in every cell -/
def Within (ε : K) (f f₀ : Arr m n K) : Prop := ∀ i j, |f i j - f₀ i j| ≤ ε

/-- all data of the period `[A, B]` are within `δ` of those of `inp₀` -/
structure DataWithin (δ : K) (inp inp₀ : Input m n K) (A B : ℤ) : Prop where
  s_upper : ∀ t, A ≤ t → t ≤ B → Within δ (inp.states t).s_upper (inp₀.states t).s_upper
  s_lower : ∀ t, A ≤ t → t ≤ B → Within δ (inp.states t).s_lower (inp₀.states t).s_lower
  fx_upper : ∀ t, A ≤ t → t ≤ B → Within δ (inp.fluxes t).fx_upper (inp₀.fluxes t).fx_upper
  fy_upper : ∀ t, A ≤ t → t ≤ B → Within δ (inp.fluxes t).fy_upper (inp₀.fluxes t).fy_upper
  fx_lower : ∀ t, A ≤ t → t ≤ B → Within δ (inp.fluxes t).fx_lower (inp₀.fluxes t).fx_lower
  fy_lower : ∀ t, A ≤ t → t ≤ B → Within δ (inp.fluxes t).fy_lower (inp₀.fluxes t).fy_lower
  evap : ∀ t, A ≤ t → t ≤ B → Within δ (inp.fluxes t).evap (inp₀.fluxes t).evap
  precip : ∀ t, A ≤ t → t ≤ B → Within δ (inp.fluxes t).precip (inp₀.fluxes t).precip
  region : ∀ t, A ≤ t → t ≤ B → Within δ (inp.region t) (inp₀.region t)

/-- all fields of the two forward outputs are within `ε` -/
structure FwdWithin (ε : K) (o o₀ : FwdOutput m n K) : Prop where
  s_track_upper : Within ε o.s_track_upper o₀.s_track_upper
  s_track_lower : Within ε o.s_track_lower o₀.s_track_lower
  p_track_upper : Within ε o.p_track_upper o₀.p_track_upper
  p_track_lower : Within ε o.p_track_lower o₀.p_track_lower
  tagged_evap : Within ε o.tagged_evap o₀.tagged_evap
  losses : Within ε o.losses o₀.losses
  gains : Within ε o.gains o₀.gains

/-- all fields of the two backward outputs are within `ε` -/
structure BwdWithin (ε : K) (o o₀ : BwdOutput m n K) : Prop where
  s_track_upper : Within ε o.s_track_upper o₀.s_track_upper
  s_track_lower : Within ε o.s_track_lower o₀.s_track_lower
  e_track : Within ε o.e_track o₀.e_track
  tagged_precip : Within ε o.tagged_precip o₀.tagged_precip
  losses : Within ε o.losses o₀.losses
  gains : Within ε o.gains o₀.gains

end

/-- the two runs have the same number of files, with the same time stamps and, file by file, contents that satisfy `close` -/
def FilesClose {ω : Type*} (close : ω → ω → Prop) (files files₀ : List (ℤ × ω)) : Prop :=
  List.Forall₂ (fun x x₀ => x.1 = x₀.1 ∧ close x.2 x₀.2) files files₀

end Wam.Spec
