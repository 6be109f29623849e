import Verif.Lemmas.Netcdf
import Verif.Lemmas.Calendar

/-! # C121: appending to a file of preprocessed data -/

namespace Wam
open Spec

set_option linter.unusedSectionVars false
set_option linter.unusedVariables false

variable {α : Type}

theorem decode_encode (units : Option ℤ) (x : Value α) (h : SecondsIn units x) :
    decodeValue units (encodeValue units x) = some x := by
  cases x with
  | num x => rfl
  | date t =>
    obtain ⟨epoch, rfl, k, hk⟩ := h
    unfold encodeValue decodeValue
    simp only [Option.some.injEq, Value.date.injEq]
    omega

/-- Whatever happens - also if the appending stops with an exception after some of the variables - the file has the same variables with the same
dimensions, the other dimensions keep their length, the unlimited one gets at most `added` longer, and everything that could be read
before is still read. -/
theorem C121_old_kept (file : NcFile α) (ds : XrDataset α) (dim : String) :
    let file' := (appendToNetcdf file ds dim).2
    (∀ d, d ≠ dim → file'.length d = file.length d) ∧
    file.length dim ≤ file'.length dim ∧ file'.length dim ≤ file.length dim + ds.size dim ∧
    (∀ name, (file'.vars name).map (fun v => (v.dims, v.units)) = (file.vars name).map (fun v => (v.dims, v.units))) ∧
    ∀ name idx, (∀ v, file.vars name = some v → dim ∈ v.dims → along file name dim idx < file.length dim) →
      reads file' name idx = reads file name idx := by
  intro file'
  obtain ⟨h1, h2, -⟩ := loop_length_dim (size := ds.size) (dim := dim) (n := file.length dim) (a := ds.size dim) ds.vars file
  refine ⟨fun d hd => loop_length_other hd _ _, h1, ?_, ?_, ?_⟩
  · refine le_trans h2 ?_
    exact max_le (Nat.le_add_right _ _) le_rfl
  · intro name
    obtain ⟨k1, k2⟩ := loop_keeps (size := ds.size) (dim := dim) (n := file.length dim) (a := ds.size dim) (name := name) ds.vars file
    rcases hv : file.vars name with _ | v
    · show ((appendLoop _ _ _ _ _ _).2.vars name).map _ = _
      rw [k1 hv]
    · obtain ⟨data, hd, -⟩ := k2 v hv
      show ((appendLoop _ _ _ _ _ _).2.vars name).map _ = _
      rw [hd]; rfl
  · intro name idx hidx
    obtain ⟨k1, k2⟩ := loop_keeps (size := ds.size) (dim := dim) (n := file.length dim) (a := ds.size dim) (name := name) ds.vars file
    rcases hv : file.vars name with _ | v
    · unfold reads
      rw [hv]
      have : file'.vars name = none := k1 hv
      rw [this]
    · obtain ⟨data, hd, hkeep⟩ := k2 v hv
      have hd' : file'.vars name = some { v with data := data } := hd
      unfold reads
      rw [hv, hd']
      simp only
      rw [hkeep idx]
      intro hdim
      have := hidx v hv hdim
      unfold along at this
      rw [hv] at this
      exact this

/-- If the appending ends normally, the dimension has become longer by the length of what was appended, and at the new positions each variable
that was appended reads as it was in memory. -/
theorem C121_new_read (file : NcFile α) (ds : XrDataset α) (dim : String) (hnames : (ds.vars.map Prod.fst).Nodup)
    (hok : (appendToNetcdf file ds dim).1 = none) :
    let file' := (appendToNetcdf file ds dim).2
    ((∃ y ∈ ds.vars, dim ∈ y.2.dims) → file'.length dim = file.length dim + ds.size dim) ∧
    ∀ name x, (name, x) ∈ ds.vars → dim ∈ x.dims → ∃ units,
      (file.vars name).map (fun v => v.units) = some units ∧
      ∀ idx i, i < ds.size dim → along file' name dim idx = file.length dim + i →
        SecondsIn units (x.data (idx.set (x.dims.idxOf dim) i)) →
        reads file' name idx = some (x.data (idx.set (x.dims.idxOf dim) i)) := by
  intro file'
  obtain ⟨-, -, h3⟩ := loop_length_dim (size := ds.size) (dim := dim) (n := file.length dim) (a := ds.size dim) ds.vars file
  refine ⟨fun h => ?_, ?_⟩
  · have := h3 hok h
    show (appendLoop _ _ _ _ _ _).2.length dim = _
    rw [this]
    exact max_eq_right (Nat.le_add_right _ _)
  · intro name x hmem hx
    obtain ⟨v, h1, h2, h3⟩ := loop_appended (size := ds.size) (n := file.length dim) (a := ds.size dim) hx ds.vars file hnames hmem hok
    have h3' : file'.vars name = some (v.setSlice (x.dims.idxOf dim) (file.length dim) (ds.size dim)
      fun idx => encodeValue v.units (x.data idx)) := h3
    refine ⟨v.units, by rw [h1]; rfl, fun idx i hi hal hw => ?_⟩
    unfold along at hal
    unfold reads
    rw [h3'] at hal ⊢
    simp only at hal ⊢
    have hk : idx.getD (x.dims.idxOf dim) 0 = file.length dim + i := by rw [h2]; exact hal
    show decodeValue v.units (if file.length dim ≤ idx.getD (x.dims.idxOf dim) 0 ∧
      idx.getD (x.dims.idxOf dim) 0 < file.length dim + ds.size dim then _ else _) = _
    rw [hk, if_pos ⟨by omega, by omega⟩]
    have : file.length dim + i - file.length dim = i := by omega
    rw [this]
    exact decode_encode _ _ hw

/-- It ends normally exactly if all variables to be appended are in the file with the same dimensions and, along the other dimensions, of the
same length. -/
theorem C121_succeeds (file : NcFile α) (ds : XrDataset α) (dim : String) (hnames : (ds.vars.map Prod.fst).Nodup) :
    (appendToNetcdf file ds dim).1 = none ↔
      ∀ y ∈ ds.vars, dim ∈ y.2.dims → (∃ v, file.vars y.1 = some v ∧ y.2.dims = v.dims) ∧
        ∀ d ∈ y.2.dims, d ≠ dim → ds.size d = file.length d := by
  constructor
  · intro hok
    have key : ∀ (l : List (String × XrVar α)) (g : NcFile α) (n a : ℕ), (appendLoop ds.size dim n a l g).1 = none →
        ∀ y ∈ l, dim ∈ y.2.dims → ∀ d ∈ y.2.dims, d ≠ dim → ds.size d = g.length d := by
      intro l
      induction l with
      | nil => intro g n a _ y hy; cases hy
      | cons z l ih =>
        obtain ⟨nm, z⟩ := z
        intro g n a hok y hy hd d hd' hne
        unfold appendLoop at hok
        split at hok
        · split at hok
          · cases hok
          · next g' he =>
            obtain ⟨w, hw, hdims, hsz, rfl⟩ := expand_ok he
            rcases List.mem_cons.1 hy with rfl | hy
            · exact hsz d hd' hne
            · have := ih _ _ _ hok y hy hd d hd' hne
              rw [this]
              exact if_neg hne
        · next hz =>
          rcases List.mem_cons.1 hy with rfl | hy
          · exact absurd hd hz
          · exact ih _ _ _ hok y hy hd d hd' hne
    intro y hy hd
    refine ⟨?_, key _ _ _ _ hok y hy hd⟩
    obtain ⟨v, h1, h2, -⟩ := loop_appended hd ds.vars file hnames (name := y.1) (x := y.2) hy hok
    exact ⟨v, h1, h2⟩
  · intro h
    exact loop_goes ds.vars file h

/-! ### The files of preprocessed data -/

theorem Var.name_inj {v w : Var} (h : v.name = w.name) : v = w := by
  cases v <;> cases w <;> first | rfl | (revert h; decide)

theorem Var.name_coord (v : Var) : v.name ≠ "time" ∧ v.name ≠ "latitude" ∧ v.name ≠ "longitude" := by
  cases v <;> decide

theorem timeSlice_nodup (t : ℤ) (ds : Dataset α α) (a : α) (h : ds.vars.Nodup) : ((timeSlice t ds a).vars.map Prod.fst).Nodup := by
  have : ((timeSlice t ds a).vars.map Prod.fst) = "time" :: "latitude" :: "longitude" :: ds.vars.map Var.name := by
    simp [timeSlice, List.map_map, Function.comp_def]
  rw [this]
  simp only [List.nodup_cons, List.mem_cons, List.mem_map, not_or, not_exists, not_and]
  refine ⟨⟨by decide, by decide, fun v _ => (Var.name_coord v).1⟩, ⟨by decide, fun v _ => (Var.name_coord v).2.1⟩,
    fun v _ => (Var.name_coord v).2.2, ?_⟩
  exact h.map fun _ _ => Var.name_inj

theorem epoch_second (c : Calendar) : (1000000 : ℤ) ∣ epoch1900 c := by
  unfold epoch1900 timeOf usPerDay
  simp only
  omega

private theorem reads_eq {file : NcFile α} {name : String} {v : NcVar α} (h : file.vars name = some v) (idx : List ℕ) :
    reads file name idx = decodeValue v.units (v.data idx) := by
  unfold reads; rw [h]

private theorem slice_mem {t : ℤ} {ds : Dataset α α} {a : α} {y : String × XrVar α} (h : y ∈ (timeSlice t ds a).vars)
    (hd : "time" ∈ y.2.dims) :
    y = ("time", ⟨["time"], fun _ => .date t⟩) ∨ ∃ v ∈ ds.vars, y = (v.name, ⟨["time", "latitude", "longitude"],
      fun idx => .num (ds.data v (idx.getD 1 0) (idx.getD 2 0))⟩) := by
  unfold timeSlice at h
  simp only [List.mem_cons, List.mem_map] at h
  rcases h with rfl | rfl | rfl | ⟨v, hv, rfl⟩
  · exact .inl rfl
  · exact absurd hd (by simp)
  · exact absurd hd (by simp)
  · exact .inr ⟨v, hv, rfl⟩

/-- a new file -/
theorem C121_new_file (c : Calendar) (t : ℤ) (ds : Dataset α α) (a : α) (x : XrDataset α) (epoch : ℤ)
    (hx : SameDataset x (timeSlice t ds a)) (hnd : ds.vars.Nodup) (hsec : (1000000 : ℤ) ∣ t - epoch) :
    HasShape (toNetcdf epoch x) epoch ds.vars ∧
      Represents (toNetcdf epoch x) (newFile c t ds) ds.vars ds.latitude ds.longitude := by
  have hnames : (x.vars.map Prod.fst).Nodup := (hx.2.map Prod.fst).nodup_iff.2 (timeSlice_nodup t ds a hnd)
  have get : ∀ name y, (name, y) ∈ (timeSlice t ds a).vars → (toNetcdf epoch x).vars name =
      some { dims := y.dims, units := if name = "time" then some epoch else none
             data := fun idx => encodeValue (if name = "time" then some epoch else none) (y.data idx) } := by
    intro name y hy
    have hy' := hx.2.mem_iff.2 hy
    have : x.vars.find? (fun z => z.1 = name) = some (name, y) := by
      rcases hf : x.vars.find? (fun z => z.1 = name) with _ | z
      · have := List.find?_eq_none.1 hf _ hy'
        simp at this
      · have h1 := List.mem_of_find?_eq_some hf
        have h2 := List.find?_some hf
        simp only [decide_eq_true_eq] at h2
        exact hf.trans (congrArg some (List.inj_on_of_nodup_map hnames h1 hy' h2))
    unfold toNetcdf
    simp only [this]
  have ht := get "time" ⟨["time"], fun _ => .date t⟩ (by simp [timeSlice])
  have hla := get "latitude" ⟨["latitude"], fun idx => .num (ds.latitude.getD (idx.getD 0 0) a)⟩ (by simp [timeSlice])
  have hlo := get "longitude" ⟨["longitude"], fun idx => .num (ds.longitude.getD (idx.getD 0 0) a)⟩ (by simp [timeSlice])
  have hv : ∀ v ∈ ds.vars, (toNetcdf epoch x).vars v.name = some ⟨["time", "latitude", "longitude"], none,
      fun idx => .num (ds.data v (idx.getD 1 0) (idx.getD 2 0))⟩ := by
    intro v hv
    have := get v.name ⟨["time", "latitude", "longitude"], fun idx => .num (ds.data v (idx.getD 1 0) (idx.getD 2 0))⟩ (by
      unfold timeSlice
      simp only [List.mem_cons, List.mem_map]
      exact .inr (.inr (.inr ⟨v, hv, rfl⟩)))
    rw [if_neg (Var.name_coord v).1] at this
    exact this
  refine ⟨⟨⟨_, ht⟩, ⟨_, hla⟩, ⟨_, hlo⟩, fun v h => ⟨_, hv v h⟩⟩, ?_⟩
  constructor
  · show x.size "time" = 1 ∧ x.size "latitude" = _ ∧ x.size "longitude" = _
    rw [hx.1]
    exact ⟨rfl, rfl, rfl⟩
  · intro i h
    rw [reads_eq hla]
    show some (Value.num (ds.latitude.getD i a)) = _
    rw [List.getD_eq_getElem?_getD, List.getElem?_eq_getElem h]; rfl
  · intro i h
    rw [reads_eq hlo]
    show some (Value.num (ds.longitude.getD i a)) = _
    rw [List.getD_eq_getElem?_getD, List.getElem?_eq_getElem h]; rfl
  · intro k h
    have h' : k = 0 := by
      have : k < 1 := h
      omega
    subst h'
    rw [reads_eq ht]
    exact decode_encode (some epoch) (.date t : Value α) ⟨epoch, rfl, hsec⟩
  · intro k h v hv' i j hi hj
    have h' : k = 0 := by
      have : k < 1 := h
      omega
    subst h'
    rw [reads_eq (hv v hv')]
    rfl
  · intro e he
    rcases List.mem_singleton.1 he with rfl
    exact ⟨rfl, rfl, rfl⟩

/-- appending a time -/
theorem C121_append (file : NcFile α) (f : DataFile α α) (epoch : ℤ) (vars : List Var) (lat lon : List α)
    (hs : HasShape file epoch vars) (hr : Represents file f vars lat lon) (hne : f.entries ≠ []) (hvars : vars.Nodup) (hv0 : vars ≠ [])
    (t : ℤ) (ds : Dataset α α) (a : α) (x : XrDataset α) (hx : SameDataset x (timeSlice t ds a)) (hv : ds.vars = vars)
    (hsec : (1000000 : ℤ) ∣ t - epoch) :
    ((appendToNetcdf file x "time").1 = none ↔ ∃ f', appendToFile f t ds = .ok f') ∧
    ∀ f', appendToFile f t ds = .ok f' → HasShape (appendToNetcdf file x "time").2 epoch vars ∧
      Represents (appendToNetcdf file x "time").2 f' vars lat lon := by
  subst hv
  have hnames : (x.vars.map Prod.fst).Nodup := (hx.2.map Prod.fst).nodup_iff.2 (timeSlice_nodup t ds a hvars)
  obtain ⟨e0, es, he⟩ : ∃ e0 es, f.entries = e0 :: es := by
    rcases h : f.entries with _ | ⟨e0, es⟩
    · exact absurd h hne
    · exact ⟨e0, es, rfl⟩
  obtain ⟨g1, g2, g3⟩ := hr.grid e0 (by rw [he]; exact List.mem_cons_self ..)
  have hall : ds.vars.all (fun v => decide (v ∈ e0.2.vars)) = true := by
    rw [List.all_eq_true]; intro v hv; rw [g1]; simpa using hv
  have hfile : appendToFile f t ds = if ds.latitude.length ≠ lat.length ∨ ds.longitude.length ≠ lon.length then .error .valueError
      else .ok { f with entries := f.entries ++ [(t, { ds with latitude := lat, longitude := lon })] } := by
    unfold appendToFile
    rw [he]
    simp only [hall, g2, g3]
    rfl
  have hsize : x.size "latitude" = ds.latitude.length ∧ x.size "longitude" = ds.longitude.length ∧ x.size "time" = 1 := by
    rw [hx.1]; exact ⟨rfl, rfl, rfl⟩
  have hiff : (appendToNetcdf file x "time").1 = none ↔ ds.latitude.length = lat.length ∧ ds.longitude.length = lon.length := by
    rw [C121_succeeds file x "time" hnames]
    constructor
    · intro h
      obtain ⟨v, hv⟩ := List.exists_mem_of_ne_nil _ hv0
      obtain ⟨-, h2⟩ := h (v.name, ⟨["time", "latitude", "longitude"],
        fun idx => .num (ds.data v (idx.getD 1 0) (idx.getD 2 0))⟩) (hx.2.mem_iff.2 (by
          unfold timeSlice
          simp only [List.mem_cons, List.mem_map]
          exact .inr (.inr (.inr ⟨v, hv, rfl⟩)))) (by simp)
      have h3 := h2 "latitude" (by simp) (by decide)
      have h4 := h2 "longitude" (by simp) (by decide)
      rw [hsize.1, hr.lengths.2.1] at h3
      rw [hsize.2.1, hr.lengths.2.2] at h4
      exact ⟨h3, h4⟩
    · rintro ⟨h3, h4⟩ y hy hd
      rcases slice_mem (hx.2.mem_iff.1 hy) hd with rfl | ⟨v, hv, rfl⟩
      · obtain ⟨z, hz⟩ := hs.time
        refine ⟨⟨_, hz, rfl⟩, fun d hd hne => ?_⟩
        exact absurd (List.mem_singleton.1 hd) hne
      · obtain ⟨z, hz⟩ := hs.data v hv
        refine ⟨⟨_, hz, rfl⟩, fun d hd hne => ?_⟩
        simp only [List.mem_cons, List.not_mem_nil, or_false] at hd
        rcases hd with rfl | rfl | rfl
        · exact absurd rfl hne
        · rw [hsize.1, hr.lengths.2.1, h3]
        · rw [hsize.2.1, hr.lengths.2.2, h4]
  constructor
  · rw [hiff, hfile]
    constructor
    · rintro ⟨h1, h2⟩
      rw [if_neg (by simp [h1, h2])]
      exact ⟨_, rfl⟩
    · rintro ⟨f', h⟩
      split at h
      · cases h
      · next hc => 
        rw [not_or, not_not, not_not] at hc
        exact hc
  · intro f' hf'
    rw [hfile] at hf'
    split at hf'
    · cases hf'
    next hc =>
    rw [not_or, not_not, not_not] at hc
    injection hf' with hf'
    subst hf'
    have hok := hiff.2 hc
    obtain ⟨k1, k2, k3, k4, k5⟩ := C121_old_kept file x "time"
    obtain ⟨n1, n2⟩ := C121_new_read file x "time" hnames hok
    set file' := (appendToNetcdf file x "time").2 with hfile'
    have shape : ∀ name dims units z, file.vars name = some ⟨dims, units, z⟩ → ∃ z', file'.vars name = some ⟨dims, units, z'⟩ := by
      intro name dims units z hz
      have := k4 name
      rw [hz] at this
      rcases hv : file'.vars name with _ | ⟨d, u, z'⟩
      · rw [hv] at this; cases this
      · rw [hv] at this
        simp only [Option.map_some, Option.some.injEq, Prod.mk.injEq] at this
        obtain ⟨rfl, rfl⟩ := this
        exact ⟨z', rfl⟩
    obtain ⟨zt, hzt⟩ := hs.time
    obtain ⟨zla, hzla⟩ := hs.latitude
    obtain ⟨zlo, hzlo⟩ := hs.longitude
    have hs' : HasShape file' epoch ds.vars :=
      ⟨shape _ _ _ _ hzt, shape _ _ _ _ hzla, shape _ _ _ _ hzlo, fun v hv => by obtain ⟨z, hz⟩ := hs.data v hv; exact shape _ _ _ _ hz⟩
    refine ⟨hs', ?_⟩
    have hmemt : (("time", ⟨["time"], fun _ => .date t⟩) : String × XrVar α) ∈ x.vars := hx.2.mem_iff.2 (by simp [timeSlice])
    constructor
    · refine ⟨?_, ?_, ?_⟩
      · rw [n1 ⟨_, hmemt, by simp⟩, hr.lengths.1, hsize.2.2]
        simp
      · rw [k1 _ (by decide)]; exact hr.lengths.2.1
      · rw [k1 _ (by decide)]; exact hr.lengths.2.2
    · intro i h
      rw [k5 "latitude" [i] (fun v hv hd => by
        rw [hzla] at hv; injection hv with hv; subst hv; exact absurd hd (by simp))]
      exact hr.latitude i h
    · intro i h
      rw [k5 "longitude" [i] (fun v hv hd => by
        rw [hzlo] at hv; injection hv with hv; subst hv; exact absurd hd (by simp))]
      exact hr.longitude i h
    · intro k h
      have h' : k < f.entries.length + 1 := by simpa using h
      by_cases hk : k < f.entries.length
      · rw [k5 "time" [k] (fun v hv hd => by unfold along; rw [hzt, hr.lengths.1]; exact hk), hr.time k hk]
        simp only [List.getElem_append_left hk]
      · have hk' : k = f.entries.length := by omega
        subst hk'
        obtain ⟨units, hu, hn⟩ := n2 "time" _ hmemt (by simp)
        rw [hzt] at hu
        injection hu with hu
        subst hu
        have := hn [f.entries.length] 0 (by rw [hsize.2.2]; decide) (by
          obtain ⟨z, hz⟩ := hs'.time
          unfold along
          rw [hz, hr.lengths.1]
          rfl) ⟨epoch, rfl, hsec⟩
        rw [this]
        simp
    · intro k h v hv i j hi hj
      have h' : k < f.entries.length + 1 := by simpa using h
      obtain ⟨z, hz⟩ := hs.data v hv
      by_cases hk : k < f.entries.length
      · rw [k5 v.name [k, i, j] (fun v' hv' hd => by unfold along; rw [hz, hr.lengths.1]; exact hk), hr.data k hk v hv i j hi hj]
        simp only [List.getElem_append_left hk]
      · have hk' : k = f.entries.length := by omega
        subst hk'
        obtain ⟨units, hu, hn⟩ := n2 v.name ⟨["time", "latitude", "longitude"],
          fun idx => .num (ds.data v (idx.getD 1 0) (idx.getD 2 0))⟩ (hx.2.mem_iff.2 (by
            unfold timeSlice
            simp only [List.mem_cons, List.mem_map]
            exact .inr (.inr (.inr ⟨v, hv, rfl⟩)))) (by simp)
        have := hn [f.entries.length, i, j] 0 (by rw [hsize.2.2]; decide) (by
          obtain ⟨z, hz⟩ := hs'.data v hv
          unfold along
          rw [hz, hr.lengths.1]
          rfl) trivial
        rw [this]
        simp
    · intro e he'
      rcases List.mem_append.1 he' with h | h
      · exact hr.grid e h
      · rcases List.mem_singleton.1 h with rfl
        exact ⟨rfl, rfl, rfl⟩

/-- A whole day: the first time makes a new file (`mode="w"`), the others are appended.  If `Model/Prep` gives a file `f` for these times and
data, then nothing goes wrong in the netCDF file, and it holds exactly the times and data of `f`, whatever the order of the variables
in the datasets was; the dates are stored as seconds since 1900 and read back unchanged. -/
theorem C121_day (c : Calendar) (t : ℤ) (ds : Dataset α α) (a : α) (x : XrDataset α) (rest : List (ℤ × Dataset α α × XrDataset α))
    (hx : SameDataset x (timeSlice t ds a)) (hrest : ∀ y ∈ rest, SameDataset y.2.2 (timeSlice y.1 y.2.1 a) ∧ y.2.1.vars = ds.vars)
    (hv0 : ds.vars ≠ []) (hnd : ds.vars.Nodup) (hsec : (1000000 : ℤ) ∣ t ∧ ∀ y ∈ rest, (1000000 : ℤ) ∣ y.1) (f : DataFile α α)
    (hf : rest.foldlM (fun f y => appendToFile f y.1 y.2.1) (newFile c t ds) = .ok f) :
    (appendAll (rest.map fun y => y.2.2) (toNetcdf (epoch1900 c) x)).1 = none ∧
      Represents (appendAll (rest.map fun y => y.2.2) (toNetcdf (epoch1900 c) x)).2 f ds.vars ds.latitude ds.longitude := by
  have he := epoch_second c
  obtain ⟨h1, h2⟩ := C121_new_file c t ds a x (epoch1900 c) hx hnd (Int.dvd_sub hsec.1 he)
  have key : ∀ (rest : List (ℤ × Dataset α α × XrDataset α)) (file : NcFile α) (g : DataFile α α),
      (∀ y ∈ rest, SameDataset y.2.2 (timeSlice y.1 y.2.1 a) ∧ y.2.1.vars = ds.vars) →
      (∀ y ∈ rest, (1000000 : ℤ) ∣ y.1) → HasShape file (epoch1900 c) ds.vars →
      Represents file g ds.vars ds.latitude ds.longitude → g.entries ≠ [] →
      rest.foldlM (fun f y => appendToFile f y.1 y.2.1) g = .ok f →
      (appendAll (rest.map fun y => y.2.2) file).1 = none ∧
        Represents (appendAll (rest.map fun y => y.2.2) file).2 f ds.vars ds.latitude ds.longitude := by
    intro rest
    induction rest with
    | nil =>
      intro file g _ _ _ hr _ hg
      injection hg with hg
      subst hg
      exact ⟨rfl, hr⟩
    | cons y rest ih =>
      intro file g hrest hsec hs hr hne hg
      rw [List.foldlM_cons] at hg
      obtain ⟨hy1, hy2⟩ := hrest y (List.mem_cons_self ..)
      obtain ⟨k1, k2⟩ := C121_append file g (epoch1900 c) ds.vars ds.latitude ds.longitude hs hr hne hnd hv0 y.1 y.2.1 a y.2.2 hy1 hy2
        (Int.dvd_sub (hsec y (List.mem_cons_self ..)) he)
      rcases hg' : appendToFile g y.1 y.2.1 with e | g'
      · rw [hg'] at hg; cases hg
      · rw [hg'] at hg
        obtain ⟨m1, m2⟩ := k2 g' hg'
        have hok := k1.2 ⟨g', hg'⟩
        have hne' : g'.entries ≠ [] := by
          unfold appendToFile at hg'
          split at hg'
          · cases hg'
          · split at hg'
            · cases hg'
            · split at hg'
              · cases hg'
              · injection hg' with hg'
                subst hg'
                simp
        have := ih _ g' (fun z hz => hrest z (List.mem_cons_of_mem _ hz)) (fun z hz => hsec z (List.mem_cons_of_mem _ hz)) m1 m2 hne' hg
        rw [List.map_cons]
        unfold appendAll
        rcases hq : appendToNetcdf file y.2.2 "time" with ⟨r, file'⟩
        rw [hq] at hok this
        simp only at hok this
        subst hok
        exact this
  exact key rest _ _ hrest hsec.2 h1 h2 (by simp [newFile]) hf

/-- `preprocess` for the times of a day: if it ends normally according to `Model/Prep` (C57), so does the writing of the netCDF file, and that file
holds the times and data that `Model/Prep` says. -/
theorem C121_preprocess_day (compute : ℤ → Except Err (Dataset α α)) (c : Calendar) (dir p : List Char) (t : ℤ) (ts : List ℤ)
    (disk disk' : PrepDisk α α) (hp : ∀ u ∈ t :: ts, inputPath c u dir = p) (hrun : preprocessDay compute c dir (t :: ts) disk = (none, disk'))
    (weather : ℤ → Dataset α α) (hw : ∀ u ∈ t :: ts, compute u = .ok (weather u)) (a : α) (x : ℤ → XrDataset α)
    (hx : ∀ u ∈ t :: ts, SameDataset (x u) (timeSlice u (weather u) a)) (vars : List Var) (hnd : vars.Nodup) (hv0 : vars ≠ [])
    (hv : ∀ u ∈ t :: ts, (weather u).vars = vars) (hsec : ∀ u ∈ t :: ts, (1000000 : ℤ) ∣ u) :
    ∃ f, disk' p = some (.data f) ∧ (appendAll (ts.map x) (toNetcdf (epoch1900 c) (x t))).1 = none ∧
      Represents (appendAll (ts.map x) (toNetcdf (epoch1900 c) (x t))).2 f vars (weather t).latitude (weather t).longitude := by
  have key : ∀ (us : List ℤ) (d d' : PrepDisk α α) (g : DataFile α α), (∀ u ∈ us, inputPath c u dir = p) →
      (∀ u ∈ us, compute u = .ok (weather u)) → d p = some (.data g) → prepLoop compute c dir false us d = (none, d') →
      ∃ f, d' p = some (.data f) ∧ us.foldlM (fun f u => appendToFile f u (weather u)) g = .ok f := by
    intro us
    induction us with
    | nil =>
      intro d d' g _ _ hd h
      injection h with _ h
      subst h
      exact ⟨g, hd, rfl⟩
    | cons u us ih =>
      intro d d' g hp hw hd h
      unfold prepLoop at h
      simp only at h
      rw [hp u (List.mem_cons_self ..), hd] at h
      unfold prepContent at h
      rw [hw u (List.mem_cons_self ..)] at h
      simp only [bind, Except.bind, pure, Except.pure, Bool.false_eq_true, if_false] at h
      rw [List.foldlM_cons]
      rcases hg : appendToFile g u (weather u) with e | g'
      · rw [hg] at h
        simp only at h
        injection h with h _
        cases h
      · rw [hg] at h
        simp only at h
        obtain ⟨f, h1, h2⟩ := ih _ d' g' (fun z hz => hp z (List.mem_cons_of_mem _ hz)) (fun z hz => hw z (List.mem_cons_of_mem _ hz))
          (by unfold PrepDisk.put; exact if_pos rfl) h
        exact ⟨f, h1, h2⟩
  unfold preprocessDay prepLoop at hrun
  simp only at hrun
  rw [hp t (List.mem_cons_self ..)] at hrun
  unfold prepContent at hrun
  rw [hw t (List.mem_cons_self ..)] at hrun
  simp only [bind, Except.bind, pure, Except.pure, if_true] at hrun
  obtain ⟨f, h1, h2⟩ := key ts _ disk' (newFile c t (weather t)) (fun z hz => hp z (List.mem_cons_of_mem _ hz))
    (fun z hz => hw z (List.mem_cons_of_mem _ hz)) (by unfold PrepDisk.put; exact if_pos rfl) hrun
  have hvt := hv t (List.mem_cons_self ..)
  have hfold : ∀ (us : List ℤ) (g : DataFile α α), (us.map fun u => (u, weather u, x u)).foldlM (fun f y => appendToFile f y.1 y.2.1) g =
      us.foldlM (fun f u => appendToFile f u (weather u)) g := by
    intro us
    induction us with
    | nil => intro g; rfl
    | cons u us ih =>
      intro g
      rw [List.map_cons, List.foldlM_cons, List.foldlM_cons]
      congr 1
      funext z
      exact ih z
  have := C121_day c t (weather t) a (x t) (ts.map fun u => (u, weather u, x u)) (hx t (List.mem_cons_self ..)) (by
      intro y hy
      obtain ⟨u, hu, rfl⟩ := List.mem_map.1 hy
      exact ⟨hx u (List.mem_cons_of_mem _ hu), (hv u (List.mem_cons_of_mem _ hu)).trans hvt.symm⟩) (by rw [hvt]; exact hv0) (by rw [hvt]; exact hnd)
    ⟨hsec t (List.mem_cons_self ..), by
      intro y hy
      obtain ⟨u, hu, rfl⟩ := List.mem_map.1 hy
      exact hsec u (List.mem_cons_of_mem _ hu)⟩ f ((hfold ts _).trans h2)
  rw [List.map_map, hvt] at this
  exact ⟨f, h1, this.1, this.2⟩

/-! ### A concrete day -/

namespace NetcdfDemo

/-- storages on a grid of 2 x 1 cells; different at each time -/
def weather (t : ℤ) : Dataset ℤ ℤ := ⟨[10, 0], [5], [.s_upper, .s_lower], fun v i j => t / 3600000000 + i + (if v = .s_upper then 0 else 100)⟩

def compute (t : ℤ) : Except Err (Dataset ℤ ℤ) := .ok (weather t)

def times : List ℤ := [3600000000, 7200000000]

/-- the variables in another order -/
def x (t : ℤ) : XrDataset ℤ := { timeSlice t (weather t) 0 with vars := (timeSlice t (weather t) 0).vars.reverse }

theorem ends : ∃ disk', preprocessDay compute .standard "in".toList (0 :: times) (fun _ => none) = (none, disk') := ⟨_, rfl⟩

/-- C121_preprocess_day, with C121_day, C121_append, C121_new_file: the hours 0, 1, 2 of a day -/
example : ∃ f, (appendAll (times.map x) (toNetcdf (epoch1900 .standard) (x 0))).1 = none ∧
    Represents (appendAll (times.map x) (toNetcdf (epoch1900 .standard) (x 0))).2 f [.s_upper, .s_lower] [10, 0] [5] := by
  obtain ⟨disk', h⟩ := ends
  obtain ⟨f, -, h1, h2⟩ := C121_preprocess_day compute .standard "in".toList (inputPath .standard 0 "in".toList) 0 times _ disk'
    (by decide +kernel) h weather (fun _ _ => rfl) 0 x (fun u _ => ⟨rfl, List.reverse_perm _⟩) [.s_upper, .s_lower] (by decide) (by decide)
    (fun _ _ => rfl) (by decide)
  exact ⟨f, h1, h2⟩

/-- what is in that file -/
example : reads (appendAll (times.map x) (toNetcdf (epoch1900 .standard) (x 0))).2 "time" [2] = some (.date 7200000000) ∧
    reads (appendAll (times.map x) (toNetcdf (epoch1900 .standard) (x 0))).2 "s_lower" [1, 1, 0] = some (.num 102) := by
  decide +kernel

/-- C121_new_read and C121_succeeds: the second append -/
example : ((appendToNetcdf (toNetcdf (epoch1900 .standard) (x 0)) (x 3600000000) "time").1 = none) ∧
    (appendToNetcdf (toNetcdf (epoch1900 .standard) (x 0)) (x 3600000000) "time").2.length "time" = 2 := by
  decide +kernel

example : ((x 0).vars.map Prod.fst).Nodup := by decide

/-- an exception: the file has no `evap`; the time is there, although its data are not, and what was in the file is
still there (C121_old_kept) -/
example :
    let ds : XrDataset ℤ := { timeSlice 3600000000 (weather 3600000000) 0 with
      vars := ("time", ⟨["time"], fun _ => .date 3600000000⟩) :: ("evap", ⟨["time", "latitude", "longitude"], fun _ => .num 1⟩) :: [] }
    let r := appendToNetcdf (toNetcdf (epoch1900 .standard) (x 0)) ds "time"
    r.1 = some .indexError ∧ reads r.2 "time" [1] = some (.date 3600000000) ∧ reads r.2 "s_upper" [0, 1, 0] = some (.num 1) := by
  decide +kernel

end NetcdfDemo

end Wam
