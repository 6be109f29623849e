import Verif.Lemmas.PrepCommand
import Verif.Spec.PrepCommand
import Verif.Props.Command
import Verif.Props.Pipeline
import Verif.Props.ShiftArchive

/-!
# C111: `preprocess` leaves the files that `track` reads
-/

set_option linter.unusedSectionVars false
set_option linter.unusedVariables false

namespace Wam
open Spec

section
variable {α ρ : Type} (shw : DataFile α α → List Char) (freq : ρ → ℤ)
  (compute : Loaded ρ → FileSystem → ℤ → Except Err (Dataset α α))

private theorem prep_written (backward : ρ → Bool) (parse : List Char → Except Err (FileSettings ρ)) (cwd dir : FPath)
    (name stamp : List Char) (fs : FileSystem) (s : FileSettings ρ) (cfg : Loaded ρ) (pre : FPath)
    (hg : GivenWith parse cwd dir name stamp fs s cfg) (hpre : cfg.preprocessed = some pre)
    (reads : FPath → Prop) (hlook : LooksOnlyAt (compute cfg) reads) (hin : Untouched cwd s pre stamp name reads)
    (h : (command parse cwd (dir ++ [name]) stamp backward (fun cfg => cfg.preprocessed)
      (preprocessExperiment shw freq compute) fs).2 = .ok ()) :
    ∃ folder, prepExperiment (compute cfg fs) cfg.calendar [] (cfg.config.dates .preprocess_start_date)
        (cfg.config.dates .preprocess_end_date) (freq cfg.config.rest) (fun _ => none) = (none, folder) ∧
      ∀ t f, folder (inputPath cfg.calendar t []) = some (.data f) →
        after (command parse cwd (dir ++ [name]) stamp backward (fun cfg => cfg.preprocessed)
          (preprocessExperiment shw freq compute)) fs (pre ++ [dayName cfg.calendar t]) = some (.file (shw f)) := by
  obtain ⟨⟨text, hf, hp⟩, hcfg, hlog⟩ := hg
  have hlog' : pre ++ ["wam2layers_".toList ++ stamp ++ ".log".toList] ≠ dir ++ [name] := by
    intro h
    have := List.append_inj_right' h rfl
    injection this with this
    exact hlog this.symm
  rcases hcmd : command parse cwd (dir ++ [name]) stamp backward (fun cfg => cfg.preprocessed)
      (preprocessExperiment shw freq compute) fs with ⟨chs, r⟩
  rw [hcmd] at h
  simp only at h
  subst h
  obtain ⟨cfg', fs1, h1, h2, h3, -, h4⟩ := C106_all_written parse cwd dir name fs text stamp s backward
    (fun cfg => cfg.preprocessed) (preprocessExperiment shw freq compute) pre hf hp
    (fun cfg' hl => by rw [loadedFrom_unique hl hcfg]; exact hpre) hlog' chs () hcmd
  have hc := loadedFrom_unique h1 hcfg
  subst hc
  have hsame : preprocessExperiment shw freq compute cfg' fs1 = preprocessExperiment shw freq compute cfg' fs := by
    refine preprocessExperiment_reads shw freq compute cfg' reads hlook fs1 fs ?_
    intro p hp
    obtain ⟨a, b⟩ := hin p hp
    rcases h2 p with h | ⟨h, _⟩ | ⟨h, _⟩
    · exact h
    · exact absurd h a
    · exact absurd h b
  rw [hsame] at h3 h4
  obtain ⟨folder, e1, e2, e3⟩ := preprocessExperiment_writes shw freq compute cfg' fs
  rw [h3] at e1
  refine ⟨folder, e1, ?_⟩
  intro t f hfile
  rcases e3 (inputPath cfg'.calendar t []) with ⟨e4, _⟩ | ⟨b, t', f', a, e4, e5, e6, e7⟩
  · rw [e4] at hfile; cases hfile
  · rw [e6] at hfile
    injection hfile with hfile
    subst hfile
    have hname : ∀ t x, (Saving.day t x).path cfg'.calendar (backward cfg'.config.rest) pre =
        pre ++ [dayName cfg'.calendar t] := by
      intro t x
      show pre ++ [] ++ [dayName cfg'.calendar t] = _
      rw [List.append_nil]
    have h5 := h4 b _ a e4 (by
      intro y hy
      obtain ⟨t'', x, rfl⟩ := e2 y (by rw [e4]; exact List.mem_append_right _ (List.mem_cons_of_mem _ hy))
      rw [hname, hname]
      intro e
      have := List.append_cancel_left e
      injection this with this
      refine e7 t'' x hy ?_
      rw [inputPath_dayName, this, ← e5]; rfl)
    rw [hname] at h5
    have : dayName cfg'.calendar t' = dayName cfg'.calendar t := by
      rw [inputPath_dayName, inputPath_dayName] at e5
      injection e5
    unfold after
    rw [hcmd]
    rw [this] at h5
    exact h5

/-- When `preprocess` has ended normally, the folder of preprocessed data holds, for every input time of the period, the file of its
day, with all input times of that day and what was computed for them from the raw data. -/
theorem C111_preprocess (backward : ρ → Bool) (parse : List Char → Except Err (FileSettings ρ)) (cwd dir : FPath)
    (name stamp : List Char) (fs : FileSystem) (s : FileSettings ρ) (cfg : Loaded ρ) (pre : FPath)
    (hg : GivenWith parse cwd dir name stamp fs s cfg) (hpre : cfg.preprocessed = some pre)
    (reads : FPath → Prop) (hlook : LooksOnlyAt (compute cfg) reads) (hin : Untouched cwd s pre stamp name reads)
    (h : (command parse cwd (dir ++ [name]) stamp backward (fun cfg => cfg.preprocessed)
      (preprocessExperiment shw freq compute) fs).2 = .ok ()) :
    let ts := inputDates (cfg.config.dates .preprocess_start_date) (cfg.config.dates .preprocess_end_date)
      (freq cfg.config.rest)
    (∀ t ∈ ts, FourDigitYear cfg.calendar t) →
    ∀ t ∈ ts, ∃ f, HoldsDay cfg.calendar (compute cfg fs) ts t f ∧
      after (command parse cwd (dir ++ [name]) stamp backward (fun cfg => cfg.preprocessed)
          (preprocessExperiment shw freq compute)) fs
        (pre ++ [dayString (dateTimeOf cfg.calendar t).date ++ "_fluxes_storages.nc".toList]) = some (.file (shw f)) := by
  intro ts hy t ht
  obtain ⟨folder, h1, h2⟩ := prep_written shw freq compute backward parse cwd dir name stamp fs s cfg pre hg hpre reads
    hlook hin h
  obtain ⟨f, d0, h3, h4, h5, h6⟩ := (C57_files _ _ _ _ _ _ _ _ hy h1).1 t ht
  exact ⟨f, ⟨h4, d0, h5, h6⟩, h2 t f h3⟩

end


/-! ### What a run reads in its period -/

section
variable {m n : ℕ} {K : Type} [Field K] [LinearOrder K] [IsStrictOrderedRing K] [NpTrig K]

private theorem readSlice_within {files files' : List Char → Except Err (DataFile K K)} {io : IOConfig K} {t : ℤ}
    (h : files (inputPath io.calendar t io.preprocessed_data_folder) =
      files' (inputPath io.calendar t io.preprocessed_data_folder)) (sub : Subset) :
    readSlice files (sliceKey io t sub) = readSlice files' (sliceKey io t sub) := by
  have : files (sliceKey io t sub).filename = files' (sliceKey io t sub).filename := h
  unfold readSlice
  rw [this]

private theorem loadData_within {files files' : List Char → Except Err (DataFile K K)} {io : IOConfig K} {A B : ℤ}
    (hf : 0 < io.input_frequency) (hA : io.input_frequency ∣ A) (hB : io.input_frequency ∣ B)
    (h : ∀ t, A ≤ t → t ≤ B → io.input_frequency ∣ t → files (inputPath io.calendar t io.preprocessed_data_folder) =
      files' (inputPath io.calendar t io.preprocessed_data_folder)) {t : ℤ} (h0 : A ≤ t) (h1 : t ≤ B) (sub : Subset) :
    loadData files io t sub = loadData files' io t sub := by
  have d0 : io.input_frequency ∣ floorTime t io.input_frequency := by
    unfold floorTime; exact Int.dvd_self_sub_emod
  have d1 : io.input_frequency ∣ ceilTime t io.input_frequency := by
    unfold ceilTime
    have : io.input_frequency ∣ -t - (-t) % io.input_frequency := Int.dvd_self_sub_emod
    have e : t + (-t) % io.input_frequency = -(-t - (-t) % io.input_frequency) := by ring
    rw [e]; exact Int.dvd_neg.mpr this
  have l0 := floorTime_ge hf hA h0
  have l1 := floorTime_le (t := t) hf
  have l2 := ceilTime_le hf hB h1
  have l3 := le_ceilTime (t := t) hf
  unfold loadData loadDataWith
  simp only
  by_cases hc : t = floorTime t io.input_frequency ∨ t = ceilTime t io.input_frequency
  · rw [if_pos hc, if_pos hc]
    refine readSlice_within (h t h0 h1 ?_) sub
    rcases hc with hc | hc
    · rw [hc]; exact d0
    · rw [hc]; exact d1
  · rw [if_neg hc, if_neg hc, readSlice_within (h _ l0 (l1.trans h1) d0) sub,
      readSlice_within (h _ (h0.trans l3) l2 d1) sub]

private theorem runnable_within {files files' : List Char → Except Err (DataFile K K)} {io : IOConfig K} {A B : ℤ}
    (hf : 0 < io.input_frequency) (hA : io.input_frequency ∣ A) (hB : io.input_frequency ∣ B)
    (h : ∀ t, A ≤ t → t ≤ B → io.input_frequency ∣ t → files (inputPath io.calendar t io.preprocessed_data_folder) =
      files' (inputPath io.calendar t io.preprocessed_data_folder)) {run : RunConfig K} (hrun : TracksWithin run A B)
    {tag : TaggingRegion K K} {first : ℤ} (h0 : A ≤ first) (h1 : first ≤ B) {inp : Input m n K}
    (hr : Runnable run (experimentSource (m := m) (n := n) files io tag first) inp) :
    Runnable run (experimentSource (m := m) (n := n) files' io tag first) inp := by
  have hfirst := loadData_within hf hA hB h h0 h1 .states
  have hload := fun t (a : run.tracking_start_date ≤ t) (b : t ≤ run.tracking_end_date) sub =>
    loadData_within hf hA hB h (hrun.start.trans a) (b.trans hrun.stop) sub
  refine ⟨hr.timestep_pos, hr.ordered, ?_, ?_, ?_⟩
  · intro t a b
    rw [← hr.serves.states t a b]
    unfold experimentSource archiveSource
    simp only
    rw [hload t a b]
  · intro t a b
    rw [← hr.serves.fluxes t a b]
    unfold experimentSource archiveSource
    simp only
    rw [hload t a b]
  · have := hr.serves.region
    unfold experimentSource archiveSource at this ⊢
    simp only at this ⊢
    rw [← hfirst]
    exact this

end


private theorem within_period {K : Type} {cfg : RunConfig K} (hpos : 0 < cfg.timestep) {k : ℕ} (hk : k + 1 ≤ cfg.steps) :
    cfg.tracking_start_date ≤ cfg.fwdTime (k + 1) ∧ cfg.fwdTime (k + 1) ≤ cfg.tracking_end_date := by
  unfold RunConfig.fwdTime
  have hdt : 0 < cfg.dt := by unfold RunConfig.dt usPerSecond; omega
  unfold RunConfig.steps stepCount at hk
  have h1 : ((k + 1 : ℕ) : ℤ) ≤ (cfg.tracking_end_date - cfg.tracking_start_date) / cfg.dt := by omega
  have h2 := Int.mul_le_of_le_ediv hdt h1
  have h3 : 0 ≤ ((k + 1 : ℕ) : ℤ) * cfg.dt := by positivity
  exact ⟨by linarith, by linarith⟩

private theorem within_period_back {K : Type} {cfg : RunConfig K} (hpos : 0 < cfg.timestep) {k : ℕ} (hk : k + 1 ≤ cfg.steps) :
    cfg.tracking_start_date ≤ cfg.bwdTime (k + 1) ∧ cfg.bwdTime (k + 1) ≤ cfg.tracking_end_date := by
  have h := within_period hpos hk
  unfold RunConfig.fwdTime at h
  unfold RunConfig.bwdTime
  exact ⟨by linarith, by linarith⟩

section
variable {m n : ℕ} {K ρ : Type} [Field K] [LinearOrder K] [IsStrictOrderedRing K] [NpTrig K]
  (shw : DataFile K K → List Char) (freq : ρ → ℤ) (compute : Loaded ρ → FileSystem → ℤ → Except Err (Dataset K K))

theorem fwd_names_differ (cfg : RunConfig K) (g : GridInfo (m + 2) K) (inp : Input m n K) (c : Calendar)
    (hpos : 0 < cfg.timestep) (hmin : 60 ∣ cfg.timestep)
    (hy : ∀ t, cfg.tracking_start_date ≤ t → t ≤ cfg.tracking_end_date → FourDigitYear c t)
    (o : FwdOutput (m + 2) (n + 2) K) :
    ((fwdProc cfg g inp).files o cfg.steps).Pairwise fun x y =>
      minuteString (dateTimeOf c y.1) ≠ minuteString (dateTimeOf c x.1) := by
  have h : (((fwdProc cfg g inp).files o cfg.steps).map Prod.fst).Pairwise fun s t =>
      minuteString (dateTimeOf c t) ≠ minuteString (dateTimeOf c s) := by
    rw [Proc.files_time, List.pairwise_map]
    have hlt : ((List.range cfg.steps).filter fun i => (fwdProc cfg g inp).write (i + 1)).Pairwise (· < ·) :=
      List.pairwise_lt_range.filter _
    refine hlt.imp_of_mem ?_
    intro a b ha hb hab
    have ha := List.mem_range.1 (List.mem_filter.1 ha).1
    have hb := List.mem_range.1 (List.mem_filter.1 hb).1
    show minuteString (dateTimeOf c (cfg.fwdTime (b + 1))) ≠ minuteString (dateTimeOf c (cfg.fwdTime (a + 1)))
    have hin : ∀ k, k + 1 ≤ cfg.steps → FourDigitYear c (cfg.fwdTime (k + 1)) := by
      intro k hk
      have := within_period hpos hk
      exact hy _ this.1 this.2
    rw [Ne, minuteString_iff c _ _ (hin b hb) (hin a ha)]
    unfold SameMinute RunConfig.fwdTime RunConfig.dt usPerSecond
    obtain ⟨q, hq⟩ := hmin
    rw [hq] at hpos ⊢
    have hq0 : 0 < q := by omega
    obtain ⟨d, rfl⟩ : ∃ d : ℕ, b = a + 1 + d := ⟨b - a - 1, by omega⟩
    have e1 : cfg.tracking_start_date + ((a + 1 + d + 1 : ℕ) : ℤ) * (60 * q * 1000000) =
        cfg.tracking_start_date + ((a + 1 : ℕ) : ℤ) * (60 * q * 1000000) + (d + 1) * q * 60000000 := by push_cast; ring
    rw [e1, Int.add_mul_ediv_right _ _ (by norm_num)]
    have : 0 < ((d : ℤ) + 1) * q := by positivity
    omega
  rw [List.pairwise_map] at h
  exact h

theorem ready_forward (lib : Library m n K) (hfirst : ∀ q name, lib.first q = some name → q name = true)
    (backward : ρ → Bool) (parse₀ : List Char → Except Err (FileSettings ρ)) (cwd₀ dir₀ : FPath) (name₀ stamp₀ : List Char)
    (fs₀ : FileSystem) (s₀ : FileSettings ρ) (cfg₀ : Loaded ρ) (pre : FPath)
    (hg₀ : GivenWith parse₀ cwd₀ dir₀ name₀ stamp₀ fs₀ s₀ cfg₀)
    (reads : FPath → Prop) (hlook : LooksOnlyAt (compute cfg₀) reads) (hin₀ : Untouched cwd₀ s₀ pre stamp₀ name₀ reads)
    (h₀ : (command parse₀ cwd₀ (dir₀ ++ [name₀]) stamp₀ backward (fun cfg => cfg.preprocessed)
      (preprocessExperiment shw freq compute) fs₀).2 = .ok ())
    (fs : FileSystem) (cfg : Loaded (TrackSettings K))
    (hfs : ∀ p, DayFile cfg₀.calendar pre p → fs p = after (command parse₀ cwd₀ (dir₀ ++ [name₀]) stamp₀ backward
      (fun cfg => cfg.preprocessed) (preprocessExperiment shw freq compute)) fs₀ p)
    (hfol : Follows shw lib freq (compute cfg₀ fs₀) cfg₀ pre cfg) (last : ℤ)
    (hper : PrepPeriod cfg₀.calendar (cfg₀.config.dates .preprocess_start_date) (cfg₀.config.dates .preprocess_end_date)
      (freq cfg₀.config.rest) last)
    (hrun : TracksWithin cfg.runConfig (cfg₀.config.dates .preprocess_start_date) last)
    (hmin : 60 ∣ cfg.config.rest.timestep)
    (hw : ForwardWorks (m := m) (n := n) (compute cfg₀ fs₀) cfg₀.calendar [] (cfg₀.config.dates .preprocess_start_date)
      (cfg₀.config.dates .preprocess_end_date) (freq cfg₀.config.rest) last (fun _ => none) cfg.runConfig
      cfg.config.rest.tracking_domain (taggingOf lib cfg fs) (fun t => cfg.output ++ [outputName cfg.calendar false t])
      (restartFile lib.readFwd fs)) :
    ∃ (inp : Input m n K) (lat lon : List K),
      (∀ t, cfg₀.config.dates .preprocess_start_date ≤ t → t ≤ last → freq cfg₀.config.rest ∣ t → ∃ ds, compute cfg₀ fs₀ t = .ok ds ∧
        CutTo cfg.config.rest.tracking_domain ds.latitude ds.longitude lat lon) ∧
      InputFrom (compute cfg₀ fs₀) (freq cfg₀.config.rest) (cfg₀.config.dates .preprocess_start_date) last
        cfg.config.rest.tracking_domain lat lon inp ∧
      (∀ t, ∀ (i : Fin (m + 2)) (j : Fin (n + 2)), RegionValue cfg.config.rest.tracking_domain (taggingOf lib cfg fs) lat lon t
        i j (inp.region t i j)) ∧
      Runnable cfg.runConfig (fwdSource lib cfg fs) inp ∧
      Physical inp cfg.runConfig.tracking_start_date cfg.runConfig.tracking_end_date := by
  obtain ⟨folder, inp, lat, lon, w1, w2, w3, w4, w5, w6, _⟩ := hw
  obtain ⟨folder', e1, e2⟩ := prep_written shw freq compute backward parse₀ cwd₀ dir₀ name₀ stamp₀ fs₀ s₀ cfg₀ pre hg₀
    hfol.folder₀ reads hlook hin₀ h₀
  have hff : folder' = folder := by rw [e1] at w1; exact (Prod.mk.inj w1).2
  subst hff
  obtain ⟨hm, -⟩ := C56_dates_whole_minutes _ (cfg₀.config.dates .preprocess_end_date) (freq cfg₀.config.rest) hper.pos
    (hper.minutes.trans hper.first_dvd) hper.minutes
  -- the folder on disk
  have hfiles : ∀ t, cfg₀.config.dates .preprocess_start_date ≤ t → t ≤ last → freq cfg₀.config.rest ∣ t →
      folder'.files (inputPath cfg₀.calendar t []) = dataFiles lib cfg fs (inputPath cfg₀.calendar t []) := by
    intro t a b d
    have hmem := (hm t).2 ⟨a, b.trans hper.le, dvd_sub d hper.first_dvd⟩
    obtain ⟨f, d0, h3, h4, h5, h6⟩ := (C57_files _ _ _ _ _ _ _ _ (fun t ht => by
      have := (hm t).1 ht; exact hper.years t this.1 this.2.1) e1).1 t hmem
    have h7 := e2 t f h3
    have h8 := hfs _ (DayFile.day t)
    have h9 : fs (pre ++ [(inputPath cfg₀.calendar t []).drop 1]) = some (.file (shw f)) := h8.trans h7
    unfold PrepDisk.files dataFiles
    simp only [h3, hfol.folder, h9]
    exact (hfol.read t hmem f ⟨h4, d0, h5, h6⟩).symm
  have hio : cfg.ioConfig = ⟨cfg₀.calendar, [], cfg.config.rest.tracking_domain, freq cfg₀.config.rest⟩ := by
    unfold Loaded.ioConfig
    rw [hfol.calendar, hfol.frequency]
  have hR : Runnable cfg.runConfig (fwdSource lib cfg fs) inp := by
    unfold fwdSource
    rw [hio]
    exact runnable_within (io := ⟨cfg₀.calendar, [], cfg.config.rest.tracking_domain, freq cfg₀.config.rest⟩) hper.pos
      hper.first_dvd hper.last_dvd hfiles hrun hrun.start (hrun.ordered.trans hrun.stop) w5
  exact ⟨inp, lat, lon, w2, w3, w4, hR, w6⟩

private theorem chain_forward (lib : Library m n K) (hfirst : ∀ q name, lib.first q = some name → q name = true)
    (backward : ρ → Bool) (parse₀ : List Char → Except Err (FileSettings ρ)) (cwd₀ dir₀ : FPath) (name₀ stamp₀ : List Char)
    (fs₀ : FileSystem) (s₀ : FileSettings ρ) (cfg₀ : Loaded ρ) (pre : FPath)
    (hg₀ : GivenWith parse₀ cwd₀ dir₀ name₀ stamp₀ fs₀ s₀ cfg₀)
    (reads : FPath → Prop) (hlook : LooksOnlyAt (compute cfg₀) reads) (hin₀ : Untouched cwd₀ s₀ pre stamp₀ name₀ reads)
    (h₀ : (command parse₀ cwd₀ (dir₀ ++ [name₀]) stamp₀ backward (fun cfg => cfg.preprocessed)
      (preprocessExperiment shw freq compute) fs₀).2 = .ok ())
    (fs : FileSystem) (cfg : Loaded (TrackSettings K))
    (hfs : ∀ p, DayFile cfg₀.calendar pre p → fs p = after (command parse₀ cwd₀ (dir₀ ++ [name₀]) stamp₀ backward
      (fun cfg => cfg.preprocessed) (preprocessExperiment shw freq compute)) fs₀ p)
    (hfol : Follows shw lib freq (compute cfg₀ fs₀) cfg₀ pre cfg) (last : ℤ)
    (hper : PrepPeriod cfg₀.calendar (cfg₀.config.dates .preprocess_start_date) (cfg₀.config.dates .preprocess_end_date)
      (freq cfg₀.config.rest) last)
    (hrun : TracksWithin cfg.runConfig (cfg₀.config.dates .preprocess_start_date) last)
    (hmin : 60 ∣ cfg.config.rest.timestep)
    (parse : List Char → Except Err (FileSettings (TrackSettings K))) (cwd dir : FPath) (name stamp : List Char)
    (s : FileSettings (TrackSettings K)) (hg : GivenWith parse cwd dir name stamp fs s cfg)
    (hin : Untouched cwd s cfg.output stamp name (TrackInput cfg)) (hb : cfg.config.rest.backward = false)
    (hre : RestartFwd cfg.runConfig (fun t => cfg.output ++ [outputName cfg.calendar false t]) (restartFile lib.readFwd fs))
    (h : (command parse cwd (dir ++ [name]) stamp (fun r => r.backward) (fun cfg => some cfg.output)
      (trackExperiment lib) fs).2 = .ok ())
    (hw : ForwardWorks (m := m) (n := n) (compute cfg₀ fs₀) cfg₀.calendar [] (cfg₀.config.dates .preprocess_start_date)
      (cfg₀.config.dates .preprocess_end_date) (freq cfg₀.config.rest) last (fun _ => none) cfg.runConfig
      cfg.config.rest.tracking_domain (taggingOf lib cfg fs) (fun t => cfg.output ++ [outputName cfg.calendar false t])
      (restartFile lib.readFwd fs)) :
    ForwardResult lib (compute cfg₀ fs₀) (freq cfg₀.config.rest) (cfg₀.config.dates .preprocess_start_date) last cfg fs
      (after (command parse cwd (dir ++ [name]) stamp (fun r => r.backward) (fun cfg => some cfg.output)
        (trackExperiment lib)) fs) := by
  obtain ⟨inp, lat, lon, w2, w3, w4, hR, w6⟩ := ready_forward shw freq compute lib hfirst backward parse₀ cwd₀ dir₀ name₀ stamp₀
    fs₀ s₀ cfg₀ pre hg₀ reads hlook hin₀ h₀ fs cfg hfs hfol last hper hrun hmin hw
  -- the run
  obtain ⟨⟨text, hf, hp⟩, hcfg, hlog⟩ := hg
  rcases hcmd : command parse cwd (dir ++ [name]) stamp (fun r => r.backward) (fun cfg => some cfg.output)
      (trackExperiment lib) fs with ⟨chs, r⟩
  rw [hcmd] at h
  simp only at h
  subst h
  obtain ⟨s1, k1, -, k2⟩ := C109_forward_files lib hfirst parse cwd dir name fs text stamp s cfg hf hp hcfg hb hlog hin chs ()
    hcmd
  obtain ⟨o, ho⟩ := fwd_init_ok cfg.runConfig _ inp (fun t => cfg.output ++ [outputName cfg.calendar false t])
    (restartFile lib.readFwd fs) hR (fun h => by
      obtain ⟨f, hf, -⟩ := hre h
      rw [hf]; rfl)
  obtain ⟨r, hr1, hr2, hall⟩ := fwd_run_eq cfg.runConfig _ inp _ _ hR o ho
  have hs1 : s1 = fwdStateAt cfg.runConfig (fwdSource lib cfg fs) inp r o cfg.runConfig.steps := by
    have := hall cfg.fuel
    rw [k1, if_neg (by show ¬ cfg.fuel < cfg.fuel; omega)] at this
    injection this
  have hends : EndsIn (fwdRun cfg.runConfig (fwdSource lib cfg fs) (fun t => cfg.output ++ [outputName cfg.calendar false t])
      (restartFile lib.readFwd fs)) s1 := ⟨cfg.runConfig.steps, fun fuel hfu => by rw [hall, if_neg (by omega), hs1]⟩
  have hsound := C26_files_are_sound_forward cfg.runConfig _ inp _ _ hR w6 (by
    intro i j
    unfold startFwd
    cases hrs : cfg.runConfig.restart with
    | false => exact ⟨le_rfl, le_rfl⟩
    | true =>
      obtain ⟨f, hf, hpos⟩ := hre hrs
      rw [hf]
      exact hpos i j) hends
  refine ⟨inp, lat, lon, s1, w2, w3, w4, C109_settings cfg, hR, hends, ?_⟩
  unfold ForwardFiles
  intro A dt N k hk1 hkN hwr
  have hmem : ∃ o', (A + k * dt, o') ∈ s1.files := by
    obtain ⟨i, rfl⟩ : ∃ i, k = i + 1 := ⟨k - 1, by omega⟩
    refine ⟨(fwdProc cfg.runConfig (fwdSource lib cfg fs).grid inp).full o i, ?_⟩
    rw [hs1]
    refine (Proc.mem_files _ _).2 ⟨i, hkN, ?_, rfl⟩
    exact decide_eq_true hwr
  obtain ⟨o', hmem⟩ := hmem
  refine ⟨o', hmem, hsound _ hmem, ?_⟩
  obtain ⟨before, aft, hsplit⟩ := List.append_of_mem hmem
  unfold after
  rw [hcmd]
  refine k2 before _ o' aft hsplit ?_
  have hpw := fwd_names_differ cfg.runConfig (fwdSource lib cfg fs).grid inp cfg.calendar hR.timestep_pos hmin
    (fun t a b => by
      rw [hfol.calendar]
      exact hper.years t (hrun.start.trans a) ((b.trans hrun.stop).trans hper.le)) o
  have e : (fwdProc cfg.runConfig (fwdSource lib cfg fs).grid inp).files o cfg.runConfig.steps = s1.files := by
    rw [hs1]; rfl
  rw [e, hsplit] at hpw
  exact (List.pairwise_cons.1 (List.pairwise_append.1 hpw).2.1).1

theorem bwd_names_differ (cfg : RunConfig K) (g : GridInfo (m + 2) K) (inp : Input m n K) (c : Calendar)
    (hpos : 0 < cfg.timestep) (hmin : 60 ∣ cfg.timestep)
    (hy : ∀ t, cfg.tracking_start_date ≤ t → t ≤ cfg.tracking_end_date → FourDigitYear c t)
    (o : BwdOutput (m + 2) (n + 2) K) :
    ((bwdProc cfg g inp).files o cfg.steps).Pairwise fun x y =>
      minuteString (dateTimeOf c y.1) ≠ minuteString (dateTimeOf c x.1) := by
  have h : (((bwdProc cfg g inp).files o cfg.steps).map Prod.fst).Pairwise fun s t =>
      minuteString (dateTimeOf c t) ≠ minuteString (dateTimeOf c s) := by
    rw [Proc.files_time, List.pairwise_map]
    have hlt : ((List.range cfg.steps).filter fun i => (bwdProc cfg g inp).write (i + 1)).Pairwise (· < ·) :=
      List.pairwise_lt_range.filter _
    refine hlt.imp_of_mem ?_
    intro a b ha hb hab
    have ha := List.mem_range.1 (List.mem_filter.1 ha).1
    have hb := List.mem_range.1 (List.mem_filter.1 hb).1
    show minuteString (dateTimeOf c (cfg.bwdTime (b + 1))) ≠ minuteString (dateTimeOf c (cfg.bwdTime (a + 1)))
    have hin : ∀ k, k + 1 ≤ cfg.steps → FourDigitYear c (cfg.bwdTime (k + 1)) := by
      intro k hk
      have := within_period_back hpos hk
      exact hy _ this.1 this.2
    rw [Ne, minuteString_iff c _ _ (hin b hb) (hin a ha)]
    unfold SameMinute RunConfig.bwdTime RunConfig.dt usPerSecond
    obtain ⟨q, hq⟩ := hmin
    rw [hq] at hpos ⊢
    have hq0 : 0 < q := by omega
    obtain ⟨d, rfl⟩ : ∃ d : ℕ, b = a + 1 + d := ⟨b - a - 1, by omega⟩
    have e1 : cfg.tracking_end_date - ((a + 1 + d + 1 : ℕ) : ℤ) * (60 * q * 1000000) =
        cfg.tracking_end_date - ((a + 1 : ℕ) : ℤ) * (60 * q * 1000000) + -((d + 1) * q) * 60000000 := by push_cast; ring
    rw [e1, Int.add_mul_ediv_right _ _ (by norm_num)]
    have : 0 < ((d : ℤ) + 1) * q := by positivity
    omega
  rw [List.pairwise_map] at h
  exact h

theorem ready_backward (lib : Library m n K) (hfirst : ∀ q name, lib.first q = some name → q name = true)
    (backward : ρ → Bool) (parse₀ : List Char → Except Err (FileSettings ρ)) (cwd₀ dir₀ : FPath) (name₀ stamp₀ : List Char)
    (fs₀ : FileSystem) (s₀ : FileSettings ρ) (cfg₀ : Loaded ρ) (pre : FPath)
    (hg₀ : GivenWith parse₀ cwd₀ dir₀ name₀ stamp₀ fs₀ s₀ cfg₀)
    (reads : FPath → Prop) (hlook : LooksOnlyAt (compute cfg₀) reads) (hin₀ : Untouched cwd₀ s₀ pre stamp₀ name₀ reads)
    (h₀ : (command parse₀ cwd₀ (dir₀ ++ [name₀]) stamp₀ backward (fun cfg => cfg.preprocessed)
      (preprocessExperiment shw freq compute) fs₀).2 = .ok ())
    (fs : FileSystem) (cfg : Loaded (TrackSettings K))
    (hfs : ∀ p, DayFile cfg₀.calendar pre p → fs p = after (command parse₀ cwd₀ (dir₀ ++ [name₀]) stamp₀ backward
      (fun cfg => cfg.preprocessed) (preprocessExperiment shw freq compute)) fs₀ p)
    (hfol : Follows shw lib freq (compute cfg₀ fs₀) cfg₀ pre cfg) (last : ℤ)
    (hper : PrepPeriod cfg₀.calendar (cfg₀.config.dates .preprocess_start_date) (cfg₀.config.dates .preprocess_end_date)
      (freq cfg₀.config.rest) last)
    (hrun : TracksWithin cfg.runConfig (cfg₀.config.dates .preprocess_start_date) last)
    (hmin : 60 ∣ cfg.config.rest.timestep)
    (hw : BackwardWorks (m := m) (n := n) (compute cfg₀ fs₀) cfg₀.calendar [] (cfg₀.config.dates .preprocess_start_date)
      (cfg₀.config.dates .preprocess_end_date) (freq cfg₀.config.rest) last (fun _ => none) cfg.runConfig
      cfg.config.rest.tracking_domain (taggingOf lib cfg fs) (fun t => cfg.output ++ [outputName cfg.calendar true t])
      (restartFile lib.readBwd fs)) :
    ∃ (inp : Input m n K) (lat lon : List K),
      (∀ t, cfg₀.config.dates .preprocess_start_date ≤ t → t ≤ last → freq cfg₀.config.rest ∣ t → ∃ ds, compute cfg₀ fs₀ t = .ok ds ∧
        CutTo cfg.config.rest.tracking_domain ds.latitude ds.longitude lat lon) ∧
      InputFrom (compute cfg₀ fs₀) (freq cfg₀.config.rest) (cfg₀.config.dates .preprocess_start_date) last
        cfg.config.rest.tracking_domain lat lon inp ∧
      (∀ t, ∀ (i : Fin (m + 2)) (j : Fin (n + 2)), RegionValue cfg.config.rest.tracking_domain (taggingOf lib cfg fs) lat lon t
        i j (inp.region t i j)) ∧
      Runnable cfg.runConfig (bwdSource lib cfg fs) inp ∧
      Physical inp cfg.runConfig.tracking_start_date cfg.runConfig.tracking_end_date := by
  obtain ⟨folder, inp, lat, lon, w1, w2, w3, w4, w5, w6, _⟩ := hw
  obtain ⟨folder', e1, e2⟩ := prep_written shw freq compute backward parse₀ cwd₀ dir₀ name₀ stamp₀ fs₀ s₀ cfg₀ pre hg₀
    hfol.folder₀ reads hlook hin₀ h₀
  have hff : folder' = folder := by rw [e1] at w1; exact (Prod.mk.inj w1).2
  subst hff
  obtain ⟨hm, -⟩ := C56_dates_whole_minutes _ (cfg₀.config.dates .preprocess_end_date) (freq cfg₀.config.rest) hper.pos
    (hper.minutes.trans hper.first_dvd) hper.minutes
  -- the folder on disk
  have hfiles : ∀ t, cfg₀.config.dates .preprocess_start_date ≤ t → t ≤ last → freq cfg₀.config.rest ∣ t →
      folder'.files (inputPath cfg₀.calendar t []) = dataFiles lib cfg fs (inputPath cfg₀.calendar t []) := by
    intro t a b d
    have hmem := (hm t).2 ⟨a, b.trans hper.le, dvd_sub d hper.first_dvd⟩
    obtain ⟨f, d0, h3, h4, h5, h6⟩ := (C57_files _ _ _ _ _ _ _ _ (fun t ht => by
      have := (hm t).1 ht; exact hper.years t this.1 this.2.1) e1).1 t hmem
    have h7 := e2 t f h3
    have h8 := hfs _ (DayFile.day t)
    have h9 : fs (pre ++ [(inputPath cfg₀.calendar t []).drop 1]) = some (.file (shw f)) := h8.trans h7
    unfold PrepDisk.files dataFiles
    simp only [h3, hfol.folder, h9]
    exact (hfol.read t hmem f ⟨h4, d0, h5, h6⟩).symm
  have hio : cfg.ioConfig = ⟨cfg₀.calendar, [], cfg.config.rest.tracking_domain, freq cfg₀.config.rest⟩ := by
    unfold Loaded.ioConfig
    rw [hfol.calendar, hfol.frequency]
  have hR : Runnable cfg.runConfig (bwdSource lib cfg fs) inp := by
    unfold bwdSource
    rw [hio]
    exact runnable_within (io := ⟨cfg₀.calendar, [], cfg.config.rest.tracking_domain, freq cfg₀.config.rest⟩) hper.pos
      hper.first_dvd hper.last_dvd hfiles hrun (hrun.start.trans hrun.ordered) hrun.stop w5
  exact ⟨inp, lat, lon, w2, w3, w4, hR, w6⟩

private theorem chain_backward (lib : Library m n K) (hfirst : ∀ q name, lib.first q = some name → q name = true)
    (backward : ρ → Bool) (parse₀ : List Char → Except Err (FileSettings ρ)) (cwd₀ dir₀ : FPath) (name₀ stamp₀ : List Char)
    (fs₀ : FileSystem) (s₀ : FileSettings ρ) (cfg₀ : Loaded ρ) (pre : FPath)
    (hg₀ : GivenWith parse₀ cwd₀ dir₀ name₀ stamp₀ fs₀ s₀ cfg₀)
    (reads : FPath → Prop) (hlook : LooksOnlyAt (compute cfg₀) reads) (hin₀ : Untouched cwd₀ s₀ pre stamp₀ name₀ reads)
    (h₀ : (command parse₀ cwd₀ (dir₀ ++ [name₀]) stamp₀ backward (fun cfg => cfg.preprocessed)
      (preprocessExperiment shw freq compute) fs₀).2 = .ok ())
    (fs : FileSystem) (cfg : Loaded (TrackSettings K))
    (hfs : ∀ p, DayFile cfg₀.calendar pre p → fs p = after (command parse₀ cwd₀ (dir₀ ++ [name₀]) stamp₀ backward
      (fun cfg => cfg.preprocessed) (preprocessExperiment shw freq compute)) fs₀ p)
    (hfol : Follows shw lib freq (compute cfg₀ fs₀) cfg₀ pre cfg) (last : ℤ)
    (hper : PrepPeriod cfg₀.calendar (cfg₀.config.dates .preprocess_start_date) (cfg₀.config.dates .preprocess_end_date)
      (freq cfg₀.config.rest) last)
    (hrun : TracksWithin cfg.runConfig (cfg₀.config.dates .preprocess_start_date) last)
    (hmin : 60 ∣ cfg.config.rest.timestep)
    (parse : List Char → Except Err (FileSettings (TrackSettings K))) (cwd dir : FPath) (name stamp : List Char)
    (s : FileSettings (TrackSettings K)) (hg : GivenWith parse cwd dir name stamp fs s cfg)
    (hin : Untouched cwd s cfg.output stamp name (TrackInput cfg)) (hb : cfg.config.rest.backward = true)
    (hre : RestartBwd cfg.runConfig (fun t => cfg.output ++ [outputName cfg.calendar true t]) (restartFile lib.readBwd fs))
    (h : (command parse cwd (dir ++ [name]) stamp (fun r => r.backward) (fun cfg => some cfg.output)
      (trackExperiment lib) fs).2 = .ok ())
    (hw : BackwardWorks (m := m) (n := n) (compute cfg₀ fs₀) cfg₀.calendar [] (cfg₀.config.dates .preprocess_start_date)
      (cfg₀.config.dates .preprocess_end_date) (freq cfg₀.config.rest) last (fun _ => none) cfg.runConfig
      cfg.config.rest.tracking_domain (taggingOf lib cfg fs) (fun t => cfg.output ++ [outputName cfg.calendar true t])
      (restartFile lib.readBwd fs)) :
    BackwardResult lib (compute cfg₀ fs₀) (freq cfg₀.config.rest) (cfg₀.config.dates .preprocess_start_date) last cfg fs
      (after (command parse cwd (dir ++ [name]) stamp (fun r => r.backward) (fun cfg => some cfg.output)
        (trackExperiment lib)) fs) := by
  obtain ⟨inp, lat, lon, w2, w3, w4, hR, w6⟩ := ready_backward shw freq compute lib hfirst backward parse₀ cwd₀ dir₀ name₀ stamp₀
    fs₀ s₀ cfg₀ pre hg₀ reads hlook hin₀ h₀ fs cfg hfs hfol last hper hrun hmin hw
  -- the run
  obtain ⟨⟨text, hf, hp⟩, hcfg, hlog⟩ := hg
  rcases hcmd : command parse cwd (dir ++ [name]) stamp (fun r => r.backward) (fun cfg => some cfg.output)
      (trackExperiment lib) fs with ⟨chs, r⟩
  rw [hcmd] at h
  simp only at h
  subst h
  obtain ⟨s1, k1, -, k2⟩ := C109_backward_files lib hfirst parse cwd dir name fs text stamp s cfg hf hp hcfg hb hlog hin chs ()
    hcmd
  obtain ⟨o, ho⟩ := bwd_init_ok cfg.runConfig _ inp (fun t => cfg.output ++ [outputName cfg.calendar true t])
    (restartFile lib.readBwd fs) hR (fun h => by
      obtain ⟨f, hf, -⟩ := hre h
      rw [hf]; rfl)
  obtain ⟨r, hr1, hr2, hall⟩ := bwd_run_eq cfg.runConfig _ inp _ _ hR o ho
  have hs1 : s1 = bwdStateAt cfg.runConfig (bwdSource lib cfg fs) inp r o cfg.runConfig.steps := by
    have := hall cfg.fuel
    rw [k1, if_neg (by show ¬ cfg.fuel < cfg.fuel; omega)] at this
    injection this
  have hends : EndsIn (bwdRun cfg.runConfig (bwdSource lib cfg fs) (fun t => cfg.output ++ [outputName cfg.calendar true t])
      (restartFile lib.readBwd fs)) s1 := ⟨cfg.runConfig.steps, fun fuel hfu => by rw [hall, if_neg (by omega), hs1]⟩
  have hsound := C26_files_are_sound_backward cfg.runConfig _ inp _ _ hR w6 (by
    intro i j
    unfold startBwd
    cases hrs : cfg.runConfig.restart with
    | false => exact ⟨le_rfl, le_rfl⟩
    | true =>
      obtain ⟨f, hf, hpos⟩ := hre hrs
      rw [hf]
      exact hpos i j) hends
  refine ⟨inp, lat, lon, s1, w2, w3, w4, C109_settings cfg, hR, hends, ?_⟩
  unfold BackwardFiles
  intro B dt N k hk1 hkN hwr
  have hmem : ∃ o', (B - k * dt, o') ∈ s1.files := by
    obtain ⟨i, rfl⟩ : ∃ i, k = i + 1 := ⟨k - 1, by omega⟩
    refine ⟨(bwdProc cfg.runConfig (bwdSource lib cfg fs).grid inp).full o i, ?_⟩
    rw [hs1]
    refine (Proc.mem_files _ _).2 ⟨i, hkN, ?_, rfl⟩
    exact decide_eq_true hwr
  obtain ⟨o', hmem⟩ := hmem
  refine ⟨o', hmem, hsound _ hmem, ?_⟩
  obtain ⟨before, aft, hsplit⟩ := List.append_of_mem hmem
  unfold after
  rw [hcmd]
  refine k2 before _ o' aft hsplit ?_
  have hpw := bwd_names_differ cfg.runConfig (bwdSource lib cfg fs).grid inp cfg.calendar hR.timestep_pos hmin
    (fun t a b => by
      rw [hfol.calendar]
      exact hper.years t (hrun.start.trans a) ((b.trans hrun.stop).trans hper.le)) o
  have e : (bwdProc cfg.runConfig (bwdSource lib cfg fs).grid inp).files o cfg.runConfig.steps = s1.files := by
    rw [hs1]; rfl
  rw [e, hsplit] at hpw
  exact (List.pairwise_cons.1 (List.pairwise_append.1 hpw).2.1).1

variable [FloorRing K]

/-- `preprocess`, and later `track` forward: if both have ended normally, and preprocessing made physical data on one grid for the
period of tracking, then the output folder holds the files of the run from these data, and they are sound. -/
theorem C111_forward (lib : Library m n K) (hfirst : ∀ q name, lib.first q = some name → q name = true)
    (backward : ρ → Bool) (parse₀ : List Char → Except Err (FileSettings ρ)) (cwd₀ dir₀ : FPath) (name₀ stamp₀ : List Char)
    (fs₀ : FileSystem) (s₀ : FileSettings ρ) (cfg₀ : Loaded ρ) (pre : FPath)
    (hg₀ : GivenWith parse₀ cwd₀ dir₀ name₀ stamp₀ fs₀ s₀ cfg₀)
    (reads : FPath → Prop) (hlook : LooksOnlyAt (compute cfg₀) reads) (hin₀ : Untouched cwd₀ s₀ pre stamp₀ name₀ reads)
    (h₀ : (command parse₀ cwd₀ (dir₀ ++ [name₀]) stamp₀ backward (fun cfg => cfg.preprocessed)
      (preprocessExperiment shw freq compute) fs₀).2 = .ok ())
    (fs : FileSystem) (cfg : Loaded (TrackSettings K))
    (hfs : ∀ p, DayFile cfg₀.calendar pre p → fs p = after (command parse₀ cwd₀ (dir₀ ++ [name₀]) stamp₀ backward
      (fun cfg => cfg.preprocessed) (preprocessExperiment shw freq compute)) fs₀ p)
    (hfol : Follows shw lib freq (compute cfg₀ fs₀) cfg₀ pre cfg) (last : ℤ)
    (hper : PrepPeriod cfg₀.calendar (cfg₀.config.dates .preprocess_start_date) (cfg₀.config.dates .preprocess_end_date)
      (freq cfg₀.config.rest) last)
    (hrun : TracksWithin cfg.runConfig (cfg₀.config.dates .preprocess_start_date) last)
    (hmin : 60 ∣ cfg.config.rest.timestep)
    (parse : List Char → Except Err (FileSettings (TrackSettings K))) (cwd dir : FPath) (name stamp : List Char)
    (s : FileSettings (TrackSettings K)) (hg : GivenWith parse cwd dir name stamp fs s cfg)
    (hin : Untouched cwd s cfg.output stamp name (TrackInput cfg)) (hb : cfg.config.rest.backward = false)
    (hre : RestartFwd cfg.runConfig (fun t => cfg.output ++ [outputName cfg.calendar false t]) (restartFile lib.readFwd fs))
    (h : (command parse cwd (dir ++ [name]) stamp (fun r => r.backward) (fun cfg => some cfg.output)
      (trackExperiment lib) fs).2 = .ok ())
    {lat₀ lon₀ lat lon : List K} (hlat : lat.length = m + 2) (hlon : lon.length = n + 2)
    (hc : ∀ t ∈ inputDates (cfg₀.config.dates .preprocess_start_date) (cfg₀.config.dates .preprocess_end_date)
      (freq cfg₀.config.rest), ∃ ds, compute cfg₀ fs₀ t = .ok ds ∧ ds.latitude = lat₀ ∧ ds.longitude = lon₀ ∧
      ds.vars = allVars ∧ MoistData ds)
    (hfit : ∀ t ∈ inputDates (cfg₀.config.dates .preprocess_start_date) (cfg₀.config.dates .preprocess_end_date)
      (freq cfg₀.config.rest), ∀ ds, compute cfg₀ fs₀ t = .ok ds →
        FitsData cfg.config.rest.tracking_domain (taggingOf lib cfg fs) ds lat lon) :
    ForwardResult lib (compute cfg₀ fs₀) (freq cfg₀.config.rest) (cfg₀.config.dates .preprocess_start_date) last cfg fs
      (after (command parse cwd (dir ++ [name]) stamp (fun r => r.backward) (fun cfg => some cfg.output)
        (trackExperiment lib)) fs) :=
  chain_forward shw freq compute lib hfirst backward parse₀ cwd₀ dir₀ name₀ stamp₀ fs₀ s₀ cfg₀ pre hg₀ reads hlook hin₀ h₀ fs cfg hfs
    hfol last hper hrun hmin parse cwd dir name stamp s hg hin hb hre h
    ((pipeline_works [] hper (fun _ => none) hlat hlon hc hrun hfit _).1 _ hre)

/-- the same backward -/
theorem C111_backward (lib : Library m n K) (hfirst : ∀ q name, lib.first q = some name → q name = true)
    (backward : ρ → Bool) (parse₀ : List Char → Except Err (FileSettings ρ)) (cwd₀ dir₀ : FPath) (name₀ stamp₀ : List Char)
    (fs₀ : FileSystem) (s₀ : FileSettings ρ) (cfg₀ : Loaded ρ) (pre : FPath)
    (hg₀ : GivenWith parse₀ cwd₀ dir₀ name₀ stamp₀ fs₀ s₀ cfg₀)
    (reads : FPath → Prop) (hlook : LooksOnlyAt (compute cfg₀) reads) (hin₀ : Untouched cwd₀ s₀ pre stamp₀ name₀ reads)
    (h₀ : (command parse₀ cwd₀ (dir₀ ++ [name₀]) stamp₀ backward (fun cfg => cfg.preprocessed)
      (preprocessExperiment shw freq compute) fs₀).2 = .ok ())
    (fs : FileSystem) (cfg : Loaded (TrackSettings K))
    (hfs : ∀ p, DayFile cfg₀.calendar pre p → fs p = after (command parse₀ cwd₀ (dir₀ ++ [name₀]) stamp₀ backward
      (fun cfg => cfg.preprocessed) (preprocessExperiment shw freq compute)) fs₀ p)
    (hfol : Follows shw lib freq (compute cfg₀ fs₀) cfg₀ pre cfg) (last : ℤ)
    (hper : PrepPeriod cfg₀.calendar (cfg₀.config.dates .preprocess_start_date) (cfg₀.config.dates .preprocess_end_date)
      (freq cfg₀.config.rest) last)
    (hrun : TracksWithin cfg.runConfig (cfg₀.config.dates .preprocess_start_date) last)
    (hmin : 60 ∣ cfg.config.rest.timestep)
    (parse : List Char → Except Err (FileSettings (TrackSettings K))) (cwd dir : FPath) (name stamp : List Char)
    (s : FileSettings (TrackSettings K)) (hg : GivenWith parse cwd dir name stamp fs s cfg)
    (hin : Untouched cwd s cfg.output stamp name (TrackInput cfg)) (hb : cfg.config.rest.backward = true)
    (hre : RestartBwd cfg.runConfig (fun t => cfg.output ++ [outputName cfg.calendar true t]) (restartFile lib.readBwd fs))
    (h : (command parse cwd (dir ++ [name]) stamp (fun r => r.backward) (fun cfg => some cfg.output)
      (trackExperiment lib) fs).2 = .ok ())
    {lat₀ lon₀ lat lon : List K} (hlat : lat.length = m + 2) (hlon : lon.length = n + 2)
    (hc : ∀ t ∈ inputDates (cfg₀.config.dates .preprocess_start_date) (cfg₀.config.dates .preprocess_end_date)
      (freq cfg₀.config.rest), ∃ ds, compute cfg₀ fs₀ t = .ok ds ∧ ds.latitude = lat₀ ∧ ds.longitude = lon₀ ∧
      ds.vars = allVars ∧ MoistData ds)
    (hfit : ∀ t ∈ inputDates (cfg₀.config.dates .preprocess_start_date) (cfg₀.config.dates .preprocess_end_date)
      (freq cfg₀.config.rest), ∀ ds, compute cfg₀ fs₀ t = .ok ds →
        FitsData cfg.config.rest.tracking_domain (taggingOf lib cfg fs) ds lat lon) :
    BackwardResult lib (compute cfg₀ fs₀) (freq cfg₀.config.rest) (cfg₀.config.dates .preprocess_start_date) last cfg fs
      (after (command parse cwd (dir ++ [name]) stamp (fun r => r.backward) (fun cfg => some cfg.output)
        (trackExperiment lib)) fs) :=
  chain_backward shw freq compute lib hfirst backward parse₀ cwd₀ dir₀ name₀ stamp₀ fs₀ s₀ cfg₀ pre hg₀ reads hlook hin₀ h₀ fs cfg hfs
    hfol last hper hrun hmin parse cwd dir name stamp s hg hin hb hre h
    ((pipeline_works [] hper (fun _ => none) hlat hlon hc hrun hfit _).2 _ hre)

end

section
variable {m n : ℕ} {ρ : Type} (shw : DataFile ℝ ℝ → List Char) (freq : ρ → ℤ) (icfg : Loaded ρ → InputConfig)
  (lay : Loaded ρ → LayerConfig ℝ) (raw : Loaded ρ → FileSystem → List Char → Except Err (RawFile ℝ ℝ))
  {argsort : List ℝ → List ℕ} (ha : IsArgsort argsort)

include ha in
/-- the same from ERA5 files on pressure levels, on disk when `preprocess` starts: complete, without unphysical numbers -/
theorem C111_era5_forward (lib : Library m n ℝ) (hfirst : ∀ q name, lib.first q = some name → q name = true)
    (backward : ρ → Bool) (parse₀ : List Char → Except Err (FileSettings ρ)) (cwd₀ dir₀ : FPath) (name₀ stamp₀ : List Char)
    (fs₀ : FileSystem) (s₀ : FileSettings ρ) (cfg₀ : Loaded ρ) (pre : FPath)
    (hg₀ : GivenWith parse₀ cwd₀ dir₀ name₀ stamp₀ fs₀ s₀ cfg₀)
    (reads : FPath → Prop) (hlook : LooksOnlyAt (raw cfg₀) reads) (hin₀ : Untouched cwd₀ s₀ pre stamp₀ name₀ reads)
    (h₀ : (command parse₀ cwd₀ (dir₀ ++ [name₀]) stamp₀ backward (fun cfg => cfg.preprocessed)
      (preprocessExperiment shw freq fun c fs => prepEra5 argsort (lay c) (icfg c) (raw c fs)) fs₀).2 = .ok ())
    (fs : FileSystem) (cfg : Loaded (TrackSettings ℝ))
    (hfs : ∀ p, DayFile cfg₀.calendar pre p → fs p = after (command parse₀ cwd₀ (dir₀ ++ [name₀]) stamp₀ backward
      (fun cfg => cfg.preprocessed) (preprocessExperiment shw freq fun c fs => prepEra5 argsort (lay c) (icfg c) (raw c fs))) fs₀ p)
    (hfol : Follows shw lib freq (prepEra5 argsort (lay cfg₀) (icfg cfg₀) (raw cfg₀ fs₀)) cfg₀ pre cfg) (last : ℤ)
    (hper : PrepPeriod cfg₀.calendar (cfg₀.config.dates .preprocess_start_date) (cfg₀.config.dates .preprocess_end_date)
      (freq cfg₀.config.rest) last)
    (hrun : TracksWithin cfg.runConfig (cfg₀.config.dates .preprocess_start_date) last)
    (hmin : 60 ∣ cfg.config.rest.timestep)
    (parse : List Char → Except Err (FileSettings (TrackSettings ℝ))) (cwd dir : FPath) (name stamp : List Char)
    (s : FileSettings (TrackSettings ℝ)) (hg : GivenWith parse cwd dir name stamp fs s cfg)
    (hin : Untouched cwd s cfg.output stamp name (TrackInput cfg)) (hb : cfg.config.rest.backward = false)
    (hre : RestartFwd cfg.runConfig (fun t => cfg.output ++ [outputName cfg.calendar false t]) (restartFile lib.readFwd fs))
    (h : (command parse cwd (dir ++ [name]) stamp (fun r => r.backward) (fun cfg => some cfg.output)
      (trackExperiment lib) fs).2 = .ok ())
    {levels : List ℤ} {g : List ℝ × List ℝ} (hlt : (icfg cfg₀).levelType = .pressure_levels)
    (hL : (icfg cfg₀).levels = .list levels) (hne : levels ≠ []) (hpos : ∀ l ∈ levels, 0 < l) (hsec : 0 < (icfg cfg₀).nseconds)
    (hdata : ∀ t ∈ inputDates (cfg₀.config.dates .preprocess_start_date) (cfg₀.config.dates .preprocess_end_date)
      (freq cfg₀.config.rest), Era5Complete (icfg cfg₀) (raw cfg₀ fs₀) t levels g ∧
      MoistEra5 (icfg cfg₀) (raw cfg₀ fs₀) t (lay cfg₀) levels g)
    {lat lon : List ℝ} (hlat : lat.length = m + 2) (hlon : lon.length = n + 2)
    (hfit : ∀ t ∈ inputDates (cfg₀.config.dates .preprocess_start_date) (cfg₀.config.dates .preprocess_end_date)
      (freq cfg₀.config.rest), ∀ ds, prepEra5 argsort (lay cfg₀) (icfg cfg₀) (raw cfg₀ fs₀) t = .ok ds →
        FitsData cfg.config.rest.tracking_domain (taggingOf lib cfg fs) ds lat lon) :
    ForwardResult lib (prepEra5 argsort (lay cfg₀) (icfg cfg₀) (raw cfg₀ fs₀)) (freq cfg₀.config.rest) (cfg₀.config.dates .preprocess_start_date) last cfg fs
      (after (command parse cwd (dir ++ [name]) stamp (fun r => r.backward) (fun cfg => some cfg.output)
        (trackExperiment lib)) fs) :=
  chain_forward shw freq (fun c fs => prepEra5 argsort (lay c) (icfg c) (raw c fs)) lib hfirst backward parse₀ cwd₀ dir₀ name₀
    stamp₀ fs₀ s₀ cfg₀ pre hg₀ reads (fun fs₁ fs₂ h => by simp only [hlook fs₁ fs₂ h]) hin₀ h₀ fs cfg hfs hfol last hper hrun hmin
    parse cwd dir name stamp s hg hin hb hre h
    (C88_era5_forward hlt hL hne hpos hsec ha [] hper hdata (fun _ => none) hrun hlat hlon hfit _ _ hre)

include ha in
/-- backward -/
theorem C111_era5_backward (lib : Library m n ℝ) (hfirst : ∀ q name, lib.first q = some name → q name = true)
    (backward : ρ → Bool) (parse₀ : List Char → Except Err (FileSettings ρ)) (cwd₀ dir₀ : FPath) (name₀ stamp₀ : List Char)
    (fs₀ : FileSystem) (s₀ : FileSettings ρ) (cfg₀ : Loaded ρ) (pre : FPath)
    (hg₀ : GivenWith parse₀ cwd₀ dir₀ name₀ stamp₀ fs₀ s₀ cfg₀)
    (reads : FPath → Prop) (hlook : LooksOnlyAt (raw cfg₀) reads) (hin₀ : Untouched cwd₀ s₀ pre stamp₀ name₀ reads)
    (h₀ : (command parse₀ cwd₀ (dir₀ ++ [name₀]) stamp₀ backward (fun cfg => cfg.preprocessed)
      (preprocessExperiment shw freq fun c fs => prepEra5 argsort (lay c) (icfg c) (raw c fs)) fs₀).2 = .ok ())
    (fs : FileSystem) (cfg : Loaded (TrackSettings ℝ))
    (hfs : ∀ p, DayFile cfg₀.calendar pre p → fs p = after (command parse₀ cwd₀ (dir₀ ++ [name₀]) stamp₀ backward
      (fun cfg => cfg.preprocessed) (preprocessExperiment shw freq fun c fs => prepEra5 argsort (lay c) (icfg c) (raw c fs))) fs₀ p)
    (hfol : Follows shw lib freq (prepEra5 argsort (lay cfg₀) (icfg cfg₀) (raw cfg₀ fs₀)) cfg₀ pre cfg) (last : ℤ)
    (hper : PrepPeriod cfg₀.calendar (cfg₀.config.dates .preprocess_start_date) (cfg₀.config.dates .preprocess_end_date)
      (freq cfg₀.config.rest) last)
    (hrun : TracksWithin cfg.runConfig (cfg₀.config.dates .preprocess_start_date) last)
    (hmin : 60 ∣ cfg.config.rest.timestep)
    (parse : List Char → Except Err (FileSettings (TrackSettings ℝ))) (cwd dir : FPath) (name stamp : List Char)
    (s : FileSettings (TrackSettings ℝ)) (hg : GivenWith parse cwd dir name stamp fs s cfg)
    (hin : Untouched cwd s cfg.output stamp name (TrackInput cfg)) (hb : cfg.config.rest.backward = true)
    (hre : RestartBwd cfg.runConfig (fun t => cfg.output ++ [outputName cfg.calendar true t]) (restartFile lib.readBwd fs))
    (h : (command parse cwd (dir ++ [name]) stamp (fun r => r.backward) (fun cfg => some cfg.output)
      (trackExperiment lib) fs).2 = .ok ())
    {levels : List ℤ} {g : List ℝ × List ℝ} (hlt : (icfg cfg₀).levelType = .pressure_levels)
    (hL : (icfg cfg₀).levels = .list levels) (hne : levels ≠ []) (hpos : ∀ l ∈ levels, 0 < l) (hsec : 0 < (icfg cfg₀).nseconds)
    (hdata : ∀ t ∈ inputDates (cfg₀.config.dates .preprocess_start_date) (cfg₀.config.dates .preprocess_end_date)
      (freq cfg₀.config.rest), Era5Complete (icfg cfg₀) (raw cfg₀ fs₀) t levels g ∧
      MoistEra5 (icfg cfg₀) (raw cfg₀ fs₀) t (lay cfg₀) levels g)
    {lat lon : List ℝ} (hlat : lat.length = m + 2) (hlon : lon.length = n + 2)
    (hfit : ∀ t ∈ inputDates (cfg₀.config.dates .preprocess_start_date) (cfg₀.config.dates .preprocess_end_date)
      (freq cfg₀.config.rest), ∀ ds, prepEra5 argsort (lay cfg₀) (icfg cfg₀) (raw cfg₀ fs₀) t = .ok ds →
        FitsData cfg.config.rest.tracking_domain (taggingOf lib cfg fs) ds lat lon) :
    BackwardResult lib (prepEra5 argsort (lay cfg₀) (icfg cfg₀) (raw cfg₀ fs₀)) (freq cfg₀.config.rest) (cfg₀.config.dates .preprocess_start_date) last cfg fs
      (after (command parse cwd (dir ++ [name]) stamp (fun r => r.backward) (fun cfg => some cfg.output)
        (trackExperiment lib)) fs) :=
  chain_backward shw freq (fun c fs => prepEra5 argsort (lay c) (icfg c) (raw c fs)) lib hfirst backward parse₀ cwd₀ dir₀ name₀
    stamp₀ fs₀ s₀ cfg₀ pre hg₀ reads (fun fs₁ fs₂ h => by simp only [hlook fs₁ fs₂ h]) hin₀ h₀ fs cfg hfs hfol last hper hrun hmin
    parse cwd dir name stamp s hg hin hb hre h
    (C88_era5_backward hlt hL hne hpos hsec ha [] hper hdata (fun _ => none) hrun hlat hlon hfit _ _ hre)

end

end Wam
