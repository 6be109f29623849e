import Verif.Lemmas.Apart

/-!
# C113: commands that run at the same time
-/

set_option linter.unusedSectionVars false
set_option linter.unusedVariables false

namespace Wam
open Spec

section
variable {ι : Type} [DecidableEq ι] {g : FileSystem} {job : ι → Job} {s : ∀ i, FileSettings (job i).ρ}
  {cfg : ∀ i, Loaded (job i).ρ} {F : ι → FPath} {reads : ι → FPath → Prop}

/-- the processes of a family of commands, in the beginning -/
private abbrev begin (g : FileSystem) (job : ι → Job) : Machine ι := ⟨g, fun i => (job i).process⟩

private theorem run_along (hj : ∀ i, (job i).Given g (s i) (cfg i) (F i) (reads i))
    (ha : Apart (fun i => (job i).cwd) (fun i => (s i).folders) F (fun i => (job i).dir ++ [(job i).name]) reads g)
    (schedule : List ι) :
    ∃ chs, Along g (fun i => Fixed (job i) (s i) (F i) (reads i) g) (fun i => Mine (job i).cwd (s i).folders (F i) g)
      (fun i => (job i).process) (fun i => schedule.count i) ((begin g job).run schedule) chs := by
  have := along_run g _ _ _ ?_ ?_ schedule
    (along_start g (fun i => Fixed (job i) (s i) (F i) (reads i) g) (fun i => Mine (job i).cwd (s i).folders (F i) g)
      (fun i => (job i).process) fun i => local_job (hj i))
  · simpa using this
  · intro i j p hp hm
    by_cases hij : j = i
    · subst hij; exact hp.2 hm
    · exact (ha j i hij p hm).2 hp.1
  · intro i j p hij hp
    exact (ha i j hij p hp).1

private theorem alone_process (j : Job) : j.process.alone = j.alone := alone_command _ _ _ _ _ _ _

/-- Commands that are apart may run at the same time, their calls of the operating system in any order: a command that has
ended has the result, and has left the files, that it has and leaves when it runs alone. -/
theorem C113_as_if_alone (hj : ∀ i, (job i).Given g (s i) (cfg i) (F i) (reads i))
    (ha : Apart (fun i => (job i).cwd) (fun i => (s i).folders) F (fun i => (job i).dir ++ [(job i).name]) reads g)
    (schedule : List ι) (i : ι) (r : Except Err Unit)
    (hr : (Machine.run ⟨g, fun i => (job i).process⟩ schedule).processes i = .done r) :
    r = ((job i).alone g).2 ∧ ∀ p, Mine (job i).cwd (s i).folders (F i) g p →
      (Machine.run ⟨g, fun i => (job i).process⟩ schedule).fs p = after (job i).alone g p := by
  obtain ⟨chs, h⟩ := run_along hj ha schedule
  have h1 := h.changes i
  have h2 := h.result i
  rw [hr, alone_process] at h1 h2
  refine ⟨h2.symm, fun p hp => ?_⟩
  rw [h.mine i p hp]
  unfold after
  rw [h1]
  simp [Process.alone]

/-- At any time, what a command may change is as at some moment of the command when it runs alone. -/
theorem C113_any_time (hj : ∀ i, (job i).Given g (s i) (cfg i) (F i) (reads i))
    (ha : Apart (fun i => (job i).cwd) (fun i => (s i).folders) F (fun i => (job i).dir ++ [(job i).name]) reads g)
    (schedule : List ι) (i : ι) :
    ∃ fs', Moment (job i).alone g fs' ∧ ∀ p, Mine (job i).cwd (s i).folders (F i) g p →
      (Machine.run ⟨g, fun i => (job i).process⟩ schedule).fs p = fs' p := by
  obtain ⟨chs, h⟩ := run_along hj ha schedule
  have h1 := h.changes i
  rw [alone_process] at h1
  refine ⟨applyChanges g (chs i), ⟨(chs i).length, ?_⟩, h.mine i⟩
  rw [h1, List.take_left']
  rfl

/-- At any time, what no command may change is as it was. -/
theorem C113_rest_unchanged (hj : ∀ i, (job i).Given g (s i) (cfg i) (F i) (reads i))
    (ha : Apart (fun i => (job i).cwd) (fun i => (s i).folders) F (fun i => (job i).dir ++ [(job i).name]) reads g)
    (schedule : List ι) (p : FPath) (hp : ∀ i, ¬ Mine (job i).cwd (s i).folders (F i) g p) :
    (Machine.run ⟨g, fun i => (job i).process⟩ schedule).fs p = g p := by
  obtain ⟨chs, h⟩ := run_along hj ha schedule
  exact h.rest p hp

/-- No command waits for another one: each ends after a fixed number of its own calls, whatever the others do. -/
theorem C113_progress (hj : ∀ i, (job i).Given g (s i) (cfg i) (F i) (reads i))
    (ha : Apart (fun i => (job i).cwd) (fun i => (s i).folders) F (fun i => (job i).dir ++ [(job i).name]) reads g)
    (i : ι) :
    ∃ N, ∀ schedule : List ι, N ≤ schedule.count i →
      (Machine.run ⟨g, fun i => (job i).process⟩ schedule).processes i = .done ((job i).alone g).2 := by
  refine ⟨(job i).process.calls g, fun schedule hn => ?_⟩
  obtain ⟨chs, h⟩ := run_along hj ha schedule
  have h1 := h.calls i
  have h2 := h.result i
  rcases he : (Machine.run ⟨g, fun i => (job i).process⟩ schedule).processes i with r | ⟨c, k⟩
  · rw [he, alone_process] at h2
    rw [h2]; rfl
  · rw [he] at h1
    simp only [Process.calls] at h1
    omega

private theorem in_turn (order : List ι) (m : Machine ι) (hd : order.Nodup)
    (hP : ∀ i ∈ order, m.processes i = (job i).process) :
    ∃ schedule, (m.run schedule).fs = inTurn (order.map job) m.fs ∧
      (∀ i ∈ order, ∃ r, (m.run schedule).processes i = .done r) ∧
      ∀ i, i ∉ order → (m.run schedule).processes i = m.processes i := by
  induction order generalizing m with
  | nil => exact ⟨[], rfl, by simp, fun i _ => rfl⟩
  | cons i is ih =>
    obtain ⟨hi, hd⟩ := List.nodup_cons.1 hd
    have h1 := run_replicate m i _ le_rfl
    obtain ⟨sch, h2, h3, h4⟩ := ih (m.run (List.replicate ((m.processes i).calls m.fs) i)) hd (by
      intro j hj
      rw [h1]
      simp only
      rw [Function.update_of_ne (by rintro rfl; exact hi hj)]
      exact hP j (List.mem_cons_of_mem _ hj))
    refine ⟨List.replicate ((m.processes i).calls m.fs) i ++ sch, ?_, ?_, ?_⟩
    · rw [run_append, h2, h1, List.map_cons, hP i List.mem_cons_self, alone_process]
      rfl
    · intro j hj
      rw [run_append]
      rcases List.mem_cons.1 hj with rfl | hj
      · rw [h4 j hi, h1]
        exact ⟨_, Function.update_self _ _ _⟩
      · exact h3 j hj
    · intro j hj
      rw [run_append, h4 j fun h => hj (List.mem_cons_of_mem _ h), h1]
      exact Function.update_of_ne (by rintro rfl; exact hj List.mem_cons_self) _ _

/-- When all commands have ended, the whole file system is the one they leave when they are given one after the other,
in whatever order. -/
theorem C113_as_if_in_turn (hj : ∀ i, (job i).Given g (s i) (cfg i) (F i) (reads i))
    (ha : Apart (fun i => (job i).cwd) (fun i => (s i).folders) F (fun i => (job i).dir ++ [(job i).name]) reads g)
    (schedule : List ι) (hend : ∀ i, ∃ r, (Machine.run ⟨g, fun i => (job i).process⟩ schedule).processes i = .done r)
    (order : List ι) (hd : order.Nodup) (hall : ∀ i, i ∈ order) :
    (Machine.run ⟨g, fun i => (job i).process⟩ schedule).fs = inTurn (order.map job) g := by
  obtain ⟨sch, h1, h2, _⟩ := in_turn (job := job) order ⟨g, fun i => (job i).process⟩ hd fun _ _ => rfl
  rw [← h1]
  funext p
  by_cases hp : ∃ i, Mine (job i).cwd (s i).folders (F i) g p
  · obtain ⟨i, hp⟩ := hp
    obtain ⟨r, hr⟩ := hend i
    obtain ⟨r', hr'⟩ := h2 i (hall i)
    rw [(C113_as_if_alone hj ha schedule i r hr).2 p hp, (C113_as_if_alone hj ha sch i r' hr').2 p hp]
  · rw [C113_rest_unchanged hj ha schedule p fun i h => hp ⟨i, h⟩, C113_rest_unchanged hj ha sch p fun i h => hp ⟨i, h⟩]

end

/-- Why a folder of a configuration that is missing must not be shared: two commands that read the configuration at the same
time both find that the folder is missing, both make it, and the second one ends with `FileExistsError`; alone, each of them
succeeds. -/
theorem C113_folder_race (g : FileSystem) (p : FPath) (h1 : g p = none) (h2 : g p.dropLast = some .dir) :
    (makeFolder p g).2 = .ok () ∧ (makeFolder p (after (makeFolder p) g)).2 = .ok () ∧
    ∃ schedule : List (Fin 2),
      (Machine.run ⟨g, fun _ => makeFolderProc p⟩ schedule).processes 0 = .done (.ok ()) ∧
      (Machine.run ⟨g, fun _ => makeFolderProc p⟩ schedule).processes 1 = .done (.error (.other "FileExistsError")) := by
  obtain ⟨q, c, rfl⟩ : ∃ q c, p = q ++ [c] := by
    rcases List.eq_nil_or_concat p with rfl | ⟨q, c, rfl⟩
    · rw [List.dropLast_nil, h1] at h2; cases h2
    · exact ⟨q, c, List.concat_eq_append⟩
  rw [List.dropLast_concat] at h2
  have e : (q ++ [c]).reverse = c :: q.reverse := by simp
  have e' : (c :: q.reverse).reverse = q ++ [c] := by simp
  have hm : osMkdir (q ++ [c]) g = ([(q ++ [c], .dir)], .ok ()) := by
    unfold osMkdir
    simp [h1, h2]
  have ha : makeFolder (q ++ [c]) g = ([(q ++ [c], .dir)], .ok ()) := by
    unfold makeFolder mkdirParents
    rw [h1, e]
    simp only [Option.isSome_none, Bool.false_eq_true, if_false, mkdirParentsRev, e', hm, mkdirOnly]
  refine ⟨by rw [ha], ?_, [0, 1, 0, 1, 1], ?_, ?_⟩
  · have : after (makeFolder (q ++ [c])) g (q ++ [c]) = some .dir := by
      unfold after
      rw [ha]
      simp [applyChanges]
    generalize after (makeFolder (q ++ [c])) g = g' at this
    unfold makeFolder
    rw [this]
    rfl
  all_goals
    simp [Machine.run, Machine.step, makeFolderProc, Process.look, Process.bind, h1, h2, mkdirParentsRevProc, e, e',
      osMkdirProc, Process.attempt, osMkdirChange, osMkdirResult, mkdirParentsAfter, mkdirAfter, mkdirExists, applyChanges,
      Function.update]

end Wam
