import Verif.Lemmas.SorterOwn
import Mathlib.Data.List.Sort

/-!
# C39 — sorting a file with two worker threads

`sortStart cfg fs c src` is the moment `sort_file` is called on a file that holds the records `src`; `sortRun cfg cs` runs the
steps `cs`: any interleaving of the thread that called and the two workers, with any failures and any wake-ups without
reason.  `s.main = .done r`: `sort_file` has returned `r`.
-/

namespace Couchstore.Props

variable {α : Type} {cfg : SortCfg α} {fs : SortPath → Option (List α)} {c : Nat} {src : List α} {s : SortState α}

/-- C39: whatever the interleaving of the threads, and whatever fails in the thread that called, if no operation of a worker
fails and `sort_file` returns success, the file holds the same records in order (or is untouched, if only the callback is to
have them), the callback has been given them in order, and no temporary file is left.  Missing: failures of
workers (`C39_worker_failure_unnoticed`), and temporary files left by another process (`C39_stale_file_merged`). -/
theorem C39_sorted_partial (H : cfg.Ok) (hfresh : NoStale fs c) (cs : List (SortChoice α)) (hok : ∀ x ∈ cs, x.WorkerOk)
    (hrun : sortRun cfg cs (sortStart cfg fs c src) = some s) (hdone : s.main = .done 0) : SortedOutput cfg fs src s.fs s.fed := by
  have h := (sortInv_run H hfresh hok hrun).data
  unfold SortData at h
  rw [hdone] at h
  exact h rfl

/-- C39: if nothing fails and there are names for temporary files left, `sort_file` returns success.  Missing: see
`C39_names_used_up`. -/
theorem C39_succeeds_partial (H : cfg.Ok) (hfresh : NoStale fs c) (hnames : c + 2 * src.length ≤ 100000) (cs : List (SortChoice α))
    (hok : ∀ x ∈ cs, x.Ok) (hrun : sortRun cfg cs (sortStart cfg fs c src) = some s) {r : Int} (hdone : s.main = .done r) : r = 0 := by
  obtain ⟨_, g⟩ := sortGood_run H hfresh hok hrun
  have h2 := g.ret
  rw [hdone] at h2
  simp only [mainRet] at h2
  rcases h2 with h2 | ⟨_, h3⟩
  · exact h2
  · omega

/-- C39: nothing waits for ever.  As long as no operation of a worker fails, some thread can take a step until `sort_file` has
returned.  Missing: failures of workers (`C39_worker_failure_deadlock`). -/
theorem C39_no_deadlock_partial (H : cfg.Ok) (hfresh : NoStale fs c) (cs : List (SortChoice α)) (hok : ∀ x ∈ cs, x.WorkerOk)
    (hrun : sortRun cfg cs (sortStart cfg fs c src) = some s) (hdone : ∀ r, s.main ≠ .done r) :
    (∀ io, (sortStep cfg (.main io) s).isSome = true) ∨ ∃ i, ∀ fail, (sortStep cfg (.worker i fail) s).isSome = true :=
  have h := sortInv_run H hfresh hok hrun
  sort_enabled h.safe h.sched hdone

/-- C39: every run comes to an end, also if operations fail: the threads take at most 160 steps for a record, 95 in
addition, and one for each time a thread wakes up without reason. -/
theorem C39_bounded (H : cfg.Ok) (cs : List (SortChoice α)) (hrun : sortRun cfg cs (sortStart cfg fs c src) = some s) :
    (cs.filter fun x => !x.isWake).length ≤ 160 * src.length + 95 + (cs.filter (·.isWake)).length := by
  have h := weight_run (fun l => (H.sort_perm l).length_eq) hrun
  have h1 : ¬ cfg.numTmp ≤ 1 := by have := H.numTmp; omega
  have h2 : ¬ ((cfg.skip && !cfg.feed) = true) := by
    have := H.callback
    cases h : cfg.skip <;> cases h' : cfg.feed <;> simp [h, h'] at this ⊢
  have h3 : sortWeight (sortStart cfg fs c src) = 160 * src.length + 95 := by
    unfold sortStart sortWeight
    rw [if_neg h1, if_neg h2]
    simp only [mainWeight, jobWeight, workerWeight, awake, List.length_nil]
    omega
  omega

/-- C39, the whole of it for undisturbed runs: whatever has happened so far, the threads can go on until `sort_file` returns
success, and then the file is sorted. -/
theorem C39_completes (H : cfg.Ok) (hfresh : NoStale fs c) (hnames : c + 2 * src.length ≤ 100000) (cs : List (SortChoice α))
    (hok : ∀ x ∈ cs, x.Ok) (hrun : sortRun cfg cs (sortStart cfg fs c src) = some s) :
    ∃ cs' s', (∀ x ∈ cs', x.Ok) ∧ sortRun cfg cs' s = some s' ∧ s'.main = .done 0 ∧ SortedOutput cfg fs src s'.fs s'.fed := by
  obtain ⟨hI, _⟩ := sortGood_run H hfresh hok hrun
  obtain ⟨cs', s', r, h1, h2, h3⟩ := sort_completes H hfresh _ s (Nat.le_refl _) hI
  have hrun' : sortRun cfg (cs ++ cs') (sortStart cfg fs c src) = some s' := by
    rw [sortRun_append, hrun]
    exact h2
  have hok' : ∀ x ∈ cs ++ cs', x.Ok := by
    intro x hx
    rcases List.mem_append.mp hx with hx | hx
    · exact hok x hx
    · exact (h1 x hx).1
  have hr := C39_succeeds_partial H hfresh hnames _ hok' hrun' h3
  rw [hr] at h3
  exact ⟨cs', s', fun x hx => (h1 x hx).1, h2, h3, C39_sorted_partial H hfresh _ (fun x hx => (hok' x hx).worker) hrun' h3⟩

/-- C39: in every run, whatever fails, no assertion fails; the source file is as it was until the output is made, and for
good if the records are only to be given to the callback. -/
theorem C39_source_kept (H : cfg.Ok) (cs : List (SortChoice α)) (hrun : sortRun cfg cs (sortStart cfg fs c src) = some s) :
    s.main ≠ .crashed ∧ (cfg.skip = true → s.fs .source = some src) ∧
      ((∀ r, s.main ≠ .output ∧ s.main ≠ .cleanup r ∧ s.main ≠ .done r) → s.fs .source = some src) := by
  have h := sortRun_induct (P := fun _ => True) (I := SortSafe cfg src) (fun _ _ _ _ hI hst => safe_step H hI hst) cs _ _
    (fun _ _ => trivial) (safe_start H fs c src) hrun
  refine ⟨h.not_crashed, fun hsk => ?_, fun hm => ?_⟩
  · have := h.source
    unfold SourceSafe at this
    split at this
    · rw [this, if_pos hsk]
    · exact this hsk
    · exact this hsk
    · exact this
  · have := h.source
    unfold SourceSafe at this
    split at this
    · rename_i h'
      exact absurd h' (hm 0).1
    · rename_i r h'
      exact absurd h' (hm r).2.1
    · rename_i r h'
      exact absurd h' (hm r).2.2
    · exact this

/-- C39: a sort touches no files but the source and temporary files with the numbers it has drawn, whatever fails. -/
theorem C39_other_files_untouched (H : cfg.Ok) (cs : List (SortChoice α)) (hrun : sortRun cfg cs (sortStart cfg fs c src) = some s)
    (n : Nat) (hn : n < c ∨ s.counter ≤ n) : s.fs (.tmp n) = fs (.tmp n) :=
  (sortRun_induct (P := fun _ => True) (I := Own fs c) (fun _ _ _ _ hI hst => own_step H.order_perm hI hst) cs _ _
    (fun _ _ => trivial) (own_start fs c src H) hrun).others n hn

/-- The names of temporary files are used up after 100000 files in the life of the process: from then on no file with
a record in it can be sorted. -/
theorem C39_names_used_up (H : cfg.Ok) (hc : 100000 ≤ c) (hne : src ≠ []) (cs : List (SortChoice α))
    (hrun : sortRun cfg cs (sortStart cfg fs c src) = some s) : s.main ≠ .done 0 := by
  have h1 : ¬ cfg.numTmp ≤ 1 := by have := H.numTmp; omega
  have h2 : ¬ ((cfg.skip && !cfg.feed) = true) := by
    have := H.callback
    cases h : cfg.skip <;> cases h' : cfg.feed <;> simp [h, h'] at this ⊢
  have h := sortRun_induct (P := fun _ => True) (I := NoNames cfg) (fun _ _ _ _ hI hst => noNames_step H hI hst) cs _ _
    (fun _ _ => trivial) (by
      unfold sortStart
      rw [if_neg h1, if_neg h2]
      exact ⟨rfl, hc, rfl, by simpa using hne, Nat.zero_le _⟩) hrun
  intro hd
  have := h.2.2
  rw [hd] at this
  exact this rfl

/-! ## What goes wrong -/

/-- Numbers, all of the same size; `maxBuf` of them are sorted in memory. -/
private def numCfg (maxBuf numTmp : Nat) : SortCfg Nat where
  cmp a b := (a : Int) - b
  size _ := 1
  sort := List.insertionSort (· ≤ ·)
  order := List.insertionSort fun a b => a.level ≤ b.level
  numTmp := numTmp
  maxBuf := maxBuf
  feed := false
  skip := false

private theorem numCfg_ok {maxBuf numTmp : Nat} (h : maxBuf < 1000) (h' : 2 ≤ numTmp) : (numCfg maxBuf numTmp).Ok where
  cmp := ⟨fun a b => by unfold numCfg; simp only; omega, fun a b c => by unfold numCfg; simp only; omega⟩
  sort_perm := List.perm_insertionSort _
  sort_sorted l := by
    refine (List.pairwise_insertionSort (· ≤ ·) l).imp ?_
    intro a b hab
    show (a : Int) - b ≤ 0
    omega
  order_perm := List.perm_insertionSort _
  size_pos _ := Nat.one_pos
  size_small _ := by show maxBuf + 1 < _; omega
  numTmp := h'
  callback := fun h => nomatch h

/-- A step: 0: of the main thread, 1 and 2: of a worker, 3: the first worker fails, other: the main thread fails. -/
private def choice : Nat → SortChoice Nat
  | 0 => .main okIo
  | 1 => .worker false none
  | 2 => .worker true none
  | 3 => .worker false (some 0)
  | _ => .main ⟨none, fun _ => none, fun _ _ => -1, fun _ _ => 0⟩

private theorem choice_ok {k : Nat} (h : k ≤ 2) : (choice k).Ok := by
  match k, h with
  | 0, _ => exact okIo_ok
  | 1, _ => rfl
  | 2, _ => rfl

private theorem choices_ok {l : List Nat} (h : ∀ k ∈ l, k ≤ 2) : ∀ x ∈ l.map choice, x.Ok := by
  intro x hx
  obtain ⟨k, hk, rfl⟩ := List.mem_map.mp hx
  exact choice_ok (h k hk)

/-- What is seen of a state in the examples. -/
private def look (s : SortState Nat) : MainPc Nat × Option (List Nat) × List (Option (List Nat)) :=
  (s.main, s.fs .source, (List.range 6).map fun n => s.fs (.tmp n))

/-- The hypotheses can be met: five records, two at a time in memory, two temporary files (so that there is a merge on the
way), in two schedules; and the theorems apply to these runs. -/
example : (sortRun (numCfg 2 2) ([0, 0, 0, 0, 0, 1, 0, 0, 0, 0, 0, 0, 0, 0, 1, 1, 1, 1, 1, 0, 1, 0, 0, 0, 0, 1, 1, 1, 1, 1, 0, 0, 0, 0,
      0, 0, 0, 0, 1, 0, 0, 0, 1, 1, 1, 1, 1, 2, 0, 0, 0, 0].map choice) (sortStart (numCfg 2 2) (fun _ => none) 0 [3, 1, 2, 5, 4])).map look =
    some (.done 0, some [1, 2, 3, 4, 5], [none, none, none, none, none, none]) := by
  decide +kernel

example : (sortRun (numCfg 2 2) ([2, 1, 0, 0, 0, 0, 2, 2, 2, 2, 2, 2, 2, 1, 0, 0, 0, 0, 0, 0, 0, 2, 2, 2, 2, 2, 2, 2, 1, 0, 0, 0, 0,
      0, 0, 0, 0, 0, 0, 2, 2, 2, 2, 2, 2, 1, 0, 0, 0, 2, 1, 0, 0, 0, 0].map choice) (sortStart (numCfg 2 2) (fun _ => none) 0 [3, 1, 2, 5, 4])).map look =
    some (.done 0, some [1, 2, 3, 4, 5], [none, none, none, none, none, none]) := by
  decide +kernel

example (fs : SortPath → Option (List Nat)) (h : NoStale fs 7) :
    ∃ cs' s', (∀ x ∈ cs', x.Ok) ∧ sortRun (numCfg 2 2) cs' (sortStart (numCfg 2 2) fs 7 [3, 1, 2, 5, 4]) = some s' ∧ s'.main = .done 0 ∧
      SortedOutput (numCfg 2 2) fs [3, 1, 2, 5, 4] s'.fs s'.fed :=
  C39_completes (numCfg_ok (by omega) (by omega)) h (by simp) [] (fun _ h => nomatch h) rfl

/-- A run that is not at its end, and what the theorems say about it. -/
example (s : SortState Nat) (h : sortRun (numCfg 2 2) ([0, 0, 0, 0, 1, 1, 1].map choice) (sortStart (numCfg 2 2) (fun _ => none) 0 [3, 1, 2, 5, 4]) = some s)
    (hd : ∀ r, s.main ≠ .done r) :
    (∀ io, (sortStep (numCfg 2 2) (.main io) s).isSome = true) ∨ ∃ i, ∀ fail, (sortStep (numCfg 2 2) (.worker i fail) s).isSome = true :=
  C39_no_deadlock_partial (numCfg_ok (by omega) (by omega)) (fun _ _ => rfl) _ (fun x hx => (choices_ok (by decide) x hx).worker) h hd

example : (sortRun (numCfg 2 2) ([0, 0, 0, 0, 1, 1, 1].map choice) (sortStart (numCfg 2 2) (fun _ => none) 0 [3, 1, 2, 5, 4])).map
    (fun s => ((s.main, s.fs .source), s.fs (.tmp 0), s.counter)) = some ((.posted false, some [3, 1, 2, 5, 4]), some [1], 1) := by
  decide +kernel

example (cs : List (SortChoice Nat)) (s : SortState Nat) (h : sortRun (numCfg 2 2) cs (sortStart (numCfg 2 2) (fun _ => none) 100000 [3]) = some s) :
    s.main ≠ .done 0 :=
  C39_names_used_up (numCfg_ok (by omega) (by omega)) (Nat.le_refl _) (by decide) cs h

/-- A failure of a worker is not noticed: `parallel_sorter_finish` always reports success.  Here the first worker cannot write the
record 2; `sort_file` returns success, and the record is lost. -/
theorem C39_worker_failure_unnoticed : ∃ (cfg : SortCfg Nat) (cs : List (SortChoice Nat)) (s : SortState Nat), cfg.Ok ∧
    sortRun cfg cs (sortStart cfg (fun _ => none) 0 [2, 1]) = some s ∧ s.main = .done 0 ∧ s.fs .source = some [1] ∧
    s.error ≠ 0 := by
  have h : (sortRun (numCfg 1 3) ([0, 0, 1, 1, 3, 3, 0, 0, 0, 0, 0, 2, 2, 2, 2, 2, 0, 0, 0, 0, 0, 0, 0, 2, 0, 0, 0, 0].map choice)
      (sortStart (numCfg 1 3) (fun _ => none) 0 [2, 1])).map (fun s => (s.main, s.fs .source, s.error)) = some (.done 0, some [1], -1) := by
    decide +kernel
  obtain ⟨s, h1, h2⟩ := Option.map_eq_some_iff.mp h
  simp only [Prod.mk.injEq] at h2
  exact ⟨numCfg 1 3, _, s, numCfg_ok (by omega) (by omega), h1, h2.1, h2.2.1, by rw [h2.2.2]; decide⟩

/-- The state in which `sort_file` waits for a worker that has ended. -/
private def Stuck (s : SortState Nat) : Prop :=
  (∃ r b, s.main = .wait2 r b) ∧ s.free = 1 ∧ s.finished = false ∧ s.job = none ∧ (s.worker false).pc = .exited ∧ (s.worker true).pc = .idle

private theorem stuck_step {cfg : SortCfg Nat} {x : SortChoice Nat} {s s' : SortState Nat} (h : Stuck s) (hst : sortStep cfg x s = some s') :
    Stuck s' := by
  obtain ⟨⟨r, b, h1⟩, h2, h3, h4, h5, h6⟩ := h
  cases x with
  | main io =>
    simp only [sortStep, mainStep, h1] at hst
    split at hst
    · cases hst
    · rw [if_neg (by rw [h3]; simp)] at hst
      cases hst
      unfold waitMain
      rw [if_neg (by rw [h2]; simp)]
      exact ⟨⟨r, b, h1⟩, h2, h3, h4, h5, h6⟩
  | worker i fail =>
    cases i
    · simp only [sortStep, workerStep, h5] at hst
      split at hst <;> cases hst
    · simp only [sortStep, workerStep, h6, h4] at hst
      split at hst
      · cases hst
      · rw [if_neg (by rw [h3]; simp)] at hst
        cases hst
        exact ⟨⟨r, b, h1⟩, h2, h3, h4, by simpa [SortState.setWorker] using h5, by simp [SortState.setWorker]⟩
  | wakeMain =>
    simp only [sortStep] at hst
    split at hst
    · cases hst
      exact ⟨⟨r, b, h1⟩, h2, h3, h4, h5, h6⟩
    · cases hst
  | wakeWorker i =>
    simp only [sortStep] at hst
    split at hst
    · cases hst
      refine ⟨⟨r, b, h1⟩, h2, h3, h4, ?_, ?_⟩
      · cases i <;> simp [SortState.setWorker, h5]
      · cases i <;> simp [SortState.setWorker, h6]
    · cases hst

/-- A failure of a worker makes `sort_file` wait for ever: the worker ends without counting itself as free.  Two records, one in
memory at a time, two temporary files: after the first worker has failed, whatever happens, `sort_file` does not return. -/
theorem C39_worker_failure_deadlock : ∃ (cfg : SortCfg Nat) (cs : List (SortChoice Nat)) (s : SortState Nat), cfg.Ok ∧
    sortRun cfg cs (sortStart cfg (fun _ => none) 0 [2, 1]) = some s ∧
    ∀ cs' s', sortRun cfg cs' s = some s' → ∀ r, s'.main ≠ .done r := by
  have h : (sortRun (numCfg 1 2) ([0, 0, 1, 1, 3, 3, 0, 0, 0, 0, 0, 2, 2, 2, 2, 2, 0, 0, 0].map choice)
      (sortStart (numCfg 1 2) (fun _ => none) 0 [2, 1])).map (fun s => ((s.main, s.free, s.finished), s.job, (s.worker false).pc, (s.worker true).pc)) =
      some ((.wait2 [] 0, 1, false), none, .exited, .idle) := by
    decide +kernel
  obtain ⟨s, h1, h2⟩ := Option.map_eq_some_iff.mp h
  simp only [Prod.mk.injEq] at h2
  refine ⟨numCfg 1 2, _, s, numCfg_ok (by omega) (by omega), h1, fun cs' s' hrun r hd => ?_⟩
  have := sortRun_induct (P := fun _ => True) (I := Stuck) (fun _ _ _ _ hI hst => stuck_step hI hst) cs' _ _ (fun _ _ => trivial)
    ⟨⟨_, _, h2.1.1⟩, h2.1.2.1, h2.1.2.2, h2.2⟩ hrun
  obtain ⟨⟨r', b, h'⟩, _⟩ := this
  rw [hd] at h'
  cases h'

/-- A failure of the final merge loses the records: the source file has been removed before, and the temporary files are
removed afterwards.  Here the first write of the final merge fails: `sort_file` returns an error, and no file has any
record. -/
theorem C39_final_failure_loses_records : ∃ (cfg : SortCfg Nat) (cs : List (SortChoice Nat)) (s : SortState Nat), cfg.Ok ∧
    (∀ x ∈ cs, x.WorkerOk) ∧ sortRun cfg cs (sortStart cfg (fun _ => none) 0 [3, 1, 2]) = some s ∧ s.main = .done (-1) ∧
    s.fs .source = some [] ∧ ∀ n, s.fs (.tmp n) = none := by
  have h : (sortRun (numCfg 2 3) ([0, 0, 0, 0, 1, 1, 1, 1, 1, 1, 0, 0, 0, 0, 0, 0, 0, 0, 1, 1, 1, 1, 1, 0, 0, 0, 1, 2, 0, 0, 4, 0].map choice)
      (sortStart (numCfg 2 3) (fun _ => none) 0 [3, 1, 2])).map (fun s => ((s.main, s.fs .source), s.fs (.tmp 0), s.fs (.tmp 1), s.counter)) =
      some ((.done (-1), some []), none, none, 2) := by
    decide +kernel
  obtain ⟨s, h1, h2⟩ := Option.map_eq_some_iff.mp h
  simp only [Prod.mk.injEq] at h2
  have hok : (numCfg 2 3).Ok := numCfg_ok (by omega) (by omega)
  refine ⟨numCfg 2 3, _, s, hok, ?_, h1, h2.1.1, h2.1.2, fun n => ?_⟩
  · intro x hx
    obtain ⟨k, hk, rfl⟩ := List.mem_map.mp hx
    have : k ≤ 2 ∨ k = 4 := by clear hx; revert k; decide
    rcases this with h | rfl
    · exact (choice_ok h).worker
    · trivial
  · match n with
    | 0 => exact h2.2.1
    | 1 => exact h2.2.2.1
    | n+2 => exact C39_other_files_untouched hok _ h1 (n + 2) (.inr (by rw [h2.2.2.2]; omega))

/-- A temporary file left by another process is merged: the file for an intermediate merge is opened for appending, and its
number may be in use.  Nothing fails, and `sort_file` returns success; but a record has come in that the file did not
have. -/
theorem C39_stale_file_merged : ∃ (cfg : SortCfg Nat) (fs : SortPath → Option (List Nat)) (cs : List (SortChoice Nat)) (s : SortState Nat),
    cfg.Ok ∧ (∀ x ∈ cs, x.Ok) ∧ sortRun cfg cs (sortStart cfg fs 0 [2, 1]) = some s ∧ s.main = .done 0 ∧
    s.fs .source = some [9, 1, 2] := by
  have h : (sortRun (numCfg 1 2) ([0, 0, 1, 1, 1, 1, 1, 0, 0, 0, 0, 0, 2, 2, 2, 2, 2, 0, 0, 0, 0, 0, 0, 0, 0, 0, 1, 2, 0, 0, 0, 0].map choice)
      (sortStart (numCfg 1 2) (fun p => if p = .tmp 2 then some [9] else none) 0 [2, 1])).map (fun s => (s.main, s.fs .source)) =
      some (.done 0, some [9, 1, 2]) := by
    decide +kernel
  obtain ⟨s, h1, h2⟩ := Option.map_eq_some_iff.mp h
  simp only [Prod.mk.injEq] at h2
  exact ⟨numCfg 1 2, _, _, s, numCfg_ok (by omega) (by omega), choices_ok (by decide), h1, h2.1, h2.2⟩

/-- Records that are as long as their number. -/
private def bigCfg : SortCfg Nat := { numCfg 4294967295 2 with size := id }

/-- The size of the records in memory is counted with 32 bits: three records of 4 GiB together are taken for an empty file.
Nothing fails, `sort_file` returns success, and the file is not sorted. -/
theorem C39_size_wraps : ∃ (cfg : SortCfg Nat) (cs : List (SortChoice Nat)) (s : SortState Nat), (∀ x ∈ cs, x.Ok) ∧
    (∀ l, (cfg.sort l).Perm l ∧ SortedRecs cfg.cmp (cfg.sort l)) ∧ (∀ x ∈ [2147483647, 2147483647, 2], cfg.size x < 2147483648) ∧ cfg.maxBuf < 4294967296 ∧
    sortRun cfg cs (sortStart cfg (fun _ => none) 0 [2147483647, 2147483647, 2]) = some s ∧ s.main = .done 0 ∧
    s.fs .source = some [2147483647, 2147483647, 2] ∧ ¬ SortedRecs cfg.cmp [2147483647, 2147483647, 2] := by
  have h : (sortRun bigCfg ([0, 0, 0, 0, 0, 0, 0, 0, 0, 0, 1, 2, 0, 0].map choice)
      (sortStart bigCfg (fun _ => none) 0 [2147483647, 2147483647, 2])).map (fun s => (s.main, s.fs .source)) =
      some (.done 0, some [2147483647, 2147483647, 2]) := by
    decide +kernel
  obtain ⟨s, h1, h2⟩ := Option.map_eq_some_iff.mp h
  simp only [Prod.mk.injEq] at h2
  refine ⟨bigCfg, _, s, choices_ok (by decide),
    fun l => ⟨(numCfg_ok (maxBuf := 1) (numTmp := 2) (by omega) (by omega)).sort_perm l,
      (numCfg_ok (maxBuf := 1) (numTmp := 2) (by omega) (by omega)).sort_sorted l⟩, ?_, by decide, h1, h2.1, h2.2, ?_⟩
  · intro x hx
    show x < 2147483648
    simp only [List.mem_cons, List.not_mem_nil, or_false] at hx
    omega
  · intro h
    unfold SortedRecs at h
    have := (List.pairwise_cons.mp h).1 2 (by simp)
    simp [bigCfg, numCfg] at this

end Couchstore.Props
