import Verif.Lemmas.SorterData

/-! Sorting a file comes to an end, and successfully if nothing fails. -/

namespace Couchstore

variable {α : Type} {cfg : SortCfg α} {fs0 : SortPath → Option (List α)} {c0 : Nat} {src0 : List α} {s s' : SortState α}

/-! ## Some thread can go on -/

theorem worker_enabled {i : Bool} (hw : (s.worker i).waiting = false) (hx : (s.worker i).pc ≠ .exited) (fail : Option Nat) :
    (workerStep cfg i fail s).isSome = true := by
  unfold workerStep
  rw [if_neg (by rw [hw]; simp)]
  split
  · split
    · rfl
    · split <;> rfl
  · split <;> rfl
  · split
    · rfl
    · split <;> rfl
  · rfl
  · rfl
  · rename_i h
    exact absurd h hx

theorem sort_enabled (hs : SortSafe cfg src0 s) (h : Sched s) (hd : ∀ r, s.main ≠ .done r) :
    (∀ io, (mainStep cfg io s).isSome = true) ∨ ∃ i, ∀ fail, (workerStep cfg i fail s).isSome = true := by
  have hwait : ∀ i, s.job ≠ none → (s.worker i).waiting = false := by
    intro i hj
    cases hw : (s.worker i).waiting with
    | false => rfl
    | true => exact absurd (h.wWait i hw).2.1 hj
  have hrun : ∀ i, s.finished = false → busyOf (s.worker i).pc ≠ 0 → ∀ fail, (workerStep cfg i fail s).isSome = true := by
    intro i hf hb
    apply worker_enabled
    · cases hw : (s.worker i).waiting with
      | false => rfl
      | true =>
        rw [(h.wWait i hw).1] at hb
        exact absurd rfl hb
    · intro hx
      rw [h.exited i hx] at hf
      cases hf
  cases hmw : s.mainWaiting with
  | true =>
    right
    have hfin := h.fin
    have hc := h.count
    rcases h.mWait hmw with ⟨last, hm, hj⟩ | ⟨hm, hz⟩ | ⟨r, b, hm, hz⟩ <;> simp only [hm, finishedPc] at hfin
    · refine ⟨false, worker_enabled (hwait false hj) fun hx => ?_⟩
      rw [h.exited false hx] at hfin
      cases hfin
    · by_cases hb : busyOf (s.worker false).pc = 0
      · exact ⟨true, hrun true hfin (by
          have : busyOf (s.worker true).pc = 2 := by omega
          omega)⟩
      · exact ⟨false, hrun false hfin hb⟩
    · by_cases hb : busyOf (s.worker false).pc = 0
      · exact ⟨true, hrun true hfin (by omega)⟩
      · exact ⟨false, hrun false hfin hb⟩
  | false =>
    have hjoin : finishedPc s.main = true → notifyPc s.main = false → allExited s = false →
        ∃ i, ∀ fail, (workerStep cfg i fail s).isSome = true := by
      intro h1 h2 h3
      have : ∃ i, (s.worker i).pc ≠ .exited := by
        rcases Classical.em (∃ i, (s.worker i).pc ≠ .exited) with h' | h'
        · exact h'
        · exfalso
          have := allExited_iff.mpr fun i => Classical.byContradiction fun hn => h' ⟨i, hn⟩
          rw [h3] at this
          cases this
      obtain ⟨i, hi⟩ := this
      refine ⟨i, worker_enabled ?_ hi⟩
      cases hw : (s.worker i).waiting with
      | false => rfl
      | true =>
        have := (h.wWait i hw).2.2 (h.fin.trans h1)
        rw [h2] at this
        cases this
    have hcr := hs.not_crashed
    have hmain : ∀ {p : Prop}, (∀ io, (mainStep cfg io s).isSome = true) → (∀ io, (mainStep cfg io s).isSome = true) ∨ p := fun h => .inl h
    cases hm : s.main with
    | done r => exact absurd hm (hd r)
    | crashed => exact absurd hm hcr
    | join =>
      cases hx : allExited s with
      | true =>
        left; intro io
        simp [mainStep, hmw, hm, hx]
      | false => exact .inr (hjoin (by rw [hm]; rfl) (by rw [hm]; rfl) hx)
    | stopJoin r =>
      cases hx : allExited s with
      | true =>
        left; intro io
        simp [mainStep, hmw, hm, hx]
      | false => exact .inr (hjoin (by rw [hm]; rfl) (by rw [hm]; rfl) hx)
    | _ =>
      left
      intro io
      unfold mainStep
      simp only [hmw, hm]
      rw [if_neg (by simp)]
      first
        | rfl
        | (split <;> first | rfl | (split <;> first | rfl | (split <;> first | rfl | (split <;> rfl))))

/-! ## Every step is a step towards the end -/

/-- How far the main thread is from the end. -/
def mainWeight : MainPc α → Nat
  | .read r _ => r.length + 21
  | .post j last => j.recs.length + if last then 17 else 33
  | .posted last => if last then 10 else 26
  | .wait1 => 25
  | .check r _ => r.length + 24
  | .wait2 r _ => r.length + 23
  | .merge r _ => r.length + 22
  | .eof r _ => r.length + 20
  | .finish => 9
  | .finishNotify => 8
  | .join => 7
  | .remove => 6
  | .output => 5
  | .stop _ => 4
  | .stopNotify _ => 3
  | .stopJoin _ => 2
  | .cleanup _ => 1
  | .done _ => 0
  | .crashed => 0

def workerWeight : WorkerPc α → Nat
  | .idle => 1
  | .opening j => j.recs.length + 4
  | .writing _ todo => todo.length + 3
  | .ready => 2
  | .failing _ => 1
  | .exited => 0

def jobWeight : Option (SortJob α) → Nat
  | some j => j.recs.length + 5
  | none => 0

/-- A thread that does not wait. -/
def awake : Bool → Nat
  | true => 0
  | false => 1

theorem awake_le (b : Bool) : awake b ≤ 1 := by cases b <;> simp [awake]

/-- How far the sort is from the end. -/
def sortWeight (s : SortState α) : Nat :=
  4 * (40 * s.src.length + mainWeight s.main + jobWeight s.job + workerWeight (s.worker false).pc + workerWeight (s.worker true).pc) +
    awake s.mainWaiting + awake (s.worker false).waiting + awake (s.worker true).waiting

/-- The main thread goes on; it may wake up other threads. -/
theorem weight_main' (h1 : ∀ i, (s'.worker i).pc = (s.worker i).pc) (h2 : s'.job = s.job) (hw : s.mainWaiting = false)
    (hsrc : 40 * s'.src.length + mainWeight s'.main < 40 * s.src.length + mainWeight s.main) : sortWeight s' < sortWeight s := by
  unfold sortWeight
  simp only [h1, h2, hw]
  have ha := awake_le s'.mainWaiting
  have hb := awake_le (s'.worker false).waiting
  have hc := awake_le (s'.worker true).waiting
  have hd : awake false = 1 := rfl
  omega

theorem weight_main (f : SameThreads s s') (hw : s.mainWaiting = false)
    (hsrc : 40 * s'.src.length + mainWeight s'.main < 40 * s.src.length + mainWeight s.main) : sortWeight s' < sortWeight s :=
  weight_main' (fun i => by rw [f.worker]) f.job hw hsrc

theorem createJob_weight {recs : List α} {last : Bool} :
    (createJob cfg s recs last).src = s.src ∧ mainWeight (createJob cfg s recs last).main ≤ recs.length + if last then 17 else 33 := by
  unfold createJob
  split
  · split
    · refine ⟨rfl, ?_⟩
      show 4 ≤ _
      split <;> omega
    · exact ⟨rfl, Nat.le_refl _⟩
  · exact ⟨rfl, Nat.zero_le _⟩

theorem mergeStep_src {io : SortIo α} {tmp : List TmpFile} {a b lv : Nat} {pc : MainPc α} :
    (mergeStep cfg io s tmp a b lv pc).src = s.src := by
  unfold mergeStep
  simp only
  split
  · rfl
  · split
    · rfl
    · split
      · rfl
      · split <;> rfl
      · rfl

theorem finalMerge_src {io : SortIo α} : (finalMerge cfg io s).src = s.src := by
  unfold finalMerge
  split
  · rfl
  · simp only
    cases hsk : cfg.skip <;> simp only [Bool.false_eq_true, if_false, if_true]
    · split
      · rfl
      · split <;> rfl
      · rfl
    · split
      · rfl
      · split <;> rfl
      · rfl

theorem singleOutput_src {io : SortIo α} {t : TmpFile} : (singleOutput cfg io s t).src = s.src := by
  unfold singleOutput
  split
  · rfl
  · simp only
    split
    · split
      · rfl
      · split <;> rfl
    · rfl

theorem weight_goto {pc : MainPc α} (hw : s.mainWaiting = false) (h : mainWeight pc < mainWeight s.main) : sortWeight (s.goto pc) < sortWeight s :=
  weight_main ⟨rfl, rfl, rfl, rfl, rfl⟩ hw (by show 40 * s.src.length + mainWeight pc < _; omega)

theorem weight_wait {c : Bool} {k : SortState α} (hw : s.mainWaiting = false) (h : sortWeight k < sortWeight s) :
    sortWeight (waitMain s c k) < sortWeight s := by
  unfold waitMain
  split
  · exact h
  · unfold sortWeight
    simp only [hw, awake]
    omega

theorem weight_mainStep {io : SortIo α} (hst : mainStep cfg io s = some s') : sortWeight s' < sortWeight s := by
  unfold mainStep at hst
  split at hst
  · cases hst
  · rename_i hw
    have hw : s.mainWaiting = false := by simpa using hw
    split at hst <;> rename_i hm
    · split at hst
      · cases hst
        exact weight_goto hw (by rw [hm]; simp only [mainWeight]; omega)
      · split at hst
        · cases hst
          exact weight_goto hw (by rw [hm]; simp only [mainWeight]; omega)
        · rename_i r b _ _ _ x xs hx
          simp only at hst
          split at hst
          · cases hst
            refine weight_main (s := s) ?_ hw ?_
            · have := createJob_same (cfg := cfg) (s := { s with src := xs }) (recs := r ++ [x]) (last := false)
              exact ⟨this.worker, this.free, this.job, this.finished, this.mainWaiting⟩
            · obtain ⟨h1, h2⟩ := createJob_weight (cfg := cfg) (s := { s with src := xs }) (recs := r ++ [x]) (last := false)
              have e : mainWeight s.main = r.length + 21 := by rw [hm]; rfl
              rw [h1, hx, e]
              simp only [List.length_cons, List.length_append, List.length_nil, Bool.false_eq_true, if_false] at h2 ⊢
              omega
          · cases hst
            refine weight_main (s := s) ⟨rfl, rfl, rfl, rfl, rfl⟩ hw ?_
            rw [hx, hm]
            simp only [SortState.goto, mainWeight, List.length_cons, List.length_append, List.length_nil]
            omega
    · rename_i j last
      split at hst
      · cases hst
        exact weight_goto hw (by rw [hm]; simp only [mainWeight]; split <;> omega)
      · cases hst
        unfold sortWeight
        simp only [SortState.goto, SortState.notify, hm, mainWeight, jobWeight]
        have ha := awake_le s.mainWaiting
        have hb : awake false = 1 := rfl
        rw [hw]
        cases last <;> simp only [Bool.false_eq_true, if_false, if_true] <;> omega
    · rename_i last
      cases hst
      refine weight_wait hw (weight_goto hw ?_)
      rw [hm]
      cases last <;> simp [mainWeight]
    · split at hst
      · cases hst
        split
        · exact weight_goto hw (by rw [hm]; simp [mainWeight])
        · exact weight_goto hw (by rw [hm]; simp [mainWeight])
      · cases hst
        exact weight_wait hw (weight_goto hw (by rw [hm]; simp [mainWeight]))
    · cases hst
      refine weight_goto hw ?_
      rw [hm]
      split <;> simp only [mainWeight] <;> omega
    · split at hst
      · cases hst
        split
        · exact weight_goto hw (by rw [hm]; simp [mainWeight])
        · exact weight_goto hw (by rw [hm]; simp only [mainWeight]; omega)
      · cases hst
        exact weight_wait hw (weight_goto hw (by rw [hm]; simp [mainWeight]))
    · split at hst
      · cases hst
        exact weight_goto hw (by rw [hm]; simp only [mainWeight]; omega)
      · split at hst
        · cases hst
          refine weight_main mergeStep_same.1 hw ?_
          rw [mergeStep_src, hm]
          rcases (mergeStep_same (cfg := cfg)).2 with ⟨e, h2⟩ | h2 | h2 <;> rw [h2] <;> simp only [mainWeight] <;> omega
        · cases hst
          exact weight_goto hw (by rw [hm]; simp only [mainWeight]; omega)
    · split at hst
      · cases hst
        exact weight_goto hw (by rw [hm]; simp only [mainWeight]; omega)
      · split at hst
        · cases hst
          refine weight_main createJob_same hw ?_
          obtain ⟨h1, h2⟩ := createJob_weight (cfg := cfg) (s := s) (recs := ‹List α›) (last := true)
          rw [h1, hm]
          simp only [mainWeight, if_true] at h2 ⊢
          omega
        · cases hst
          exact weight_goto hw (by rw [hm]; simp only [mainWeight]; omega)
    · cases hst
      exact weight_main' (fun _ => rfl) rfl hw (by rw [hm]; simp [SortState.goto, mainWeight])
    · cases hst
      exact weight_main' (fun _ => rfl) rfl hw (by rw [hm]; simp [SortState.goto, SortState.notify, mainWeight])
    · split at hst
      · cases hst
        exact weight_goto hw (by rw [hm]; simp [mainWeight])
      · cases hst
    · split at hst
      · cases hst
        exact weight_goto hw (by rw [hm]; simp [mainWeight])
      · split at hst
        · cases hst
          exact weight_goto hw (by rw [hm]; simp [mainWeight])
        · split at hst
          · cases hst
            exact weight_goto hw (by rw [hm]; simp [mainWeight])
          · cases hst
            exact weight_main ⟨rfl, rfl, rfl, rfl, rfl⟩ hw (by rw [hm]; simp [SortState.goto, SortState.put, mainWeight])
    · split at hst
      · cases hst
        obtain ⟨h1, e, h2⟩ := singleOutput_same (cfg := cfg) (io := io) (s := s) (t := ‹TmpFile›)
        refine weight_main h1 hw ?_
        rw [singleOutput_src, h2, hm]
        simp [mainWeight]
      · cases hst
        obtain ⟨h1, h2⟩ := finalMerge_same (cfg := cfg) (io := io) (s := s)
        refine weight_main h1 hw ?_
        rw [finalMerge_src]
        rcases h2 with ⟨e, h2⟩ | h2 <;> rw [h2, hm] <;> simp [mainWeight]
    · cases hst
      exact weight_main' (fun _ => rfl) rfl hw (by rw [hm]; simp [SortState.goto, mainWeight])
    · cases hst
      exact weight_main' (fun _ => rfl) rfl hw (by rw [hm]; simp [SortState.goto, SortState.notify, mainWeight])
    · split at hst
      · cases hst
        exact weight_goto hw (by rw [hm]; simp [mainWeight])
      · cases hst
    · cases hst
      exact weight_main ⟨rfl, rfl, rfl, rfl, rfl⟩ hw (by rw [hm]; simp [mainWeight])
    · cases hst
    · cases hst

/-- A worker goes on. -/
theorem weight_worker {i : Bool} (h1 : s'.src = s.src) (h2 : s'.main = s.main) (hw : (s.worker i).waiting = false)
    (ho : (s'.worker (!i)).pc = (s.worker (!i)).pc)
    (hd : jobWeight s'.job + workerWeight (s'.worker i).pc < jobWeight s.job + workerWeight (s.worker i).pc) : sortWeight s' < sortWeight s := by
  have ha := awake_le s'.mainWaiting
  have hb := awake_le (s'.worker false).waiting
  have hc := awake_le (s'.worker true).waiting
  unfold sortWeight
  cases i <;> simp only [Bool.not_false, Bool.not_true] at ho <;>
    simp only [h1, h2, hw, ho] <;> omega

theorem weight_workerStep (H : ∀ l, (cfg.sort l).length = l.length) {i : Bool} {fail : Option Nat}
    (hst : workerStep cfg i fail s = some s') : sortWeight s' < sortWeight s := by
  have hne : (!i) ≠ i := by cases i <;> simp
  unfold workerStep at hst
  split at hst
  · cases hst
  · rename_i hw
    have hw : (s.worker i).waiting = false := by simpa using hw
    have ho : ∀ (s1 : SortState α) (w : SortWorker α), (s1.worker (!i)).pc = (s.worker (!i)).pc →
        ((s1.setWorker i w).worker (!i)).pc = (s.worker (!i)).pc := by
      intro s1 w h
      simp only [SortState.setWorker, if_neg hne]
      exact h
    split at hst <;> rename_i hpc
    · split at hst
      · cases hst
        exact weight_worker (i := i) rfl rfl hw (ho _ _ rfl) (by simp [SortState.setWorker, hpc, workerWeight])
      · split at hst
        · rename_i j hj
          cases hst
          refine weight_worker (i := i) rfl rfl hw (ho _ _ rfl) ?_
          simp only [SortState.setWorker, SortState.notify, hpc, hj, workerWeight, jobWeight, if_true]
          omega
        · cases hst
          unfold sortWeight
          cases i <;> simp [SortState.setWorker, hpc, hw, awake]
    · split at hst
      · cases hst
        refine weight_worker (i := i) rfl rfl hw (ho _ _ rfl) ?_
        simp only [SortState.setWorker, hpc, workerWeight, if_true]
        omega
      · cases hst
        refine weight_worker (i := i) rfl rfl hw (ho _ _ rfl) ?_
        simp only [SortState.setWorker, SortState.put, hpc, workerWeight, if_true, H]
        omega
    · split at hst
      · cases hst
        refine weight_worker (i := i) rfl rfl hw (ho _ _ rfl) ?_
        simp [SortState.setWorker, hpc, workerWeight]
      · split at hst
        · cases hst
          refine weight_worker (i := i) rfl rfl hw (ho _ _ rfl) ?_
          simp only [SortState.setWorker, hpc, workerWeight, if_true, List.length_cons]
          omega
        · cases hst
          refine weight_worker (i := i) rfl rfl hw (ho _ _ rfl) ?_
          simp only [SortState.setWorker, SortState.put, hpc, workerWeight, if_true, List.length_cons]
          omega
    · cases hst
      refine weight_worker (i := i) rfl rfl hw (ho _ _ rfl) ?_
      simp [SortState.setWorker, SortState.notify, hpc, workerWeight]
    · cases hst
      refine weight_worker (i := i) rfl rfl hw (ho _ _ rfl) ?_
      simp [SortState.setWorker, SortState.notify, hpc, workerWeight]
    · cases hst

/-- A step takes the sort nearer to the end, and waking up without reason takes it back by less than that. -/
theorem weight_step (H : ∀ l, (cfg.sort l).length = l.length) {c : SortChoice α} (hst : sortStep cfg c s = some s') :
    if c.isWake then sortWeight s' ≤ sortWeight s + 1 else sortWeight s' < sortWeight s := by
  cases c with
  | main io => exact weight_mainStep hst
  | worker i fail => exact weight_workerStep H hst
  | wakeMain =>
    simp only [sortStep] at hst
    split at hst
    · rename_i hw
      cases hst
      simp only [SortChoice.isWake, if_true, sortWeight, hw, awake]
      omega
    · cases hst
  | wakeWorker i =>
    simp only [sortStep] at hst
    split at hst
    · rename_i hw
      cases hst
      cases i <;> simp [SortChoice.isWake, sortWeight, SortState.setWorker, hw, awake] <;> omega
    · cases hst

theorem weight_run (H : ∀ l, (cfg.sort l).length = l.length) : ∀ {cs : List (SortChoice α)} {s s' : SortState α}, sortRun cfg cs s = some s' →
    sortWeight s' + (cs.filter fun c => !c.isWake).length ≤ sortWeight s + (cs.filter (·.isWake)).length
  | [], s, s', h => by cases h; simp
  | c :: cs, s, s', h => by
    simp only [sortRun, Option.bind_eq_some_iff] at h
    obtain ⟨s1, h1, h2⟩ := h
    have hw := weight_step H h1
    have := weight_run H h2
    cases hc : c.isWake <;> simp only [hc, if_true, Bool.false_eq_true, if_false] at hw <;>
      simp only [List.filter_cons, hc, Bool.not_false, Bool.not_true, if_true, Bool.false_eq_true, if_false, List.length_cons] <;> omega

/-! ## If nothing fails, the sort succeeds -/

/-- The records that have been read and not given to a worker. -/
def mainRecs : MainPc α → Nat
  | .read r _ => r.length
  | .check r _ => r.length
  | .wait2 r _ => r.length
  | .merge r _ => r.length
  | .eof r _ => r.length
  | _ => 0

/-- The result the main thread is about to return. -/
def mainRet : MainPc α → Int
  | .stop r => r
  | .stopNotify r => r
  | .stopJoin r => r
  | .cleanup r => r
  | .done r => r
  | _ => 0

/-- What is known in addition if nothing fails: the names that can still be used up, and the result. -/
structure SortGood (c0 : Nat) (src0 : List α) (s : SortState α) : Prop where
  names : s.counter + s.tmp.length + 2 * (s.src.length + mainRecs s.main) ≤ c0 + 2 * src0.length
  ret : mainRet s.main = 0 ∨ (mainRet s.main = sortErr 11 ∧ 100002 ≤ c0 + 2 * src0.length)

theorem SortGood.same (h : SortGood c0 src0 s) (h1 : s'.counter = s.counter) (h2 : s'.tmp = s.tmp)
    (h3 : s'.src.length + mainRecs s'.main ≤ s.src.length + mainRecs s.main) (h4 : mainRet s'.main = 0 ∨ mainRet s'.main = mainRet s.main) :
    SortGood c0 src0 s' := by
  refine ⟨?_, ?_⟩
  · have := h.names
    rw [h1, h2]
    omega
  · rcases h4 with h4 | h4
    · exact .inl h4
    · rw [h4]; exact h.ret

theorem good_createJob {recs : List α} {last : Bool} (h : s.counter + s.tmp.length + 2 * (s.src.length + recs.length) ≤ c0 + 2 * src0.length)
    (hne : recs ≠ []) : SortGood c0 src0 (createJob cfg s recs last) := by
  have : 0 < recs.length := List.length_pos_iff.mpr hne
  unfold createJob
  split
  · split
    · rename_i hn
      have := nextTmpName_none hn
      refine ⟨?_, .inr ⟨rfl, by omega⟩⟩
      show s.counter + s.tmp.length + 2 * (s.src.length + 0) ≤ _
      omega
    · rename_i n c hn
      obtain ⟨rfl, rfl⟩ := nextTmpName_some hn
      refine ⟨?_, .inl rfl⟩
      simp only [mainRecs, List.length_append, List.length_cons, List.length_nil]
      omega
  · refine ⟨?_, .inl rfl⟩
    show s.counter + s.tmp.length + 2 * (s.src.length + 0) ≤ _
    omega

/-- A merge succeeds if nothing fails. -/
theorem sortMerge_ok (H : CmpOk cfg.cmp) {io : SortIo α} (hio : io.Ok) (feed : Bool) {contents : List (List α)} (hne : contents ≠ []) :
    ∃ s, mergeFiles (sortMergeArgs cfg io feed) (mergeSources io contents) = (.success, s) := by
  rcases C28_result (sortMergeArgs cfg io feed) H (fun d hd => nomatch hd) _ (mergeSources_ne (io := io) hne) with
    ⟨h, _⟩ | ⟨c, s, h, h'⟩
  · exact h
  · exfalso
    rcases h' with ⟨f, hf, hc⟩ | h'
    · unfold mergeSources at hf
      rw [List.mem_mapIdx] at hf
      obtain ⟨i, hi, rfl⟩ := hf
      rw [hio.2.1 i] at hc
      cases hc
    · obtain ⟨h0, h'⟩ := h'
      rcases h' with ⟨f, n, x, hf, rfl⟩ | ⟨n, x, rfl⟩
      · simp only [sortMergeArgs] at hf
        split at hf
        · cases hf
          exact h0 (hio.2.2.2 n x)
        · cases hf
      · exact h0 (hio.2.2.1 n x)

theorem good_mergeStep (H : cfg.Ok) {io : SortIo α} (hio : io.Ok) {tmp : List TmpFile} (hperm : tmp.Perm s.tmp) {a b lv : Nat}
    (hab : a + 2 ≤ b) (hb : b ≤ tmp.length) (hcl : sortClaims s = []) {recs : List α} {buf : Nat} (h : Working cfg fs0 c0 src0 s recs)
    (hn : s.counter + s.tmp.length + 2 * (s.src.length + recs.length) ≤ c0 + 2 * src0.length) :
    SortGood c0 src0 (mergeStep cfg io s tmp a b lv (.read recs buf)) := by
  obtain ⟨hfed, batch, F, hp⟩ := h
  rw [hcl] at F
  have hmid : ∀ t ∈ (tmp.drop a).take (b - a), t.name ∈ s.tmp.map (·.name) := by
    intro t ht
    exact List.mem_map.mpr ⟨t, hperm.mem_iff.mp (List.mem_of_mem_drop (List.mem_of_mem_take ht)), rfl⟩
  have hcont := contentsOf_eq (fs := s.fs) (batch := batch) (l := (tmp.drop a).take (b - a))
    (fun t ht => F.complete t.name (hmid t ht) (by simp))
  have hne' : (((tmp.drop a).take (b - a)).map fun t => batch t.name) ≠ [] := by
    intro h
    have := congrArg List.length h
    simp only [List.length_map, List.length_take, List.length_drop, List.length_nil] at this
    omega
  have hlen := hperm.length_eq
  unfold mergeStep
  simp only
  split
  · rename_i hnone
    have := nextTmpName_none hnone
    refine ⟨?_, .inr ⟨rfl, by omega⟩⟩
    simp only [mainRecs]
    omega
  · rename_i n c hnn
    obtain ⟨rfl, rfl⟩ := nextTmpName_some hnn
    simp only [hcont]
    obtain ⟨r, hr⟩ := sortMerge_ok H.cmp hio false hne'
    rw [hr]
    simp only [hio.1]
    refine ⟨?_, .inl rfl⟩
    have := (H.order_perm (tmp.drop b)).length_eq
    simp only [SortState.put, mainRecs, List.length_append, List.length_take, List.length_cons, List.length_nil, this, List.length_drop]
    omega

theorem iterateRecords_ok {feed : Nat → α → Int} (h : ∀ n x, feed n x = 0) : ∀ (l : List α) (n : Nat), (iterateRecords feed n l).1 = 0
  | [], _ => rfl
  | x :: xs, n => by
    unfold iterateRecords
    rw [if_pos (h n x)]
    exact iterateRecords_ok h xs (n + 1)

theorem good_output (H : cfg.Ok) {io : SortIo α} (hio : io.Ok) (hne : s.tmp ≠ []) (hcl : sortClaims s = [])
    (h : Working cfg fs0 c0 src0 s []) (hg : SortGood c0 src0 s) :
    (∀ t, s.tmp = [t] → SortGood c0 src0 (singleOutput cfg io s t)) ∧ SortGood c0 src0 (finalMerge cfg io s) := by
  obtain ⟨_, batch, F, hp⟩ := h
  rw [hcl] at F
  have hg := hg.names
  refine ⟨fun t ht => ?_, ?_⟩
  · have hc := F.complete t.name (by rw [ht]; simp) (by simp)
    unfold singleOutput
    rw [hc]
    simp only
    have h0 : (feedSingle cfg io (batch t.name)).1 = 0 := by
      unfold feedSingle
      split
      · rw [hio.2.1 0]
        exact iterateRecords_ok hio.2.2.2 _ _
      · rfl
    rw [if_pos h0, hio.1]
    simp only
    split <;> refine ⟨?_, .inl rfl⟩ <;> simp only [SortState.put, SortState.goto, mainRecs] <;> omega
  · have hcont := contentsOf_eq (fs := s.fs) (batch := batch) (l := s.tmp)
      (fun t ht => F.complete t.name (List.mem_map.mpr ⟨t, ht, rfl⟩) (by simp))
    obtain ⟨r, hr⟩ := sortMerge_ok H.cmp hio cfg.feed (contents := s.tmp.map fun t => batch t.name) (by simpa using hne)
    unfold finalMerge
    rw [hcont]
    simp only
    rw [hr]
    simp only [hio.1]
    refine ⟨?_, .inl rfl⟩
    split <;> simp only [SortState.put, mainRecs, List.length_nil] <;> omega

theorem good_mainStep (H : cfg.Ok) {io : SortIo α} (hio : io.Ok) (hinv : SortInv cfg fs0 c0 src0 s) (hg : SortGood c0 src0 s)
    (hst : mainStep cfg io s = some s') : SortGood c0 src0 s' := by
  have h := hinv.data
  have hsched := hinv.sched
  obtain ⟨_, hpc, hsrc⟩ := hinv.safe
  unfold PcSafe at hpc
  unfold SortData at h
  have hfin := hsched.fin
  have hnames := hg.names
  unfold mainStep at hst
  split at hst
  · cases hst
  · split at hst <;> rename_i hm <;> simp only [hm] at hpc h <;> simp only [hm, finishedPc] at hfin <;> rw [hm] at hnames <;>
      simp only [mainRecs] at hnames
    · rename_i recs buf
      rw [hio.1] at hst
      simp only at hst
      split at hst
      · cases hst
        exact hg.same rfl rfl (by rw [hm]; exact Nat.le_refl _) (.inl rfl)
      · rename_i x src hcons
        rw [hcons] at hnames
        simp only [List.length_cons] at hnames
        split at hst
        · cases hst
          refine good_createJob ?_ (by simp)
          simp only [List.length_append, List.length_cons, List.length_nil]
          omega
        · cases hst
          refine hg.same rfl rfl ?_ (.inl rfl)
          rw [hcons, hm]
          simp only [SortState.goto, mainRecs, List.length_append, List.length_cons, List.length_nil]
          omega
    · rw [if_neg (by rw [hfin]; simp)] at hst
      cases hst
      exact hg.same rfl rfl (by rw [hm]; exact Nat.le_refl _) (.inl rfl)
    · rename_i last
      cases hst
      unfold waitMain
      split
      · cases last <;> exact hg.same rfl rfl (by rw [hm]; exact Nat.le_refl _) (.inl rfl)
      · exact hg.same rfl rfl (Nat.le_refl _) (.inr rfl)
    · rw [if_neg (by rw [hfin]; simp)] at hst
      cases hst
      unfold waitMain
      split
      · exact hg.same rfl rfl (by rw [hm]; exact Nat.le_refl _) (.inl rfl)
      · exact hg.same rfl rfl (Nat.le_refl _) (.inr rfl)
    · cases hst
      split <;> exact hg.same rfl rfl (by rw [hm]; exact Nat.le_refl _) (.inl rfl)
    · rw [if_neg (by rw [hfin]; simp)] at hst
      cases hst
      unfold waitMain
      split
      · exact hg.same rfl rfl (by rw [hm]; exact Nat.le_refl _) (.inl rfl)
      · exact hg.same rfl rfl (Nat.le_refl _) (.inr rfl)
    · have hcl : sortClaims s = [] := by
        have hj := hsched.jobNone (by rw [hm]; exact fun l h => nomatch h)
        have hq := hsched.quiet _ _ hm
        have hc := hsched.count
        simp only [sortClaims, hm, hj, mainClaim, jobClaim, List.nil_append,
          busyOf_claim (p := (s.worker false).pc) (by omega), busyOf_claim (p := (s.worker true).pc) (by omega)]
      have hp := H.order_perm s.tmp
      obtain ⟨a, b, lv, h1, h2, h3, h4⟩ := pickMergeFiles_some (l := cfg.order s.tmp)
        (by rw [hp.length_eq, hpc]; exact H.numTmp) (fun t ht => ‹∀ t ∈ s.tmp, 1 ≤ t.level› t (hp.mem_iff.mp ht))
      rw [h1] at hst
      simp only [if_pos h4] at hst
      cases hst
      exact good_mergeStep H hio hp h2 h3 hcl h.1 hnames
    · rename_i recs buf
      split at hst
      · cases hst
        refine hg.same rfl rfl ?_ (.inl rfl)
        rw [hm]
        simp only [SortState.goto, mainRecs]
        omega
      · split at hst
        · rename_i hb
          cases hst
          refine good_createJob hnames ?_
          rintro rfl
          have := h.2.1.1
          simp at this
          omega
        · cases hst
          refine hg.same rfl rfl ?_ (.inl rfl)
          rw [hm]
          simp only [SortState.goto, mainRecs]
          omega
    · cases hst
      exact hg.same rfl rfl (by rw [hm]; exact Nat.le_refl _) (.inl rfl)
    · cases hst
      exact hg.same rfl rfl (by rw [hm]; exact Nat.le_refl _) (.inl rfl)
    · split at hst
      · cases hst
        exact hg.same rfl rfl (by rw [hm]; exact Nat.le_refl _) (.inl rfl)
      · cases hst
    · split at hst
      · cases hst
        exact hg.same rfl rfl (by rw [hm]; exact Nat.le_refl _) (.inl rfl)
      · split at hst
        · cases hst
          exact hg.same rfl rfl (by rw [hm]; exact Nat.le_refl _) (.inl rfl)
        · rw [hio.1] at hst
          cases hst
          exact hg.same rfl rfl (by rw [hm]; exact Nat.le_refl _) (.inl rfl)
    · have hcl : sortClaims s = [] := by
        have hj := hsched.jobNone (by rw [hm]; exact fun l h => nomatch h)
        have hx := hsched.joined (by rw [hm]; rfl)
        simp [sortClaims, hm, hj, hx, mainClaim, jobClaim, workerClaim]
      obtain ⟨g1, g2⟩ := good_output H hio hpc hcl h.1 hg
      split at hst
      · rename_i t ht
        cases hst
        exact g1 t ht
      · cases hst
        exact g2
    · cases hst
      exact hg.same rfl rfl (by rw [hm]; exact Nat.le_refl _) (.inr (by rw [hm]; rfl))
    · cases hst
      exact hg.same rfl rfl (by rw [hm]; exact Nat.le_refl _) (.inr (by rw [hm]; rfl))
    · split at hst
      · cases hst
        exact hg.same rfl rfl (by rw [hm]; exact Nat.le_refl _) (.inr (by rw [hm]; rfl))
      · cases hst
    · cases hst
      exact hg.same rfl rfl (by rw [hm]; exact Nat.le_refl _) (.inr (by rw [hm]; rfl))
    · cases hst

theorem SortChoice.Ok.worker {c : SortChoice α} (h : c.Ok) : c.WorkerOk := by
  cases c with
  | worker i f => exact h
  | _ => trivial

theorem good_step (H : cfg.Ok) {c : SortChoice α} (hok : c.Ok) (hinv : SortInv cfg fs0 c0 src0 s) (hg : SortGood c0 src0 s)
    (hst : sortStep cfg c s = some s') : SortGood c0 src0 s' := by
  cases c with
  | main io => exact good_mainStep H hok hinv hg hst
  | worker i fail =>
    obtain ⟨h1, h2, _, h4, _, h6, _⟩ := workerStep_frame hst
    exact hg.same h6 h2 (by rw [h1, h4]; exact Nat.le_refl _) (.inr (by rw [h1]))
  | wakeMain =>
    simp only [sortStep] at hst
    split at hst
    · cases hst
      exact hg.same rfl rfl (Nat.le_refl _) (.inr rfl)
    · cases hst
  | wakeWorker i =>
    simp only [sortStep] at hst
    split at hst
    · cases hst
      exact hg.same rfl rfl (Nat.le_refl _) (.inr rfl)
    · cases hst

theorem sortGood_start (fs : SortPath → Option (List α)) (h : cfg.Ok) : SortGood c0 src0 (sortStart cfg fs c0 src0) := by
  have h1 : ¬ cfg.numTmp ≤ 1 := by have := h.numTmp; omega
  have h2 : ¬ ((cfg.skip && !cfg.feed) = true) := by
    have := h.callback
    cases h : cfg.skip <;> cases h' : cfg.feed <;> simp [h, h'] at this ⊢
  unfold sortStart
  rw [if_neg h1, if_neg h2]
  exact ⟨by simp [mainRecs], .inl rfl⟩

theorem sortGood_run (H : cfg.Ok) (hfresh : NoStale fs0 c0) {cs : List (SortChoice α)} (hok : ∀ c ∈ cs, c.Ok)
    (h : sortRun cfg cs (sortStart cfg fs0 c0 src0) = some s) : SortInv cfg fs0 c0 src0 s ∧ SortGood c0 src0 s :=
  sortRun_induct (P := SortChoice.Ok) (I := fun s => SortInv cfg fs0 c0 src0 s ∧ SortGood c0 src0 s)
    (fun _ _ _ hc hI hst => ⟨sortInv_step H hfresh hc.worker hI.1 hst, good_step H hc hI.1 hI.2 hst⟩) cs _ _ hok
    ⟨sortInv_start H fs0 src0, sortGood_start fs0 H⟩ h

/-- Nothing fails. -/
def okIo : SortIo α := ⟨none, fun _ => none, fun _ _ => 0, fun _ _ => 0⟩

theorem okIo_ok : (okIo : SortIo α).Ok := ⟨rfl, fun _ => rfl, fun _ _ => rfl, fun _ _ => rfl⟩

/-- From everywhere the sort can be finished. -/
theorem sort_completes (H : cfg.Ok) (hfresh : NoStale fs0 c0) : ∀ (w : Nat) (s : SortState α), sortWeight s ≤ w → SortInv cfg fs0 c0 src0 s →
    ∃ cs s' r, (∀ c ∈ cs, c.Ok ∧ c.isWake = false) ∧ sortRun cfg cs s = some s' ∧ s'.main = .done r := by
  intro w
  induction w with
  | zero =>
    intro s hw hI
    rcases Classical.em (∃ r, s.main = .done r) with ⟨r, hr⟩ | hd
    · exact ⟨[], s, r, (fun c hc => nomatch hc), rfl, hr⟩
    · exfalso
      rcases sort_enabled hI.safe hI.sched (fun r hr => hd ⟨r, hr⟩) with h | ⟨i, h⟩
      · obtain ⟨s1, h1⟩ := Option.isSome_iff_exists.mp (h okIo)
        have := weight_mainStep h1
        omega
      · obtain ⟨s1, h1⟩ := Option.isSome_iff_exists.mp (h none)
        have := weight_workerStep (fun l => (H.sort_perm l).length_eq) h1
        omega
  | succ w ih =>
    intro s hw hI
    rcases Classical.em (∃ r, s.main = .done r) with ⟨r, hr⟩ | hd
    · exact ⟨[], s, r, (fun c hc => nomatch hc), rfl, hr⟩
    · have : ∃ c s1, c.Ok ∧ c.isWake = false ∧ sortStep cfg c s = some s1 ∧ sortWeight s1 < sortWeight s := by
        rcases sort_enabled hI.safe hI.sched (fun r hr => hd ⟨r, hr⟩) with h | ⟨i, h⟩
        · obtain ⟨s1, h1⟩ := Option.isSome_iff_exists.mp (h okIo)
          exact ⟨.main okIo, s1, okIo_ok, rfl, h1, weight_mainStep h1⟩
        · obtain ⟨s1, h1⟩ := Option.isSome_iff_exists.mp (h none)
          exact ⟨.worker i none, s1, rfl, rfl, h1, weight_workerStep (fun l => (H.sort_perm l).length_eq) h1⟩
      obtain ⟨c, s1, h1, h2, h3, h4⟩ := this
      obtain ⟨cs, s2, r, g1, g2, g3⟩ := ih s1 (by omega) (sortInv_step H hfresh h1.worker hI h3)
      refine ⟨c :: cs, s2, r, ?_, by simp only [sortRun, h3, Option.bind_some, g2], g3⟩
      intro c' hc'
      rcases List.mem_cons.mp hc' with rfl | hc'
      · exact ⟨h1, h2⟩
      · exact g1 c' hc'

theorem sortRun_append {cs cs' : List (SortChoice α)} : sortRun cfg (cs ++ cs') s = (sortRun cfg cs s).bind (sortRun cfg cs') := by
  induction cs generalizing s with
  | nil => rfl
  | cons c cs ih =>
    simp only [List.cons_append, sortRun]
    cases sortStep cfg c s with
    | none => rfl
    | some s1 => exact ih

/-! ## All names have been used -/

/-- Nothing can be written any more. -/
def NoNames (cfg : SortCfg α) (s : SortState α) : Prop :=
  s.tmp = [] ∧ 100000 ≤ s.counter ∧
    match s.main with
    | .read r b => b = (r.map cfg.size).sum ∧ r ++ s.src ≠ [] ∧ b ≤ cfg.maxBuf
    | .check r b => b = (r.map cfg.size).sum ∧ r ++ s.src ≠ [] ∧ b ≤ cfg.maxBuf
    | .eof r b => b = (r.map cfg.size).sum ∧ r ≠ []
    | .stop e => e ≠ 0
    | .stopNotify e => e ≠ 0
    | .stopJoin e => e ≠ 0
    | .cleanup e => e ≠ 0
    | .done e => e ≠ 0
    | _ => False

theorem decimalLength_big {v : Nat} (h : 100000 ≤ v) : 6 ≤ decimalLength v := by
  rcases Nat.lt_or_ge (decimalLength v) 6 with h' | h'
  · have := decimalLength_small h'
    omega
  · exact h'

theorem nextTmpName_big {v : Nat} (h : 100000 ≤ v) : nextTmpName v = none := by
  unfold nextTmpName
  have := decimalLength_big h
  rw [if_pos (by omega)]

theorem noNames_step (H : cfg.Ok) {c : SortChoice α} (h : NoNames cfg s) (hst : sortStep cfg c s = some s') : NoNames cfg s' := by
  obtain ⟨h1, h2, h3⟩ := h
  have hcreate : ∀ (s : SortState α) recs last, s.tmp = [] → 100000 ≤ s.counter → NoNames cfg (createJob cfg s recs last) := by
    intro s recs last h1 h2
    unfold createJob
    rw [nextTmpName_big h2]
    have := H.numTmp
    rw [if_pos (by rw [h1]; simp only [List.length_nil]; omega)]
    exact ⟨h1, h2, sortErr_ne _⟩
  cases c with
  | main io =>
    simp only [sortStep] at hst
    unfold mainStep at hst
    split at hst
    · cases hst
    · split at hst <;> rename_i hm <;> simp only [hm] at h3
      · rename_i r b
        split at hst
        · cases hst
          exact ⟨h1, h2, sortErr_ne _⟩
        · split at hst
          · rename_i hs
            cases hst
            refine ⟨h1, h2, h3.1, ?_⟩
            have := h3.2.1
            rw [hs] at this
            simpa using this
          · rename_i x src hs
            simp only at hst
            have hsz := H.size_small x
            have hb : b + cfg.size x < 4294967296 := by omega
            rw [Nat.mod_eq_of_lt hb] at hst
            split at hst
            · cases hst
              exact hcreate _ _ _ h1 h2
            · cases hst
              refine ⟨h1, h2, ?_, by simp, by omega⟩
              rw [List.map_append, List.sum_append, ← h3.1]
              simp
      · rename_i r b
        cases hst
        rw [if_neg (by rw [h1]; have := H.numTmp; simp only [List.length_nil]; omega)]
        exact ⟨h1, h2, h3⟩
      · rename_i r b
        have hpos : 0 < b := by
          rcases Nat.eq_zero_or_pos b with hb | hb
          · exact absurd (sum_zero H.size_pos (h3.1.symm.trans hb)) h3.2
          · exact hb
        split at hst
        · omega
        · cases hst
          exact hcreate _ _ _ h1 h2
      · cases hst
        exact ⟨h1, h2, h3⟩
      · cases hst
        exact ⟨h1, h2, h3⟩
      · split at hst
        · cases hst
          exact ⟨h1, h2, h3⟩
        · cases hst
      · cases hst
        exact ⟨h1, h2, h3⟩
      · cases hst
  | worker i fail =>
    obtain ⟨g1, g2, _, g4, _, g6, _⟩ := workerStep_frame hst
    unfold NoNames
    rw [g1, g2, g4, g6]
    exact ⟨h1, h2, h3⟩
  | wakeMain =>
    simp only [sortStep] at hst
    split at hst
    · cases hst
      exact ⟨h1, h2, h3⟩
    · cases hst
  | wakeWorker i =>
    simp only [sortStep] at hst
    split at hst
    · cases hst
      exact ⟨h1, h2, h3⟩
    · cases hst

end Couchstore
