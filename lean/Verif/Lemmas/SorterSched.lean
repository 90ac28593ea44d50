import Verif.Lemmas.SorterFiles

/-! The threads of a sort: who works, who waits, and what for. -/

namespace Couchstore

variable {α : Type}

/-- A worker has a job. -/
def busyOf : WorkerPc α → Nat
  | .opening _ => 1
  | .writing _ _ => 1
  | .ready => 1
  | .failing _ => 1
  | _ => 0

/-- `finished` has been set. -/
def finishedPc : MainPc α → Bool
  | .finishNotify => true
  | .join => true
  | .remove => true
  | .output => true
  | .stopNotify _ => true
  | .stopJoin _ => true
  | .cleanup _ => true
  | .done _ => true
  | _ => false

/-- The workers have ended. -/
def joinedPc : MainPc α → Bool
  | .remove => true
  | .output => true
  | .cleanup _ => true
  | .done _ => true
  | _ => false

/-- The waiting workers have not been notified yet that they shall end. -/
def notifyPc : MainPc α → Bool
  | .finishNotify => true
  | .stopNotify _ => true
  | _ => false

/-- What holds as long as no worker fails. -/
structure Sched (s : SortState α) : Prop where
  count : s.free + busyOf (s.worker false).pc + busyOf (s.worker true).pc = 2
  job : s.job ≠ none → ∃ last, s.main = .posted last
  fin : s.finished = finishedPc s.main
  noFail : ∀ i e, (s.worker i).pc ≠ .failing e
  exited : ∀ i, (s.worker i).pc = .exited → s.finished = true
  joined : joinedPc s.main = true → ∀ i, (s.worker i).pc = .exited
  quiet : ∀ r b, s.main = .merge r b → s.free = 2
  wWait : ∀ i, (s.worker i).waiting = true → (s.worker i).pc = .idle ∧ s.job = none ∧ (s.finished = true → notifyPc s.main = true)
  mWait : s.mainWaiting = true → (∃ last, s.main = .posted last ∧ s.job ≠ none) ∨ (s.main = .wait1 ∧ s.free = 0) ∨
    ∃ r b, s.main = .wait2 r b ∧ s.free < 2

theorem Sched.jobNone {s : SortState α} (h : Sched s) (hp : ∀ last, s.main ≠ .posted last) : s.job = none := by
  cases hj : s.job with
  | none => rfl
  | some j =>
    obtain ⟨last, hl⟩ := h.job (by rw [hj]; exact Option.some_ne_none _)
    exact absurd hl (hp last)

/-- A step of the main thread that changes no worker. -/
theorem Sched.move {s s' : SortState α} (h : Sched s) (hn : notifyPc s.main = false) (hj : s.job = none)
    (h1 : s'.worker = s.worker) (h2 : s'.free = s.free) (h3 : s'.job = s.job) (h4 : s'.finished = s.finished)
    (h5 : s'.mainWaiting = false) (h6 : finishedPc s'.main = finishedPc s.main)
    (h7 : joinedPc s'.main = true → ∀ i, (s.worker i).pc = .exited) (h8 : ∀ r b, s'.main = .merge r b → s.free = 2) : Sched s' where
  count := by rw [h1, h2]; exact h.count
  job := by rw [h3, hj]; exact fun h => absurd rfl h
  fin := by rw [h4, h6]; exact h.fin
  noFail := by rw [h1]; exact h.noFail
  exited := by rw [h1, h4]; exact h.exited
  joined := by rw [h1]; exact h7
  quiet := by rw [h2]; exact h8
  wWait := by
    rw [h1, h3, h4]
    intro i hi
    obtain ⟨a, b, c⟩ := h.wWait i hi
    refine ⟨a, b, fun hf => ?_⟩
    have := c hf
    rw [hn] at this
    cases this
  mWait := by rw [h5]; exact fun h => nomatch h

/-- The main thread goes to sleep. -/
theorem Sched.sleep {s : SortState α} (h : Sched s)
    (hw : (∃ last, s.main = .posted last ∧ s.job ≠ none) ∨ (s.main = .wait1 ∧ s.free = 0) ∨ ∃ r b, s.main = .wait2 r b ∧ s.free < 2) :
    Sched { s with mainWaiting := true } :=
  ⟨h.count, h.job, h.fin, h.noFail, h.exited, h.joined, h.quiet, h.wWait, fun _ => hw⟩

/-- What the larger steps of the main thread do not change. -/
structure SameThreads (s s' : SortState α) : Prop where
  worker : s'.worker = s.worker
  free : s'.free = s.free
  job : s'.job = s.job
  finished : s'.finished = s.finished
  mainWaiting : s'.mainWaiting = s.mainWaiting

theorem SameThreads.move {s s' : SortState α} (f : SameThreads s s') (h : Sched s) (hn : notifyPc s.main = false) (hj : s.job = none)
    (hw : s.mainWaiting = false) (h6 : finishedPc s'.main = finishedPc s.main)
    (h7 : joinedPc s'.main = true → ∀ i, (s.worker i).pc = .exited) (h8 : ∀ r b, s'.main ≠ .merge r b) : Sched s' :=
  h.move hn hj f.worker f.free f.job f.finished (f.mainWaiting.trans hw) h6 h7 (fun r b he => absurd he (h8 r b))

theorem createJob_same {cfg : SortCfg α} {s : SortState α} {recs : List α} {last : Bool} :
    SameThreads s (createJob cfg s recs last) := by
  unfold createJob
  split
  · split <;> exact ⟨rfl, rfl, rfl, rfl, rfl⟩
  · exact ⟨rfl, rfl, rfl, rfl, rfl⟩

theorem createJob_main {cfg : SortCfg α} {s : SortState α} {recs : List α} {last : Bool} :
    (∃ e, (createJob cfg s recs last).main = .stop e) ∨ (∃ j, (createJob cfg s recs last).main = .post j last) ∨
      (createJob cfg s recs last).main = .crashed := by
  unfold createJob
  split
  · split
    · exact .inl ⟨_, rfl⟩
    · exact .inr (.inl ⟨_, rfl⟩)
  · exact .inr (.inr rfl)

theorem mergeStep_same {cfg : SortCfg α} {io : SortIo α} {s : SortState α} {tmp : List TmpFile} {a b lv : Nat} {pc : MainPc α} :
    SameThreads s (mergeStep cfg io s tmp a b lv pc) ∧
      ((∃ e, (mergeStep cfg io s tmp a b lv pc).main = .stop e) ∨ (mergeStep cfg io s tmp a b lv pc).main = pc ∨
        (mergeStep cfg io s tmp a b lv pc).main = .crashed) := by
  unfold mergeStep
  simp only
  split
  · exact ⟨⟨rfl, rfl, rfl, rfl, rfl⟩, .inl ⟨_, rfl⟩⟩
  · split
    · exact ⟨⟨rfl, rfl, rfl, rfl, rfl⟩, .inl ⟨_, rfl⟩⟩
    · split
      · exact ⟨⟨rfl, rfl, rfl, rfl, rfl⟩, .inl ⟨_, rfl⟩⟩
      · split
        · exact ⟨⟨rfl, rfl, rfl, rfl, rfl⟩, .inl ⟨_, rfl⟩⟩
        · exact ⟨⟨rfl, rfl, rfl, rfl, rfl⟩, .inr (.inl rfl)⟩
      · exact ⟨⟨rfl, rfl, rfl, rfl, rfl⟩, .inr (.inr rfl)⟩

theorem finalMerge_same {cfg : SortCfg α} {io : SortIo α} {s : SortState α} :
    SameThreads s (finalMerge cfg io s) ∧
      ((∃ e, (finalMerge cfg io s).main = .cleanup e) ∨ (finalMerge cfg io s).main = .crashed) := by
  unfold finalMerge
  split
  · exact ⟨⟨rfl, rfl, rfl, rfl, rfl⟩, .inl ⟨_, rfl⟩⟩
  · simp only
    cases hsk : cfg.skip
    · simp only [Bool.false_eq_true, if_false]
      split
      · exact ⟨⟨rfl, rfl, rfl, rfl, rfl⟩, .inl ⟨_, rfl⟩⟩
      · split
        · exact ⟨⟨rfl, rfl, rfl, rfl, rfl⟩, .inl ⟨_, rfl⟩⟩
        · exact ⟨⟨rfl, rfl, rfl, rfl, rfl⟩, .inl ⟨_, rfl⟩⟩
      · exact ⟨⟨rfl, rfl, rfl, rfl, rfl⟩, .inr rfl⟩
    · simp only [if_true]
      split
      · exact ⟨⟨rfl, rfl, rfl, rfl, rfl⟩, .inl ⟨_, rfl⟩⟩
      · split
        · exact ⟨⟨rfl, rfl, rfl, rfl, rfl⟩, .inl ⟨_, rfl⟩⟩
        · exact ⟨⟨rfl, rfl, rfl, rfl, rfl⟩, .inl ⟨_, rfl⟩⟩
      · exact ⟨⟨rfl, rfl, rfl, rfl, rfl⟩, .inr rfl⟩

theorem singleOutput_same {cfg : SortCfg α} {io : SortIo α} {s : SortState α} {t : TmpFile} :
    SameThreads s (singleOutput cfg io s t) ∧ ∃ e, (singleOutput cfg io s t).main = .cleanup e := by
  unfold singleOutput
  split
  · exact ⟨⟨rfl, rfl, rfl, rfl, rfl⟩, _, rfl⟩
  · simp only
    split
    · split
      · exact ⟨⟨rfl, rfl, rfl, rfl, rfl⟩, _, rfl⟩
      · split <;> exact ⟨⟨rfl, rfl, rfl, rfl, rfl⟩, _, rfl⟩
    · exact ⟨⟨rfl, rfl, rfl, rfl, rfl⟩, _, rfl⟩

theorem allExited_iff {s : SortState α} : allExited s = true ↔ ∀ i, (s.worker i).pc = .exited := by
  unfold allExited
  constructor
  · intro h
    split at h
    · rename_i h1 h2
      intro i
      cases i
      · exact h1
      · exact h2
    · cases h
  · intro h
    rw [h false, h true]

theorem sched_notify {s s' : SortState α} (h : Sched s) (h1 : s'.worker = s.notify.worker) (h2 : s'.free = s.free)
    (h3 : s'.job ≠ none → ∃ last, s'.main = .posted last) (h4 : s'.finished = finishedPc s'.main)
    (h4' : s.finished = true → s'.finished = true) (h5 : s'.mainWaiting = false)
    (h7 : joinedPc s'.main = true → ∀ i, (s.worker i).pc = .exited) (h8 : ∀ r b, s'.main = .merge r b → s'.free = 2) : Sched s' where
  count := by rw [h1, h2]; exact h.count
  job := h3
  fin := h4
  noFail := by rw [h1]; exact h.noFail
  exited := by rw [h1]; exact fun i hi => h4' (h.exited i hi)
  joined := by rw [h1]; exact h7
  quiet := h8
  wWait := by
    rw [h1]
    intro i hi
    exact nomatch hi
  mWait := by rw [h5]; exact fun h => nomatch h

theorem sched_createJob {cfg : SortCfg α} {s0 s : SortState α} {recs : List α} {last : Bool} (h : Sched s0) (f : SameThreads s0 s)
    (hn : notifyPc s0.main = false) (hj : s0.job = none) (hw : s0.mainWaiting = false) (hfin : finishedPc s0.main = false)
    (hc : (createJob cfg s recs last).main ≠ .crashed) : Sched (createJob cfg s recs last) := by
  have g := createJob_same (cfg := cfg) (s := s) (recs := recs) (last := last)
  have g' : SameThreads s0 (createJob cfg s recs last) :=
    ⟨g.worker.trans f.worker, g.free.trans f.free, g.job.trans f.job, g.finished.trans f.finished, g.mainWaiting.trans f.mainWaiting⟩
  rcases createJob_main (cfg := cfg) (s := s) (recs := recs) (last := last) with ⟨e, he⟩ | ⟨j, he⟩ | he
  · exact g'.move h hn hj hw (by rw [he, hfin]; rfl) (by rw [he]; exact fun h => nomatch h) (by rw [he]; exact fun _ _ h => nomatch h)
  · exact g'.move h hn hj hw (by rw [he, hfin]; rfl) (by rw [he]; exact fun h => nomatch h) (by rw [he]; exact fun _ _ h => nomatch h)
  · exact absurd he hc

theorem sched_mainStep {cfg : SortCfg α} {s s' : SortState α} {io : SortIo α} (h : Sched s) (hc : s'.main ≠ .crashed)
    (hst : mainStep cfg io s = some s') : Sched s' := by
  unfold mainStep at hst
  split at hst
  · cases hst
  · rename_i hmw
    rw [Bool.not_eq_true] at hmw
    have hfin := h.fin
    have easy : ∀ {t : SortState α}, SameThreads s t → notifyPc s.main = false → (∀ l, s.main ≠ .posted l) →
        finishedPc t.main = finishedPc s.main → (joinedPc t.main = true → ∀ i, (s.worker i).pc = .exited) →
        (∀ r b, t.main = .merge r b → s.free = 2) → Sched t := fun f hn hp h6 h7 h8 =>
      h.move hn (h.jobNone hp) f.worker f.free f.job f.finished (f.mainWaiting.trans hmw) h6 h7 h8
    split at hst <;> rename_i hm <;> simp only [hm, finishedPc] at hfin
    · -- read
      have hn : notifyPc s.main = false := by rw [hm]; rfl
      have hp : ∀ l, s.main ≠ .posted l := by rw [hm]; exact fun l h => nomatch h
      split at hst
      · cases hst
        exact easy ⟨rfl, rfl, rfl, rfl, rfl⟩ hn hp (by rw [hm]; rfl) (fun h => nomatch h) (fun r b h => nomatch h)
      · split at hst
        · cases hst
          exact easy ⟨rfl, rfl, rfl, rfl, rfl⟩ hn hp (by rw [hm]; rfl) (fun h => nomatch h) (fun r b h => nomatch h)
        · simp only at hst
          split at hst
          · simp only [Option.some.injEq] at hst
            subst hst
            exact sched_createJob (s0 := s) h ⟨rfl, rfl, rfl, rfl, rfl⟩ hn (h.jobNone hp) hmw (by rw [hm]; rfl) hc
          · cases hst
            exact easy ⟨rfl, rfl, rfl, rfl, rfl⟩ hn hp (by rw [hm]; rfl) (fun h => nomatch h) (fun r b h => nomatch h)
    · -- post
      rw [if_neg (by rw [hfin]; simp)] at hst
      cases hst
      exact sched_notify h rfl rfl (fun _ => ⟨_, rfl⟩) hfin (fun hf => hf) rfl (fun h => nomatch h) (fun r b h => nomatch h)
    · -- posted
      simp only [Option.some.injEq] at hst
      subst hst
      unfold waitMain
      split
      · rename_i last hj
        rw [Option.isNone_iff_eq_none] at hj
        refine h.move (by rw [hm]; rfl) hj rfl rfl rfl rfl hmw ?_ ?_ ?_
        · cases last <;> rw [hm] <;> rfl
        · cases last <;> exact fun h => nomatch h
        · cases last <;> exact fun _ _ h => nomatch h
      · rename_i last hj
        exact h.sleep (.inl ⟨_, hm, fun hn => hj (by rw [hn]; rfl)⟩)
    · -- wait1
      rw [if_neg (by rw [hfin]; simp)] at hst
      simp only [Option.some.injEq] at hst
      subst hst
      unfold waitMain
      split
      · exact easy ⟨rfl, rfl, rfl, rfl, rfl⟩ (by rw [hm]; rfl) (by rw [hm]; exact fun l h => nomatch h) (by rw [hm]; rfl)
          (fun h => nomatch h) (fun r b h => nomatch h)
      · rename_i hf
        refine h.sleep (.inr (.inl ⟨hm, ?_⟩))
        simp only [decide_eq_true_eq] at hf
        omega
    · -- check
      simp only [Option.some.injEq] at hst
      subst hst
      have hp : ∀ l, s.main ≠ .posted l := by rw [hm]; exact fun l h => nomatch h
      split
      · exact easy ⟨rfl, rfl, rfl, rfl, rfl⟩ (by rw [hm]; rfl) hp (by rw [hm]; rfl) (fun h => nomatch h) (fun r b h => nomatch h)
      · exact easy ⟨rfl, rfl, rfl, rfl, rfl⟩ (by rw [hm]; rfl) hp (by rw [hm]; rfl) (fun h => nomatch h) (fun r b h => nomatch h)
    · -- wait2
      rw [if_neg (by rw [hfin]; simp)] at hst
      simp only [Option.some.injEq] at hst
      subst hst
      unfold waitMain
      split
      · rename_i hf
        refine easy ⟨rfl, rfl, rfl, rfl, rfl⟩ (by rw [hm]; rfl) (by rw [hm]; exact fun l h => nomatch h) (by rw [hm]; rfl)
          (fun h => nomatch h) (fun r b _ => ?_)
        simp only [decide_eq_true_eq] at hf
        have := h.count
        omega
      · rename_i hf
        refine h.sleep (.inr (.inr ⟨_, _, hm, ?_⟩))
        simp only [decide_eq_true_eq] at hf
        omega
    · -- merge
      rename_i recs buf
      have hn : notifyPc s.main = false := by rw [hm]; rfl
      have hp : ∀ l, s.main ≠ .posted l := by rw [hm]; exact fun l h => nomatch h
      split at hst
      · cases hst
        exact absurd rfl hc
      · split at hst
        · simp only [Option.some.injEq] at hst
          rename_i start stop level _ _
          obtain ⟨f, ⟨e, he⟩ | he | he⟩ := mergeStep_same (cfg := cfg) (io := io) (s := s) (tmp := cfg.order s.tmp) (a := start)
            (b := stop) (lv := level) (pc := .read recs buf) <;> rw [hst] at f he
          · exact easy f hn hp (by rw [hm, he]; rfl) (by rw [he]; exact fun h => nomatch h) (by rw [he]; exact fun r b h => nomatch h)
          · exact easy f hn hp (by rw [hm, he]; rfl) (by rw [he]; exact fun h => nomatch h) (by rw [he]; exact fun r b h => nomatch h)
          · exact absurd he hc
        · cases hst
          exact absurd rfl hc
    · -- eof
      have hn : notifyPc s.main = false := by rw [hm]; rfl
      have hp : ∀ l, s.main ≠ .posted l := by rw [hm]; exact fun l h => nomatch h
      split at hst
      · cases hst
        exact easy ⟨rfl, rfl, rfl, rfl, rfl⟩ hn hp (by rw [hm]; rfl) (fun h => nomatch h) (fun r b h => nomatch h)
      · split at hst
        · simp only [Option.some.injEq] at hst
          subst hst
          exact sched_createJob (s0 := s) h ⟨rfl, rfl, rfl, rfl, rfl⟩ hn (h.jobNone hp) hmw (by rw [hm]; rfl) hc
        · cases hst
          exact easy ⟨rfl, rfl, rfl, rfl, rfl⟩ hn hp (by rw [hm]; rfl) (fun h => nomatch h) (fun r b h => nomatch h)
    · -- finish
      cases hst
      have hj := h.jobNone (by rw [hm]; exact fun l h => nomatch h)
      exact ⟨h.count, fun hj' => absurd hj hj', rfl, h.noFail, fun _ _ => rfl, (fun h => nomatch h), (fun _ _ h => nomatch h),
        fun i hi => ⟨(h.wWait i hi).1, (h.wWait i hi).2.1, fun _ => rfl⟩, fun hw => absurd hw (by simp [SortState.goto, hmw])⟩
    · -- finishNotify
      cases hst
      have hj := h.jobNone (by rw [hm]; exact fun l h => nomatch h)
      exact sched_notify h rfl rfl (fun hj' => absurd hj hj') hfin (fun hf => hf) rfl (fun h => nomatch h) (fun r b h => nomatch h)
    · -- join
      split at hst
      · rename_i hx
        cases hst
        exact easy ⟨rfl, rfl, rfl, rfl, rfl⟩ (by rw [hm]; rfl) (by rw [hm]; exact fun l h => nomatch h) (by rw [hm]; rfl)
          (fun _ => allExited_iff.mp hx) (fun r b h => nomatch h)
      · cases hst
    · -- remove
      have hex := h.joined (by rw [hm]; rfl)
      have hn : notifyPc s.main = false := by rw [hm]; rfl
      have hp : ∀ l, s.main ≠ .posted l := by rw [hm]; exact fun l h => nomatch h
      split at hst
      · cases hst
        exact absurd rfl hc
      · split at hst
        · cases hst
          exact easy ⟨rfl, rfl, rfl, rfl, rfl⟩ hn hp (by rw [hm]; rfl) (fun _ => hex) (fun r b h => nomatch h)
        · split at hst
          · cases hst
            exact easy ⟨rfl, rfl, rfl, rfl, rfl⟩ hn hp (by rw [hm]; rfl) (fun _ => hex) (fun r b h => nomatch h)
          · cases hst
            exact easy ⟨rfl, rfl, rfl, rfl, rfl⟩ hn hp (by rw [hm]; rfl) (fun _ => hex) (fun r b h => nomatch h)
    · -- output
      have hex := h.joined (by rw [hm]; rfl)
      have hn : notifyPc s.main = false := by rw [hm]; rfl
      have hp : ∀ l, s.main ≠ .posted l := by rw [hm]; exact fun l h => nomatch h
      split at hst
      · rename_i t _
        simp only [Option.some.injEq] at hst
        obtain ⟨f, e, he⟩ := singleOutput_same (cfg := cfg) (io := io) (s := s) (t := t)
        rw [hst] at f he
        exact easy f hn hp (by rw [hm, he]; rfl) (fun _ => hex) (by rw [he]; exact fun r b h => nomatch h)
      · simp only [Option.some.injEq] at hst
        obtain ⟨f, ⟨e, he⟩ | he⟩ := finalMerge_same (cfg := cfg) (io := io) (s := s) <;> rw [hst] at f he
        · exact easy f hn hp (by rw [hm, he]; rfl) (fun _ => hex) (by rw [he]; exact fun r b h => nomatch h)
        · exact absurd he hc
    · -- stop
      cases hst
      have hj := h.jobNone (by rw [hm]; exact fun l h => nomatch h)
      exact ⟨h.count, fun hj' => absurd hj hj', rfl, h.noFail, fun _ _ => rfl, (fun h => nomatch h), (fun _ _ h => nomatch h),
        fun i hi => ⟨(h.wWait i hi).1, (h.wWait i hi).2.1, fun _ => rfl⟩, fun hw => absurd hw (by simp [SortState.goto, hmw])⟩
    · -- stopNotify
      cases hst
      have hj := h.jobNone (by rw [hm]; exact fun l h => nomatch h)
      exact sched_notify h rfl rfl (fun hj' => absurd hj hj') hfin (fun hf => hf) rfl (fun h => nomatch h) (fun r b h => nomatch h)
    · -- stopJoin
      split at hst
      · rename_i hx
        cases hst
        exact easy ⟨rfl, rfl, rfl, rfl, rfl⟩ (by rw [hm]; rfl) (by rw [hm]; exact fun l h => nomatch h) (by rw [hm]; rfl)
          (fun _ => allExited_iff.mp hx) (fun r b h => nomatch h)
      · cases hst
    · -- cleanup
      cases hst
      exact easy ⟨rfl, rfl, rfl, rfl, rfl⟩ (by rw [hm]; rfl) (by rw [hm]; exact fun l h => nomatch h) (by rw [hm]; rfl)
        (fun _ => h.joined (by rw [hm]; rfl)) (fun r b h => nomatch h)
    · cases hst
    · cases hst

/-- A worker goes on; if it notifies the others, none waits afterwards. -/
theorem sched_worker {s s' : SortState α} {i : Bool} (h : Sched s) (hi : (s.worker (!i)).pc = (s'.worker (!i)).pc)
    (hcount : s'.free + busyOf (s'.worker i).pc = s.free + busyOf (s.worker i).pc) (hmain : s'.main = s.main)
    (hfin : s'.finished = s.finished) (hjob : s'.job ≠ none → s'.job = s.job) (hnf : ∀ e, (s'.worker i).pc ≠ .failing e)
    (hex : (s'.worker i).pc = .exited → s.finished = true) (hidle : (s.worker i).pc ≠ .exited)
    (hq : ∀ r b, s.main = .merge r b → s'.free = s.free)
    (hw : ∀ j, (s'.worker j).waiting = true → (s'.worker j).pc = .idle ∧ s'.job = none ∧ (s.finished = true → notifyPc s.main = true))
    (hmw : s'.mainWaiting = true → s'.job = s.job ∧ s'.free = s.free ∧ s.mainWaiting = true) : Sched s' where
  count := by
    have := h.count
    cases i
    · simp only [Bool.not_false] at hi
      rw [← hi]
      omega
    · simp only [Bool.not_true] at hi
      rw [← hi]
      omega
  job := fun hj => by
    rw [hmain]
    exact h.job (hjob hj ▸ hj)
  fin := by rw [hfin, hmain]; exact h.fin
  noFail := fun j e => by
    by_cases hj : j = i
    · subst hj; exact hnf e
    · have : j = !i := by cases j <;> cases i <;> simp_all
      rw [this, ← hi]
      exact h.noFail _ e
  exited := fun j hj => by
    rw [hfin]
    by_cases hji : j = i
    · subst hji; exact hex hj
    · have : j = !i := by cases j <;> cases i <;> simp_all
      rw [this, ← hi] at hj
      exact h.exited _ hj
  joined := fun hj => by
    rw [hmain] at hj
    exact absurd (h.joined hj i) hidle
  quiet := fun r b hm => by
    rw [hmain] at hm
    rw [hq r b hm]
    exact h.quiet r b hm
  wWait := fun j hj => by
    rw [hfin, hmain]
    exact hw j hj
  mWait := fun hj => by
    obtain ⟨a, b, c⟩ := hmw hj
    rw [hmain, a, b]
    exact h.mWait c

theorem sched_workerStep {cfg : SortCfg α} {s s' : SortState α} {i : Bool} (h : Sched s)
    (hst : workerStep cfg i none s = some s') : Sched s' := by
  have hcount := h.count
  have hjm : ∀ r b, s.main = .merge r b → s.job = none := fun r b hm => h.jobNone (by rw [hm]; exact fun l h => nomatch h)
  have hother : ∀ j, j ≠ i → j = !i := fun j hj => by cases j <;> cases i <;> simp_all
  unfold workerStep at hst
  split at hst
  · cases hst
  · rename_i hw
    rw [Bool.not_eq_true] at hw
    split at hst <;> rename_i hpc
    · -- idle
      split at hst
      · rename_i hf
        cases hst
        refine sched_worker (i := i) h (by simp [SortState.setWorker]) (by simp [SortState.setWorker, hpc, busyOf]) rfl rfl (fun _ => rfl)
          (by simp [SortState.setWorker]) (fun _ => hf) (by rw [hpc]; exact fun h => nomatch h) (fun _ _ _ => rfl) ?_ (fun hm => ⟨rfl, rfl, hm⟩)
        intro j hj
        by_cases hji : j = i
        · simp [SortState.setWorker, hji] at hj
        · simp only [SortState.setWorker, if_neg hji] at hj ⊢
          exact h.wWait j hj
      · rename_i hnf
        split at hst
        · rename_i job hjob
          cases hst
          have hpos : 0 < s.free := by
            have : busyOf (s.worker i).pc = 0 := by rw [hpc]; rfl
            have hle : ∀ p : WorkerPc α, busyOf p ≤ 1 := fun p => by cases p <;> simp [busyOf]
            have h1 := hle (s.worker false).pc
            have h2 := hle (s.worker true).pc
            cases i <;> omega
          refine sched_worker (i := i) h (by simp [SortState.setWorker, SortState.notify]) ?_ rfl rfl ?_
            (by simp [SortState.setWorker]) (by simp [SortState.setWorker]) (by rw [hpc]; exact fun h => nomatch h) ?_ ?_ ?_
          · simp [SortState.setWorker, SortState.notify, hpc, busyOf]
            omega
          · intro hj
            exact absurd rfl hj
          · intro r b hm
            rw [hjm r b hm] at hjob
            cases hjob
          · intro j hj
            by_cases hji : j = i <;> simp [SortState.setWorker, SortState.notify, hji] at hj
          · intro hm
            simp [SortState.setWorker, SortState.notify] at hm
        · rename_i hjob
          cases hst
          refine sched_worker (i := i) h (by simp [SortState.setWorker]) (by simp [SortState.setWorker, hpc, busyOf]) rfl rfl (fun _ => rfl)
            (by simp [SortState.setWorker]) (by simp [SortState.setWorker]) (by rw [hpc]; exact fun h => nomatch h) (fun _ _ _ => rfl) ?_ (fun hm => ⟨rfl, rfl, hm⟩)
          intro j hj
          by_cases hji : j = i
          · subst hji
            exact ⟨by simp [SortState.setWorker], hjob, fun hf' => absurd hf' hnf⟩
          · simp only [SortState.setWorker, if_neg hji] at hj ⊢
            exact h.wWait j hj
    · -- opening
      simp only [Option.some.injEq] at hst
      subst hst
      refine sched_worker (i := i) h (by simp [SortState.setWorker, SortState.put]) (by simp [SortState.setWorker, SortState.put, hpc, busyOf]) rfl rfl
        (fun _ => rfl) (by simp [SortState.setWorker]) (by simp [SortState.setWorker]) (by rw [hpc]; exact fun h => nomatch h) (fun _ _ _ => rfl) ?_ (fun hm => ⟨rfl, rfl, hm⟩)
      intro j hj
      by_cases hji : j = i
      · simp [SortState.setWorker, hji] at hj
      · simp only [SortState.setWorker, SortState.put, if_neg hji] at hj ⊢
        exact h.wWait j hj
    · -- writing
      split at hst
      · cases hst
        refine sched_worker (i := i) h (by simp [SortState.setWorker]) (by simp [SortState.setWorker, hpc, busyOf]) rfl rfl (fun _ => rfl)
          (by simp [SortState.setWorker]) (by simp [SortState.setWorker]) (by rw [hpc]; exact fun h => nomatch h) (fun _ _ _ => rfl) ?_ (fun hm => ⟨rfl, rfl, hm⟩)
        intro j hj
        by_cases hji : j = i
        · simp [SortState.setWorker, hji] at hj
        · simp only [SortState.setWorker, if_neg hji] at hj ⊢
          exact h.wWait j hj
      · simp only [Option.some.injEq] at hst
        subst hst
        refine sched_worker (i := i) h (by simp [SortState.setWorker, SortState.put]) (by simp [SortState.setWorker, SortState.put, hpc, busyOf]) rfl rfl
          (fun _ => rfl) (by simp [SortState.setWorker]) (by simp [SortState.setWorker]) (by rw [hpc]; exact fun h => nomatch h) (fun _ _ _ => rfl) ?_ (fun hm => ⟨rfl, rfl, hm⟩)
        intro j hj
        by_cases hji : j = i
        · simp [SortState.setWorker, hji] at hj
        · simp only [SortState.setWorker, SortState.put, if_neg hji] at hj ⊢
          exact h.wWait j hj
    · -- ready
      cases hst
      refine sched_worker (i := i) h (by simp [SortState.setWorker, SortState.notify]) ?_ rfl rfl (fun _ => rfl)
        (by simp [SortState.setWorker]) (by simp [SortState.setWorker]) (by rw [hpc]; exact fun h => nomatch h) ?_ ?_ ?_
      · simp [SortState.setWorker, SortState.notify, hpc, busyOf]
      · intro r b hm
        have h1 := h.quiet r b hm
        have h2 : busyOf (s.worker i).pc = 1 := by rw [hpc]; rfl
        cases i <;> omega
      · intro j hj
        by_cases hji : j = i <;> simp [SortState.setWorker, SortState.notify, hji] at hj
      · intro hm
        simp [SortState.setWorker, SortState.notify] at hm
    · exact absurd hpc (h.noFail i _)
    · cases hst

theorem sched_wakeMain {s : SortState α} (h : Sched s) : Sched { s with mainWaiting := false } :=
  ⟨h.count, h.job, h.fin, h.noFail, h.exited, h.joined, h.quiet, h.wWait, fun h => nomatch h⟩

theorem sched_wakeWorker {s : SortState α} {i : Bool} (h : Sched s) :
    Sched (s.setWorker i { s.worker i with waiting := false }) := by
  have hpc : ∀ j, ((s.setWorker i { s.worker i with waiting := false }).worker j).pc = (s.worker j).pc := by
    intro j
    simp only [SortState.setWorker]
    split
    · rename_i hj; rw [hj]
    · rfl
  refine ⟨?_, h.job, h.fin, ?_, ?_, ?_, h.quiet, ?_, h.mWait⟩
  · rw [hpc, hpc]; exact h.count
  · intro j; rw [hpc]; exact h.noFail j
  · intro j; rw [hpc]; exact h.exited j
  · intro hj j; rw [hpc]; exact h.joined hj j
  · intro j hj
    rw [hpc]
    simp only [SortState.setWorker] at hj
    split at hj
    · cases hj
    · exact h.wWait j hj

theorem sched_step {cfg : SortCfg α} {s s' : SortState α} {c : SortChoice α} (h : Sched s) (hok : c.WorkerOk) (hc : s'.main ≠ .crashed)
    (hst : sortStep cfg c s = some s') : Sched s' := by
  cases c with
  | main io => exact sched_mainStep h hc hst
  | worker i fail =>
    have : fail = none := hok
    subst this
    exact sched_workerStep h hst
  | wakeMain =>
    simp only [sortStep] at hst
    split at hst
    · cases hst; exact sched_wakeMain h
    · cases hst
  | wakeWorker i =>
    simp only [sortStep] at hst
    split at hst
    · cases hst; exact sched_wakeWorker h
    · cases hst

end Couchstore
