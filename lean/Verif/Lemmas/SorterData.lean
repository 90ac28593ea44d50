import Verif.Lemmas.SorterSched

/-! The records of a sort: where they are while it runs, and where they end. -/

namespace Couchstore

variable {α : Type}

/-- What a worker still has to write. -/
def workerClaim : WorkerPc α → List (Nat × Claim α)
  | .opening j => [(j.name, .whole j.recs)]
  | .writing n todo => [(n, .rest todo)]
  | _ => []

/-- The job the main thread is about to post. -/
def mainClaim : MainPc α → List (Nat × Claim α)
  | .post j _ => [(j.name, .whole j.recs)]
  | _ => []

/-- The job that has been posted. -/
def jobClaim : Option (SortJob α) → List (Nat × Claim α)
  | some j => [(j.name, .whole j.recs)]
  | none => []

/-- All that has still to be written. -/
def sortClaims (s : SortState α) : List (Nat × Claim α) :=
  mainClaim s.main ++ jobClaim s.job ++ (workerClaim (s.worker false).pc ++ workerClaim (s.worker true).pc)

/-- The sort is going on: the records are in temporary files, or belong there, or are `recs`, or have not been read. -/
def Working (cfg : SortCfg α) (fs0 : SortPath → Option (List α)) (c0 : Nat) (src0 : List α) (s : SortState α) (recs : List α) : Prop :=
  s.fed = [] ∧ ∃ batch, Files cfg fs0 c0 s.fs (s.tmp.map (·.name)) s.counter (sortClaims s) batch ∧
    ((s.tmp.map (·.name)).flatMap batch ++ recs ++ s.src).Perm src0

/-- The size of the records in memory. -/
def BufOk (cfg : SortCfg α) (recs : List α) (buf : Nat) : Prop := buf = (recs.map cfg.size).sum ∧ buf ≤ cfg.maxBuf

/-- There were no records. -/
def NoRecords (fs0 : SortPath → Option (List α)) (src0 : List α) (s : SortState α) : Prop :=
  src0 = [] ∧ s.fed = [] ∧ s.tmp = [] ∧ (∀ n, s.fs (.tmp n) = fs0 (.tmp n)) ∧ sortClaims s = [] ∧ s.fs .source = some []

/-- Where the records are. -/
def SortData (cfg : SortCfg α) (fs0 : SortPath → Option (List α)) (c0 : Nat) (src0 : List α) (s : SortState α) : Prop :=
  match s.main with
  | .read r b => Working cfg fs0 c0 src0 s r ∧ BufOk cfg r b
  | .check r b => Working cfg fs0 c0 src0 s r ∧ BufOk cfg r b
  | .wait2 r b => Working cfg fs0 c0 src0 s r ∧ BufOk cfg r b
  | .merge r b => Working cfg fs0 c0 src0 s r ∧ BufOk cfg r b
  | .eof r b => Working cfg fs0 c0 src0 s r ∧ BufOk cfg r b ∧ s.src = []
  | .post _ last => Working cfg fs0 c0 src0 s [] ∧ (last = true → s.src = [])
  | .posted last => Working cfg fs0 c0 src0 s [] ∧ (last = true → s.src = [])
  | .wait1 => Working cfg fs0 c0 src0 s []
  | .finish => Working cfg fs0 c0 src0 s [] ∧ s.src = []
  | .finishNotify => Working cfg fs0 c0 src0 s [] ∧ s.src = []
  | .join => Working cfg fs0 c0 src0 s [] ∧ s.src = []
  | .remove => Working cfg fs0 c0 src0 s [] ∧ s.src = []
  | .output => Working cfg fs0 c0 src0 s [] ∧ s.src = []
  | .stop r => r = 0 → NoRecords fs0 src0 s
  | .stopNotify r => r = 0 → NoRecords fs0 src0 s
  | .stopJoin r => r = 0 → NoRecords fs0 src0 s
  | .cleanup r => r = 0 → SortedOutput cfg fs0 src0 (removeFiles s.fs s.tmp) s.fed
  | .done r => r = 0 → SortedOutput cfg fs0 src0 s.fs s.fed
  | .crashed => True

variable {cfg : SortCfg α} {fs0 : SortPath → Option (List α)} {c0 : Nat} {src0 : List α} {s s' : SortState α}

theorem Working.same {recs : List α} (h : Working cfg fs0 c0 src0 s recs) (h1 : s'.fed = s.fed) (h2 : s'.fs = s.fs) (h3 : s'.tmp = s.tmp)
    (h4 : s'.counter = s.counter) (h5 : (sortClaims s).Perm (sortClaims s')) (h6 : s'.src = s.src) : Working cfg fs0 c0 src0 s' recs := by
  obtain ⟨hf, batch, F, hp⟩ := h
  refine ⟨h1.trans hf, batch, ?_, ?_⟩
  · rw [h2, h3, h4]; exact F.perm h5
  · rw [h3, h6]; exact hp

/-! ## Steps of a worker -/

/-- A worker does something to the file it has a claim on. -/
theorem Working.worker {recs : List α} (h : Working cfg fs0 c0 src0 s recs) {n : Nat} {c c' : Claim α} {rest : List (Nat × Claim α)}
    (h1 : s'.fed = s.fed) (h3 : s'.tmp = s.tmp) (h4 : s'.counter = s.counter) (h6 : s'.src = s.src)
    (h5 : (sortClaims s).Perm ((n, c) :: rest)) (h5' : ((n, c') :: rest).Perm (sortClaims s'))
    (hfs : ∀ m, m ≠ n → s'.fs (.tmp m) = s.fs (.tmp m))
    (hok : ∀ batch, ClaimOk cfg s.fs batch n c → ClaimOk cfg s'.fs batch n c') : Working cfg fs0 c0 src0 s' recs := by
  obtain ⟨hf, batch, F, hp⟩ := h
  refine ⟨h1.trans hf, batch, ?_, ?_⟩
  · have F := F.perm h5
    rw [h3, h4]
    exact (F.change hfs (hok batch (F.ok (n, c) (by simp)))).perm h5'
  · rw [h3, h6]; exact hp

theorem Working.release {recs : List α} (h : Working cfg fs0 c0 src0 s recs) {n : Nat} {rest : List (Nat × Claim α)}
    (h1 : s'.fed = s.fed) (h2 : s'.fs = s.fs) (h3 : s'.tmp = s.tmp) (h4 : s'.counter = s.counter) (h6 : s'.src = s.src)
    (h5 : (sortClaims s).Perm ((n, .rest []) :: rest)) (h5' : rest.Perm (sortClaims s')) : Working cfg fs0 c0 src0 s' recs := by
  obtain ⟨hf, batch, F, hp⟩ := h
  refine ⟨h1.trans hf, batch, ?_, ?_⟩
  · rw [h2, h3, h4]
    exact (F.perm h5).release.perm h5'
  · rw [h3, h6]; exact hp

/-- The claims, the one of worker `i` first. -/
theorem sortClaims_perm (s : SortState α) (i : Bool) :
    (sortClaims s).Perm (workerClaim (s.worker i).pc ++ (mainClaim s.main ++ jobClaim s.job ++ workerClaim (s.worker (!i)).pc)) := by
  unfold sortClaims
  cases i
  · rw [← List.append_assoc]
    exact (List.perm_append_comm.append_right _).trans (by simp)
  · simp only [Bool.not_true]
    rw [← List.append_assoc]
    exact List.perm_append_comm

theorem sortClaims_nil {s : SortState α} (h : sortClaims s = []) (i : Bool) :
    mainClaim s.main = [] ∧ jobClaim s.job = [] ∧ workerClaim (s.worker i).pc = [] := by
  simp only [sortClaims, List.append_eq_nil_iff] at h
  cases i
  · exact ⟨h.1.1, h.1.2, h.2.1⟩
  · exact ⟨h.1.1, h.1.2, h.2.2⟩

theorem working_workerStep {i : Bool} {recs : List α} (hsched : Sched s) (h : Working cfg fs0 c0 src0 s recs)
    (hst : workerStep cfg i none s = some s') : Working cfg fs0 c0 src0 s' recs := by
  have hne : ∀ w : SortWorker α, (fun j => if j = i then w else s.worker j) (!i) = s.worker (!i) := fun w => by simp
  have P := sortClaims_perm s i
  unfold workerStep at hst
  split at hst
  · cases hst
  · split at hst <;> rename_i hpc <;> rw [hpc] at P
    · -- idle
      split at hst
      · cases hst
        refine h.same rfl rfl rfl rfl (P.trans ?_) rfl
        have Q := sortClaims_perm (s.setWorker i ⟨.exited, false⟩) i
        simp only [SortState.setWorker, if_true, Bool.not_eq_eq_eq_not, Bool.eq_not_self, if_false, workerClaim] at Q P ⊢
        exact Q.symm
      · split at hst
        · rename_i job hjob
          cases hst
          refine h.same rfl rfl rfl rfl (P.trans ?_) rfl
          have Q := sortClaims_perm (({ s with job := none, free := s.free - 1 }.notify).setWorker i ⟨.opening job, false⟩) i
          simp only [SortState.setWorker, SortState.notify, if_true, Bool.not_eq_eq_eq_not, Bool.eq_not_self, if_false, workerClaim, hjob, jobClaim] at Q P ⊢
          refine List.Perm.trans ?_ Q.symm
          simp only [List.nil_append, List.append_nil, List.append_assoc, List.singleton_append]
          exact List.perm_middle
        · cases hst
          refine h.same rfl rfl rfl rfl (P.trans ?_) rfl
          have Q := sortClaims_perm (s.setWorker i ⟨.idle, true⟩) i
          simp only [SortState.setWorker, if_true, Bool.not_eq_eq_eq_not, Bool.eq_not_self, if_false, workerClaim] at Q P ⊢
          exact Q.symm
    · -- opening
      rename_i job
      simp only [Option.some.injEq] at hst
      subst hst
      have Q := sortClaims_perm ((s.put (.tmp job.name) (some [])).setWorker i ⟨.writing job.name (cfg.sort job.recs), false⟩) i
      simp only [SortState.setWorker, SortState.put, if_true, Bool.not_eq_eq_eq_not, Bool.eq_not_self, if_false, workerClaim] at Q P
      refine h.worker rfl rfl rfl rfl P Q.symm ?_ ?_
      · intro m hm
        simp [SortState.setWorker, SortState.put, hm]
      · intro batch hok
        exact ⟨[], by simp [SortState.setWorker, SortState.put], hok⟩
    · -- writing
      split at hst
      · rename_i name _
        cases hst
        have Q := sortClaims_perm (s.setWorker i ⟨.ready, false⟩) i
        simp only [SortState.setWorker, if_true, Bool.not_eq_eq_eq_not, Bool.eq_not_self, if_false, workerClaim] at Q P
        exact h.release rfl rfl rfl rfl rfl P Q.symm
      · rename_i name _ x xs
        simp only [Option.some.injEq] at hst
        subst hst
        have Q := sortClaims_perm ((s.put (.tmp name) (some ((s.fs (.tmp name)).getD [] ++ [x]))).setWorker i ⟨.writing name xs, false⟩) i
        simp only [SortState.setWorker, SortState.put, if_true, Bool.not_eq_eq_eq_not, Bool.eq_not_self, if_false, workerClaim] at Q P
        refine h.worker rfl rfl rfl rfl P Q.symm ?_ ?_
        · intro m hm
          simp [SortState.setWorker, SortState.put, hm]
        · rintro batch ⟨d, hd, hok⟩
          refine ⟨d ++ [x], by simp [SortState.setWorker, SortState.put, hd], ?_⟩
          rw [← hok]
          simp
    · -- ready
      cases hst
      refine h.same rfl rfl rfl rfl (P.trans ?_) rfl
      have Q := sortClaims_perm ({ s with free := s.free + 1 }.notify.setWorker i ⟨.idle, false⟩) i
      simp only [SortState.setWorker, SortState.notify, if_true, Bool.not_eq_eq_eq_not, Bool.eq_not_self, if_false, workerClaim] at Q P ⊢
      exact Q.symm
    · exact absurd hpc (hsched.noFail i _)
    · cases hst

theorem noRecords_workerStep {i : Bool} (hsched : Sched s) (h : NoRecords fs0 src0 s)
    (hst : workerStep cfg i none s = some s') : NoRecords fs0 src0 s' := by
  obtain ⟨h1, h2, h3, h4, h5, h6⟩ := h
  obtain ⟨hm, hj, hw⟩ := sortClaims_nil h5 i
  obtain ⟨_, _, hw'⟩ := sortClaims_nil h5 (!i)
  have hframe := workerStep_frame hst
  have key : s'.fs = s.fs ∧ jobClaim s'.job = [] ∧ workerClaim (s'.worker i).pc = [] ∧ (s'.worker (!i)).pc = (s.worker (!i)).pc := by
    unfold workerStep at hst
    split at hst
    · cases hst
    · split at hst <;> rename_i hpc <;> rw [hpc] at hw
      · split at hst
        · cases hst
          simp [SortState.setWorker, workerClaim, hj]
        · split at hst
          · rename_i job hjob
            rw [hjob] at hj
            cases hj
          · cases hst
            simp [SortState.setWorker, workerClaim, hj]
      · cases hw
      · cases hw
      · cases hst
        simp [SortState.setWorker, SortState.notify, workerClaim, hj]
      · exact absurd hpc (hsched.noFail i _)
      · cases hst
  refine ⟨h1, hframe.2.2.2.2.1.trans h2, hframe.2.1.trans h3, by rw [key.1]; exact h4, ?_, by rw [key.1]; exact h6⟩
  apply List.Perm.eq_nil
  refine (sortClaims_perm s' i).trans ?_
  rw [key.2.1, key.2.2.1, key.2.2.2, hw', hframe.1, hm]
  simp

theorem data_workerStep {i : Bool} (hsched : Sched s) (h : SortData cfg fs0 c0 src0 s) (hst : workerStep cfg i none s = some s') :
    SortData cfg fs0 c0 src0 s' := by
  have hframe := workerStep_frame hst
  have hex : (s.worker i).pc ≠ .exited := by
    intro h
    unfold workerStep at hst
    rw [h] at hst
    split at hst <;> cases hst
  have hjoin : joinedPc s.main = true → False := fun h => hex (hsched.joined h i)
  unfold SortData at h ⊢
  rw [hframe.1]
  rw [hframe.2.2.2.1]
  split at h <;> rename_i hm
  · exact ⟨working_workerStep hsched h.1 hst, h.2⟩
  · exact ⟨working_workerStep hsched h.1 hst, h.2⟩
  · exact ⟨working_workerStep hsched h.1 hst, h.2⟩
  · exact ⟨working_workerStep hsched h.1 hst, h.2⟩
  · exact ⟨working_workerStep hsched h.1 hst, h.2⟩
  · exact ⟨working_workerStep hsched h.1 hst, h.2⟩
  · exact ⟨working_workerStep hsched h.1 hst, h.2⟩
  · exact working_workerStep hsched h hst
  · exact ⟨working_workerStep hsched h.1 hst, h.2⟩
  · exact ⟨working_workerStep hsched h.1 hst, h.2⟩
  · exact ⟨working_workerStep hsched h.1 hst, h.2⟩
  · exact ⟨working_workerStep hsched h.1 hst, h.2⟩
  · exact ⟨working_workerStep hsched h.1 hst, h.2⟩
  · exact fun hr => noRecords_workerStep hsched (h hr) hst
  · exact fun hr => noRecords_workerStep hsched (h hr) hst
  · exact fun hr => noRecords_workerStep hsched (h hr) hst
  · exact absurd (by rw [hm]; rfl) hjoin
  · exact absurd (by rw [hm]; rfl) hjoin
  · trivial

/-! ## Steps of the main thread -/

theorem iterateRecords_zero (feed : Nat → α → Int) : ∀ (l : List α) (n : Nat), (iterateRecords feed n l).1 = 0 → (iterateRecords feed n l).2 = l
  | [], _, _ => rfl
  | x :: xs, n, h => by
    unfold iterateRecords at h ⊢
    split at h
    · rename_i hx
      rw [if_pos hx]
      simp only at h ⊢
      rw [iterateRecords_zero feed xs (n + 1) h]
    · rename_i hx
      exact absurd h hx

theorem feedSingle_zero {io : SortIo α} {recs : List α} (h : (feedSingle cfg io recs).1 = 0) (hf : cfg.feed = true) :
    (feedSingle cfg io recs).2 = recs := by
  unfold feedSingle at h ⊢
  rw [if_pos hf] at h ⊢
  split at h
  · exact iterateRecords_zero _ _ _ h
  · exfalso
    simp only at h
    split at h
    · exact sortErr_ne _ h
    · rename_i h'
      exact h' h

theorem busyOf_claim {p : WorkerPc α} (h : busyOf p = 0) : workerClaim p = [] := by
  cases p <;> first | rfl | cases h

theorem working_createJob (H : cfg.Ok) {recs : List α} {last : Bool} (hm : mainClaim s.main = []) (h : Working cfg fs0 c0 src0 s recs)
    (hl : last = true → s.src = []) : SortData cfg fs0 c0 src0 (createJob cfg s recs last) := by
  unfold createJob
  split
  · split
    · exact fun h => absurd h (sortErr_ne _)
    · rename_i n c hn
      obtain ⟨rfl, rfl⟩ := nextTmpName_some hn
      refine ⟨?_, hl⟩
      obtain ⟨hf, batch, F, hp⟩ := h
      refine ⟨hf, newBatch batch s.counter (cfg.sort recs), ?_, ?_⟩
      · have F' := F.create H recs
        simp only [List.map_append, List.map_cons, List.map_nil]
        refine F'.perm ?_
        have e : mainClaim (.post ⟨recs, s.counter⟩ last) = [(s.counter, Claim.whole recs)] := rfl
        simp only [sortClaims, hm, e, List.nil_append, List.cons_append]
        exact List.Perm.refl _
      · simp only [List.map_append, List.map_cons, List.map_nil]
        rw [flatMap_newBatch (fun h => by have := (F.range _ h).2; omega)]
        refine List.Perm.trans ?_ hp
        rw [List.append_nil]
        exact (((H.sort_perm recs).append_left _).append_right _)
  · exact trivial

theorem sum_zero {l : List α} {f : α → Nat} (hpos : ∀ x, 0 < f x) (h : (l.map f).sum = 0) : l = [] := by
  cases l with
  | nil => rfl
  | cons x xs =>
    have := hpos x
    simp only [List.map_cons, List.sum_cons] at h
    omega

theorem removeFiles_other {fs : SortPath → Option (List α)} {l : List TmpFile} {n : Nat} (h : n ∉ l.map (·.name)) :
    removeFiles fs l (.tmp n) = fs (.tmp n) := by
  unfold removeFiles
  rw [if_neg]
  rintro ⟨t, ht, he⟩
  cases he
  exact h (List.mem_map.mpr ⟨t, ht, rfl⟩)

theorem removeFiles_mem {fs : SortPath → Option (List α)} {l : List TmpFile} {n : Nat} (h : n ∈ l.map (·.name)) :
    removeFiles fs l (.tmp n) = none := by
  unfold removeFiles
  obtain ⟨t, ht, he⟩ := List.mem_map.mp h
  rw [if_pos ⟨t, ht, by rw [he]⟩]

theorem Files.clean {fs : SortPath → Option (List α)} {names : List Nat} {counter : Nat} {claims : List (Nat × Claim α)}
    {batch : Nat → List α} (F : Files cfg fs0 c0 fs names counter claims batch) (hfresh : NoStale fs0 c0)
    {fs' : SortPath → Option (List α)} (h1 : ∀ n ∈ names, fs' (.tmp n) = none) (h2 : ∀ n, n ∉ names → fs' (.tmp n) = fs (.tmp n))
    (n : Nat) : fs' (.tmp n) = fs0 (.tmp n) := by
  by_cases hn : n ∈ names
  · rw [h1 n hn, hfresh n (F.range n hn).1]
  · rw [h2 n hn, F.others n hn]

theorem data_singleOutput (hfresh : NoStale fs0 c0) {io : SortIo α} {t : TmpFile} (ht : s.tmp = [t])
    (hcl : sortClaims s = []) (h : Working cfg fs0 c0 src0 s []) (hsrc : s.src = [])
    (hs : s.fs .source = if cfg.skip then some src0 else none) : SortData cfg fs0 c0 src0 (singleOutput cfg io s t) := by
  obtain ⟨_, batch, F, hp⟩ := h
  rw [hcl, ht] at F
  rw [hsrc, ht] at hp
  simp only [List.map_cons, List.map_nil, List.flatMap_cons, List.flatMap_nil, List.append_nil] at hp F
  unfold singleOutput
  split
  · exact fun h => absurd h (sortErr_ne _)
  · rename_i recs hrecs
    rw [F.complete t.name (by simp) (by simp)] at hrecs
    cases hrecs
    simp only
    split
    · rename_i h0
      split
      · exact fun h => absurd h (sortErr_ne _)
      · split
        · rename_i hsk
          refine fun _ => ⟨batch t.name, hp, F.sorted _ (by simp), fun hf => feedSingle_zero h0 hf, ?_, ?_⟩
          · rw [removeFiles_source, if_pos hsk]
            simpa [SortState.put, SortState.goto, hsk] using hs
          · refine F.clean hfresh (fun n hn => ?_) (fun n hn => ?_)
            · apply removeFiles_mem
              simpa [SortState.put, SortState.goto, ht] using hn
            · rw [removeFiles_other (by simpa [SortState.put, SortState.goto, ht] using hn)]
              have : n ≠ t.name := by simpa using hn
              simp [SortState.put, SortState.goto, this]
        · rename_i hsk
          refine fun _ => ⟨batch t.name, hp, F.sorted _ (by simp), fun hf => feedSingle_zero h0 hf, ?_, ?_⟩
          · rw [removeFiles_source, if_neg hsk]
            simp [SortState.put, SortState.goto]
          · refine F.clean hfresh (fun n hn => ?_) (fun n hn => ?_)
            · apply removeFiles_mem
              simpa [SortState.put, SortState.goto, ht] using hn
            · rw [removeFiles_other (by simpa [SortState.put, SortState.goto, ht] using hn)]
              have : n ≠ t.name := by simpa using hn
              simp [SortState.put, SortState.goto, this]
    · rename_i h0
      exact fun h => absurd h h0

theorem data_finalMerge (H : cfg.Ok) (hfresh : NoStale fs0 c0) {io : SortIo α} (hne : s.tmp ≠ [])
    (hcl : sortClaims s = []) (h : Working cfg fs0 c0 src0 s []) (hsrc : s.src = [])
    (hs : s.fs .source = if cfg.skip then some src0 else none) : SortData cfg fs0 c0 src0 (finalMerge cfg io s) := by
  obtain ⟨_, batch, F, hp⟩ := h
  rw [hcl] at F
  rw [hsrc] at hp
  simp only [List.append_nil] at hp
  have hcont := contentsOf_eq (fs := s.fs) (batch := batch) (l := s.tmp)
    (fun t ht => F.complete t.name (List.mem_map.mpr ⟨t, ht, rfl⟩) (by simp))
  have hne' : (s.tmp.map fun t => batch t.name) ≠ [] := by simpa using hne
  have hsorted : ∀ l ∈ s.tmp.map (fun t => batch t.name), SortedRecs cfg.cmp l := by
    intro l hl
    obtain ⟨t, ht, rfl⟩ := List.mem_map.mp hl
    exact F.sorted t.name (List.mem_map.mpr ⟨t, ht, rfl⟩)
  have hflat : (s.tmp.map fun t => batch t.name).flatten = (s.tmp.map (·.name)).flatMap batch := by
    rw [List.flatMap_def, List.map_map]
    rfl
  unfold finalMerge
  rw [hcont]
  simp only
  rcases sortMerge_result H.cmp io cfg.feed hne' with ⟨r, hr⟩ | ⟨e, r, hr, he⟩
  · obtain ⟨out, ho1, ho2, ho3⟩ := sortMerge_success H.cmp io cfg.feed hne' hsorted hr
    rw [hr]
    simp only
    split
    · exact fun h => absurd h (sortErr_ne _)
    · refine fun _ => ⟨out, (hflat ▸ ho3).trans hp, ho2, ?_, ?_, ?_⟩
      · intro hf
        have : (sortMergeArgs cfg io cfg.feed).feed.isSome = true := by simp [sortMergeArgs, hf]
        have := ho1.1 this
        split <;> exact this
      · simp only [removeFiles_source]
        cases hsk : cfg.skip
        · have : (sortMergeArgs cfg io cfg.feed).writes := .inr hsk
          rw [hsk] at hs
          simp [SortState.put, ho1.2 this, hs]
        · rw [hsk] at hs
          simpa using hs
      · have htmp : ∀ st : SortState α, (if cfg.skip = true then { s with fed := r.fed } else { s with fed := r.fed }.put .source
            (some ((s.fs .source).getD [] ++ r.written))) = st → st.tmp = s.tmp ∧ ∀ n, st.fs (.tmp n) = s.fs (.tmp n) := by
          rintro st rfl
          split
          · exact ⟨rfl, fun _ => rfl⟩
          · exact ⟨rfl, fun n => by simp [SortState.put]⟩
        obtain ⟨h1, h2⟩ := htmp _ rfl
        intro n
        simp only [removeFiles, List.not_mem_nil, false_and, exists_false, if_false]
        refine F.clean hfresh (fs' := removeFiles _ _) (fun n hn => ?_) (fun n hn => ?_) n
        · apply removeFiles_mem
          rw [h1]; exact hn
        · rw [removeFiles_other (by rw [h1]; exact hn)]
          exact h2 n
  · rw [hr]
    exact fun h => absurd h he

theorem data_mergeStep (H : cfg.Ok) (hfresh : NoStale fs0 c0) {io : SortIo α} {tmp : List TmpFile} (hperm : tmp.Perm s.tmp) {a b lv : Nat}
    (hab : a + 2 ≤ b) (hb : b ≤ tmp.length) (hcl : sortClaims s = []) {recs : List α} {buf : Nat} (h : Working cfg fs0 c0 src0 s recs)
    (hbuf : BufOk cfg recs buf) : SortData cfg fs0 c0 src0 (mergeStep cfg io s tmp a b lv (.read recs buf)) := by
  obtain ⟨hfed, batch, F, hp⟩ := h
  rw [hcl] at F
  have hsplit : s.tmp.Perm (tmp.take a ++ (tmp.drop a).take (b - a) ++ cfg.order (tmp.drop b)) := by
    refine hperm.symm.trans ?_
    have : tmp = tmp.take a ++ (tmp.drop a).take (b - a) ++ tmp.drop b := by
      rw [List.append_assoc]
      conv => lhs; rw [← List.take_append_drop a tmp, ← List.take_append_drop (b - a) (tmp.drop a)]
      rw [List.drop_drop]
      congr 3
      omega
    conv => lhs; rw [this]
    exact (H.order_perm _).symm.append_left _
  have hmid : ∀ t ∈ (tmp.drop a).take (b - a), t.name ∈ s.tmp.map (·.name) := by
    intro t ht
    exact List.mem_map.mpr ⟨t, hperm.mem_iff.mp (List.mem_of_mem_drop (List.mem_of_mem_take ht)), rfl⟩
  have hcont := contentsOf_eq (fs := s.fs) (batch := batch) (l := (tmp.drop a).take (b - a))
    (fun t ht => F.complete t.name (hmid t ht) (by simp))
  have hne' : (((tmp.drop a).take (b - a)).map fun t => batch t.name) ≠ [] := by
    intro h
    have := congrArg List.length h
    simp only [List.length_map, List.length_take, List.length_drop, List.length_nil] at this
    omega
  have hsorted : ∀ l ∈ ((tmp.drop a).take (b - a)).map (fun t => batch t.name), SortedRecs cfg.cmp l := by
    intro l hl
    obtain ⟨t, ht, rfl⟩ := List.mem_map.mp hl
    exact F.sorted t.name (hmid t ht)
  unfold mergeStep
  simp only
  split
  · exact fun h => absurd h (sortErr_ne _)
  · rename_i n c hn
    obtain ⟨rfl, rfl⟩ := nextTmpName_some hn
    simp only [hcont]
    rcases sortMerge_result H.cmp io false hne' with ⟨r, hr⟩ | ⟨e, r, hr, he⟩
    · obtain ⟨out, ho1, ho2, ho3⟩ := sortMerge_success H.cmp io false hne' hsorted hr
      have hw : r.written = out := ho1.2 (.inl (by simp [sortMergeArgs]))
      have hcf : s.counter ∉ s.tmp.map (·.name) := fun h => by have := (F.range _ h).2; omega
      have hnone : s.fs (.tmp s.counter) = none := by
        rw [F.others _ hcf]
        exact hfresh _ F.c0le
      rw [hr]
      simp only
      split
      · exact fun h => absurd h (sortErr_ne _)
      · refine ⟨⟨hfed, newBatch batch s.counter out, ?_, ?_⟩, hbuf⟩
        · have hcl' : sortClaims (s.goto (.read recs buf)) = [] := by
            obtain ⟨h1, h2, h3⟩ := sortClaims_nil hcl false
            obtain ⟨_, _, h4⟩ := sortClaims_nil hcl true
            simp [sortClaims, SortState.goto, mainClaim, h2, h3, h4]
          have G := F.merge hsplit ho2 hfresh
            (fs' := removeFiles (fun q => if q = SortPath.tmp s.counter then some ((s.fs (.tmp s.counter)).getD [] ++ r.written) else s.fs q)
              ((tmp.drop a).take (b - a))) ?_ ?_ ?_ lv
          · exact G.perm (by rw [← hcl']; exact List.Perm.refl _)
          · rw [removeFiles_other]
            · simp [hnone, hw]
            · intro h
              obtain ⟨t, ht, he⟩ := List.mem_map.mp h
              exact hcf (he ▸ hmid t ht)
          · intro t ht
            exact removeFiles_mem (List.mem_map.mpr ⟨t, ht, rfl⟩)
          · intro m hm hm'
            rw [removeFiles_other]
            · simp [hm]
            · intro h
              obtain ⟨t, ht, he⟩ := List.mem_map.mp h
              exact hm' t ht he.symm
        · have hcf' : s.counter ∉ (tmp.take a ++ cfg.order (tmp.drop b)).map (·.name) := by
            intro h
            apply hcf
            have := (hsplit.map (·.name)).mem_iff (a := s.counter)
            rw [this]
            simp only [List.map_append, List.mem_append] at h ⊢
            rcases h with h | h
            · exact .inl (.inl h)
            · exact .inr h
          show (((tmp.take a ++ cfg.order (tmp.drop b) ++ [(⟨s.counter, lv⟩ : TmpFile)]).map (·.name)).flatMap (newBatch batch s.counter out) ++ recs ++ s.src).Perm src0
          rw [List.map_append, List.map_cons, List.map_nil, flatMap_newBatch hcf']
          refine List.Perm.trans ?_ hp
          refine (List.Perm.append_right _ ?_).append_right _
          have hsp := (hsplit.map (·.name)).flatMap_right batch
          refine List.Perm.trans ?_ hsp.symm
          simp only [List.map_append, List.flatMap_append]
          rw [List.append_assoc, List.append_assoc]
          refine List.Perm.append_left _ ?_
          have hflat : (((tmp.drop a).take (b - a)).map fun t => batch t.name).flatten = (((tmp.drop a).take (b - a)).map (·.name)).flatMap batch := by
            rw [List.flatMap_def, List.map_map]
            rfl
          rw [hflat] at ho3
          exact (ho3.append_left _).trans List.perm_append_comm
    · rw [hr]
      exact fun h => absurd h he

/-- A step of the main thread that touches no temporary file. -/
theorem Working.go {recs recs' : List α} (h : Working cfg fs0 c0 src0 s recs) (h1 : s'.fed = s.fed)
    (h2 : ∀ m, s'.fs (.tmp m) = s.fs (.tmp m)) (h3 : s'.tmp = s.tmp) (h4 : s'.counter = s.counter)
    (hc : mainClaim s'.main = mainClaim s.main) (hj : s'.job = s.job) (hw : ∀ i, (s'.worker i).pc = (s.worker i).pc)
    (h6 : recs' ++ s'.src = recs ++ s.src) : Working cfg fs0 c0 src0 s' recs' := by
  obtain ⟨hf, batch, F, hp⟩ := h
  refine ⟨h1.trans hf, batch, ?_, ?_⟩
  · rw [h3, h4]
    refine (F.source h2).perm ?_
    simp only [sortClaims, hc, hj, hw]
    exact List.Perm.refl _
  · rw [h3, List.append_assoc, h6, ← List.append_assoc]
    exact hp

theorem NoRecords.go (h : NoRecords fs0 src0 s) (h1 : s'.fed = s.fed) (h2 : s'.fs = s.fs) (h3 : s'.tmp = s.tmp)
    (hc : mainClaim s'.main = []) (hj : s'.job = s.job) (hw : ∀ i, (s'.worker i).pc = (s.worker i).pc) : NoRecords fs0 src0 s' := by
  obtain ⟨a, b, c, d, e, f⟩ := h
  refine ⟨a, h1.trans b, h3.trans c, by rw [h2]; exact d, ?_, by rw [h2]; exact f⟩
  have e1 := sortClaims_nil e false
  have e2 := sortClaims_nil e true
  simp [sortClaims, hc, hj, hw, e1.2.1, e1.2.2, e2.2.2]

theorem data_mainStep (H : cfg.Ok) (hfresh : NoStale fs0 c0) {io : SortIo α} (hsafe : SortSafe cfg src0 s) (hsched : Sched s)
    (h : SortData cfg fs0 c0 src0 s) (hst : mainStep cfg io s = some s') : SortData cfg fs0 c0 src0 s' := by
  obtain ⟨_, hpc, hsrc⟩ := hsafe
  unfold PcSafe at hpc
  unfold SourceSafe at hsrc
  unfold SortData at h
  have hfin := hsched.fin
  unfold mainStep at hst
  split at hst
  · cases hst
  · split at hst <;> rename_i hm <;> simp only [hm] at hpc hsrc h <;> simp only [hm, finishedPc] at hfin
    · -- read
      rename_i recs buf
      split at hst
      · cases hst
        exact fun h => absurd h (sortErr_ne _)
      · split at hst
        · rename_i hnil
          cases hst
          exact ⟨h.1.go rfl (fun _ => rfl) rfl rfl (by rw [hm]; rfl) rfl (fun _ => rfl) rfl, h.2, hnil⟩
        · rename_i x src hcons
          simp only at hst
          have hb := h.2
          have hsz := H.size_small x
          have hlt : buf + cfg.size x < 4294967296 := by have := hb.2; omega
          rw [Nat.mod_eq_of_lt hlt] at hst
          have hw : Working cfg fs0 c0 src0 { s with src := src } (recs ++ [x]) :=
            h.1.go rfl (fun _ => rfl) rfl rfl rfl rfl (fun _ => rfl) (by rw [hcons]; simp)
          split at hst
          · cases hst
            exact working_createJob H (by show mainClaim s.main = []; rw [hm]; rfl) hw (fun h => nomatch h)
          · rename_i hlt'
            cases hst
            refine ⟨hw.go rfl (fun _ => rfl) rfl rfl (by show _ = mainClaim s.main; rw [hm]; rfl) rfl (fun _ => rfl) rfl, ?_, by omega⟩
            rw [List.map_append, List.sum_append, ← hb.1]
            simp
    · -- post
      rename_i job last
      rw [if_neg (by rw [hfin]; simp)] at hst
      cases hst
      refine ⟨h.1.same rfl rfl rfl rfl ?_ rfl, h.2⟩
      have hj := hsched.jobNone (by rw [hm]; exact fun l h => nomatch h)
      simp [sortClaims, SortState.notify, SortState.goto, hm, hj, mainClaim, jobClaim]
    · -- posted
      rename_i last
      cases hst
      unfold waitMain
      split
      · cases last
        · exact h.1.go rfl (fun _ => rfl) rfl rfl (by rw [hm]; rfl) rfl (fun _ => rfl) rfl
        · exact ⟨h.1.go rfl (fun _ => rfl) rfl rfl (by rw [hm]; rfl) rfl (fun _ => rfl) rfl, h.2 rfl⟩
      · unfold SortData
        simp only [hm]
        exact ⟨h.1.go rfl (fun _ => rfl) rfl rfl (by rw [hm]) rfl (fun _ => rfl) rfl, h.2⟩
    · -- wait1
      rw [if_neg (by rw [hfin]; simp)] at hst
      cases hst
      unfold waitMain
      split
      · exact ⟨h.go rfl (fun _ => rfl) rfl rfl (by rw [hm]; rfl) rfl (fun _ => rfl) rfl, rfl, by simp⟩
      · unfold SortData
        simp only [hm]
        exact h.go rfl (fun _ => rfl) rfl rfl (by rw [hm]) rfl (fun _ => rfl) rfl
    · -- check
      cases hst
      split
      · exact ⟨h.1.go rfl (fun _ => rfl) rfl rfl (by rw [hm]; rfl) rfl (fun _ => rfl) rfl, h.2⟩
      · exact ⟨h.1.go rfl (fun _ => rfl) rfl rfl (by rw [hm]; rfl) rfl (fun _ => rfl) rfl, h.2⟩
    · -- wait2
      rw [if_neg (by rw [hfin]; simp)] at hst
      cases hst
      unfold waitMain
      split
      · exact ⟨h.1.go rfl (fun _ => rfl) rfl rfl (by rw [hm]; rfl) rfl (fun _ => rfl) rfl, h.2⟩
      · unfold SortData
        simp only [hm]
        exact ⟨h.1.go rfl (fun _ => rfl) rfl rfl (by rw [hm]) rfl (fun _ => rfl) rfl, h.2⟩
    · -- merge
      have hcl : sortClaims s = [] := by
        have hj := hsched.jobNone (by rw [hm]; exact fun l h => nomatch h)
        have hq := hsched.quiet _ _ hm
        have hc := hsched.count
        simp only [sortClaims, hm, hj, mainClaim, jobClaim, List.nil_append,
          busyOf_claim (p := (s.worker false).pc) (by omega), busyOf_claim (p := (s.worker true).pc) (by omega)]
      split at hst
      · cases hst; trivial
      · rename_i start stop level hpick
        split at hst
        · rename_i hlv
          cases hst
          have hp := H.order_perm s.tmp
          obtain ⟨a, b, lv, h1, h2, h3, h4⟩ := pickMergeFiles_some (l := cfg.order s.tmp)
            (by rw [hp.length_eq, hpc]; exact H.numTmp) (fun t ht => ‹∀ t ∈ s.tmp, 1 ≤ t.level› t (hp.mem_iff.mp ht))
          rw [hpick] at h1
          cases h1
          exact data_mergeStep H hfresh hp h2 h3 hcl h.1 h.2
        · cases hst; trivial
    · -- eof
      rename_i recs buf
      obtain ⟨hw, hb, hnil⟩ := h
      split at hst
      · rename_i h0
        cases hst
        intro _
        have hrecs : recs = [] := sum_zero H.size_pos (hb.1.symm.trans h0.2)
        obtain ⟨hfed, batch, F, hp⟩ := hw
        rw [h0.1, hrecs, hnil] at hp
        rw [h0.1] at F
        have hcl : sortClaims s = [] := by
          cases hc : sortClaims s with
          | nil => rfl
          | cons c cs =>
            have := F.ownSub c (by rw [hc]; simp)
            simp at this
        have e1 := sortClaims_nil hcl false
        have e2 := sortClaims_nil hcl true
        have hsrc0 : src0 = [] := by
          have := hp.symm
          simpa using this.eq_nil
        exact ⟨hsrc0, hfed, h0.1, fun n => F.others n (by simp), by simp [sortClaims, SortState.goto, mainClaim, e1.2.1, e1.2.2, e2.2.2],
          hsrc.trans (by rw [hsrc0])⟩
      · split at hst
        · cases hst
          exact working_createJob H (by rw [hm]; rfl) hw (fun _ => hnil)
        · rename_i h1 h2
          cases hst
          have hrecs : recs = [] := sum_zero H.size_pos (hb.1.symm.trans (by omega))
          subst hrecs
          exact ⟨hw.go rfl (fun _ => rfl) rfl rfl (by rw [hm]; rfl) rfl (fun _ => rfl) rfl, hnil⟩
    · cases hst
      exact ⟨h.1.go rfl (fun _ => rfl) rfl rfl (by rw [hm]; rfl) rfl (fun _ => rfl) rfl, h.2⟩
    · cases hst
      exact ⟨h.1.go rfl (fun _ => rfl) rfl rfl (by rw [hm]; rfl) rfl (fun _ => rfl) rfl, h.2⟩
    · split at hst
      · cases hst
        exact ⟨h.1.go rfl (fun _ => rfl) rfl rfl (by rw [hm]; rfl) rfl (fun _ => rfl) rfl, h.2⟩
      · cases hst
    · -- remove
      split at hst
      · cases hst; trivial
      · split at hst
        · cases hst
          exact ⟨h.1.go rfl (fun _ => rfl) rfl rfl (by rw [hm]; rfl) rfl (fun _ => rfl) rfl, h.2⟩
        · split at hst
          · cases hst
            exact fun h => absurd h (sortErr_ne _)
          · cases hst
            exact ⟨h.1.go rfl (fun m => by simp [SortState.put, SortState.goto]) rfl rfl (by rw [hm]; rfl) rfl (fun _ => rfl) rfl, h.2⟩
    · -- output
      have hcl : sortClaims s = [] := by
        have hj := hsched.jobNone (by rw [hm]; exact fun l h => nomatch h)
        have hx := hsched.joined (by rw [hm]; rfl)
        simp [sortClaims, hm, hj, hx, mainClaim, jobClaim, workerClaim]
      split at hst
      · rename_i t ht
        cases hst
        exact data_singleOutput hfresh ht hcl h.1 h.2 hsrc
      · cases hst
        exact data_finalMerge H hfresh hpc hcl h.1 h.2 hsrc
    · cases hst
      exact fun hr => (h hr).go rfl rfl rfl rfl rfl (fun _ => rfl)
    · cases hst
      exact fun hr => (h hr).go rfl rfl rfl rfl rfl (fun _ => rfl)
    · split at hst
      · cases hst
        intro hr
        obtain ⟨a, b, c, d, _, f⟩ := h hr
        refine ⟨[], by rw [a], .nil, fun _ => b, ?_, ?_⟩
        · rw [removeFiles_source]
          show s.fs .source = _
          rw [f, a]
          simp
        · intro n
          show removeFiles s.fs s.tmp (.tmp n) = _
          rw [c, removeFiles_other (by simp), d]
      · cases hst
    · cases hst
      exact h
    · cases hst

/-- Everything that is known as long as no worker fails. -/
structure SortInv (cfg : SortCfg α) (fs0 : SortPath → Option (List α)) (c0 : Nat) (src0 : List α) (s : SortState α) : Prop where
  safe : SortSafe cfg src0 s
  sched : Sched s
  data : SortData cfg fs0 c0 src0 s

theorem SortSafe.not_crashed (h : SortSafe cfg src0 s) : s.main ≠ .crashed := by
  intro hm
  have := h.pc
  unfold PcSafe at this
  simp only [hm] at this

theorem sortInv_step (H : cfg.Ok) (hfresh : NoStale fs0 c0) {c : SortChoice α} (hok : c.WorkerOk) (h : SortInv cfg fs0 c0 src0 s)
    (hst : sortStep cfg c s = some s') : SortInv cfg fs0 c0 src0 s' := by
  have hsafe := safe_step H h.safe hst
  refine ⟨hsafe, sched_step h.sched hok hsafe.not_crashed hst, ?_⟩
  have hd := h.data
  cases c with
  | main io => exact data_mainStep H hfresh h.safe h.sched h.data hst
  | worker i fail =>
    have : fail = none := hok
    subst this
    exact data_workerStep h.sched h.data hst
  | wakeMain =>
    simp only [sortStep] at hst
    split at hst
    · cases hst
      exact hd
    · cases hst
  | wakeWorker i =>
    simp only [sortStep] at hst
    split at hst
    · cases hst
      have hw : ∀ j, ((s.setWorker i { s.worker i with waiting := false }).worker j).pc = (s.worker j).pc := by
        intro j
        simp only [SortState.setWorker]
        split
        · rename_i hj; rw [hj]
        · rfl
      have hc : sortClaims (s.setWorker i { s.worker i with waiting := false }) = sortClaims s := by
        unfold sortClaims
        rw [hw, hw]
        rfl
      unfold SortData Working NoRecords at hd ⊢
      rw [hc]
      exact hd
    · cases hst

theorem sortInv_start (H : cfg.Ok) (fs : SortPath → Option (List α)) (src : List α) :
    SortInv cfg fs c0 src (sortStart cfg fs c0 src) := by
  have h1 : ¬ cfg.numTmp ≤ 1 := by have := H.numTmp; omega
  have h2 : ¬ ((cfg.skip && !cfg.feed) = true) := by
    have := H.callback
    cases h : cfg.skip <;> cases h' : cfg.feed <;> simp [h, h'] at this ⊢
  have hm : (sortStart cfg fs c0 src).main = .read [] 0 := by
    unfold sortStart
    simp only
    rw [if_neg h1, if_neg h2]
  refine ⟨safe_start H fs c0 src, ?_, ?_⟩
  · refine ⟨rfl, (fun h => absurd rfl h), ?_, (fun _ _ h => nomatch h), (fun _ h => nomatch h), ?_, ?_, (fun _ h => nomatch h), (fun h => nomatch h)⟩
    · rw [hm]; rfl
    · rw [hm]; exact fun h => nomatch h
    · rw [hm]; exact fun _ _ h => nomatch h
  · unfold SortData
    rw [hm]
    refine ⟨⟨rfl, fun _ => [], ?_, ?_⟩, rfl, by simp⟩
    · have hc : sortClaims (sortStart cfg fs c0 src) = [] := by
        unfold sortClaims
        rw [hm]
        rfl
      rw [hc]
      refine ⟨.nil, (fun _ h => nomatch h), Nat.le_refl _, ?_, .nil, (fun _ h => nomatch h), (fun _ h => nomatch h), (fun _ h => nomatch h), (fun _ h => nomatch h)⟩
      intro n _
      simp [sortStart]
    · simp [sortStart]

theorem sortInv_run (H : cfg.Ok) {fs : SortPath → Option (List α)} (hfresh : NoStale fs c0) {src : List α} {cs : List (SortChoice α)}
    (hok : ∀ c ∈ cs, c.WorkerOk) (h : sortRun cfg cs (sortStart cfg fs c0 src) = some s) : SortInv cfg fs c0 src s :=
  sortRun_induct (P := SortChoice.WorkerOk) (I := SortInv cfg fs c0 src) (fun _ _ _ hc hI hst => sortInv_step H hfresh hc hI hst) cs _ _ hok
    (sortInv_start H fs src) h

end Couchstore
