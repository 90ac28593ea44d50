import Verif.Lemmas.SorterProgress

/-! Which files a sort touches, also if operations fail. -/

namespace Couchstore

variable {α : Type} {cfg : SortCfg α} {fs0 : SortPath → Option (List α)} {c0 : Nat} {s s' : SortState α}

/-- The files the threads are about to write. -/
def pendingNames (s : SortState α) : List Nat :=
  (match s.main with | .post j _ => [j.name] | _ => []) ++ (match s.job with | some j => [j.name] | none => []) ++
    ([false, true].flatMap fun i => match (s.worker i).pc with | .opening j => [j.name] | .writing n _ => [n] | _ => [])

/-- Only files with the numbers from `c0` up to the counter have been touched, or will be. -/
structure Own (fs0 : SortPath → Option (List α)) (c0 : Nat) (s : SortState α) : Prop where
  le : c0 ≤ s.counter
  others : ∀ n, n < c0 ∨ s.counter ≤ n → s.fs (.tmp n) = fs0 (.tmp n)
  tmp : ∀ t ∈ s.tmp, c0 ≤ t.name ∧ t.name < s.counter
  pending : ∀ n ∈ pendingNames s, c0 ≤ n ∧ n < s.counter

/-- The threads' files are among those before, and no other files have been touched. -/
theorem Own.step (h : Own fs0 c0 s) (hc : s'.counter = s.counter)
    (hfs : ∀ n, n < c0 ∨ s.counter ≤ n → s'.fs (.tmp n) = s.fs (.tmp n)) (ht : s'.tmp = s.tmp)
    (hp : ∀ n ∈ pendingNames s', n ∈ pendingNames s) : Own fs0 c0 s' where
  le := hc ▸ h.le
  others n hn := by rw [hc] at hn; rw [hfs n hn, h.others n hn]
  tmp := by rw [hc, ht]; exact h.tmp
  pending n hn := by rw [hc]; exact h.pending n (hp n hn)

theorem own_frame (h : Own fs0 c0 s) (hc : s'.counter = s.counter)
    (hfs : ∀ n, n < c0 ∨ s.counter ≤ n → s'.fs (.tmp n) = s.fs (.tmp n)) (ht : s'.tmp = s.tmp) (hj : s'.job = s.job)
    (hw : s'.worker = s.worker) (hm : ∀ j l, s'.main ≠ .post j l) : Own fs0 c0 s' := by
  refine h.step hc hfs ht ?_
  intro n hn
  unfold pendingNames at hn ⊢
  rw [hj, hw] at hn
  simp only [List.mem_append] at hn ⊢
  rcases hn with (hn | hn) | hn
  · cases hn
  · exact .inl (.inr hn)
  · exact .inr hn

theorem own_createJob (h : Own fs0 c0 s) (recs : List α) (last : Bool) : Own fs0 c0 (createJob cfg s recs last) := by
  unfold createJob
  split
  · split
    · exact own_frame h rfl (fun _ _ => rfl) rfl rfl rfl (fun _ _ h => nomatch h)
    · rename_i n c hn
      obtain ⟨rfl, rfl⟩ := nextTmpName_some hn
      refine ⟨by have := h.le; simp only; omega, fun n hn => h.others n (by simp only at hn; omega), ?_, ?_⟩
      · intro t ht
        have hle := h.le
        rcases List.mem_append.mp ht with ht | ht
        · have := h.tmp t ht
          simp only
          omega
        · have : t = ⟨s.counter, 1⟩ := by simpa using ht
          subst this
          simp only
          omega
      · intro n hn
        have hle := h.le
        have : n = s.counter ∨ n ∈ pendingNames s := by
          unfold pendingNames at hn ⊢
          simp only [List.mem_append] at hn ⊢
          rcases hn with (hn | hn) | hn
          · exact .inl (by simpa using hn)
          · exact .inr (.inl (.inr hn))
          · exact .inr (.inr hn)
        simp only
        rcases this with rfl | hn
        · omega
        · have := h.pending n hn
          omega
  · exact own_frame h rfl (fun _ _ => rfl) rfl rfl rfl (fun _ _ h => nomatch h)

theorem own_removeFiles {fs : SortPath → Option (List α)} {l : List TmpFile} {a b : Nat} (h : ∀ t ∈ l, a ≤ t.name ∧ t.name < b) (n : Nat)
    (hn : n < a ∨ b ≤ n) : removeFiles fs l (.tmp n) = fs (.tmp n) := by
  apply removeFiles_other
  intro hm
  obtain ⟨t, ht, rfl⟩ := List.mem_map.mp hm
  have := h t ht
  omega

theorem own_mergeStep (H : ∀ l, (cfg.order l).Perm l) (h : Own fs0 c0 s) {io : SortIo α} {tmp : List TmpFile} (hperm : tmp.Perm s.tmp)
    {a b lv : Nat} {r : List α} {buf : Nat} : Own fs0 c0 (mergeStep cfg io s tmp a b lv (.read r buf)) := by
  have hpend : ∀ (n : Nat) (st : SortState α), n ∈ pendingNames st → st.job = s.job → st.worker = s.worker →
      (∀ j l, st.main ≠ .post j l) → n ∈ pendingNames s := by
    intro n st hn hj hw hm
    unfold pendingNames at hn ⊢
    rw [hj, hw] at hn
    simp only [List.mem_append] at hn ⊢
    rcases hn with (hn | hn) | hn
    · cases hn
    · exact .inl (.inr hn)
    · exact .inr hn
  have htmp : ∀ t ∈ tmp, c0 ≤ t.name ∧ t.name < s.counter := fun t ht => h.tmp t (hperm.mem_iff.mp ht)
  have hle := h.le
  unfold mergeStep
  simp only
  split
  · exact ⟨h.le, h.others, htmp, fun n hn => h.pending n (hpend n _ hn rfl rfl (by intro _ _ h; cases h))⟩
  · rename_i n c hn
    obtain ⟨rfl, rfl⟩ := nextTmpName_some hn
    have hput : ∀ x, ∀ n, n < c0 ∨ s.counter + 1 ≤ n →
        (({ s with tmp := tmp, counter := s.counter + 1 } : SortState α).put (.tmp s.counter) x).fs (.tmp n) = fs0 (.tmp n) := by
      intro x n hn
      simp only [SortState.put]
      rw [if_neg (by intro he; cases he; omega)]
      exact h.others n (by omega)
    have hlt : ∀ n, c0 ≤ n ∧ n < s.counter → c0 ≤ n ∧ n < s.counter + 1 := fun n h => ⟨h.1, by omega⟩
    split
    · exact ⟨by simp only [SortState.goto]; omega, fun n hn => h.others n (by simp only [SortState.goto] at hn; omega), fun t ht => hlt _ (htmp t ht),
        fun n hn => hlt _ (h.pending n (hpend n _ hn rfl rfl (by intro _ _ h; cases h)))⟩
    · split
      · exact ⟨by simp only [SortState.goto, SortState.put]; omega, hput none, fun t ht => hlt _ (htmp t ht),
          fun n hn => hlt _ (h.pending n (hpend n _ hn rfl rfl (by intro _ _ h; cases h)))⟩
      · split
        · exact ⟨by simp only [SortState.goto, SortState.put]; omega, hput _, fun t ht => hlt _ (htmp t ht),
            fun n hn => hlt _ (h.pending n (hpend n _ hn rfl rfl (by intro _ _ h; cases h)))⟩
        · refine ⟨by simp only [SortState.put]; omega, ?_, ?_, fun n hn => hlt _ (h.pending n (hpend n _ hn rfl rfl (by intro _ _ h; cases h)))⟩
          · intro n hn
            simp only
            rw [own_removeFiles (a := c0) (b := s.counter + 1) (fun t ht => hlt _ (htmp t (List.mem_of_mem_drop (List.mem_of_mem_take ht)))) n hn]
            exact hput _ n hn
          · intro t ht
            simp only [List.mem_append, List.mem_singleton] at ht
            rcases ht with (ht | ht) | rfl
            · exact hlt _ (htmp t (List.mem_of_mem_take ht))
            · exact hlt _ (htmp t (List.mem_of_mem_drop ((H _).mem_iff.mp ht)))
            · simp only [SortState.put]; omega
      · exact ⟨by simp only [SortState.goto]; omega, fun n hn => h.others n (by simp only [SortState.goto] at hn; omega), fun t ht => hlt _ (htmp t ht),
          fun n hn => hlt _ (h.pending n (hpend n _ hn rfl rfl (by intro _ _ h; cases h)))⟩

theorem own_finalMerge (h : Own fs0 c0 s) {io : SortIo α} : Own fs0 c0 (finalMerge cfg io s) := by
  unfold finalMerge
  split
  · exact own_frame h rfl (fun _ _ => rfl) rfl rfl rfl (fun _ _ h => nomatch h)
  · simp only
    cases hsk : cfg.skip <;> simp only [Bool.false_eq_true, if_false, if_true]
    · split
      · exact own_frame h rfl (fun _ _ => by simp [SortState.goto, SortState.put]) rfl rfl rfl (fun _ _ h => nomatch h)
      · split
        · exact own_frame h rfl (fun _ _ => by simp [SortState.goto, SortState.put]) rfl rfl rfl (fun _ _ h => nomatch h)
        · have h' := own_frame (s' := { s with main := .cleanup 0 }) h rfl (fun _ _ => rfl) rfl rfl rfl (fun _ _ h => nomatch h)
          refine ⟨h.le, ?_, (fun t ht => nomatch ht), h'.pending⟩
          intro n hn
          simp only
          rw [own_removeFiles (a := c0) (b := s.counter) (by simpa [SortState.put] using h.tmp) n hn]
          simp only [SortState.put]
          rw [if_neg (fun h => nomatch h)]
          exact h.others n hn
      · exact own_frame h rfl (fun _ _ => by simp [SortState.goto, SortState.put]) rfl rfl rfl (fun _ _ h => nomatch h)
    · split
      · exact own_frame h rfl (fun _ _ => by simp [SortState.goto]) rfl rfl rfl (fun _ _ h => nomatch h)
      · split
        · exact own_frame h rfl (fun _ _ => by simp [SortState.goto]) rfl rfl rfl (fun _ _ h => nomatch h)
        · have h' := own_frame (s' := { s with main := .cleanup 0 }) h rfl (fun _ _ => rfl) rfl rfl rfl (fun _ _ h => nomatch h)
          refine ⟨h.le, ?_, (fun t ht => nomatch ht), h'.pending⟩
          intro n hn
          simp only
          rw [own_removeFiles (a := c0) (b := s.counter) h.tmp n hn]
          exact h.others n hn
      · exact own_frame h rfl (fun _ _ => by simp [SortState.goto]) rfl rfl rfl (fun _ _ h => nomatch h)

theorem own_singleOutput (h : Own fs0 c0 s) {io : SortIo α} {t : TmpFile} (ht : t ∈ s.tmp) : Own fs0 c0 (singleOutput cfg io s t) := by
  have hn := h.tmp t ht
  unfold singleOutput
  split
  · exact own_frame h rfl (fun _ _ => rfl) rfl rfl rfl (fun _ _ h => nomatch h)
  · simp only
    split
    · split
      · exact own_frame h rfl (fun _ _ => rfl) rfl rfl rfl (fun _ _ h => nomatch h)
      · split
        · refine own_frame h rfl (fun n hn' => ?_) rfl rfl rfl (fun _ _ h => nomatch h)
          have : n ≠ t.name := by omega
          simp [SortState.goto, SortState.put, this]
        · refine own_frame h rfl (fun n hn' => ?_) rfl rfl rfl (fun _ _ h => nomatch h)
          have : n ≠ t.name := by omega
          simp [SortState.goto, SortState.put, this]
    · exact own_frame h rfl (fun _ _ => rfl) rfl rfl rfl (fun _ _ h => nomatch h)

theorem own_mainStep (H : ∀ l, (cfg.order l).Perm l) (h : Own fs0 c0 s) {io : SortIo α} (hst : mainStep cfg io s = some s') :
    Own fs0 c0 s' := by
  have hgo : ∀ pc, (∀ j l, pc ≠ MainPc.post j l) → Own fs0 c0 (s.goto pc) := fun pc hpc =>
    own_frame h rfl (fun _ _ => rfl) rfl rfl rfl hpc
  unfold mainStep at hst
  split at hst
  · cases hst
  · split at hst <;> rename_i hm
    · split at hst
      · cases hst; exact hgo _ (fun _ _ h => nomatch h)
      · split at hst
        · cases hst; exact hgo _ (fun _ _ h => nomatch h)
        · simp only at hst
          have h' : ∀ src, Own fs0 c0 { s with src := src } := fun src => ⟨h.le, h.others, h.tmp, h.pending⟩
          split at hst
          · cases hst
            exact own_createJob (h' _) _ _
          · cases hst
            exact own_frame h rfl (fun _ _ => rfl) rfl rfl rfl (fun _ _ h => nomatch h)
    · split at hst
      · cases hst; exact hgo _ (fun _ _ h => nomatch h)
      · cases hst
        refine h.step rfl (fun _ _ => rfl) rfl ?_
        intro n hn
        unfold pendingNames at hn ⊢
        rw [hm]
        simp only [SortState.goto, SortState.notify, List.mem_append] at hn ⊢
        rcases hn with (hn | hn) | hn
        · cases hn
        · exact .inl (.inl hn)
        · exact .inr hn
    · cases hst
      unfold waitMain
      split
      · exact hgo _ (by intro j l; split <;> exact fun h => nomatch h)
      · exact h.step rfl (fun _ _ => rfl) rfl (fun n hn => hn)
    · split at hst
      · cases hst
        split <;> exact hgo _ (fun _ _ h => nomatch h)
      · cases hst
        unfold waitMain
        split
        · exact hgo _ (fun _ _ h => nomatch h)
        · exact h.step rfl (fun _ _ => rfl) rfl (fun n hn => hn)
    · cases hst
      exact hgo _ (by intro j l; split <;> exact fun h => nomatch h)
    · split at hst
      · cases hst
        split <;> exact hgo _ (fun _ _ h => nomatch h)
      · cases hst
        unfold waitMain
        split
        · exact hgo _ (fun _ _ h => nomatch h)
        · exact h.step rfl (fun _ _ => rfl) rfl (fun n hn => hn)
    · split at hst
      · cases hst; exact hgo _ (fun _ _ h => nomatch h)
      · split at hst
        · cases hst
          exact own_mergeStep H h (H _)
        · cases hst; exact hgo _ (fun _ _ h => nomatch h)
    · split at hst
      · cases hst; exact hgo _ (fun _ _ h => nomatch h)
      · split at hst
        · cases hst
          exact own_createJob h _ _
        · cases hst; exact hgo _ (fun _ _ h => nomatch h)
    · cases hst
      exact own_frame h rfl (fun _ _ => rfl) rfl rfl rfl (fun _ _ h => nomatch h)
    · cases hst
      refine h.step rfl (fun _ _ => rfl) rfl ?_
      intro n hn
      unfold pendingNames at hn ⊢
      rw [hm]
      exact hn
    · split at hst
      · cases hst; exact hgo _ (fun _ _ h => nomatch h)
      · cases hst
    · split at hst
      · cases hst; exact hgo _ (fun _ _ h => nomatch h)
      · split at hst
        · cases hst; exact hgo _ (fun _ _ h => nomatch h)
        · split at hst
          · cases hst; exact hgo _ (fun _ _ h => nomatch h)
          · cases hst
            exact own_frame h rfl (fun _ _ => by simp [SortState.goto, SortState.put]) rfl rfl rfl (fun _ _ h => nomatch h)
    · split at hst
      · rename_i t ht
        cases hst
        exact own_singleOutput h (by rw [ht]; simp)
      · cases hst
        exact own_finalMerge h
    · cases hst
      exact own_frame h rfl (fun _ _ => rfl) rfl rfl rfl (fun _ _ h => nomatch h)
    · cases hst
      refine h.step rfl (fun _ _ => rfl) rfl ?_
      intro n hn
      unfold pendingNames at hn ⊢
      rw [hm]
      exact hn
    · split at hst
      · cases hst; exact hgo _ (fun _ _ h => nomatch h)
      · cases hst
    · cases hst
      exact own_frame h rfl (fun n hn => own_removeFiles h.tmp n hn) rfl rfl rfl (fun _ _ h => nomatch h)
    · cases hst
    · cases hst

theorem own_worker {i : Bool} {w : SortWorker α} {s1 : SortState α} (h : Own fs0 c0 s) (hc : s1.counter = s.counter)
    (hfs : ∀ n, n < c0 ∨ s.counter ≤ n → s1.fs (.tmp n) = s.fs (.tmp n)) (ht : s1.tmp = s.tmp) (hm : s1.main = s.main)
    (hj : s1.job = s.job ∨ s1.job = none) (hw : ∀ j, (s1.worker j).pc = (s.worker j).pc)
    (hp : ∀ n ∈ (match w.pc with | .opening j => [j.name] | .writing n _ => [n] | _ => []), n ∈ pendingNames s) :
    Own fs0 c0 (s1.setWorker i w) := by
  refine h.step hc hfs ht ?_
  intro n hn
  unfold pendingNames at hn
  simp only [List.mem_append, List.mem_flatMap] at hn
  rcases hn with (hn | hn) | ⟨j, hj1, hn⟩
  · have : n ∈ (match s.main with | .post j _ => [j.name] | _ => []) := by
      rw [← hm]
      exact hn
    unfold pendingNames
    simp only [List.mem_append]
    exact .inl (.inl this)
  · have : n ∈ (match s.job with | some j => [j.name] | none => []) := by
      rcases hj with hj | hj
      · rw [← hj]; exact hn
      · have e : (s1.setWorker i w).job = none := hj
        rw [e] at hn
        cases hn
    unfold pendingNames
    simp only [List.mem_append]
    exact .inl (.inr this)
  · by_cases he : j = i
    · have e : (s1.setWorker i w).worker j = w := by simp [SortState.setWorker, he]
      rw [e] at hn
      exact hp n hn
    · have e : (s1.setWorker i w).worker j = s1.worker j := by simp [SortState.setWorker, he]
      rw [e, hw] at hn
      unfold pendingNames
      simp only [List.mem_append, List.mem_flatMap]
      exact .inr ⟨j, hj1, hn⟩

theorem own_workerStep (h : Own fs0 c0 s) {i : Bool} {fail : Option Nat} (hst : workerStep cfg i fail s = some s') : Own fs0 c0 s' := by
  have hmem : ∀ n, n ∈ (match (s.worker i).pc with | .opening j => [j.name] | .writing n _ => [n] | _ => []) → n ∈ pendingNames s := by
    intro n hn
    unfold pendingNames
    simp only [List.mem_append, List.mem_flatMap]
    exact .inr ⟨i, by cases i <;> simp, hn⟩
  unfold workerStep at hst
  split at hst
  · cases hst
  · split at hst <;> rename_i hpc <;> rw [hpc] at hmem
    · split at hst
      · cases hst
        exact own_worker h rfl (fun _ _ => rfl) rfl rfl (.inl rfl) (fun _ => rfl) (fun n hn => nomatch hn)
      · split at hst
        · rename_i j hj
          cases hst
          refine own_worker h rfl (fun _ _ => rfl) rfl rfl (.inr rfl) (fun _ => rfl) (fun n hn => ?_)
          unfold pendingNames
          rw [hj]
          simp only [List.mem_append]
          exact .inl (.inr hn)
        · cases hst
          exact own_worker h rfl (fun _ _ => rfl) rfl rfl (.inl rfl) (fun _ => rfl) (fun n hn => nomatch hn)
    · rename_i job
      split at hst
      · cases hst
        exact own_worker h rfl (fun _ _ => rfl) rfl rfl (.inl rfl) (fun _ => rfl) (fun n hn => nomatch hn)
      · cases hst
        have hr := h.pending _ (hmem job.name (by simp))
        refine own_worker h rfl (fun n hn => ?_) rfl rfl (.inl rfl) (fun _ => rfl) hmem
        have : n ≠ job.name := by omega
        simp [SortState.put, this]
    · rename_i name todo
      split at hst
      · cases hst
        exact own_worker h rfl (fun _ _ => rfl) rfl rfl (.inl rfl) (fun _ => rfl) (fun n hn => nomatch hn)
      · split at hst
        · cases hst
          exact own_worker h rfl (fun _ _ => rfl) rfl rfl (.inl rfl) (fun _ => rfl) (fun n hn => nomatch hn)
        · cases hst
          have hr := h.pending _ (hmem name (by simp))
          refine own_worker h rfl (fun n hn => ?_) rfl rfl (.inl rfl) (fun _ => rfl) hmem
          have : n ≠ name := by omega
          simp [SortState.put, this]
    · cases hst
      exact own_worker h rfl (fun _ _ => rfl) rfl rfl (.inl rfl) (fun _ => rfl) (fun n hn => nomatch hn)
    · cases hst
      exact own_worker h rfl (fun _ _ => rfl) rfl rfl (.inl rfl) (fun _ => rfl) (fun n hn => nomatch hn)
    · cases hst

theorem own_step (H : ∀ l, (cfg.order l).Perm l) {c : SortChoice α} (h : Own fs0 c0 s) (hst : sortStep cfg c s = some s') :
    Own fs0 c0 s' := by
  cases c with
  | main io => exact own_mainStep H h hst
  | worker i fail => exact own_workerStep h hst
  | wakeMain =>
    simp only [sortStep] at hst
    split at hst
    · cases hst
      exact h.step rfl (fun _ _ => rfl) rfl (fun n hn => hn)
    · cases hst
  | wakeWorker i =>
    simp only [sortStep] at hst
    split at hst
    · cases hst
      refine own_worker h rfl (fun _ _ => rfl) rfl rfl (.inl rfl) (fun _ => rfl) (fun n hn => ?_)
      unfold pendingNames
      simp only [List.mem_append, List.mem_flatMap]
      exact .inr ⟨i, by cases i <;> simp, hn⟩
    · cases hst

theorem own_start (fs : SortPath → Option (List α)) (c : Nat) (src : List α) (h : cfg.Ok) : Own fs c (sortStart cfg fs c src) := by
  have h1 : ¬ cfg.numTmp ≤ 1 := by have := h.numTmp; omega
  have h2 : ¬ ((cfg.skip && !cfg.feed) = true) := by
    have := h.callback
    cases h : cfg.skip <;> cases h' : cfg.feed <;> simp [h, h'] at this ⊢
  unfold sortStart
  rw [if_neg h1, if_neg h2]
  refine ⟨Nat.le_refl _, fun n _ => ?_, (fun t ht => nomatch ht), ?_⟩
  · simp
  · intro n hn
    simp [pendingNames] at hn

end Couchstore
