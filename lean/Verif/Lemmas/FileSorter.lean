import Verif.Props.Merge
import Verif.Spec.FileSorter

/-! Helper lemmas about sorting a file: names, merges, and what holds in every run, also if operations fail. -/

namespace Couchstore

variable {α : Type}

theorem sortErr_ne (n : Nat) : sortErr n ≠ 0 := by unfold sortErr; omega

theorem decimalLength_small {v : Nat} (h : decimalLength v < 6) : v < 100000 := by
  rcases Nat.lt_or_ge v 100000 with h' | h'
  · exact h'
  · exfalso
    unfold decimalLength at h
    rw [if_neg (by omega)] at h
    unfold decimalLength at h
    rw [if_neg (by omega)] at h
    unfold decimalLength at h
    rw [if_neg (by omega)] at h
    unfold decimalLength at h
    rw [if_neg (by omega)] at h
    unfold decimalLength at h
    rw [if_neg (by omega)] at h
    have : 1 ≤ decimalLength (v / 10 / 10 / 10 / 10 / 10) := by
      unfold decimalLength
      split <;> omega
    omega

theorem nextTmpName_some {v n c : Nat} (h : nextTmpName v = some (n, c)) : n = v ∧ c = v + 1 := by
  unfold nextTmpName at h
  split at h
  · cases h
  · rename_i hd
    have := decimalLength_small (v := v) (by omega)
    simp only [Option.some.injEq, Prod.mk.injEq] at h
    rw [if_neg (by omega)] at h
    exact ⟨h.1.symm, h.2.symm⟩

theorem nextTmpName_none {v : Nat} (h : nextTmpName v = none) : 100000 ≤ v := by
  unfold nextTmpName at h
  split at h
  · rename_i hd
    rcases Nat.lt_or_ge v 100000 with h' | h'
    · exfalso
      have h1 : ∀ {a b : Nat}, a < 10 * b → a / 10 < b := fun h => by omega
      have key : ∀ (k v : Nat), v < 10 ^ (k + 1) → decimalLength v ≤ k + 1 := by
        intro k
        induction k with
        | zero => intro v hv; unfold decimalLength; rw [if_pos (by simpa using hv)]; omega
        | succ k ih =>
          intro v hv
          unfold decimalLength
          split
          · omega
          · have := ih (v / 10) (by rw [Nat.pow_succ] at hv; omega)
            omega
      have := key 4 v (by simpa using h')
      omega
    · exact h'
  · cases h

theorem pickGroup_some : ∀ (l : List TmpFile) (i a b lv : Nat), pickGroup l i = some (a, b, lv) → (∀ t ∈ l, 1 ≤ t.level) →
    i ≤ a ∧ a + 2 ≤ b ∧ b ≤ i + l.length ∧ 1 < lv
  | [], _, _, _, _, h, _ => by simp [pickGroup] at h
  | [_], _, _, _, _, h, _ => by simp [pickGroup] at h
  | x :: y :: rest, i, a, b, lv, h, hl => by
    unfold pickGroup at h
    split at h
    · simp only [Option.some.injEq, Prod.mk.injEq] at h
      obtain ⟨rfl, rfl, rfl⟩ := h
      have h1 : (rest.takeWhile fun t => t.level = x.level).length ≤ rest.length :=
        (List.takeWhile_prefix _).length_le
      have h2 := hl x (by simp)
      refine ⟨by omega, by omega, by simp only [List.length_cons]; omega, ?_⟩
      calc 1 < 2 * 1 := by omega
        _ ≤ _ := Nat.mul_le_mul (by omega) h2
    · have := pickGroup_some (y :: rest) (i + 1) a b lv h (fun t ht => hl t (by simp [ht]))
      simp only [List.length_cons] at this ⊢
      omega

theorem pickMergeFiles_some {l : List TmpFile} (h2 : 2 ≤ l.length) (hl : ∀ t ∈ l, 1 ≤ t.level) :
    ∃ a b lv, pickMergeFiles l = some (a, b, lv) ∧ a + 2 ≤ b ∧ b ≤ l.length ∧ 1 < lv := by
  unfold pickMergeFiles
  cases h : pickGroup l 0 with
  | some r =>
    obtain ⟨a, b, lv⟩ := r
    have := pickGroup_some l 0 a b lv h hl
    exact ⟨a, b, lv, rfl, by omega, by omega, by omega⟩
  | none =>
    match l, h2 with
    | x :: y :: rest, _ =>
      have h1 := hl x (by simp)
      have h2 := hl y (by simp)
      refine ⟨0, 2, x.level + y.level, rfl, by omega, by simp, by omega⟩

theorem mergeSources_fail {io : SortIo α} {contents : List (List α)} {f : Source α} {c : Int} (hf : f ∈ mergeSources io contents)
    (hc : f.fail = some c) : c ≠ 0 := by
  unfold mergeSources at hf
  rw [List.mem_mapIdx] at hf
  obtain ⟨i, hi, rfl⟩ := hf
  split at hc
  · cases hc
  · simp only [Option.some.injEq] at hc
    rw [← hc]
    exact sortErr_ne _

theorem mergeSources_ne {io : SortIo α} {contents : List (List α)} (h : contents ≠ []) : mergeSources io contents ≠ [] := by
  intro h'
  apply h
  have := congrArg List.length h'
  simpa [mergeSources] using this

/-- A merge succeeds or returns an error. -/
theorem sortMerge_result {cfg : SortCfg α} (H : CmpOk cfg.cmp) (io : SortIo α) (feed : Bool) {contents : List (List α)}
    (hne : contents ≠ []) :
    (∃ s, mergeFiles (sortMergeArgs cfg io feed) (mergeSources io contents) = (.success, s)) ∨
    ∃ c s, mergeFiles (sortMergeArgs cfg io feed) (mergeSources io contents) = (.error c, s) ∧ c ≠ 0 := by
  rcases C28_result (sortMergeArgs cfg io feed) H (fun d hd => nomatch hd) _ (mergeSources_ne (io := io) hne) with
    ⟨h, _⟩ | ⟨c, s, h, h'⟩
  · exact .inl h
  · refine .inr ⟨c, s, h, ?_⟩
    rcases h' with ⟨f, hf, hc⟩ | h'
    · exact mergeSources_fail hf hc
    · exact h'.1

/-- A merge that succeeds hands on the records in order. -/
theorem sortMerge_success {cfg : SortCfg α} (H : CmpOk cfg.cmp) (io : SortIo α) (feed : Bool) {contents : List (List α)}
    (hne : contents ≠ []) (hs : ∀ l ∈ contents, SortedRecs cfg.cmp l) {s : MergerState α}
    (h : mergeFiles (sortMergeArgs cfg io feed) (mergeSources io contents) = (.success, s)) :
    ∃ out, HandedOn (sortMergeArgs cfg io feed) s out ∧ SortedRecs cfg.cmp out ∧ out.Perm contents.flatten := by
  have hs' : ∀ f ∈ mergeSources io contents, SortedRecs cfg.cmp f.recs := by
    intro f hf
    unfold mergeSources at hf
    rw [List.mem_mapIdx] at hf
    obtain ⟨i, hi, rfl⟩ := hf
    have := hs _ (List.getElem_mem hi)
    split
    · exact this
    · exact List.Pairwise.sublist (List.take_sublist _ _) this
  rcases C28_merge_sorted (sortMergeArgs cfg io feed) H rfl _ (mergeSources_ne (io := io) hne) hs' with
    ⟨s', out, h1, h2, h3, h4, h5⟩ | ⟨c, s', h1, _⟩
  · rw [h1] at h
    cases h
    refine ⟨out, h2, h3, ?_⟩
    have : allRecs (mergeSources io contents) = contents.flatten := by
      unfold allRecs
      congr 1
      apply List.ext_getElem
      · simp [mergeSources]
      · intro i hi1 hi2
        have hm : (mergeSources io contents)[i]'(by simpa [mergeSources] using hi2) ∈ mergeSources io contents :=
          List.getElem_mem _
        have := h5 _ hm
        simp only [mergeSources, List.getElem_mapIdx, List.getElem_map] at this ⊢
        split at this
        · rfl
        · cases this
    rwa [this] at h4
  · rw [h1] at h
    cases h

/-! ## What holds in every run -/

/-- What is known where the main thread is. -/
def PcSafe (cfg : SortCfg α) (s : SortState α) : Prop :=
  match s.main with
  | .read _ _ => s.tmp.length < cfg.numTmp
  | .post _ _ => s.tmp ≠ [] ∧ s.tmp.length ≤ cfg.numTmp
  | .posted _ => s.tmp ≠ [] ∧ s.tmp.length ≤ cfg.numTmp
  | .wait1 => s.tmp ≠ [] ∧ s.tmp.length ≤ cfg.numTmp
  | .check _ _ => s.tmp.length ≤ cfg.numTmp
  | .wait2 _ _ => s.tmp.length = cfg.numTmp
  | .merge _ _ => s.tmp.length = cfg.numTmp
  | .eof _ _ => s.tmp.length < cfg.numTmp
  | .finish => s.tmp ≠ []
  | .finishNotify => s.tmp ≠ []
  | .join => s.tmp ≠ []
  | .remove => s.tmp ≠ []
  | .output => s.tmp ≠ []
  | .crashed => False
  | _ => True

/-- What is known about the source file. -/
def SourceSafe (cfg : SortCfg α) (src0 : List α) (s : SortState α) : Prop :=
  match s.main with
  | .output => s.fs .source = if cfg.skip then some src0 else none
  | .cleanup _ => cfg.skip = true → s.fs .source = some src0
  | .done _ => cfg.skip = true → s.fs .source = some src0
  | _ => s.fs .source = some src0

structure SortSafe (cfg : SortCfg α) (src0 : List α) (s : SortState α) : Prop where
  levels : ∀ t ∈ s.tmp, 1 ≤ t.level
  pc : PcSafe cfg s
  source : SourceSafe cfg src0 s

theorem removeFiles_source (fs : SortPath → Option (List α)) (l : List TmpFile) : removeFiles fs l .source = fs .source := by
  unfold removeFiles
  rw [if_neg]
  rintro ⟨t, _, h⟩
  cases h

theorem contentsOf_length {fs : SortPath → Option (List α)} : ∀ {l : List TmpFile} {c : List (List α)},
    contentsOf fs l = some c → c.length = l.length
  | [], c, h => by simp [contentsOf] at h; simp [← h]
  | t :: ts, c, h => by
    simp only [contentsOf, Option.bind_eq_bind, Option.pure_def, Option.bind_eq_some_iff] at h
    obtain ⟨x, _, y, hy, h⟩ := h
    cases h
    simp [contentsOf_length hy]

theorem safe_createJob {cfg : SortCfg α} {src0 : List α} {s : SortState α} {recs : List α} {last : Bool}
    (hl : ∀ t ∈ s.tmp, 1 ≤ t.level) (hlen : s.tmp.length < cfg.numTmp) (hs : s.fs .source = some src0) :
    SortSafe cfg src0 (createJob cfg s recs last) := by
  unfold createJob
  rw [if_pos hlen]
  split
  · exact ⟨hl, trivial, hs⟩
  · refine ⟨?_, ?_, hs⟩
    · intro t ht
      simp only [List.mem_append, List.mem_singleton] at ht
      rcases ht with ht | rfl
      · exact hl t ht
      · exact Nat.le_refl 1
    · show _ ∧ _
      simp
      omega

theorem safe_mergeStep {cfg : SortCfg α} (H : cfg.Ok) {src0 : List α} {s : SortState α} {io : SortIo α} {tmp : List TmpFile}
    {a b lv : Nat} {recs : List α} {buf : Nat} (hl : ∀ t ∈ tmp, 1 ≤ t.level) (hlen : tmp.length = cfg.numTmp)
    (hab : a + 2 ≤ b) (hb : b ≤ tmp.length) (hlv : 1 < lv) (hs : s.fs .source = some src0) :
    SortSafe cfg src0 (mergeStep cfg io s tmp a b lv (.read recs buf)) := by
  unfold mergeStep
  simp only
  split
  · exact ⟨hl, trivial, hs⟩
  · split
    · exact ⟨hl, trivial, hs⟩
    · rename_i contents hc
      have hne : contents ≠ [] := by
        intro h
        have := contentsOf_length hc
        simp [h] at this
        omega
      rcases sortMerge_result H.cmp io false hne with ⟨r, hr⟩ | ⟨e, r, hr, he⟩
      · rw [hr]
        simp only
        split
        · refine ⟨hl, trivial, ?_⟩
          simpa [SourceSafe, SortState.put, SortState.goto] using hs
        · refine ⟨?_, ?_, ?_⟩
          · intro t ht
            simp only [List.mem_append, List.mem_singleton] at ht
            rcases ht with (ht | ht) | rfl
            · exact hl t (List.mem_of_mem_take ht)
            · exact hl t (List.mem_of_mem_drop ((H.order_perm _).mem_iff.mp ht))
            · simp only; omega
          · show _ < _
            have := (H.order_perm (tmp.drop b)).length_eq
            simp only [List.length_append, List.length_take, List.length_singleton, this, List.length_drop]
            omega
          · show removeFiles _ _ _ = _
            rw [removeFiles_source]
            simpa [SortState.put] using hs
      · rw [hr]
        refine ⟨hl, trivial, ?_⟩
        simpa [SourceSafe, SortState.put, SortState.goto] using hs

theorem safe_finalMerge {cfg : SortCfg α} (H : cfg.Ok) {src0 : List α} {s : SortState α} {io : SortIo α}
    (hl : ∀ t ∈ s.tmp, 1 ≤ t.level) (hne : s.tmp ≠ []) (hs : s.fs .source = if cfg.skip then some src0 else none) :
    SortSafe cfg src0 (finalMerge cfg io s) := by
  unfold finalMerge
  split
  · refine ⟨hl, trivial, fun h => ?_⟩
    simpa [h, SortState.goto] using hs
  · rename_i contents hc
    have hne' : contents ≠ [] := by
      intro h
      have := contentsOf_length hc
      rw [h] at this
      exact hne (List.length_eq_zero_iff.mp this.symm)
    have hsrc : ∀ (fed : List α) (w : Option (List α)), cfg.skip = true →
        (if cfg.skip then { s with fed := fed } else { s with fed := fed }.put .source w).fs .source = some src0 := by
      intro fed w h
      simpa [h] using hs
    have htmp : ∀ (fed : List α) (w : Option (List α)),
        (if cfg.skip then { s with fed := fed } else { s with fed := fed }.put .source w).tmp = s.tmp := by
      intro fed w
      split <;> rfl
    rcases sortMerge_result H.cmp io cfg.feed hne' with ⟨r, hr⟩ | ⟨e, r, hr, he⟩
    · rw [hr]
      simp only
      split
      · exact ⟨by intro t ht; simp only [SortState.goto, htmp] at ht; exact hl t ht, trivial, fun h => hsrc _ _ h⟩
      · refine ⟨(fun t ht => nomatch ht), trivial, fun h => ?_⟩
        show removeFiles _ _ _ = _
        rw [removeFiles_source]
        exact hsrc _ _ h
    · rw [hr]
      exact ⟨by intro t ht; simp only [SortState.goto, htmp] at ht; exact hl t ht, trivial, fun h => hsrc _ _ h⟩

theorem safe_singleOutput {cfg : SortCfg α} {src0 : List α} {s : SortState α} {io : SortIo α} {t : TmpFile}
    (hl : ∀ t ∈ s.tmp, 1 ≤ t.level) (hs : s.fs .source = if cfg.skip then some src0 else none) :
    SortSafe cfg src0 (singleOutput cfg io s t) := by
  have hsk : cfg.skip = true → s.fs .source = some src0 := fun h => by simpa [h] using hs
  unfold singleOutput
  split
  · exact ⟨hl, trivial, hsk⟩
  · simp only
    split
    · split
      · exact ⟨hl, trivial, hsk⟩
      · split
        · refine ⟨hl, trivial, fun h => ?_⟩
          simpa [SortState.put, SortState.goto] using hsk h
        · rename_i h
          exact ⟨hl, trivial, fun h' => absurd h' h⟩
    · exact ⟨hl, trivial, hsk⟩

theorem safe_mainStep {cfg : SortCfg α} (H : cfg.Ok) {src0 : List α} {s s' : SortState α} {io : SortIo α}
    (hs : SortSafe cfg src0 s) (h : mainStep cfg io s = some s') : SortSafe cfg src0 s' := by
  obtain ⟨hl, hpc, hsrc⟩ := hs
  unfold PcSafe at hpc
  unfold SourceSafe at hsrc
  unfold mainStep at h
  split at h
  · cases h
  · split at h <;> rename_i hm <;> simp only [hm] at hpc hsrc
    · -- read
      split at h
      · cases h; exact ⟨hl, trivial, hsrc⟩
      · split at h
        · cases h; exact ⟨hl, hpc, hsrc⟩
        · simp only at h
          split at h
          · cases h; exact safe_createJob hl hpc hsrc
          · cases h; exact ⟨hl, Nat.le_of_lt hpc, hsrc⟩
    · -- post
      split at h
      · cases h; exact ⟨hl, trivial, hsrc⟩
      · cases h; exact ⟨hl, hpc, hsrc⟩
    · -- posted
      rename_i last
      cases h
      unfold waitMain
      split
      · cases last
        · exact ⟨hl, hpc, hsrc⟩
        · exact ⟨hl, hpc.1, hsrc⟩
      · exact ⟨hl, by unfold PcSafe; simp only [hm]; exact hpc, by unfold SourceSafe; simp only [hm]; exact hsrc⟩
    · -- wait1
      split at h
      · cases h
        split
        · exact ⟨hl, hpc.2, hsrc⟩
        · exact ⟨hl, trivial, hsrc⟩
      · cases h
        unfold waitMain
        split
        · exact ⟨hl, hpc.2, hsrc⟩
        · exact ⟨hl, by unfold PcSafe; simp only [hm]; exact hpc, by unfold SourceSafe; simp only [hm]; exact hsrc⟩
    · -- check
      cases h
      split
      · exact ⟨hl, by show s.tmp.length = _; omega, hsrc⟩
      · exact ⟨hl, by show s.tmp.length < _; omega, hsrc⟩
    · -- wait2
      split at h
      · cases h
        split
        · exact ⟨hl, hpc, hsrc⟩
        · exact ⟨hl, trivial, hsrc⟩
      · cases h
        unfold waitMain
        split
        · exact ⟨hl, hpc, hsrc⟩
        · exact ⟨hl, by unfold PcSafe; simp only [hm]; exact hpc, by unfold SourceSafe; simp only [hm]; exact hsrc⟩
    · -- merge
      have hp := H.order_perm s.tmp
      have hl' : ∀ t ∈ cfg.order s.tmp, 1 ≤ t.level := fun t ht => hl t (hp.mem_iff.mp ht)
      have hlen : (cfg.order s.tmp).length = cfg.numTmp := hp.length_eq.trans hpc
      obtain ⟨a, b, lv, h1, h2, h3, h4⟩ := pickMergeFiles_some (by rw [hlen]; exact H.numTmp) hl'
      rw [h1] at h
      simp only [h4, if_true] at h
      cases h
      exact safe_mergeStep H hl' hlen h2 h3 h4 hsrc
    · -- eof
      split at h
      · cases h; exact ⟨hl, trivial, hsrc⟩
      · split at h
        · cases h; exact safe_createJob hl hpc hsrc
        · rename_i h1 h2
          cases h
          exact ⟨hl, fun h => h1 ⟨h, by omega⟩, hsrc⟩
    · cases h; exact ⟨hl, hpc, hsrc⟩
    · cases h; exact ⟨hl, hpc, hsrc⟩
    · split at h
      · cases h; exact ⟨hl, hpc, hsrc⟩
      · cases h
    · -- remove
      rw [if_neg hpc] at h
      split at h
      · rename_i hsk
        cases h
        refine ⟨hl, hpc, ?_⟩
        show s.fs .source = _
        rw [hsrc, if_pos hsk]
      · rename_i hsk
        split at h
        · cases h; exact ⟨hl, trivial, fun _ => hsrc⟩
        · cases h
          refine ⟨hl, hpc, ?_⟩
          show (s.put .source none).fs .source = _
          rw [if_neg hsk]
          simp [SortState.put]
    · -- output
      split at h
      · rename_i t ht
        cases h
        exact safe_singleOutput hl hsrc
      · cases h
        exact safe_finalMerge H hl hpc hsrc
    · cases h; exact ⟨hl, trivial, hsrc⟩
    · cases h; exact ⟨hl, trivial, hsrc⟩
    · split at h
      · cases h; exact ⟨hl, trivial, fun _ => hsrc⟩
      · cases h
    · cases h
      refine ⟨hl, trivial, fun h => ?_⟩
      show removeFiles _ _ _ = _
      rw [removeFiles_source]
      exact hsrc h
    · cases h

/-- What a step of a worker does not change. -/
theorem workerStep_frame {cfg : SortCfg α} {i : Bool} {fail : Option Nat} {s s' : SortState α}
    (h : workerStep cfg i fail s = some s') :
    s'.main = s.main ∧ s'.tmp = s.tmp ∧ s'.fs .source = s.fs .source ∧ s'.src = s.src ∧ s'.fed = s.fed ∧ s'.counter = s.counter ∧
      s'.finished = s.finished := by
  unfold workerStep at h
  split at h
  · cases h
  · split at h
    · split at h
      · cases h; simp [SortState.setWorker]
      · split at h <;> cases h <;> simp [SortState.setWorker, SortState.notify]
    · split at h <;> cases h <;> simp [SortState.setWorker, SortState.put]
    · split at h
      · cases h; simp [SortState.setWorker]
      · split at h <;> cases h <;> simp [SortState.setWorker, SortState.put]
    · cases h; simp [SortState.setWorker, SortState.notify]
    · cases h; simp [SortState.setWorker, SortState.notify]
    · cases h

theorem safe_frame {cfg : SortCfg α} {src0 : List α} {s s' : SortState α} (hs : SortSafe cfg src0 s) (h1 : s'.main = s.main)
    (h2 : s'.tmp = s.tmp) (h3 : s'.fs .source = s.fs .source) : SortSafe cfg src0 s' := by
  obtain ⟨hl, hpc, hsrc⟩ := hs
  unfold PcSafe at hpc
  unfold SourceSafe at hsrc
  refine ⟨by rwa [h2], ?_, ?_⟩
  · unfold PcSafe; rw [h1, h2]; exact hpc
  · unfold SourceSafe; rw [h1, h3]; exact hsrc

theorem safe_step {cfg : SortCfg α} (H : cfg.Ok) {src0 : List α} {s s' : SortState α} {c : SortChoice α}
    (hs : SortSafe cfg src0 s) (h : sortStep cfg c s = some s') : SortSafe cfg src0 s' := by
  cases c with
  | main io => exact safe_mainStep H hs h
  | worker i fail =>
    have := workerStep_frame h
    exact safe_frame hs this.1 this.2.1 this.2.2.1
  | wakeMain =>
    simp only [sortStep] at h
    split at h
    · cases h; exact safe_frame hs rfl rfl rfl
    · cases h
  | wakeWorker i =>
    simp only [sortStep] at h
    split at h
    · cases h; exact safe_frame hs rfl rfl rfl
    · cases h

theorem sortRun_induct {cfg : SortCfg α} {P : SortChoice α → Prop} {I : SortState α → Prop}
    (hstep : ∀ c s s', P c → I s → sortStep cfg c s = some s' → I s') :
    ∀ (cs : List (SortChoice α)) (s s' : SortState α), (∀ c ∈ cs, P c) → I s → sortRun cfg cs s = some s' → I s'
  | [], s, s', _, hI, h => by simp only [sortRun, Option.some.injEq] at h; exact h ▸ hI
  | c :: cs, s, s', hP, hI, h => by
    simp only [sortRun, Option.bind_eq_some_iff] at h
    obtain ⟨s1, h1, h2⟩ := h
    exact sortRun_induct hstep cs s1 s' (fun c hc => hP c (by simp [hc])) (hstep c s s1 (hP c (by simp)) hI h1) h2

theorem safe_start {cfg : SortCfg α} (H : cfg.Ok) (fs : SortPath → Option (List α)) (counter : Nat) (src : List α) :
    SortSafe cfg src (sortStart cfg fs counter src) := by
  have h1 : ¬ cfg.numTmp ≤ 1 := by have := H.numTmp; omega
  have h2 : ¬ ((cfg.skip && !cfg.feed) = true) := by
    have := H.callback
    cases h : cfg.skip <;> cases h' : cfg.feed <;> simp [h, h'] at this ⊢
  have hm : (sortStart cfg fs counter src).main = .read [] 0 := by
    unfold sortStart
    simp only
    rw [if_neg h1, if_neg h2]
  refine ⟨(fun t ht => nomatch ht), ?_, ?_⟩
  · unfold PcSafe
    rw [hm]
    show 0 < _
    have := H.numTmp
    omega
  · unfold SourceSafe
    rw [hm]
    simp [sortStart]

end Couchstore
