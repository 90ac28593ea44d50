import Verif.Lemmas.CompactHook
import Verif.Lemmas.DbInfoToolOpen
import Verif.Spec.CompactTool

namespace Couchstore

variable {E : Env}

/-- The documents that the filter drops. -/
def purges (ts seq : Nat) (d : DocInfo) : Bool :=
  d.deleted && (decide (16 ≤ d.revMeta.length) && (decide (beDec (slice d.revMeta 8 4) < ts) && (decide (seq = 0) || decide (d.dbSeq ≤ seq))))

theorem timePurgeHook_doc (c : TimePurge) (d : DocInfo) (b : Option Bytes) :
    timePurgeHook c (some d) b = if purges c.beforeTs c.beforeSeq d then ({ c with maxPurged := max c.maxPurged d.dbSeq }, .drop)
      else (c, .keep) := by
  unfold timePurgeHook purges
  dsimp only
  have hm : (if c.maxPurged < d.dbSeq then d.dbSeq else c.maxPurged) = max c.maxPurged d.dbSeq := by
    split <;> omega
  rw [hm]
  by_cases h1 : d.deleted = true ∧ 16 ≤ d.revMeta.length
  · rw [if_pos h1]
    by_cases h2 : beDec (slice d.revMeta 8 4) < c.beforeTs ∧ (c.beforeSeq = 0 ∨ d.dbSeq ≤ c.beforeSeq)
    · rw [if_pos h2, if_pos (by simpa [h1] using h2)]
    · rw [if_neg h2, if_neg (by simpa [h1] using h2)]
  · rw [if_neg h1, if_neg (by
      intro h
      simp only [Bool.and_eq_true, decide_eq_true_eq] at h
      exact h1 ⟨h.1, h.2.1⟩)]

theorem timePurgeHook_reliable : Reliable timePurgeHook := by
  refine ⟨fun u d h => ?_, fun u d e h => ?_, fun u d b => ?_, fun u e h => nomatch h⟩
  · rw [timePurgeHook_doc] at h
    split at h <;> cases h
  · rw [timePurgeHook_doc] at h
    split at h <;> cases h
  · rw [timePurgeHook_doc]
    split
    · exact Or.inr rfl
    · exact Or.inl rfl

theorem highestSeq_cons (d : DocInfo) (ds : List DocInfo) : highestSeq (d :: ds) = max d.dbSeq (highestSeq ds) := rfl

theorem timePurge_apply (body : DocInfo → Option Bytes) (ds : List DocInfo) (c : TimePurge) :
    applyFilter timePurgeHook body c ds =
      some ({ c with maxPurged := max c.maxPurged (highestSeq (ds.filter (purges c.beforeTs c.beforeSeq))) },
        ds.filter fun d => !purges c.beforeTs c.beforeSeq d) := by
  induction ds generalizing c with
  | nil => simp [applyFilter, highestSeq]
  | cons d ds ih =>
    unfold applyFilter filterVerdict
    rw [timePurgeHook_doc]
    by_cases h : purges c.beforeTs c.beforeSeq d = true
    · simp only [h, if_true, ih, List.filter_cons, highestSeq_cons, Nat.max_assoc, Bool.not_true]
      rfl
    · have h' : purges c.beforeTs c.beforeSeq d = false := by simpa using h
      simp only [h', if_false, ih, List.filter_cons, Bool.not_false, if_true, Bool.false_eq_true]
      rfl

/-- Entries that are kept, when the filter keeps those documents. -/
theorem kept_filter {seqs kept : List Entry} {gone : DocInfo → Bool}
    (k4 : kept = seqs.filter (fun e => !(!(kept.map (·.info)).contains e.info)))
    (h : kept.map (·.info) = (seqs.map (·.info)).filter fun d => !gone d) :
    kept = seqs.filter fun e => !gone e.info := by
  refine k4.trans (List.filter_congr fun e he => ?_)
  rw [h, Bool.not_not]
  by_cases hg : gone e.info = true
  · simp [hg]
  · have hg' : gone e.info = false := by simpa using hg
    simp only [hg', Bool.not_false, List.contains_eq_mem, decide_eq_true_eq, List.mem_filter, and_true]
    exact List.mem_map_of_mem he

theorem documents_sameAnswers {db db' : Db} (h : SameAnswers E db db') : documents E db' = documents E db := by
  unfold documents
  rw [h (.changes 0 ⟨false, false, false⟩) (by show 0 < 2 ^ 48; decide)]

theorem askWithout_same {db db' : Db} (h : SameAnswers E db db') (gone : DocInfo → Bool) (p : Nat) (q : Query) (hq : q.Ok) :
    askWithout E db' gone p q = askWithout E db gone p q := by
  have hd := documents_sameAnswers h
  cases q with
  | «open» id dec => simp only [askWithout]; rw [h (.docinfo id) trivial, h _ hq]
  | count lo hi => simp only [askWithout]; rw [hd]
  | info => simp only [askWithout]; rw [hd, h _ hq]
  | _ => simp only [askWithout]; rw [h _ hq]

theorem HoldsWithout.same {db db' t : Db} {gone : DocInfo → Bool} {p : Nat} (h : SameAnswers E db db')
    (H : HoldsWithout E db' t gone p) : HoldsWithout E db t gone p :=
  fun q hq => by rw [← askWithout_same h gone p q hq]; exact H q hq

/-- The file that the program opens. -/
theorem tool_open {getKey : KeyGetter} (L : E.Laws) {s s' : Sys} (hs : History E getKey s) (hop : s' = s ∨ Op E getKey s s') (hc : s.cands ≠ [])
    {log : List Event} (h1 : s.db.file.log <:+ log) (h2 : log <:+ s'.db.file.log) {img : Bytes} (hi : CrashImage s.base log img) :
    ∃ s2 c, History E getKey s2 ∧ openDb E infoFlags getKey [] (crashedFile img []) = .ok s2.db s2.db.file ∧
      (c ∈ s.cands ∨ c ∈ s'.cands) ∧ SameAnswers E c.db s2.db ∧ s2.db.file.faults = [] ∧
      s2.db.header.diskVersion = c.db.header.diskVersion := by
  obtain ⟨s2, c, k1, k2, A, -, -, -⟩ := info_open L hs hop hc h1 h2 hi
  exact ⟨_, c, History.crash infoFlags [] hs hop hc h1 h2 hi (infoFlags_ok false).thr k1, k1, k2, A.shows_.answers, A.calm, A.ver⟩

theorem compactMain_runs {getKey : KeyGetter} {a : CompactArgs} {w : ToolWorld} {f : File} {db : Db} {f' : File}
    (ho : openDb E infoFlags getKey [] f = .ok db f') (ha : a.throws = false) :
    compactMain E getKey a w f = match compactHooked E (toolCompaction getKey a w db) with
      | .error e => .failed e
      | .ok t => .done t := by
  unfold compactMain
  rw [ha, if_neg (by simp), ho]
  dsimp only
  cases compactHooked E (toolCompaction getKey a w db) <;> rfl

theorem compactMain_done {getKey : KeyGetter} {a : CompactArgs} {w : ToolWorld} {f : File} {db t : Db} {f' : File}
    (ho : openDb E infoFlags getKey [] f = .ok db f') (h : compactMain E getKey a w f = .done t) :
    compactHooked E (toolCompaction getKey a w db) = .ok t ∧ (∀ v, a.purgeBefore = some v → -2 ^ 31 ≤ v ∧ v < 2 ^ 31) := by
  by_cases ha : a.throws = true
  · unfold compactMain at h
    rw [if_pos ha] at h
    cases h
  have ha' : a.throws = false := by simpa using ha
  rw [compactMain_runs ho ha'] at h
  cases hc : compactHooked E (toolCompaction getKey a w db) with
  | error e => rw [hc] at h; cases h
  | ok t' =>
    rw [hc] at h
    cases h
    refine ⟨rfl, fun v hv => ?_⟩
    unfold CompactArgs.throws at ha'
    rw [hv] at ha'
    simp only [Bool.or_eq_false_iff, decide_eq_false_iff_not] at ha'
    omega

end Couchstore
