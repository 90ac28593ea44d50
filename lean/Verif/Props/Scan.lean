import Verif.Props.Save

/-! Property theorems C14, C15, C16, C17 and C18: enumerating documents, statistics, counts and
local documents; and C09 and C31 at the level of the document functions.

In all of them `db` is any reachable handle, and "the documents" are those found by their id. -/

namespace Couchstore.Props

/-- What a scan with callback `cb`, starting from the user state `u`, may return when `l` is the list
of documents it is about: all documents were given to the callback one by one until its first
error; or, only if raw file operations misbehave, some first documents were given to it and an
error is reported. -/
def ScanResult {σ : Type} (cb : ChangesCb σ) (db : Db) (l : List DocInfo) (u : σ) (r : σ × Option Err) : Prop :=
  r = feed cb l u ∨ (db.file.faults ≠ [] ∧ r.2 ≠ none ∧ ∃ n, feed cb (l.take n) u = (r.1, none))

/-- In the mode that tolerates corruption errors of the callback are not reported faithfully; then
the theorems are about callbacks that do not fail, and files that do not misbehave. -/
def TolerantOk {σ : Type} (opts : ScanOpts) (cb : ChangesCb σ) (db : Db) : Prop :=
  opts.tolerate = true → (∀ u d, (cb u d).2 = none) ∧ db.file.faults = []

theorem scan_of_spec {σ : Type} {m : DbM (σ × Option Err)} {db : Db} {cb : ChangesCb σ} {l : List DocInfo} {u : σ}
    (h : Sp m db (fun r d => RD db d ∧ Fed cb db.file l u r) (fun _ _ => False)) :
    ∃ r db', m db = .ok r db' ∧ ScanResult cb db l u r := by
  cases hm : m db with
  | ok r d =>
    obtain ⟨-, h1⟩ := h.ok hm
    refine ⟨r, d, rfl, ?_⟩
    rcases h1 with h1 | h1
    · exact Or.inl h1.symm
    · exact Or.inr h1
  | error e d => exact (h.error hm).elim

/-! ## C14 The change feed -/

/-- There is one list `l` of documents, in strictly ascending order of the sequence numbers, that
contains exactly the documents with a sequence number of at least `since` that the options select,
with their current metadata; and iterating the changes, with any callback and under any schedule of
misbehaving raw operations, gives that list to the callback. -/
theorem C14_changes_since (E : Env) (L : E.Laws) (db : Db) (hr : Reachable E db) (since : Nat)
    (hs : since < 2 ^ 48) (opts : ScanOpts) :
    ∃ l : List DocInfo,
      l.Pairwise (fun a b => a.dbSeq < b.dbSeq) ∧
      (∀ d, d ∈ l ↔ answer (docinfoById E d.id) db = .ok d ∧ since ≤ d.dbSeq ∧
        (opts.deletesOnly = true → d.deleted = true) ∧ (opts.noDeletes = true → d.deleted = false)) ∧
      ∀ (σ : Type) (cb : ChangesCb σ) (u : σ), TolerantOk opts cb db →
        ∃ r db', changesSince E since opts cb u db = .ok r db' ∧ ScanResult cb db l u r := by
  obtain ⟨⟨ids, seqs, locs, inv⟩, hd⟩ := hr.good L
  refine ⟨_, ?_, ?_, fun σ cb u ht => scan_of_spec (changesSince_spec E L db inv hd since hs opts cb ht u)⟩
  · apply List.Pairwise.filter
    rw [List.pairwise_map]
    exact inv.seqSorted
  · intro d
    rw [List.mem_filter, known_iff E L inv hd, (inv.perm.map (fun e : Entry => e.info)).mem_iff]
    unfold ScanOpts.selects
    cases opts.deletesOnly <;> cases opts.noDeletes <;> cases d.deleted <;> simp

/-! ## C15 Enumeration by id -/

/-- The same for the enumeration by id from a start key (or from the beginning). -/
theorem C15_all_docs (E : Env) (L : E.Laws) (db : Db) (hr : Reachable E db) (start : Option Bytes)
    (opts : ScanOpts) :
    ∃ l : List DocInfo,
      l.Pairwise (fun a b => a.id < b.id) ∧
      (∀ d, d ∈ l ↔ answer (docinfoById E d.id) db = .ok d ∧ (∀ s, start = some s → s ≤ d.id) ∧
        (opts.deletesOnly = true → d.deleted = true) ∧ (opts.noDeletes = true → d.deleted = false)) ∧
      ∀ (σ : Type) (cb : ChangesCb σ) (u : σ), TolerantOk opts cb db →
        ∃ r db', allDocs E start opts cb u db = .ok r db' ∧ ScanResult cb db l u r := by
  obtain ⟨⟨ids, seqs, locs, inv⟩, hd⟩ := hr.good L
  refine ⟨_, ?_, ?_, fun σ cb u ht => scan_of_spec (allDocs_spec E L db inv hd start opts cb ht u)⟩
  · apply List.Pairwise.filter
    rw [List.pairwise_map]
    exact inv.idSorted.imp fun h => (ebinCmp_lt_iff _ _).mp h
  · intro d
    rw [List.mem_filter, known_iff E L inv hd]
    have h0 : decide (start.getD [] ≤ d.id) = true ↔ ∀ s, start = some s → s ≤ d.id := by
      cases start <;> simp
    rw [Bool.and_eq_true, h0]
    unfold ScanOpts.selects
    cases opts.deletesOnly <;> cases opts.noDeletes <;> cases d.deleted <;> simp

/-- The theorems apply to the database of four documents, and to one whose fifth raw operation fails;
the lists are not empty. -/
def flakyDb : Db := { sampleDb2 with file := { sampleDb2.file with faults := List.replicate 4 .none ++ [.err 5] } }

example : Reachable Env.toy sampleDb2 ∧ Reachable Env.toy flakyDb ∧
    (match changesSince Env.toy 4 ⟨false, false, true⟩ recordCb [] sampleDb2 with
      | .ok r _ => r.1.map (·.id)
      | .error _ _ => []) = [[99], [100, 1]] ∧
    (match allDocs Env.toy (some [98]) ⟨false, false, false⟩ recordCb [] sampleDb2 with
      | .ok r _ => (r.1.map (·.id), r.2)
      | .error _ _ => ([], none)) = ([[98], [99], [100, 1]], none) ∧
    (match allDocs Env.toy (some [98]) ⟨false, false, false⟩ recordCb [] flakyDb with
      | .ok r _ => (r.1.map (·.id), r.2)
      | .error _ _ => ([], none)) = ([[98]], some (.io 5)) := by
  refine ⟨sampleReach2, ?_, by decide +kernel⟩
  obtain ⟨db0, h0, hs⟩ := sampleReach2
  exact ⟨db0, h0, .step hs (.faults _)⟩

/-! ## C16 Statistics -/

/-- The statistics count the documents of the enumeration by id: live ones, deleted ones, and the
space used by the bodies (in 48 bits) plus the sizes recorded for the three trees; the last sequence
is an upper bound of all numbers in use (and is what `C13` is about). -/
theorem C16_statistics (E : Env) (L : E.Laws) (db : Db) (hr : Reachable E db) :
    ∃ l r, answer (allDocs E none ⟨false, false, false⟩ recordCb []) db = .ok (l, none) ∧
      answer dbInfo db = .ok r ∧
      r.docCount = (l.filter (!·.deleted)).length ∧
      r.deletedCount = (l.filter (·.deleted)).length ∧
      r.lastSequence = db.header.updateSeq ∧ (∀ d ∈ l, d.dbSeq ≤ r.lastSequence) ∧
      r.spaceUsed = (l.map (·.physicalSize)).sum % 2 ^ 48 +
        rootSize db.header.byIdRoot + rootSize db.header.bySeqRoot + rootSize db.header.localRoot ∧
      r.fileSize = db.file.pos := by
  obtain ⟨⟨ids, seqs, locs, inv⟩, hd⟩ := hr.good L
  have hall := ask_eq E L inv hd (.allDocs none ⟨false, false, false⟩) trivial
  simp only [ask, specAsk, Reply.docs.injEq] at hall
  rw [List.filter_eq_self.mpr (by intro d _; simp [selects_all])] at hall
  obtain ⟨r, h1, h2, h3, -⟩ := info_answer E inv
  simp only [statsOf, docStats, Prod.mk.injEq] at h2
  obtain ⟨i1, i2, i3, i4, -⟩ := h2
  refine ⟨_, r, hall, h1, ?_, ?_, i1, ?_, i4, h3⟩
  · rw [i2, List.countP_eq_length_filter]
  · rw [i3, List.countP_eq_length_filter]
  · intro d hdm
    obtain ⟨e, he, rfl⟩ := List.mem_map.mp hdm
    rw [i1]
    exact inv.upd e he

/-- Two live and two deleted documents, with one body of one byte and an empty compressed one. -/
example : Reachable Env.toy sampleDb2 ∧
    (answer dbInfo sampleDb2).toOption.map (fun r => (r.docCount, r.deletedCount, r.lastSequence)) =
      some (2, 2, 6) := ⟨sampleReach2, by decide +kernel⟩

/-! ## C17 Counting changes -/

/-- The number of changes between `a` and `b` is the number of entries of the change feed since `a`
that have a number of at most `b`; misbehaving operations can only turn the answer into an error. -/
theorem C17_changes_count (E : Env) (L : E.Laws) (db : Db) (hr : Reachable E db) (a b : Nat)
    (ha : a < 2 ^ 48) (hb : b < 2 ^ 48) :
    ∃ l, answer (changesSince E a ⟨false, false, false⟩ recordCb []) db = .ok (l, none) ∧
      answer (changesCount E a b) db = .ok (l.filter (fun d => decide (d.dbSeq ≤ b))).length ∧
      ∀ n db', changesCount E a b db = .ok n db' →
        n = (l.filter (fun d => decide (d.dbSeq ≤ b))).length := by
  obtain ⟨⟨ids, seqs, locs, inv⟩, hd⟩ := hr.good L
  have hall := ask_eq E L inv hd (.changes a ⟨false, false, false⟩) ha
  have hcnt := ask_eq E L inv hd (.count a b) trivial
  simp only [ask, specAsk, Reply.docs.injEq, Reply.num.injEq] at hall hcnt
  have key : ((seqs.map (·.info)).countP fun d =>
      decide (a % 2 ^ 48 ≤ d.dbSeq) && decide (d.dbSeq ≤ b % 2 ^ 48)) =
      (((seqs.map (·.info)).filter fun d => decide (a ≤ d.dbSeq) && (ScanOpts.mk false false false).selects d).filter
        (fun d => decide (d.dbSeq ≤ b))).length := by
    rw [List.countP_eq_length_filter, List.filter_filter]
    congr 1
    apply List.filter_congr
    intro d _
    rw [Nat.mod_eq_of_lt ha, Nat.mod_eq_of_lt hb, selects_all, Bool.and_true, Bool.and_comm]
  refine ⟨_, hall, ?_, ?_⟩
  · rw [hcnt, key]
  · intro n db' h
    rw [← key]
    exact ((changesCount_spec E L db inv a b).ok h).2

/-- Counts that are neither 0 nor everything. -/
example : Reachable Env.toy sampleDb2 ∧
    (answer (changesCount Env.toy 4 5) sampleDb2).toOption = some 2 ∧
    (answer (changesCount Env.toy 3 3) sampleDb2).toOption = some 0 := ⟨sampleReach2, by decide +kernel⟩

/-! ## C18 Local documents -/

/-- After saving local documents: saved ones open with the saved contents, deleted ones are not
found, all others are as before; every question not about local documents has the same answer as
before, and so have the last sequence, the numbers of documents and the purge sequence. -/
theorem C18_local_documents (E : Env) (L : E.Laws) (db : Db) (hr : Reachable E db) (ds : List LocalDoc)
    (args : LocalArgs ds) (db' : Db)
    (h : saveLocalDocuments E ds db = .ok () db' ∨ ∃ d, ds = [d] ∧ saveLocalDocument E d db = .ok () db') :
    (∀ d ∈ ds, d.deleted = false → answer (openLocalDocument E d.id) db' = .ok ⟨d.id, d.json, false⟩) ∧
    (∀ d ∈ ds, d.deleted = true → answer (openLocalDocument E d.id) db' = .error .docNotFound) ∧
    (∀ id, id ∉ ds.map (·.id) → answer (openLocalDocument E id) db' = answer (openLocalDocument E id) db) ∧
    (∀ q : Query, q.Ok → (∀ id, q ≠ .localDoc id) → q ≠ .info → ask E db' q = ask E db q) ∧
    (∃ r r', answer dbInfo db = .ok r ∧ answer dbInfo db' = .ok r' ∧ r'.lastSequence = r.lastSequence ∧
      r'.docCount = r.docCount ∧ r'.deletedCount = r.deletedCount ∧ r'.purgeSeq = r.purgeSeq) := by
  obtain ⟨⟨ids, seqs, locs, inv⟩, hd⟩ := hr.good L
  have hsv : LocalSaved E db ids seqs locs ds db' := by
    rcases h with h | ⟨d, rfl, h⟩
    · exact (saveLocalDocuments_spec E L db inv hd ds args.item args.pairwise).ok h
    · exact (saveLocalDocument_spec E L db inv hd d (args.item d (by simp))).ok h
  obtain ⟨-, h2, locs', inv', h3⟩ := hsv
  have hd' : db'.dropped = false := by rw [h2]; exact hd
  have loc : ∀ id, answer (openLocalDocument E id) db' = localOr id (kvFind id locs') := fun id => by
    have := ask_eq E L inv' hd' (.localDoc id) trivial
    simpa only [ask, specAsk, Reply.loc.injEq] using this
  have loc0 : ∀ id, answer (openLocalDocument E id) db = localOr id (kvFind id locs) := fun id => by
    have := ask_eq E L inv hd (.localDoc id) trivial
    simpa only [ask, specAsk, Reply.loc.injEq] using this
  have hfind : ∀ d ∈ ds, ds.find? (fun x => decide (x.id = d.id)) = some d := by
    intro d hdm
    have hn := args.pairwise
    clear h h2 inv' h3 loc loc0 args
    induction ds with
    | nil => simp at hdm
    | cons x xs ih =>
      obtain ⟨p1, p2⟩ := List.pairwise_cons.mp hn
      by_cases hx : x.id = d.id
      · rcases List.mem_cons.mp hdm with rfl | hm
        · simp
        · exact absurd hx (p1 d hm)
      · rcases List.mem_cons.mp hdm with rfl | hm
        · exact absurd rfl hx
        · rw [List.find?_cons_of_neg (by simpa using hx)]
          exact ih hm p2
  refine ⟨?_, ?_, ?_, ?_, ?_⟩
  · intro d hdm hdel
    rw [loc, h3]
    unfold localSet
    rw [hfind d hdm]
    simp [hdel, localOr]
  · intro d hdm hdel
    rw [loc, h3]
    unfold localSet
    rw [hfind d hdm]
    simp [hdel, localOr]
  · intro id hid
    rw [loc, h3, loc0]
    unfold localSet
    rw [List.find?_eq_none.mpr (by
      intro x hx h0
      exact hid (List.mem_map.mpr ⟨x, hx, by simpa using h0⟩))]
  · intro q hq h4 h5
    rw [ask_eq E L inv hd q hq, ask_eq E L inv' hd' q hq]
    cases q with
    | localDoc id => exact absurd rfl (h4 id)
    | info => exact absurd rfl h5
    | _ => rfl
  · obtain ⟨r, i1, i2, -⟩ := info_answer E inv
    obtain ⟨r', j1, j2, -⟩ := info_answer E inv'
    refine ⟨r, r', i1, j1, ?_⟩
    simp only [statsOf, Prod.mk.injEq] at i2 j2
    rw [i2.1, i2.2.1, i2.2.2.1, i2.2.2.2.2, j2.1, j2.2.1, j2.2.2.1, j2.2.2.2.2, h2]
    exact ⟨rfl, rfl, rfl, rfl⟩

/-- Local documents of the example: two are saved, then one of them is deleted and one is added. -/
def sampleLocals : List LocalDoc := [⟨[95, 2], [5, 5], false⟩, ⟨[95, 1], [6], false⟩]
def sampleLocals2 : List LocalDoc := [⟨[95, 3], [7], false⟩, ⟨[95, 2], [], true⟩]
def sampleDb3 : Db := after (saveLocalDocuments Env.toy sampleLocals) sampleDb2
def sampleDb4 : Db := after (saveLocalDocuments Env.toy sampleLocals2) sampleDb3

theorem sampleLocals_ok : LocalArgs sampleLocals := ⟨by decide, by decide⟩
theorem sampleLocals2_ok : LocalArgs sampleLocals2 := ⟨by decide, by decide⟩

example : Reachable Env.toy sampleDb3 ∧ LocalArgs sampleLocals2 ∧
    saveLocalDocuments Env.toy sampleLocals2 sampleDb3 = .ok () sampleDb4 ∧
    (answer (openLocalDocument Env.toy [95, 1]) sampleDb4).toOption = some ⟨[95, 1], [6], false⟩ ∧
    (answer (openLocalDocument Env.toy [95, 2]) sampleDb3).toOption = some ⟨[95, 2], [5, 5], false⟩ := by
  refine ⟨?_, sampleLocals2_ok, ?_, by decide +kernel, by decide +kernel⟩
  · obtain ⟨db0, h0, hs⟩ := sampleReach2
    exact ⟨db0, h0, .step hs (.saveLocals _ sampleLocals_ok)⟩
  · obtain ⟨⟨⟩, h⟩ := exists_of_isOk (m := saveLocalDocuments Env.toy sampleLocals2) (s := sampleDb3)
      (by decide +kernel)
    exact h

/-! ## C09 and C31 for the document functions -/

/-- Looking up several distinct ids delivers, in ascending order of the ids, exactly those documents
that exist. -/
theorem C09_docinfos_by_id (E : Env) (L : E.Laws) (db : Db) (hr : Reachable E db) (keys : List Bytes)
    (hk : keys ≠ []) (hn : keys.Nodup) :
    ∃ l : List DocInfo,
      l.Pairwise (fun a b => a.id < b.id) ∧
      (∀ d, d ∈ l ↔ answer (docinfoById E d.id) db = .ok d ∧ d.id ∈ keys) ∧
      ∀ (σ : Type) (cb : ChangesCb σ) (u : σ),
        ∃ r db', docinfosById E keys false false cb u db = .ok r db' ∧ ScanResult cb db l u r := by
  obtain ⟨⟨ids, seqs, locs, inv⟩, hd⟩ := hr.good L
  refine ⟨_, ?_, ?_, fun σ cb u => scan_of_spec (docinfosById_spec E L db inv hd keys hk hn cb u)⟩
  · rw [List.pairwise_filterMap]
    refine (sortKeys_lt ebinCmp_laws keys (fun _ _ => trivial) hn
      fun a b _ _ h => (ebinCmp_eq_iff _ _).mp h).imp ?_
    intro a b hab x hx y hy
    cases hx' : entFind a ids with
    | none => rw [hx'] at hx; cases hx
    | some ex =>
      cases hy' : entFind b ids with
      | none => rw [hy'] at hy; cases hy
      | some ey =>
        rw [hx'] at hx
        rw [hy'] at hy
        cases hx; cases hy
        rw [(mem_of_entFind hx').2, (mem_of_entFind hy').2]
        exact (ebinCmp_lt_iff _ _).mp hab
  · intro d
    rw [List.mem_filterMap, docinfoById_answer E L inv hd]
    constructor
    · rintro ⟨k, hk1, hk2⟩
      cases hf : entFind k ids with
      | none => rw [hf] at hk2; cases hk2
      | some e =>
        rw [hf] at hk2
        cases hk2
        have := (mem_of_entFind hf).2
        rw [this, hf]
        exact ⟨rfl, mem_sortBy.mp hk1⟩
    · rintro ⟨h1, h2⟩
      refine ⟨d.id, mem_sortBy.mpr h2, ?_⟩
      cases hf : entFind d.id ids with
      | none => rw [hf] at h1; cases h1
      | some e => rw [hf] at h1; cases h1; rfl

/-- The range variant with a single range delivers, in ascending order, exactly the documents with
an id in it.  (With several ranges the property fails, see `C31_ranges_fail`.) -/
theorem C31_docinfos_range_partial (E : Env) (L : E.Laws) (db : Db) (hr : Reachable E db) (lo hi : Bytes) :
    ∃ l : List DocInfo,
      l.Pairwise (fun a b => a.id < b.id) ∧
      (∀ d, d ∈ l ↔ answer (docinfoById E d.id) db = .ok d ∧ lo ≤ d.id ∧ d.id ≤ hi) ∧
      ∀ (σ : Type) (cb : ChangesCb σ) (u : σ),
        ∃ r db', docinfosById E [lo, hi] true false cb u db = .ok r db' ∧ ScanResult cb db l u r := by
  obtain ⟨⟨ids, seqs, locs, inv⟩, hd⟩ := hr.good L
  refine ⟨_, ?_, ?_, fun σ cb u => scan_of_spec (docinfosById_ranges_spec E L db inv hd lo (some hi) cb u)⟩
  · apply List.Pairwise.filter
    rw [List.pairwise_map]
    exact inv.idSorted.imp fun h => (ebinCmp_lt_iff _ _).mp h
  · intro d
    rw [List.mem_filter, known_iff E L inv hd]
    simp

/-- The same for a range of sequence numbers. -/
theorem C31_docinfos_seq_range_partial (E : Env) (L : E.Laws) (db : Db) (hr : Reachable E db) (lo hi : Nat)
    (hlo : lo < 2 ^ 48) (hhi : hi < 2 ^ 48) :
    ∃ l : List DocInfo,
      l.Pairwise (fun a b => a.dbSeq < b.dbSeq) ∧
      (∀ d, d ∈ l ↔ answer (docinfoById E d.id) db = .ok d ∧ lo ≤ d.dbSeq ∧ d.dbSeq ≤ hi) ∧
      ∀ (σ : Type) (cb : ChangesCb σ) (u : σ),
        ∃ r db', docinfosBySequence E [lo, hi] true false cb u db = .ok r db' ∧ ScanResult cb db l u r := by
  obtain ⟨⟨ids, seqs, locs, inv⟩, hd⟩ := hr.good L
  refine ⟨_, ?_, ?_, fun σ cb u => scan_of_spec
    (docinfosBySequence_ranges_spec E L db inv hd lo hlo (some hi) (by intro h hh; cases hh; exact hhi) cb u)⟩
  · apply List.Pairwise.filter
    rw [List.pairwise_map]
    exact inv.seqSorted
  · intro d
    rw [List.mem_filter, known_iff E L inv hd, (inv.perm.map (fun e : Entry => e.info)).mem_iff]
    simp

example : Reachable Env.toy sampleDb2 ∧
    (match docinfosById Env.toy [[99], [1], [98]] false false recordCb [] sampleDb2 with
      | .ok r _ => r.1.map (·.id)
      | .error _ _ => []) = [[98], [99]] ∧
    (match docinfosById Env.toy [[98], [99, 255]] true false recordCb [] sampleDb2 with
      | .ok r _ => r.1.map (·.id)
      | .error _ _ => []) = [[98], [99]] ∧
    (match docinfosBySequence Env.toy [3, 5] true false recordCb [] sampleDb2 with
      | .ok r _ => r.1.map (·.dbSeq)
      | .error _ _ => []) = [4, 5] :=
  ⟨sampleReach2, by decide +kernel⟩

end Couchstore.Props
