import Verif.Lemmas.Walk
import Verif.Lemmas.Replay
import Verif.Props.Scan

/-! Property theorem C51: walking over the trees of a database. -/

namespace Couchstore.Props

theorem walk_of_spec {σ : Type} {m : DbM (σ × Option Err)} {db : Db} {cb : WalkCb σ} {l : List (Nat × WalkItem)} {u : σ}
    (h : Sp m db (fun r d => RD db d ∧ Walked cb db.file l u r) (fun _ _ => False)) :
    ∃ r db', m db = .ok r db' ∧ WalkResult cb db l u r := by
  cases hm : m db with
  | ok r d =>
    obtain ⟨-, h1⟩ := h.ok hm
    refine ⟨r, d, rfl, ?_⟩
    rcases h1 with h1 | h1
    · exact Or.inl h1.symm
    · exact Or.inr h1
  | error e d => exact (h.error hm).elim

/-! ## C51 Walks -/

/-- Walking over the by-id tree.  There are the list `docs` of all documents, by ascending id, and a list `calls`, which shows
a balanced tree over `docs` (`ShownTree`): each node that has a document not before `start` once, before what is below it, with
its depth, its size and the numbers of live and deleted documents and the sum of the body sizes below it; and each document
that is not before `start` and that the options select once, in order, below all its nodes.  The walk makes these calls. -/
theorem C51_walk_id (E : Env) (L : E.Laws) (db : Db) (hr : Reachable E db) (start : Option Bytes) (opts : ScanOpts) :
    ∃ (docs : List DocInfo) (calls : List (Nat × WalkItem)),
      docs.Pairwise (fun a b => a.id < b.id) ∧
      (∀ d, d ∈ docs ↔ answer (docinfoById E d.id) db = .ok d) ∧
      ShownTree (fun ds r => r = enc40 (ds.countP (!·.deleted)) ++ enc40 (ds.countP (·.deleted)) ++ enc48 (ds.map (·.physicalSize)).sum)
        (fun d => decide (∀ s, start = some s → s ≤ d.id)) opts.selects id (rootSize db.header.byIdRoot) docs calls ∧
      ∀ (σ : Type) (cb : WalkCb σ) (u : σ), WalkTolerantOk opts cb db →
        ∃ r db', walkIdTree E start opts cb u db = .ok r db' ∧ WalkResult cb db calls u r := by
  obtain ⟨⟨ids, seqs, locs, inv⟩, hd⟩ := hr.good L
  have hkv : idKVs ids = (ids.map (·.info)).map idKV := by unfold idKVs; rw [List.map_map]; rfl
  obtain ⟨calls, h1, h2⟩ := walkTree_spec (enc := idKV) (show' := id) (read := byIdReadDocInfo) (P := DocOk)
    (R := fun ds r => r = enc40 (ds.countP (!·.deleted)) ++ enc40 (ds.countP (·.deleted)) ++ enc48 (ds.map (·.physicalSize)).sum)
    (reached := fun d => decide (∀ s, start = some s → s ≤ d.id)) E L ebin_look byId_hV (start.getD []) trivial db inv.wf hd
    db.header.byIdRoot (ids.map (·.info)) (hkv ▸ inv.idRoot)
    (by rw [lookupCompare_ebin, ← hkv]; exact sorted_idKVs.mpr inv.idSorted) opts
    (by
      intro d _
      rw [lookupCompare_ebin, decide_eq_decide]
      simp only [ne_eq, idKV, ebinCmp_lt_iff, List.not_lt]
      cases start <;> simp)
    (fun d hd => byId_roundtrip _ hd.fits)
    (by
      rintro xs r hxs ⟨ds, hds, he, rfl⟩
      rw [idKV_inj hxs hds he]
      rfl)
    (by
      intro d hd
      obtain ⟨e, he, rfl⟩ := List.mem_map.mp hd
      exact inv.ok e he)
  refine ⟨_, calls, ?_, fun d => (known_iff E L inv hd d).symm, h1, fun σ cb u ht => walk_of_spec ?_⟩
  · rw [List.pairwise_map]
    exact inv.idSorted.imp fun h => (ebinCmp_lt_iff _ _).mp h
  · unfold walkIdTree
    exact Sp.get_bind (h2 σ cb u ht)

/-- The same for the by-sequence tree, with the documents by ascending sequence number; a node is shown with the number of
documents below it. -/
theorem C51_walk_seq (E : Env) (L : E.Laws) (db : Db) (hr : Reachable E db) (start : Nat) (hs : start < 2 ^ 48) (opts : ScanOpts) :
    ∃ (docs : List DocInfo) (calls : List (Nat × WalkItem)),
      docs.Pairwise (fun a b => a.dbSeq < b.dbSeq) ∧
      (∀ d, d ∈ docs ↔ answer (docinfoById E d.id) db = .ok d) ∧
      ShownTree (fun ds r => r = enc40 ds.length) (fun d => decide (start ≤ d.dbSeq)) opts.selects id
        (rootSize db.header.bySeqRoot) docs calls ∧
      ∀ (σ : Type) (cb : WalkCb σ) (u : σ), WalkTolerantOk opts cb db →
        ∃ r db', walkSeqTree E start opts cb u db = .ok r db' ∧ WalkResult cb db calls u r := by
  obtain ⟨⟨ids, seqs, locs, inv⟩, hd⟩ := hr.good L
  have hkv : seqKVs seqs = (seqs.map (·.info)).map seqKV := by unfold seqKVs; rw [List.map_map]; rfl
  have hne : ∀ s, enc48 s ≠ [] := fun s h => by have := congrArg List.length h; simp at this
  obtain ⟨calls, h1, h2⟩ := walkTree_spec (enc := seqKV) (show' := id) (read := bySeqReadDocInfo) (P := DocOk)
    (R := fun ds r => r = enc40 ds.length)
    (reached := fun d => decide (start ≤ d.dbSeq)) E L seq_look bySeq_hV (enc48 start) (Or.inl (by simp)) db inv.wf hd
    db.header.bySeqRoot (seqs.map (·.info)) (hkv ▸ inv.seqRoot)
    (by rw [← hkv]; exact sorted_seqKVs_look inv.seqSorted inv.seqOk) opts
    (by
      intro d hok
      rw [decide_eq_decide]
      show lookupCompare seqCmp (enc48 d.dbSeq) (enc48 start) ≠ .lt ↔ _
      rw [lookupCompare_nonempty (hne _) (hne _), seqCmp_enc48 hok.fits.dbSeq hs]
      by_cases h : d.dbSeq = start
      · simp [h]
      · by_cases h2 : d.dbSeq < start
        · simp [h, h2]
        · simp only [h, h2, if_false]
          have : start ≤ d.dbSeq := by omega
          simp [this])
    (fun d hd => bySeq_roundtrip _ hd.fits)
    (by
      intro xs r _ h
      have h : r = enc40 (xs.map seqKV).length := h
      rw [h, List.length_map])
    (by
      intro d hd
      obtain ⟨e, he, rfl⟩ := List.mem_map.mp hd
      exact inv.seqOk e he)
  refine ⟨_, calls, ?_, fun d => ?_, h1, fun σ cb u ht => walk_of_spec ?_⟩
  · rw [List.pairwise_map]
    exact inv.seqSorted
  · rw [known_iff E L inv hd, (inv.perm.map (fun e : Entry => e.info)).mem_iff]
  · unfold walkSeqTree
    exact Sp.get_bind (h2 σ cb u ht)

/-- What a walk shows of a local document: the id and the length of its body. -/
def localInfo (x : LocalDoc) : DocInfo :=
  { id := x.id, dbSeq := 0, revSeq := 0, revMeta := [], deleted := false, contentMeta := 0, bp := 0, physicalSize := x.json.length }

/-- The same for the tree of local documents; there are no reductions. -/
theorem C51_walk_local (E : Env) (L : E.Laws) (db : Db) (hr : Reachable E db) (start : Option Bytes) (opts : ScanOpts) :
    ∃ (docs : List LocalDoc) (calls : List (Nat × WalkItem)),
      docs.Pairwise (fun a b => a.id < b.id) ∧
      (∀ x, x ∈ docs ↔ answer (openLocalDocument E x.id) db = .ok x) ∧
      ShownTree (fun _ r => r = []) (fun x => decide (∀ s, start = some s → s ≤ x.id)) (fun x => opts.selects (localInfo x)) localInfo
        (rootSize db.header.localRoot) docs calls ∧
      ∀ (σ : Type) (cb : WalkCb σ) (u : σ), WalkTolerantOk opts cb db →
        ∃ r db', walkLocalTree E start opts cb u db = .ok r db' ∧ WalkResult cb db calls u r := by
  obtain ⟨⟨ids, seqs, locs, inv⟩, hd⟩ := hr.good L
  have hkv : locs = (locs.map fun kv => (⟨kv.1, kv.2, false⟩ : LocalDoc)).map fun x => (x.id, x.json) := by
    rw [List.map_map]
    exact (List.map_id _).symm
  obtain ⟨calls, h1, h2⟩ := walkTree_spec (enc := fun x : LocalDoc => (x.id, x.json)) (show' := localInfo) (read := localReadDocInfo)
    (P := fun _ => True) (R := fun _ r => r = [])
    (reached := fun x => decide (∀ s, start = some s → s ≤ x.id)) E L ebin_look (X := Idx.loc) (fun kv h => ⟨trivial, h.1⟩)
    (start.getD []) trivial db inv.wf hd
    db.header.localRoot (locs.map fun kv => ⟨kv.1, kv.2, false⟩) (hkv ▸ inv.locRoot)
    (by rw [lookupCompare_ebin, ← hkv]; exact inv.locSorted) opts
    (by
      intro d _
      rw [lookupCompare_ebin, decide_eq_decide]
      simp only [ne_eq, ebinCmp_lt_iff, List.not_lt]
      cases start <;> simp)
    (fun d hd => rfl)
    (fun xs r _ h => h)
    (fun _ _ => trivial)
  refine ⟨_, calls, ?_, fun x => ?_, h1, fun σ cb u ht => walk_of_spec ?_⟩
  · rw [List.pairwise_map]
    exact inv.locSorted.imp fun h => (ebinCmp_lt_iff _ _).mp h
  · have loc : answer (openLocalDocument E x.id) db = localOr x.id (kvFind x.id locs) := by
      have := ask_eq E L inv hd (.localDoc x.id) trivial
      simpa only [ask, specAsk, Reply.loc.injEq] using this
    rw [loc, List.mem_map]
    constructor
    · rintro ⟨⟨k, v⟩, hm, rfl⟩
      rw [kvFind_of_mem ebinCmp_laws (fun _ _ => trivial) inv.locSorted hm]
      rfl
    · intro h
      cases hf : kvFind x.id locs with
      | none => rw [hf] at h; cases h
      | some v =>
        rw [hf] at h
        have h : Except.ok (⟨x.id, v, false⟩ : LocalDoc) = Except.ok x := h
        injection h with h
        exact ⟨(x.id, v), kvFind_mem hf, h⟩
  · unfold walkLocalTree
    exact Sp.get_bind (h2 σ cb u ht)

/-- The callback that records its calls. -/
def recordWalk : WalkCb (List (Nat × WalkItem)) := fun u d x => (u ++ [(d, x)], none)

/-- The calls of a walk: depth, size and reduction of a node, or depth and id of a document. -/
def shown (r : EStateM.Result Err Db (List (Nat × WalkItem) × Option Err)) : List (Nat × Nat × Bytes) × Option Err :=
  match r with
  | .ok r _ => (r.1.map fun c => (c.1, match c.2 with | .node s r => (s, r) | .doc d => (0, d.id)), r.2)
  | .error e _ => ([], some e)

/-- Walks over the database of four documents, whose trees have a root and two leaves; over the same when its fifth raw
operation fails; and over one with two local documents. -/
example : Reachable Env.toy sampleDb2 ∧ Reachable Env.toy flakyDb ∧ Reachable Env.toy sampleDb3 ∧
    WalkTolerantOk ⟨false, false, false⟩ recordWalk flakyDb ∧
    shown (walkIdTree Env.toy (some [98]) ⟨false, false, false⟩ recordWalk [] sampleDb2) =
      ([(0, 224, [0, 0, 0, 0, 2, 0, 0, 0, 0, 2, 0, 0, 0, 0, 0, 18]), (1, 70, [0, 0, 0, 0, 0, 0, 0, 0, 0, 2, 0, 0, 0, 0, 0, 0]),
        (2, 0, [98]), (1, 71, [0, 0, 0, 0, 2, 0, 0, 0, 0, 0, 0, 0, 0, 0, 0, 18]), (2, 0, [99]), (2, 0, [100, 1])], none) ∧
    shown (walkSeqTree Env.toy 0 ⟨false, false, false⟩ recordWalk [] flakyDb) =
      ([(0, 215, [0, 0, 0, 0, 4]), (1, 72, [0, 0, 0, 0, 2]), (2, 0, [97]), (2, 0, [99]), (1, 73, [0, 0, 0, 0, 2])], some (.io 5)) ∧
    shown (walkLocalTree Env.toy none ⟨false, false, false⟩ recordWalk [] sampleDb3) =
      ([(0, 27, []), (1, 0, [95, 1]), (1, 0, [95, 2])], none) := by
  obtain ⟨db0, h0, hs⟩ := sampleReach2
  exact ⟨⟨db0, h0, hs⟩, ⟨db0, h0, .step hs (.faults _)⟩, ⟨db0, h0, .step hs (.saveLocals _ sampleLocals_ok)⟩, fun h => (nomatch h),
    by decide +kernel, by decide +kernel, by decide +kernel⟩

end Couchstore.Props
