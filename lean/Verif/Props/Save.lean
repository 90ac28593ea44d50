import Verif.Lemmas.Saved
import Verif.Lemmas.History
import Verif.Spec.Env

/-! Property theorems C11, C12, C13, C19, C33 and C38: saving documents.

`Reachable E db` (Spec/History.lean): the handle `db` is reached by a history of saves of documents
and of local documents, commits, moves between headers, crashes and reopening, each of which may
succeed or fail, under any schedule of misbehaving raw file operations.  `SaveArgs` are the requirements on the arguments of a save.
`answer f db` is what the read function `f` returns on the handle when no raw operation misbehaves.
All theorems are for every compressor, checksum and cipher satisfying `E.Laws`. -/

namespace Couchstore.Props

variable {σ : Type}

/-! ## C11 Read your writes -/

/-- After a successful save: document `i` of the batch is found by its id with the saved metadata
and the sequence number reported for it; its body opens as saved (a compressed body if it is
decompressed, i.e. the flag `dec` must agree with the compress option of the save when bit 7 of the
metadata says "compressed"), a document without a body is a tombstone; every other id gives the same answers
as before. -/
theorem C11_read_your_writes (E : Env) (L : E.Laws) (db : Db) (hr : Reachable E db) (opts : SaveOpts)
    (cb : Option (SaveCb σ)) (items : List SaveItem) (u : σ) (args : SaveArgs E db opts items)
    (infos : List DocInfo) (u' : σ) (db' : Db)
    (h : saveDocuments E opts cb items u db = .ok (infos, u') db') :
    infos.length = items.length ∧
    (∀ (i : Nat) (it : SaveItem) (info : DocInfo), items[i]? = some it → infos[i]? = some info →
      ∃ d, answer (docinfoById E it.info.id) db' = .ok d ∧
        d.id = it.info.id ∧ d.dbSeq = info.dbSeq ∧ d.revSeq = it.info.revSeq ∧
        d.revMeta = it.info.revMeta ∧ d.contentMeta = it.info.contentMeta ∧
        d.deleted = (it.info.deleted || it.doc.isNone) ∧
        (it.doc = none → d.physicalSize = 0) ∧
        (∀ body, it.doc = some body →
          d.physicalSize = chunkLen E db.file.cfg (storedBody E opts it.info body)) ∧
        (∀ body dec, it.doc = some body →
          (it.info.contentMeta.testBit 7 = true → dec = opts.compress) →
          answer (openDocument E it.info.id dec) db' = .ok body) ∧
        (it.doc = none → ∀ dec, answer (openDocument E it.info.id dec) db' = .error .docNotFound)) ∧
    (∀ id, id ∉ items.map (·.info.id) →
      answer (docinfoById E id) db' = answer (docinfoById E id) db ∧
      ∀ dec, answer (openDocument E id dec) db' = answer (openDocument E id dec) db) := by
  obtain ⟨⟨ids, seqs, locs, inv⟩, hd⟩ := hr.good L
  obtain ⟨-, -, hd', -, h1, es, ids', seqs', h2, -, h3, inv'⟩ :=
    (saveDocuments_spec E L opts cb items u db inv hd (args.fits L inv hd)).ok h
  dsimp only at h1 h2
  obtain ⟨g1, g2, g3⟩ := h2.get
  obtain ⟨f1, f2⟩ := entFind_saved h3 inv'.idSorted
  have hids : es.map (fun e => e.info.id) = items.map (·.info.id) := by
    have := congrArg (List.map Prod.fst) h2.ids
    rw [h1, List.map_map, List.map_map] at this
    rw [← assignAll_ids opts items db.header.updateSeq]
    exact this
  refine ⟨g1.symm, ?_, ?_⟩
  · intro i it info hi hinfo
    obtain ⟨d, e, k1, k2, k3⟩ := g3 i it hi
    obtain rfl : d = info := by rw [hinfo] at k1; simpa using k1.symm
    have hform := assignAll_get opts items db.header.updateSeq i it d hi (by rw [← h1]; exact hinfo)
    obtain ⟨m1, m2⟩ := k3.fields
    have hmem : e ∈ es := List.mem_of_getElem? k2
    have hid : e.info.id = it.info.id := by rw [m1]; show d.id = _; rw [hform]
    have hfind := f1 e hmem
    rw [hid] at hfind
    refine ⟨e.info, ?_, hid, by rw [m1], by rw [m1]; show d.revSeq = _; rw [hform],
      by rw [m1]; show d.revMeta = _; rw [hform], by rw [m1]; show d.contentMeta = _; rw [hform],
      by rw [m1]; show (d.deleted || _) = _; rw [hform], ?_, ?_, ?_, ?_⟩
    · rw [docinfoById_answer E L inv' hd', hfind]; rfl
    · intro hnone
      rw [m1]
      show (it.doc.map _).getD 0 = 0
      rw [hnone]; rfl
    · intro body hbody
      rw [m1]
      show (it.doc.map _).getD 0 = _
      rw [hbody]
      show chunkLen E db.file.cfg (storedBody E opts d body) = _
      rw [storedBody_congr]
      rw [hform]
    · intro body dec hbody hdec
      rw [openDocument_answer E L inv' hd', hfind]
      have hcm : e.info.contentMeta = it.info.contentMeta := by rw [m1]; show d.contentMeta = _; rw [hform]
      have hcd : d.contentMeta = it.info.contentMeta := by rw [hform]
      have hraw : e.raw = some (storedBody E opts d body) := by rw [m2, hbody]; rfl
      unfold openIdAns openAns
      simp only [hraw, hcm, isCompressed_eq]
      unfold storedBody
      rw [hcd]
      cases hc : it.info.contentMeta.testBit 7 with
      | false => simp
      | true =>
        rw [hdec hc]
        cases opts.compress <;> simp [L.inflate_deflate]
    · intro hnone dec
      rw [openDocument_answer E L inv' hd', hfind]
      have hraw : e.raw = none := by rw [m2, hnone]; rfl
      unfold openIdAns openAns
      simp only [hraw]
  · intro id hid
    have : entFind id ids' = entFind id ids := f2 id (by
      intro e he h0
      apply hid
      rw [← hids, ← h0]
      exact List.mem_map_of_mem (f := fun e : Entry => e.info.id) he)
    refine ⟨?_, fun dec => ?_⟩
    · rw [docinfoById_answer E L inv' hd', docinfoById_answer E L inv hd, this]
    · rw [openDocument_answer E L inv' hd', openDocument_answer E L inv hd, this]

/-- A new database of the examples, with small nodes so that trees get several levels. -/
def newDb : Db where
  file := { disk := [0], pos := 1, cfg := ⟨.crc32c, none, 64, 64⟩, faults := [], log := [] }
  header := ⟨13, 0, none, none, none, 0, 0, 0, 0, 0, false⟩
  dropped := false
  readOnly := false

theorem newDb_fresh : Fresh newDb where
  wf := ⟨by decide, by decide⟩
  pos := by decide
  thr := by decide
  empty := ⟨rfl, rfl, rfl, by decide⟩
  opened := rfl

/-- A document of the examples. -/
def sampleItem (id : Bytes) (body : Option Bytes) (cm : Nat) : SaveItem :=
  ⟨body, ⟨id, 0, 1, [9], false, cm, 0, 0⟩, 5⟩

/-- A batch: three documents, one of them compressed, one without a body. -/
def sampleItems : List SaveItem :=
  [sampleItem [98] (some [1, 2, 3]) 128, sampleItem [97] none 0, sampleItem [99] (some [4, 5]) 0]

/-- The second batch: an update, a deletion and a new document. -/
def sampleItems2 : List SaveItem :=
  [sampleItem [99] (some [6]) 0, sampleItem [98] none 0, sampleItem [100, 1] (some []) 128]

/-- The options of the examples. -/
def sampleOpts : SaveOpts := ⟨true, false⟩

/-- Checks the requirements on a batch. -/
def itemOkB (E : Env) (c : Cfg) (opts : SaveOpts) (it : SaveItem) : Bool :=
  it.info.id.length < 4096 && it.info.revSeq < 2 ^ 48 && it.info.contentMeta < 256 &&
    23 + it.info.id.length + it.info.revMeta.length < 2 ^ 28 &&
    it.doc.all (fun b => chunkLen E c (storedBody E opts it.info b) < 2 ^ 28)

theorem itemOk_of {E c opts it} (h : itemOkB E c opts it = true) : ItemOk E c opts it := by
  simp only [itemOkB, Bool.and_eq_true, decide_eq_true_eq] at h
  obtain ⟨⟨⟨⟨h1, h2⟩, h3⟩, h4⟩, h5⟩ := h
  exact ⟨h1, h2, h3, h4, fun b hb => by rw [hb] at h5; simpa using h5⟩

/-- Checks the requirements of a save that assigns sequence numbers. -/
def argsB (E : Env) (db : Db) (opts : SaveOpts) (items : List SaveItem) : Bool :=
  items.all (itemOkB E db.file.cfg opts) && decide (items.map (·.info.id)).Nodup && !opts.asIs &&
    db.header.updateSeq + items.length < 2 ^ 48 &&
    (match answer dbInfo db with
      | .ok r => r.docCount + r.deletedCount + items.length < 2 ^ 40
      | .error _ => true)

theorem args_of {E db opts items} (h : argsB E db opts items = true) : SaveArgs E db opts items := by
  simp only [argsB, Bool.and_eq_true, List.all_eq_true, decide_eq_true_eq, Bool.not_eq_true'] at h
  obtain ⟨⟨⟨⟨h1, h2⟩, h3⟩, h4⟩, h5⟩ := h
  refine ⟨fun it hit => itemOk_of (h1 it hit), h2, ?_, fun _ => h4, ?_, ?_, ?_⟩
  · intro r hr
    rw [hr] at h5
    simpa using h5
  all_goals intro h; rw [h3] at h; cases h

/-- The callback of the examples records what it is told. -/
def sampleCb : SaveCb (List (Option DocInfo × DocInfo × Nat)) := fun l old new r => l ++ [(old, new, r)]

/-- The database after the first and after the second batch. -/
def sampleDb1 : Db := after (saveDocuments Env.toy sampleOpts (some sampleCb) sampleItems []) newDb
def sampleDb2 : Db := after (saveDocuments Env.toy sampleOpts (some sampleCb) sampleItems2 []) sampleDb1

/-- Is it a success? -/
def isOk {S α : Type} (r : EStateM.Result Err S α) : Bool :=
  match r with
  | .ok _ _ => true
  | .error _ _ => false

theorem exists_of_isOk {S α : Type} {m : EStateM Err S α} {s : S} (h : isOk (m s) = true) :
    ∃ a, m s = .ok a (after m s) := by
  unfold after
  cases hm : m s with
  | ok a s' => exact ⟨a, rfl⟩
  | error e s' => rw [hm] at h; cases h

theorem sampleArgs1 : SaveArgs Env.toy newDb sampleOpts sampleItems := args_of (by decide +kernel)
theorem sampleArgs2 : SaveArgs Env.toy sampleDb1 sampleOpts sampleItems2 := args_of (by decide +kernel)

theorem sampleReach0 : Reachable Env.toy newDb := ⟨newDb, .inl newDb_fresh, .refl⟩
theorem sampleReach1 : Reachable Env.toy sampleDb1 :=
  ⟨newDb, .inl newDb_fresh, .step .refl (.save sampleOpts (some sampleCb) sampleItems [] sampleArgs1)⟩
theorem sampleReach2 : Reachable Env.toy sampleDb2 :=
  ⟨newDb, .inl newDb_fresh, .step (.step .refl (.save sampleOpts (some sampleCb) sampleItems [] sampleArgs1))
    (.save sampleOpts (some sampleCb) sampleItems2 [] sampleArgs2)⟩

/-- The hypotheses of `C11_read_your_writes` are met by the second save on top of the first. -/
example : ∃ infos u', Reachable Env.toy sampleDb1 ∧ SaveArgs Env.toy sampleDb1 sampleOpts sampleItems2 ∧
    saveDocuments Env.toy sampleOpts (some sampleCb) sampleItems2 [] sampleDb1 = .ok (infos, u') sampleDb2 := by
  obtain ⟨⟨infos, u'⟩, h⟩ := exists_of_isOk
    (m := saveDocuments Env.toy sampleOpts (some sampleCb) sampleItems2 []) (s := sampleDb1) (by decide +kernel)
  exact ⟨infos, u', sampleReach1, sampleArgs2, h⟩

/-- And the answers are not trivial: the compressed body is opened decompressed, the untouched
document is still found, the deleted one is a tombstone. -/
example : (answer (openDocument Env.toy [98] true) sampleDb1).toOption = some [1, 2, 3] ∧
    (answer (openDocument Env.toy [98] false) sampleDb1).toOption = some [7, 1, 2, 3] ∧
    (answer (openDocument Env.toy [98] true) sampleDb2).toOption = none ∧
    (answer (docinfoById Env.toy [97]) sampleDb2).toOption.map (·.deleted) = some true ∧
    (answer (openDocument Env.toy [99] true) sampleDb2).toOption = some [6] := by decide +kernel

/-! ## C12 The by-sequence and by-id indexes always describe the same documents -/

/-- In every reachable database there is a list of documents, each id and each sequence number
occurring once, which is what the change feed shows from the beginning; a document is in it iff it
is found by its id, and iff it is found by its sequence number; lookups never return a document
under another id or number. -/
theorem C12_indexes_agree (E : Env) (L : E.Laws) (db : Db) (hr : Reachable E db) :
    ∃ l : List DocInfo,
      answer (changesSince E 0 ⟨false, false, false⟩ recordCb []) db = .ok (l, none) ∧
      (l.map (·.id)).Nodup ∧ (l.map (·.dbSeq)).Nodup ∧
      (∀ d, d ∈ l ↔ answer (docinfoById E d.id) db = .ok d) ∧
      (∀ d, d ∈ l ↔ answer (docinfoBySequence E d.dbSeq) db = .ok d) ∧
      (∀ id d, answer (docinfoById E id) db = .ok d → d.id = id) ∧
      (∀ s d, s < 2 ^ 48 → answer (docinfoBySequence E s) db = .ok d → d.dbSeq = s) := by
  obtain ⟨⟨ids, seqs, locs, inv⟩, hd⟩ := hr.good L
  have hch := ask_eq E L inv hd (.changes 0 ⟨false, false, false⟩) (by simp [Query.Ok])
  simp only [ask, specAsk, Reply.docs.injEq] at hch
  have hfil : (seqs.map (·.info)).filter
      (fun d => decide (0 ≤ d.dbSeq) && (ScanOpts.mk false false false).selects d) = seqs.map (·.info) := by
    rw [List.filter_eq_self]
    intro d _
    simp [selects_all]
  rw [hfil] at hch
  have hmem : ∀ d, d ∈ seqs.map (·.info) ↔ d ∈ ids.map (·.info) := fun d => (inv.perm.map _).mem_iff
  refine ⟨seqs.map (·.info), hch, ?_, ?_, ?_, ?_, ?_, ?_⟩
  · rw [(inv.perm.map (fun e : Entry => e.info) |>.map (fun d : DocInfo => d.id)).nodup_iff, List.map_map]
    unfold List.Nodup
    rw [List.pairwise_map]
    exact inv.idSorted.imp fun h => ebin_lt_ne h
  · rw [List.map_map]
    unfold List.Nodup
    rw [List.pairwise_map]
    exact inv.seqSorted.imp fun h => Nat.ne_of_lt h
  · intro d
    rw [hmem, known_iff E L inv hd]
  · intro d
    rw [docinfoBySequence_answer E L inv hd]
    constructor
    · intro h
      obtain ⟨e, he, rfl⟩ := List.mem_map.mp h
      rw [Nat.mod_eq_of_lt (inv.seqOk e he).fits.dbSeq, seqFind_of_mem inv.seqSorted he]
      rfl
    · intro h
      cases hf : seqFind (d.dbSeq % 2 ^ 48) seqs with
      | none => rw [hf] at h; cases h
      | some e =>
        rw [hf] at h
        obtain rfl : e.info = d := by cases h; rfl
        exact List.mem_map_of_mem (f := fun e : Entry => e.info) (mem_of_seqFind hf).1
  · intro id d h
    rw [docinfoById_answer E L inv hd] at h
    cases hf : entFind id ids with
    | none => rw [hf] at h; cases h
    | some e =>
      rw [hf] at h
      obtain rfl : e.info = d := by cases h; rfl
      exact (mem_of_entFind hf).2
  · intro s d hs h
    rw [docinfoBySequence_answer E L inv hd] at h
    cases hf : seqFind (s % 2 ^ 48) seqs with
    | none => rw [hf] at h; cases h
    | some e =>
      rw [hf] at h
      obtain rfl : e.info = d := by cases h; rfl
      rw [(mem_of_seqFind hf).2, Nat.mod_eq_of_lt hs]

/-- A reachable database with four documents, two of them deleted. -/
example : Reachable Env.toy sampleDb2 ∧
    (match answer (changesSince Env.toy 0 ⟨false, false, false⟩ recordCb []) sampleDb2 with
      | .ok (l, _) => l.map fun d => (d.id, d.dbSeq, d.deleted)
      | .error _ => []) =
      [([97], 2, true), ([99], 4, false), ([98], 5, true), ([100, 1], 6, false)] :=
  ⟨sampleReach2, by decide +kernel⟩

/-! ## C13 Sequence numbers are assigned consecutively and never reused -/

/-- For any handle whatsoever and any batch: a successful save without the as-is option gives
document `i` the number `last + 1 + i` and the last sequence becomes `last + n`. -/
theorem C13_consecutive (E : Env) (opts : SaveOpts) (ha : opts.asIs = false) (cb : Option (SaveCb σ))
    (items : List SaveItem) (u : σ) (db db' : Db) (infos : List DocInfo) (u' : σ)
    (h : saveDocuments E opts cb items u db = .ok (infos, u') db') :
    infos.map (·.dbSeq) = (List.range items.length).map (fun i => db.header.updateSeq + 1 + i) ∧
      db'.header.updateSeq = db.header.updateSeq + items.length := by
  obtain ⟨h1, h2⟩ := (saveDocuments_seq E opts cb items u db).ok h
  obtain ⟨h3, h4⟩ := assignAll_false ha items db.header.updateSeq
  dsimp only at h1
  rw [h1, h2]
  exact ⟨h3, h4⟩

/-- With the as-is option the given numbers are kept, and the last sequence becomes the greatest of
the old last sequence and the given numbers. -/
theorem C13_as_is (E : Env) (opts : SaveOpts) (ha : opts.asIs = true) (cb : Option (SaveCb σ))
    (items : List SaveItem) (u : σ) (db db' : Db) (infos : List DocInfo) (u' : σ)
    (h : saveDocuments E opts cb items u db = .ok (infos, u') db') :
    infos = items.map (·.info) ∧ db.header.updateSeq ≤ db'.header.updateSeq ∧
      (∀ it ∈ items, it.info.dbSeq ≤ db'.header.updateSeq) ∧
      (db'.header.updateSeq = db.header.updateSeq ∨
        ∃ it ∈ items, db'.header.updateSeq = it.info.dbSeq) := by
  obtain ⟨h1, h2⟩ := (saveDocuments_seq E opts cb items u db).ok h
  obtain ⟨h3, h4⟩ := assignAll_true ha items db.header.updateSeq
  have h5 := assignAll_le opts items db.header.updateSeq
  dsimp only at h1
  rw [h1, h2]
  refine ⟨h3, h5.1, ?_, ?_⟩
  · intro it hit
    exact h5.2 it.info (by rw [h3]; exact List.mem_map_of_mem (f := fun it : SaveItem => it.info) hit)
  · rw [h4]
    generalize db.header.updateSeq = s
    clear h h1 h2 h3 h4 h5
    induction items generalizing s with
    | nil => exact Or.inl rfl
    | cons x xs ih =>
      rw [List.foldl_cons]
      rcases ih (max s x.info.dbSeq) with h | ⟨it, hit, h⟩
      · rw [h]
        rcases Nat.le_total s x.info.dbSeq with h0 | h0
        · exact Or.inr ⟨x, by simp, Nat.max_eq_right h0⟩
        · exact Or.inl (Nat.max_eq_left h0)
      · exact Or.inr ⟨it, by simp [hit], h⟩

/-- A save that fails leaves the last sequence as it was. -/
theorem C13_failed_save (E : Env) (opts : SaveOpts) (cb : Option (SaveCb σ)) (items : List SaveItem) (u : σ)
    (db db' : Db) (e : Err) (h : saveDocuments E opts cb items u db = .error e db') :
    db'.header.updateSeq = db.header.updateSeq := by
  rw [(saveDocuments_seq E opts cb items u db).error h]

/-- The last sequence never decreases along a history. -/
theorem C13_never_decreases (E : Env) (L : E.Laws) (db db' : Db) (hr : Reachable E db) (h : Steps E db db') :
    db.header.updateSeq ≤ db'.header.updateSeq := (h.good L (hr.good L)).2

/-- Numbers are not reused: in a history with two saves that assign numbers, every number assigned
by the later one is greater than every number assigned by the earlier one. -/
theorem C13_not_reused {σ' : Type} (E : Env) (L : E.Laws) (db db1 db2 db3 : Db) (hr : Reachable E db)
    (opts : SaveOpts) (ha : opts.asIs = false) (cb : Option (SaveCb σ)) (items : List SaveItem) (u u' : σ)
    (infos : List DocInfo) (args : SaveArgs E db opts items)
    (h1 : saveDocuments E opts cb items u db = .ok (infos, u') db1) (hs : Steps E db1 db2)
    (opts' : SaveOpts) (ha' : opts'.asIs = false) (cb' : Option (SaveCb σ')) (items' : List SaveItem)
    (v v' : σ') (infos' : List DocInfo)
    (h2 : saveDocuments E opts' cb' items' v db2 = .ok (infos', v') db3) :
    ∀ d ∈ infos, ∀ d' ∈ infos', d.dbSeq < d'.dbSeq := by
  obtain ⟨db0, hf, hs0⟩ := hr
  have hst := Step.save (E := E) (db := db) opts cb items u args
  have haft : after (saveDocuments E opts cb items u) db = db1 := by unfold after; rw [h1]
  rw [haft] at hst
  have hmono := C13_never_decreases E L db1 db2 ⟨db0, hf, .step hs0 hst⟩ hs
  obtain ⟨c1, c2⟩ := C13_consecutive E opts ha cb items u db db1 infos u' h1
  obtain ⟨c3, -⟩ := C13_consecutive E opts' ha' cb' items' v db2 db3 infos' v' h2
  intro d hd d' hd'
  have m1 : d.dbSeq ∈ infos.map (·.dbSeq) := List.mem_map_of_mem (f := fun d : DocInfo => d.dbSeq) hd
  have m2 : d'.dbSeq ∈ infos'.map (·.dbSeq) := List.mem_map_of_mem (f := fun d : DocInfo => d.dbSeq) hd'
  rw [c1] at m1
  rw [c3] at m2
  obtain ⟨i, hi, e1⟩ := List.mem_map.mp m1
  obtain ⟨j, hj, e2⟩ := List.mem_map.mp m2
  rw [List.mem_range] at hi
  omega

/-- Two saves in a row. -/
example : (match saveDocuments Env.toy sampleOpts (some sampleCb) sampleItems2 [] sampleDb1 with
      | .ok r _ => r.1.map (·.dbSeq)
      | .error _ _ => []) = [4, 5, 6] ∧ sampleDb1.header.updateSeq = 3 := by decide +kernel

/-- Saving with given numbers. -/
example : (match saveDocuments Env.toy ⟨false, true⟩ (none : Option (SaveCb Unit))
      [⟨some [1], ⟨[50], 20, 1, [], false, 0, 0, 0⟩, 0⟩, ⟨none, ⟨[51], 10, 1, [], false, 0, 0, 0⟩, 0⟩] () sampleDb1 with
      | .ok r db => (r.1.map (·.dbSeq), db.header.updateSeq)
      | .error _ _ => ([], 0)) = ([20, 10], 20) := by decide +kernel

/-! ## C19 A failed save has no visible effect -/

theorem sameAnswers_of (E : Env) (L : E.Laws) {db db' : Db} {ids seqs locs} (inv : Inv E db ids seqs locs)
    (inv' : Inv E db' ids seqs locs) (hd : db.dropped = false) (hd' : db'.dropped = false)
    (hh : db'.header = db.header) : SameAnswers E db db' := by
  intro q hq
  rw [ask_eq E L inv hd q hq, ask_eq E L inv' hd' q hq, hh]

/-- If saving documents fails, for whatever failing raw operation and in whatever way, then every
question (Spec/Store.lean `Query`: lookups, bodies, scans, counts, local documents, statistics) is
answered as before the call, the header is as before, and the handle can be used on. -/
theorem C19_failed_save (E : Env) (L : E.Laws) (db : Db) (hr : Reachable E db) (opts : SaveOpts)
    (cb : Option (SaveCb σ)) (items : List SaveItem) (u : σ) (args : SaveArgs E db opts items)
    (e : Err) (db' : Db) (h : saveDocuments E opts cb items u db = .error e db') :
    SameAnswers E db db' ∧ db'.header = db.header ∧ Reachable E db' := by
  obtain ⟨⟨ids, seqs, locs, inv⟩, hd⟩ := hr.good L
  have hf := (saveDocuments_spec E L opts cb items u db inv hd (args.fits L inv hd)).error h
  refine ⟨sameAnswers_of E L inv (hf.inv inv) hd (by rw [hf.1]; exact hd) (by rw [hf.1]), by rw [hf.1], ?_⟩
  obtain ⟨db0, h0, hs⟩ := hr
  have := Steps.step hs (Step.save opts cb items u args)
  rw [show after (saveDocuments E opts cb items u) db = db' by unfold after; rw [h]] at this
  exact ⟨db0, h0, this⟩

/-- The same for saving local documents, in one call or one by one. -/
theorem C19_failed_local_save (E : Env) (L : E.Laws) (db : Db) (hr : Reachable E db) (ds : List LocalDoc)
    (args : LocalArgs ds) (e : Err) (db' : Db)
    (h : saveLocalDocuments E ds db = .error e db' ∨
      ∃ d, ds = [d] ∧ saveLocalDocument E d db = .error e db') :
    SameAnswers E db db' ∧ db'.header = db.header := by
  obtain ⟨⟨ids, seqs, locs, inv⟩, hd⟩ := hr.good L
  have hf : FailDb db e db' := by
    rcases h with h | ⟨d, rfl, h⟩
    · exact (saveLocalDocuments_spec E L db inv hd ds args.item args.pairwise).error h
    · exact (saveLocalDocument_spec E L db inv hd d (args.item d (by simp))).error h
  exact ⟨sameAnswers_of E L inv (hf.inv inv) hd (by rw [hf.1]; exact hd) (by rw [hf.1]), by rw [hf.1]⟩

/-- A save whose ninth raw operation fails: something was written, and nothing changed. -/
def failingDb : Db := { sampleDb1 with file := { sampleDb1.file with faults := List.replicate 8 .none ++ [.err 5] } }

example : Reachable Env.toy failingDb ∧ SaveArgs Env.toy failingDb sampleOpts sampleItems2 ∧
    (match saveDocuments Env.toy sampleOpts (some sampleCb) sampleItems2 [] failingDb with
      | .ok _ _ => false
      | .error e db' => e == .io 5 && decide (failingDb.file.disk.length < db'.file.disk.length)) = true := by
  refine ⟨?_, args_of (by decide +kernel), by decide +kernel⟩
  obtain ⟨db0, h0, hs⟩ := sampleReach1
  exact ⟨db0, h0, .step hs (.faults _)⟩

/-! ## C33 The save callback reports each document once with its previous version -/

/-- During a successful save the callback is invoked for a list of calls `(old, new, user request)`,
one for each document of the batch, in strictly ascending order of the ids; `new` is what is found
under the id afterwards, `old` is what was found before, if anything. -/
theorem C33_save_callback (E : Env) (L : E.Laws) (db : Db) (hr : Reachable E db) (opts : SaveOpts)
    (cb : SaveCb σ) (items : List SaveItem) (u : σ) (args : SaveArgs E db opts items)
    (infos : List DocInfo) (u' : σ) (db' : Db)
    (h : saveDocuments E opts (some cb) items u db = .ok (infos, u') db') :
    ∃ calls : List (Option DocInfo × DocInfo × Nat),
      u' = calls.foldl (fun u c => cb u c.1 c.2.1 c.2.2) u ∧
      calls.length = items.length ∧
      (calls.Pairwise fun a b => a.2.1.id < b.2.1.id) ∧
      ∀ it ∈ items, ∃ c ∈ calls, c.2.2 = it.userReq ∧ c.2.1.id = it.info.id ∧
        answer (docinfoById E it.info.id) db' = .ok c.2.1 ∧
        (match c.1 with
          | some old => answer (docinfoById E it.info.id) db = .ok old
          | none => answer (docinfoById E it.info.id) db = .error .docNotFound) := by
  obtain ⟨⟨ids, seqs, locs, inv⟩, hd⟩ := hr.good L
  obtain ⟨-, -, hd', -, h1, es, ids', seqs', h2, hu, h3, inv'⟩ :=
    (saveDocuments_spec E L opts (some cb) items u db inv hd (args.fits L inv hd)).ok h
  dsimp only at h1 h2 hu
  obtain ⟨g1, g2, g3⟩ := h2.get
  obtain ⟨f1, -⟩ := entFind_saved h3 inv'.idSorted
  have hids : es.map (fun e => e.info.id) = items.map (·.info.id) := by
    have := congrArg (List.map Prod.fst) h2.ids
    rw [h1, List.map_map, List.map_map] at this
    rw [← assignAll_ids opts items db.header.updateSeq]
    exact this
  refine ⟨(byIdOrder (es.zip (items.map (·.userReq)))).map fun e =>
    ((entFind e.1.info.id ids).map (·.info), e.1.info, e.2), ?_, ?_, ?_, ?_⟩
  · rw [hu, List.foldl_map]; rfl
  · rw [List.length_map, byIdOrder, length_sortBy]; simp [g2]
  · rw [List.pairwise_map]
    have hp : (es.zip (items.map (·.userReq))).Pairwise fun a b => a.1.info.id ≠ b.1.info.id := by
      have := args.idsNodup
      have hfst : (es.zip (items.map (·.userReq))).map (·.1) = es := by
        rw [List.map_fst_zip]; simp [g2]
      rw [← hids, ← hfst] at this
      unfold List.Nodup at this
      rw [List.map_map, List.pairwise_map] at this
      exact this
    exact (byIdOrder_sorted hp).imp fun h => (ebinCmp_lt_iff _ _).mp h
  · intro it hit
    obtain ⟨i, hi⟩ := List.getElem?_of_mem hit
    obtain ⟨d, e, k1, k2, k3⟩ := g3 i it hi
    have hz : (e, it.userReq) ∈ es.zip (items.map (·.userReq)) := by
      apply List.mem_of_getElem? (i := i)
      rw [List.getElem?_zip_eq_some]
      exact ⟨k2, by simp [hi]⟩
    have hmem : e ∈ es := List.mem_of_getElem? k2
    have hid : e.info.id = it.info.id := by
      have h0 : (es.map (fun e => e.info.id))[i]? = (items.map (·.info.id))[i]? := by rw [hids]
      simpa [k2, hi] using h0
    refine ⟨((entFind e.info.id ids).map (·.info), e.info, it.userReq),
      List.mem_map.mpr ⟨(e, it.userReq), mem_sortBy.mpr hz, rfl⟩, rfl, hid, ?_, ?_⟩
    · rw [docinfoById_answer E L inv' hd', ← hid, f1 e hmem]; rfl
    · rw [docinfoById_answer E L inv hd, hid]
      cases entFind it.info.id ids <;> rfl

/-- What the callback is told about the second batch: the update and the deletion with the previous
versions, the new document without one. -/
example : (match saveDocuments Env.toy sampleOpts (some sampleCb) sampleItems2 [] sampleDb1 with
      | .ok r _ => r.2.map fun c => (c.2.1.id, c.1.map (·.dbSeq), c.2.1.dbSeq)
      | .error _ _ => []) = [([98], some 1, 5), ([99], some 3, 4), ([100, 1], none, 6)] := by decide +kernel

/-! ## C38 Saving within its size budget -/

/-- Without misbehaving file operations a save on a reachable handle succeeds, or runs into a limit
of the file format (a chunk of 2^31 bytes, a file of 2^47 bytes); in particular no allocation from the
buffers of the batch fails, and no array overruns. -/
theorem C38_save_succeeds (E : Env) (L : E.Laws) (db : Db) (hr : Reachable E db) (hf : db.file.faults = [])
    (opts : SaveOpts) (cb : Option (SaveCb σ)) (items : List SaveItem) (u : σ)
    (args : SaveArgs E db opts items) (e : Err) (db' : Db)
    (h : saveDocuments E opts cb items u db = .error e db') : e = .formatLimit := by
  obtain ⟨⟨ids, seqs, locs, inv⟩, hd⟩ := hr.good L
  have h1 := (saveDocuments_spec E L opts cb items u db inv hd (args.fits L inv hd)).error h
  rcases h1.2.2 with h2 | h2
  · exact absurd hf h2
  · exact h2

/-- The buffer for the index terms is exactly used up: for any file, batch and options, if the terms
of the batch are built from a buffer of the computed size, nothing is left of it. -/
theorem C38_term_buffer_exact (E : Env) (opts : SaveOpts) (items : List SaveItem) (seq : Nat) (f f' : File)
    (infos : List DocInfo) (ts : List Terms) (last left : Nat)
    (h : addDocs E opts items seq (termMetaSize items) f = .ok (infos, ts, last, left) f') : left = 0 := by
  have := addDocs_fb E opts items seq _ f f' _ h
  dsimp only at this
  omega

/-- The saves of the examples succeed. -/
example : Reachable Env.toy sampleDb1 ∧ sampleDb1.file.faults = [] ∧
    isOk (saveDocuments Env.toy sampleOpts (some sampleCb) sampleItems2 [] sampleDb1) = true :=
  ⟨sampleReach1, by decide +kernel, by decide +kernel⟩

example : isOk (addDocs Env.toy sampleOpts sampleItems 7 (termMetaSize sampleItems) newDb.file) = true := by
  decide +kernel

end Couchstore.Props
