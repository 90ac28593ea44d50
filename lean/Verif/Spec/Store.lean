import Verif.Model.Db
import Verif.Spec.Check
import Verif.Spec.Map

/-! Vocabulary for the properties of a database handle. -/

namespace Couchstore

/-- The same handle when no raw file operation misbehaves from now on. -/
def Db.calm (db : Db) : Db := { db with file := db.file.calm }

/-- What a read function answers when no raw file operation misbehaves. -/
def answer {α : Type} (m : DbM α) (db : Db) : Except Err α :=
  match m db.calm with
  | .ok a _ => .ok a
  | .error e _ => .error e

/-- Call `cb` for one document after another, until it returns an error. -/
def feed {σ : Type} (cb : ChangesCb σ) : List DocInfo → σ → σ × Option Err
  | [], u => (u, none)
  | d :: ds, u =>
    match cb u d with
    | (u', some e) => (u', some e)
    | (u', none) => feed cb ds u'

/-- The callback that records the documents it is given. -/
def recordCb : ChangesCb (List DocInfo) := fun l d => (l ++ [d], none)

/-- Is the document selected by the deletes-only / no-deletes options? -/
def ScanOpts.selects (opts : ScanOpts) (d : DocInfo) : Bool :=
  !(opts.deletesOnly && !d.deleted) && !(opts.noDeletes && d.deleted)

/-- The bytes stored for a body: compressed iff the save has the compress option and the metadata
has the "compressed" flag, bit 7. -/
def storedBody (E : Env) (opts : SaveOpts) (d : DocInfo) (body : Bytes) : Bytes :=
  if opts.compress && d.contentMeta.testBit 7 then E.deflate body else body

/-- The number of bytes a chunk occupies, block prefixes not counted. -/
def chunkLen (E : Env) (c : Cfg) (b : Bytes) : Nat :=
  match c.cipher with
  | some _ => 4 + b.length + E.macSize
  | none => 8 + b.length

/-- The limits on one document to be saved. -/
structure ItemOk (E : Env) (c : Cfg) (opts : SaveOpts) (it : SaveItem) : Prop where
  id : it.info.id.length < 4096
  revSeq : it.info.revSeq < 2 ^ 48
  contentMeta : it.info.contentMeta < 256
  size : 23 + it.info.id.length + it.info.revMeta.length < 2 ^ 28
  body : ∀ b, it.doc = some b → chunkLen E c (storedBody E opts it.info b) < 2 ^ 28

/-- The arguments of a save that the properties are about: every document is within the limits,
the ids of the batch are distinct, sequence numbers fit their 48 bits and the number of documents
fits its 40 bits.  With the as-is option
the given numbers are distinct as well, and a number already in use by a document is only given
away if that document is part of the batch. -/
structure SaveArgs (E : Env) (db : Db) (opts : SaveOpts) (items : List SaveItem) : Prop where
  item : ∀ it ∈ items, ItemOk E db.file.cfg opts it
  idsNodup : (items.map (·.info.id)).Nodup
  few : ∀ r, answer dbInfo db = .ok r → r.docCount + r.deletedCount + items.length < 2 ^ 40
  room : opts.asIs = false → db.header.updateSeq + items.length < 2 ^ 48
  seqLt : opts.asIs = true → ∀ it ∈ items, it.info.dbSeq < 2 ^ 48
  seqsNodup : opts.asIs = true → (items.map (·.info.dbSeq)).Nodup
  free : opts.asIs = true → ∀ it ∈ items, ∀ d,
    answer (docinfoBySequence E it.info.dbSeq) db = .ok d → d.id ∈ items.map (·.info.id)

/-- The arguments of a save of local documents: within the limits and with distinct ids. -/
structure LocalArgs (ds : List LocalDoc) : Prop where
  item : ∀ d ∈ ds, d.deleted = false → d.id.length < 4096 ∧ d.json.length < 2 ^ 28
  idsNodup : (ds.map (·.id)).Nodup

/-- The state a function leaves behind, whether it succeeds or fails. -/
def after {S α : Type} (m : EStateM Err S α) (s : S) : S :=
  match m s with
  | .ok _ s' => s'
  | .error _ s' => s'

/-- The header of a database without documents. -/
def Header.isEmpty (h : Header) : Prop :=
  h.byIdRoot = none ∧ h.bySeqRoot = none ∧ h.localRoot = none ∧ h.updateSeq < 2 ^ 48

/-- One operation of a history; it may succeed or fail. -/
inductive Step (E : Env) : Db → Db → Prop where
  /-- From now on the raw file operations misbehave in another way. -/
  | faults {db : Db} (fs : List Fault) : Step E db { db with file := { db.file with faults := fs } }
  /-- Documents are saved, with any callback. -/
  | save {db : Db} {σ : Type} (opts : SaveOpts) (cb : Option (SaveCb σ)) (items : List SaveItem) (u : σ) :
      SaveArgs E db opts items → Step E db (after (saveDocuments E opts cb items u) db)
  /-- A local document is saved or deleted. -/
  | saveLocal {db : Db} (d : LocalDoc) : LocalArgs [d] → Step E db (after (saveLocalDocument E d) db)
  /-- Local documents are saved or deleted. -/
  | saveLocals {db : Db} (ds : List LocalDoc) : LocalArgs ds → Step E db (after (saveLocalDocuments E ds) db)
  /-- Local documents are brought up to date (as part of the replay of changes). -/
  | updateLocals {db : Db} (ds : List LocalDoc) : LocalArgs ds → (∀ d ∈ ds, d.deleted = false) →
      Step E db (after (updateLocalDocuments E ds) db)

/-- A history of operations. -/
inductive Steps (E : Env) : Db → Db → Prop where
  | refl {db : Db} : Steps E db db
  | step {db db1 db2 : Db} : Steps E db db1 → Step E db1 db2 → Steps E db db2

/-- A new database: something was written to the file (its first header, or the first byte). -/
structure Fresh (db : Db) : Prop where
  wf : db.file.WF
  pos : 0 < db.file.pos
  thr : 2 ≤ db.file.cfg.kvThr
  empty : db.header.isEmpty
  opened : db.dropped = false

/-- What local saves do to the map of local documents. -/
def localSet (locs : KMap) (ds : List LocalDoc) : KMap := fun k =>
  match ds.find? (fun d => d.id = k) with
  | some d => if d.deleted then none else some d.json
  | none => locs k

/-! ### Questions about the contents of a database -/

/-- A question a user can ask with the read functions. -/
inductive Query where
  | docinfo (id : Bytes)
  | docinfoSeq (seq : Nat)
  | open (id : Bytes) (decompress : Bool)
  | changes (since : Nat) (opts : ScanOpts)
  | allDocs (start : Option Bytes) (opts : ScanOpts)
  | docinfos (ids : List Bytes)
  | docinfosSeq (seqs : List Nat)
  | range (lo : Bytes) (hi : Option Bytes)
  | rangeSeq (lo : Nat) (hi : Option Nat)
  | count (lo hi : Nat)
  | localDoc (id : Bytes)
  | info

/-- Arguments the questions are about: sequence numbers fit 48 bits, lists of keys are not empty
and have no duplicates. -/
def Query.Ok : Query → Prop
  | .changes s _ => s < 2 ^ 48
  | .docinfos ids => ids ≠ [] ∧ ids.Nodup
  | .docinfosSeq seqs => seqs ≠ [] ∧ seqs.Nodup ∧ ∀ s ∈ seqs, s < 2 ^ 48
  | .rangeSeq lo hi => lo < 2 ^ 48 ∧ ∀ h, hi = some h → h < 2 ^ 48
  | _ => True

/-- The answers. -/
inductive Reply where
  | doc (r : Except Err DocInfo)
  | body (r : Except Err Bytes)
  | docs (r : Except Err (List DocInfo × Option Err))
  | num (r : Except Err Nat)
  | loc (r : Except Err LocalDoc)
  /-- last sequence, live documents, deleted documents, space used, purge sequence -/
  | stats (r : Except Err (Nat × Nat × Nat × Nat × Nat))

/-- Ask a question, when no raw file operation misbehaves. -/
def ask (E : Env) (db : Db) : Query → Reply
  | .docinfo id => .doc (answer (docinfoById E id) db)
  | .docinfoSeq s => .doc (answer (docinfoBySequence E s) db)
  | .open id dec => .body (answer (openDocument E id dec) db)
  | .changes s opts => .docs (answer (changesSince E s opts recordCb []) db)
  | .allDocs start opts => .docs (answer (allDocs E start opts recordCb []) db)
  | .docinfos ids => .docs (answer (docinfosById E ids false false recordCb []) db)
  | .docinfosSeq seqs => .docs (answer (docinfosBySequence E seqs false false recordCb []) db)
  | .range lo hi => .docs (answer (docinfosById E (lo :: hi.toList) true false recordCb []) db)
  | .rangeSeq lo hi => .docs (answer (docinfosBySequence E (lo :: hi.toList) true false recordCb []) db)
  | .count lo hi => .num (answer (changesCount E lo hi) db)
  | .localDoc id => .loc (answer (openLocalDocument E id) db)
  | .info => .stats (answer (dbInfo >>= fun r => pure (r.lastSequence, r.docCount, r.deletedCount,
      r.spaceUsed, r.purgeSeq)) db)

/-- The two handles answer every question in the same way. -/
def SameAnswers (E : Env) (db db' : Db) : Prop := ∀ q : Query, q.Ok → ask E db' q = ask E db q

end Couchstore
