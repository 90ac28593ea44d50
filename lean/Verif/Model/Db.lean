import Verif.Model.Reduces
import Verif.Model.BtreeRead

/-
Model of the database handle: /repo/src/couch_save.cc and the document functions of
/repo/src/couch_db.cc.

Simplifications, common to the whole file:
* latency collection, file tags and error logging are not modelled, nor is `malloc` returning
  null; the fixed size buffers (`fatbuf`) are modelled by the number of bytes left in them;
* `qsort` and `std::sort` are a stable insertion sort.  The theorems only use inputs whose keys
  are distinct, for which every correct sort gives the same list (`sortBy_unique`,
  Lemmas/Sort.lean);
* `DocInfo` and `Doc` out parameters are return values.
-/

namespace Couchstore

/-- internal.h:132-154 `db_header`. -/
structure Header where
  diskVersion : Nat
  updateSeq : Nat
  byIdRoot : Option NodePointer
  bySeqRoot : Option NodePointer
  localRoot : Option NodePointer
  purgeSeq : Nat
  purgePtr : Nat
  position : Nat
  timestamp : Nat
  prevHeaderPos : Nat
  haveMeta : Bool
deriving DecidableEq, Repr

/-- internal.h:156-161 `Db`. -/
structure Db where
  file : File
  header : Header
  dropped : Bool
  readOnly : Bool
deriving DecidableEq, Repr

/-- Functions on a database handle; the handle survives errors. -/
abbrev DbM := EStateM Err Db

/-- Run a file operation on the handle's file (`&db->file`). -/
def liftF {α : Type} (m : M α) : DbM α := fun db =>
  match m db.file with
  | .ok a f => .ok a { db with file := f }
  | .error e f => .error e { db with file := f }

/-- Assign to the header of the handle. -/
def setHeader (h : Header → Header) : DbM Unit := modify fun db => { db with header := h db.header }

/-! ### Sorting -/

/-- Insert into a sorted list. -/
def insertBy {α : Type} (le : α → α → Bool) (x : α) : List α → List α
  | [] => [x]
  | y :: ys => if le x y then x :: y :: ys else y :: insertBy le x ys

/-- `qsort`, `std::sort`. -/
def sortBy {α : Type} (le : α → α → Bool) : List α → List α
  | [] => []
  | x :: xs => insertBy le x (sortBy le xs)

/-! ### Saving -/

/-- `sizeof(sized_buf)` (64 bit). -/
def sizeofSizedBuf : Nat := 16
/-- `sizeof(couchfile_modify_action)` (64 bit). -/
def sizeofAction : Nat := 24

/-- util.cc:66-79 `fatbuf_get` on a buffer with `fb` bytes left. -/
def fatbufGet (fb n : Nat) : Except Err Nat := if n > fb then .error .allocFail else .ok (fb - n)

/-- couch_db.h `couchstore_save_options`: `COMPRESS_DOC_BODIES`, `COUCHSTORE_SEQUENCE_AS_IS`. -/
structure SaveOpts where
  compress : Bool
  asIs : Bool
deriving DecidableEq, Repr

/-- One element of the parallel arrays `docs`, `infos` and `userReqs`; `doc` is the body
(`none`: null pointer in `docs`, or `docs` itself null), `userReq` is 0 if `userReqs` is null. -/
structure SaveItem where
  doc : Option Bytes
  info : DocInfo
  userReq : Nat
deriving DecidableEq, Repr

/-- couch_common.h:124 `COUCH_DOC_IS_COMPRESSED` (bit 7 of `content_meta`). -/
def isCompressed (contentMeta : Nat) : Bool := contentMeta &&& 128 != 0

/-- couch_save.cc:74-86 `write_doc`; returns position and size on disk. -/
def writeDoc (E : Env) (compress : Bool) (body : Bytes) : M (Nat × Nat) :=
  if compress then dbWriteBufCompressed E body else dbWriteBuf E body

/-- couch_save.cc: what `add_doc_to_update_list` stores in `seqterm`, `idterm`, `seqval`,
`idval`. -/
structure Terms where
  seqKey : Bytes
  idKey : Bytes
  seqVal : Bytes
  idVal : Bytes
deriving DecidableEq, Repr

/-- couch_save.cc:318-345: `updated`, the metadata to be stored. -/
def updatedInfo (E : Env) (opts : SaveOpts) (doc : Option Bytes) (info : DocInfo) : M DocInfo :=
  match doc with
  | some body => do
    -- don't compress a doc unless the meta flag is set
    let (bp, size) ← writeDoc E (opts.compress && isCompressed info.contentMeta) body
    pure { info with bp := bp, physicalSize := size }
  | none => pure { info with deleted := true, bp := 0, physicalSize := 0 }

/-- couch_save.cc:302-352 `add_doc_to_update_list`; `fb` is what is left of the buffer. -/
def addDocToUpdateList (E : Env) (opts : SaveOpts) (doc : Option Bytes) (info : DocInfo)
    (fb : Nat) : M (Terms × Nat) := do
  let fb ← ofExcept (fatbufGet fb 6)
  let updated ← updatedInfo E opts doc info
  let fb ← ofExcept (fatbufGet fb (18 + updated.id.length + updated.revMeta.length))
  let fb ← ofExcept (fatbufGet fb (23 + updated.revMeta.length))
  pure ({ seqKey := enc48 info.dbSeq, idKey := updated.id,
          seqVal := assembleSeqIndexValue updated, idVal := assembleIdIndexValue updated }, fb)

/-- couch_save.cc:397-401: the sequence number after this document, and the document's
metadata with `db_seq` assigned. -/
def assignSeq (opts : SaveOpts) (seq : Nat) (info : DocInfo) : Nat × DocInfo :=
  if opts.asIs then (max seq info.dbSeq, info) else (seq + 1, { info with dbSeq := seq + 1 })

/-- couch_save.cc:393-424, the loop of `couchstore_save_documents_and_callback`; returns the
metadata (with sequence numbers), the terms, the last sequence number and what is left of the
buffer. -/
def addDocs (E : Env) (opts : SaveOpts) :
    List SaveItem → Nat → Nat → M (List DocInfo × List Terms × Nat × Nat)
  | [], seq, fb => pure ([], [], seq, fb)
  | it :: its, seq, fb => do
    let (seq, info) := assignSeq opts seq it.info
    let (t, fb) ← addDocToUpdateList E opts it.doc info fb
    let (infos, ts, seq, fb) ← addDocs E opts its seq fb
    pure (info :: infos, t :: ts, seq, fb)

/-- couch_save.cc:122-130 `index_update_ctx`, with the caller's save callback context.  `removes`
is `seqacts[0..actpos)`, `fb` what is left of the action buffer. -/
structure IdCtx (σ : Type) where
  removes : List Action
  fb : Nat
  user : σ

/-- couch_save.cc:132-168 `idfetch_update_cb`.  `seqacts` has room for `numdocs` actions before
it runs into `idacts`, which is still in use: writing beyond is the assertion failure. -/
def idFetchUpdate {σ} (numdocs : Nat) (ctx : IdCtx σ) (a : Action) :
    Option Bytes → Except Err (IdCtx σ × ActType)
  | none => .ok (ctx, a.type)
  | some v =>
    if v.length < 23 then .error .corrupt else do
    let oldseq := beDec (slice v 0 6)
    let fb ← fatbufGet ctx.fb sizeofSizedBuf
    let fb ← fatbufGet fb 6
    if ctx.removes.length ≥ numdocs then .error .assertFail else
    .ok ({ ctx with fb := fb, removes := ctx.removes ++ [⟨.remove, enc48 oldseq, [], 0⟩] }, a.type)

/-- A save callback (couch_db.h:400 `save_callback_fn`): old metadata, new metadata, user
request; it returns nothing. -/
abbrev SaveCb (σ : Type) := σ → Option DocInfo → DocInfo → Nat → σ

/-- btree_modify.cc:440-466 `do_save_callback` with `docinfo_callback = by_id_read_docinfo`. -/
def doSaveCallback {σ} (cb : SaveCb σ) (ctx : IdCtx σ) (key : Bytes) (old : Option Bytes)
    (new : Bytes) (userReq : Nat) : Except Err (IdCtx σ) :=
  match byIdReadDocInfo key new with
  | none => .error .corrupt
  | some infoNew =>
    match old with
    | none => .ok { ctx with user := cb ctx.user none infoNew userReq }
    | some v =>
      match byIdReadDocInfo key v with
      | none => .error .corrupt
      | some infoOld => .ok { ctx with user := cb ctx.user (some infoOld) infoNew userReq }

/-- couch_save.cc:228-250: the request for the by-id index. -/
def idRq {σ} (cfg : Cfg) (numdocs : Nat) (cb : Option (SaveCb σ)) : Rq (IdCtx σ) where
  cmp := ebinCmp
  reduce := some byIdReduce
  rereduce := some byIdRereduce
  compacting := false
  kvThr := cfg.kvThr
  kpThr := cfg.kpThr
  fetchCb := some (idFetchUpdate numdocs)
  saveCb := cb.map doSaveCallback
  purgeKv := none
  purgeKp := none

/-- couch_save.cc:269-282: the request for the by-sequence index. -/
def seqRq (cfg : Cfg) : Rq Unit where
  cmp := seqCmp
  reduce := some bySeqReduce
  rereduce := some bySeqRereduce
  compacting := false
  kvThr := cfg.kvThr
  kpThr := cfg.kpThr
  fetchCb := none
  saveCb := none
  purgeKv := none
  purgeKp := none

/-- couch_btree.h:83-86, the numbers of the action types. -/
def ActType.num : ActType → Nat
  | .fetch => 0
  | .remove => 1
  | .insert => 2
  | .fetchInsert => 3

/-- couch_save.cc:94-120 `seq_action_compare`, as "not greater". -/
def seqActionLe (a b : Action) : Bool :=
  let s1 := decodeSequenceKey a.key
  let s2 := decodeSequenceKey b.key
  s1 < s2 || (s1 == s2 && a.type.num ≤ b.type.num)

/-- couch_save.cc:88-92 `ebin_ptr_compare` on the ids, as "not greater". -/
def idTermLe (a b : Terms × Nat) : Bool := ebinCmp a.1.idKey b.1.idKey != .gt

/-- couch_save.cc:170-300 `update_indexes`. -/
def updateIndexes {σ} (E : Env) (cb : Option (SaveCb σ)) (ts : List (Terms × Nat)) (u : σ) :
    DbM σ := do
  let n := ts.length
  let db ← get
  let fb ← ofExceptD (fatbufGet (n * (2 * sizeofAction + sizeofSizedBuf + 6)) (n * sizeofAction))
  let fb ← ofExceptD (fatbufGet fb (n * sizeofAction))
  let idacts := (sortBy idTermLe ts).map fun t => Action.mk .fetchInsert t.1.idKey t.1.idVal t.2
  let (st, idRoot) ← liftF (modifyBtree E (idRq db.file.cfg n cb) db.header.byIdRoot idacts
    ⟨⟨[], fb, u⟩, false⟩)
  let inserts := ts.map fun t => Action.mk .insert t.1.seqKey t.1.seqVal 0
  let seqacts := st.user.removes ++ inserts
  -- `seqacts` and `idacts` together have room for `2 * numdocs` actions
  if seqacts.length > 2 * n then throw .assertFail else
  let (_, seqRoot) ← liftF (modifyBtree E (seqRq db.file.cfg) db.header.bySeqRoot
    (sortBy seqActionLe seqacts) ⟨(), false⟩)
  setHeader fun h => { h with byIdRoot := idRoot, bySeqRoot := seqRoot }
  pure st.user.user
where
  /-- Lift a pure result. -/
  ofExceptD {α : Type} : Except Err α → DbM α
    | .ok a => pure a
    | .error e => throw e

/-- couch_save.cc:367-375: the size of the term buffer. -/
def termMetaSize (items : List SaveItem) : Nat :=
  (items.map fun it => 6 + (18 + it.info.id.length + it.info.revMeta.length)
    + (23 + it.info.revMeta.length)).sum

/-- couch_save.cc:354-442 `couchstore_save_documents_and_callback`; returns the metadata with the
sequence numbers assigned, and the callback's context.  (The code stores the assigned numbers in
the caller's array, also when it fails later on.) -/
def saveDocuments {σ} (E : Env) (opts : SaveOpts) (cb : Option (SaveCb σ)) (items : List SaveItem)
    (u : σ) : DbM (List DocInfo × σ) := do
  let db ← get
  if db.dropped then throw .fileClosed else
  let n := items.length
  let fb ← updateIndexes.ofExceptD
    (fatbufGet (termMetaSize items + n * (sizeofSizedBuf * 4)) (4 * (n * sizeofSizedBuf)))
  let (infos, ts, seq, _) ← liftF (addDocs E opts items db.header.updateSeq fb)
  let u ← updateIndexes E cb (ts.zip (items.map (·.userReq))) u
  setHeader fun h => { h with updateSeq := seq }
  pure (infos, u)

/-! ### Reading documents -/

/-- couch_db.cc:1280-1300 `docinfo_fetch_by_id`, `docinfo_fetch_by_seq`; the context is `*pInfo`. -/
def docinfoFetch (read : Bytes → Bytes → Option DocInfo) (u : Option DocInfo) (k : Bytes) :
    Option Bytes → Option DocInfo × Option Err
  | none => (u, some .docNotFound)
  | some v =>
    match read k v with
    | none => (u, some .corrupt)
    | some d => (some d, none)

/-- couch_db.cc:1321-1328, 1360-1367: the lookup request. -/
def docinfoRq (cmp : Bytes → Bytes → Ordering) (read : Bytes → Bytes → Option DocInfo) :
    LookRq (Option DocInfo) where
  cmp := cmp
  tolerate := false
  fetch := docinfoFetch read
  node := none

/-- couch_db.cc:1330-1336, 1369-1375: what becomes of the result of the lookup. -/
def docinfoResult : Option DocInfo × Option Err → DbM DocInfo
  | (_, some e) => throw e
  | (none, none) => throw .docNotFound
  | (some d, none) => pure d

/-- couch_db.cc:1302-1339 `couchstore_docinfo_by_id`. -/
def docinfoById (E : Env) (id : Bytes) : DbM DocInfo := do
  let db ← get
  if db.dropped then throw .fileClosed else
  match db.header.byIdRoot with
  | none => throw .docNotFound
  | some p => do
    let r ← liftF (btreeLookup E (docinfoRq ebinCmp byIdReadDocInfo) false p.pointer [id] none)
    docinfoResult r

/-- couch_db.cc:1341-1378 `couchstore_docinfo_by_sequence`.  It tests `by_id_root` and then
dereferences `by_seq_root`: null is the assertion failure. -/
def docinfoBySequence (E : Env) (seq : Nat) : DbM DocInfo := do
  let db ← get
  if db.dropped then throw .fileClosed else
  match db.header.byIdRoot, db.header.bySeqRoot with
  | none, _ => throw .docNotFound
  | some _, none => throw .assertFail
  | some _, some p => do
    let r ← liftF (btreeLookup E (docinfoRq seqCmp bySeqReadDocInfo) false p.pointer [enc48 seq] none)
    docinfoResult r

/-- couch_db.cc:1239-1278 `bp_to_doc`: the body. -/
def bpToDoc (E : Env) (bp : Nat) (decompress : Bool) : DbM Bytes := do
  let db ← get
  if db.dropped then throw .fileClosed else
  liftF (if decompress then preadCompressed E bp else preadBin E bp)

/-- couch_db.cc:1380-1405 `couchstore_open_doc_with_docinfo`; the id of the returned document is
that of `docinfo`, the result here is its body. -/
def openDocWithDocinfo (E : Env) (d : DocInfo) (decompress : Bool) : DbM Bytes :=
  if d.bp = 0 then throw .docNotFound
  else bpToDoc E d.bp (decompress && isCompressed d.contentMeta)

/-- couch_db.cc:1407-1434 `couchstore_open_document`. -/
def openDocument (E : Env) (id : Bytes) (decompress : Bool) : DbM Bytes := do
  let db ← get
  if db.dropped then throw .fileClosed else
  let d ← docinfoById E id
  openDocWithDocinfo E d decompress

/-! ### Iterating -/

/-- couch_common.h `couchstore_docinfos_options`. -/
structure ScanOpts where
  tolerate : Bool
  deletesOnly : Bool
  noDeletes : Bool
deriving DecidableEq, Repr

/-- A callback of the iterating functions (couch_db.h `couchstore_changes_callback_fn`): a
negative return value is the error, zero and positive ones (which only decide who frees the
`DocInfo`) are `none`. -/
abbrev ChangesCb (σ : Type) := σ → DocInfo → σ × Option Err

/-- couch_db.cc:1446-1511 `lookup_callback` without `walk_callback`. -/
def lookupCallback {σ} (opts : ScanOpts) (read : Bytes → Bytes → Option DocInfo)
    (cb : ChangesCb σ) (u : σ) (k : Bytes) : Option Bytes → σ × Option Err
  | none => (u, none)
  | some v =>
    match read k v, opts.tolerate with
    | none, false => (u, some .corrupt)
    | none, true =>
      deliver { id := k, dbSeq := 0, revSeq := 0, revMeta := v, deleted := false, contentMeta := 0,
                bp := 0, physicalSize := 0 }
    | some d, _ => deliver d
where
  /-- couch_db.cc:1482-1510: filter and invoke the user's callback. -/
  deliver (d : DocInfo) : σ × Option Err :=
    if opts.deletesOnly && !d.deleted then (u, none)
    else if opts.noDeletes && d.deleted then (u, none)
    else cb u d

/-- The lookup request of the iterating functions. -/
def scanRq {σ} (cmp : Bytes → Bytes → Ordering) (opts : ScanOpts)
    (read : Bytes → Bytes → Option DocInfo) (cb : ChangesCb σ) (tolerate : Bool) : LookRq σ where
  cmp := cmp
  tolerate := tolerate
  fetch := lookupCallback opts read cb
  node := none

/-- couch_db.cc:1513-1556 `couchstore_changes_since`; the callback's context and the error. -/
def changesSince {σ} (E : Env) (since : Nat) (opts : ScanOpts) (cb : ChangesCb σ) (u : σ) :
    DbM (σ × Option Err) := do
  let db ← get
  if db.dropped then throw .fileClosed else
  match db.header.bySeqRoot with
  | none => pure (u, none)
  | some p => liftF (btreeLookup E (scanRq seqCmp opts bySeqReadDocInfo cb opts.tolerate) true
      p.pointer [enc48 since] u)

/-- couch_db.cc:1558-1595 `couchstore_all_docs`; a null start key is the empty key. -/
def allDocs {σ} (E : Env) (start : Option Bytes) (opts : ScanOpts) (cb : ChangesCb σ) (u : σ) :
    DbM (σ × Option Err) := do
  let db ← get
  if db.dropped then throw .fileClosed else
  match db.header.byIdRoot with
  | none => pure (u, none)
  | some p => liftF (btreeLookup E (scanRq ebinCmp opts byIdReadDocInfo cb opts.tolerate) true
      p.pointer [start.getD []] u)

/-- couch_db.cc:1734-1793 `iterate_docinfos`.  The options of the callback context are 0: the
deletes-only and no-deletes options are ignored. -/
def iterateDocinfos {σ} (E : Env) (keys : List Bytes) (tree : Option NodePointer)
    (cmp : Bytes → Bytes → Ordering) (read : Bytes → Bytes → Option DocInfo) (cb : ChangesCb σ)
    (fold tolerate : Bool) (u : σ) : DbM (σ × Option Err) := do
  let db ← get
  if db.dropped then throw .fileClosed else
  match tree with
  | none => pure (u, none)
  | some p =>
    if keys = [] then throw .invalidArguments else
    let keys := if fold then keys else sortBy (fun a b => cmp a b != .gt) keys
    liftF (btreeLookup E (scanRq cmp ⟨false, false, false⟩ read cb tolerate) fold p.pointer keys u)

/-- couch_db.cc:1795-1810 `couchstore_docinfos_by_id`. -/
def docinfosById {σ} (E : Env) (ids : List Bytes) (ranges tolerate : Bool) (cb : ChangesCb σ)
    (u : σ) : DbM (σ × Option Err) := do
  let db ← get
  iterateDocinfos E ids db.header.byIdRoot ebinCmp byIdReadDocInfo cb ranges tolerate u

/-- couch_db.cc:1812-1844 `couchstore_docinfos_by_sequence`. -/
def docinfosBySequence {σ} (E : Env) (seqs : List Nat) (ranges tolerate : Bool) (cb : ChangesCb σ)
    (u : σ) : DbM (σ × Option Err) := do
  let db ← get
  if db.dropped then throw .fileClosed else
  iterateDocinfos E (seqs.map enc48) db.header.bySeqRoot seqCmp bySeqReadDocInfo cb ranges tolerate u

/-! ### Statistics -/

/-- couch_common.h `DbInfo`, without the file name. -/
structure DbInfo where
  lastSequence : Nat
  docCount : Nat
  deletedCount : Nat
  spaceUsed : Nat
  fileSize : Nat
  headerPosition : Nat
  purgeSeq : Nat
deriving DecidableEq, Repr

/-- `subtreesize` of a root, 0 for null (couch_db.cc:1866-1874). -/
def rootSize : Option NodePointer → Nat
  | none => 0
  | some p => p.subtreesize

/-- couch_db.cc:1846-1876 `couchstore_db_info`. -/
def dbInfo : DbM DbInfo := do
  let db ← get
  let h := db.header
  match h.byIdRoot with
  | none =>
    pure { lastSequence := h.updateSeq, docCount := 0, deletedCount := 0,
           spaceUsed := rootSize h.bySeqRoot + rootSize h.localRoot, fileSize := db.file.pos,
           headerPosition := h.position, purgeSeq := h.purgeSeq }
  | some p =>
    if p.reduceValue.length < 16 then throw .corrupt else
    pure { lastSequence := h.updateSeq
           docCount := beDec (slice p.reduceValue 0 5)
           deletedCount := beDec (slice p.reduceValue 5 5)
           spaceUsed := beDec (slice p.reduceValue 10 6) + p.subtreesize + rootSize h.bySeqRoot
             + rootSize h.localRoot
           fileSize := db.file.pos, headerPosition := h.position, purgeSeq := h.purgeSeq }

/-- couch_db.cc:2064-2100, the loop of `btree_eval_seq_reduce`; `recurse` is the recursive call
(`past_left_edge`, position, accumulator). -/
def evalSeqLoop (kp : Bool) (left right : Bytes) (recurse : Bool → Nat → Nat → M Nat) :
    List (Option (Bytes × Bytes)) → Bool → Nat → M Nat
  | [], _, acc => pure acc
  | none :: _, _, _ => throw .corrupt
  | some (k, v) :: rest, past, acc =>
    if seqCmp k left = .lt then evalSeqLoop kp left right recurse rest past acc
    else if kp then
      if v.length < 14 + 5 then throw .corrupt else
      if past = false ∨ seqCmp k right ≠ .lt then do
        let acc ← recurse past (beDec (slice v 0 6)) acc
        if seqCmp k right ≠ .lt then pure acc
        else evalSeqLoop kp left right recurse rest true acc
      else evalSeqLoop kp left right recurse rest past (acc + beDec (slice v 14 5))
    else if seqCmp k right = .gt then pure acc
    else evalSeqLoop kp left right recurse rest past (acc + 1)

/-- couch_db.cc:2048-2107 `btree_eval_seq_reduce`; `fuel` bounds the depth. -/
def evalSeqReduce (E : Env) (left right : Bytes) : Nat → Bool → Nat → Nat → M Nat
  | 0, _, _, _ => throw .diverge
  | fuel + 1, past, pos, acc => do
    let (t, recs) ← readNode E pos
    evalSeqLoop (t == 0) left right (evalSeqReduce E left right fuel) recs past acc

/-- couch_db.cc:2109-2132 `couchstore_changes_count`. -/
def changesCount (E : Env) (minSeq maxSeq : Nat) : DbM Nat := do
  let db ← get
  match db.header.bySeqRoot with
  | none => pure 0
  | some p => liftF (evalSeqReduce E (enc48 minSeq) (enc48 maxSeq) (db.file.disk.length + 1) false
      p.pointer 0)

/-! ### Local documents -/

/-- couch_common.h `LocalDoc`. -/
structure LocalDoc where
  id : Bytes
  json : Bytes
  deleted : Bool
deriving DecidableEq, Repr

/-- couch_db.cc:1878-1906 `local_doc_fetch`; the context is `*pDoc`. -/
def localDocFetch (_ : Option LocalDoc) (k : Bytes) : Option Bytes → Option LocalDoc × Option Err
  | none => (none, none)
  | some v => (some ⟨k, v, false⟩, none)

/-- couch_db.cc:1908-1944 `couchstore_open_local_document`. -/
def openLocalDocument (E : Env) (id : Bytes) : DbM LocalDoc := do
  let db ← get
  if db.dropped then throw .fileClosed else
  match db.header.localRoot with
  | none => throw .docNotFound
  | some p => do
    let r ← liftF (btreeLookup E ⟨ebinCmp, false, localDocFetch, none⟩ false p.pointer [id] none)
    localResult r
where
  /-- couch_db.cc:1936-1941. -/
  localResult : Option LocalDoc × Option Err → DbM LocalDoc
    | (_, some e) => throw e
    | (none, none) => throw .docNotFound
    | (some d, none) => pure d

/-- couch_db.cc:1964-1977, 2013-2019: the request for the local documents. -/
def localRq (cfg : Cfg) : Rq Unit where
  cmp := ebinCmp
  reduce := none
  rereduce := none
  compacting := false
  kvThr := cfg.kvThr
  kpThr := cfg.kpThr
  fetchCb := none
  saveCb := none
  purgeKv := none
  purgeKp := none

/-- couch_db.cc:1955-1962, 2002-2009. -/
def localAction (d : LocalDoc) : Action :=
  ⟨if d.deleted then .remove else .insert, d.id, d.json, 0⟩

/-- couch_db.cc:1946-1985 `couchstore_save_local_document`. -/
def saveLocalDocument (E : Env) (d : LocalDoc) : DbM Unit := do
  let db ← get
  if db.dropped then throw .fileClosed else
  let (_, root) ← liftF (modifyBtree E (localRq db.file.cfg) db.header.localRoot [localAction d]
    ⟨(), false⟩)
  setHeader fun h => { h with localRoot := root }

/-- couch_db.cc:1987-2028 `saveLocalDocuments`. -/
def saveLocalDocuments (E : Env) (ds : List LocalDoc) : DbM Unit := do
  let db ← get
  if db.dropped then throw .fileClosed else
  let acts := (sortBy (fun a b => ebinCmp a.id b.id != .gt) ds).map localAction
  let (_, root) ← liftF (modifyBtree E (localRq db.file.cfg) db.header.localRoot acts ⟨(), false⟩)
  setHeader fun h => { h with localRoot := root }

/-- db_compact.cc:505-518 `updateLocalDocumentsCallback`; the context is the rest of the actions.  (With no
actions left the code would read after the end of the array.) -/
def updateLocalFetch (ctx : List Action) (a : Action) (found : Option Bytes) : Except Err (List Action × ActType) :=
  match ctx with
  | [] => .error .logicError
  | b :: rest =>
    if a.key ≠ b.key then .error .invalidArguments
    else if found = some b.data then .ok (rest, .fetch)
    else .ok (rest, a.type)

/-- db_compact.cc:538-547: the request for the local documents. -/
def updateLocalRq (cfg : Cfg) : Rq (List Action) where
  cmp := ebinCmp
  reduce := none
  rereduce := none
  compacting := false
  kvThr := cfg.kvThr
  kpThr := cfg.kpThr
  fetchCb := some updateLocalFetch
  saveCb := none
  purgeKv := none
  purgeKp := none

/-- db_compact.cc:528-533: one action. -/
def updateLocalAction (d : LocalDoc) : Action := ⟨.fetchInsert, d.id, d.json, 0⟩

/-- db_compact.cc:520-557 `updateLocalDocuments`. -/
def updateLocalDocuments (E : Env) (ds : List LocalDoc) : DbM Unit := do
  let db ← get
  if db.dropped then throw .fileClosed else
  let acts := (sortBy (fun a b => ebinCmp a.id b.id != .gt) ds).map updateLocalAction
  let (_, root) ← liftF (modifyBtree E (updateLocalRq db.file.cfg) db.header.localRoot acts ⟨acts, false⟩)
  setHeader fun h => { h with localRoot := root }

end Couchstore
