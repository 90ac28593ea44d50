import Verif.Model.Flags
import Verif.Model.MergeSort
import Verif.Model.Reduces

/-
Model of compaction: /repo/src/db_compact.cc and /repo/src/tree_writer.cc.

Two files are in use.  The target is the state of the `DbM` computations; the source is only read.  While
the index of the source is traversed, document bodies are read from the source: the model gives these reads
(and the traversal of the local documents) misbehaviours of the raw file operations of their own, which is
as general as one list for all.

Not modelled: the temporary file that the by-id entries are sorted in (it is an ideal list here), changes that
the callbacks make to the target or that the filter makes to the document info it is shown, the hook before the
commit, failing allocations.  (Recovery mode is in Recover.lean.)  Removing the target after a failure is outside the model: an error has no target.
-/

namespace Couchstore

/-- couch_db.h `COUCHSTORE_COMPACT_KEEP_ITEM`, `…_DROP_ITEM`, `…_NEED_BODY`, or an error.  (Positive
numbers other than these are like the first.) -/
inductive FilterAct where
  | keep
  | drop
  | needBody
  | fail (e : Err)

/-- couch_db.h `CompactFilterCallback`: gets the document info (none: the last call) and the body, if it
has asked for it. -/
abbrev CompactFilter (υ : Type) := υ → Option DocInfo → Option Bytes → υ × FilterAct

/-- couch_db.h `CompactRewriteDocInfoCallback`: gets the document info and the stored body; the result is a changed
document info if the function returns something else than 0.  It may share its state with the filter. -/
abbrev DocInfoRewrite (υ : Type) := υ → DocInfo → Bytes → υ × Option DocInfo

/-- db_compact.cc:18-40 `struct compact_ctx` and the source. -/
structure CompactSt (υ : Type) where
  src : File
  tgt : File
  /-- `target_mr` -/
  mr : MR
  /-- what was added to `tree_writer` -/
  added : List (Bytes × Bytes)
  /-- the state of the filter callback -/
  user : υ

abbrev CompactM (υ : Type) := EStateM Err (CompactSt υ)

def onSrc {υ α : Type} (m : M α) : CompactM υ α := fun s =>
  match m s.src with
  | .ok a f => .ok a { s with src := f }
  | .error e f => .error e { s with src := f }

def onTgt {υ α : Type} (m : M α) : CompactM υ α := fun s =>
  match m s.tgt with
  | .ok a f => .ok a { s with tgt := f }
  | .error e f => .error e { s with tgt := f }

/-- Call the filter. -/
def callFilter {υ : Type} (g : CompactFilter υ) (d : Option DocInfo) (b : Option Bytes) : CompactM υ FilterAct :=
  fun s => .ok (g s.user d b).2 { s with user := (g s.user d b).1 }

/-- db_compact.cc:265-286: the by-id value made from key and value of a by-sequence entry. -/
def idValueOfSeq (k v : Bytes) : Bytes :=
  let (idsize, datasize) := decodeKvLength (slice v 0 5)
  k.take 6 ++ enc32 datasize ++ slice v 5 6 ++ slice v 11 6 ++ slice v 17 1 ++ v.drop (18 + idsize)

/-- db_compact.cc:233-296 `output_seqtree_item`, when the value has been copied (251-260). -/
def outputSeqtreeItem {υ : Type} (E : Env) (rq : Rq Unit) (k v : Bytes) : CompactM υ Unit := do
  let mr ← onTgt (mrPushItem E rq k v (← get).mr)
  modify fun s => { s with mr := mr }
  let idsize := (decodeKvLength (slice v 0 5)).1
  if 18 + idsize > v.length then throw .corrupt else
  if k.length < 6 then throw .corrupt else
  modify fun s => { s with added := s.added ++ [(slice v 18 idsize, idValueOfSeq k v)] }

/-- db_compact.cc:323-352: ask the filter; whether to keep the item, and its body if it was read. -/
def filterItem {υ : Type} (E : Env) (g : CompactFilter υ) (k v : Bytes) (bp : Nat) :
    CompactM υ (Bool × Option Bytes) :=
  match bySeqReadDocInfo k v with
  | none => throw .corrupt
  | some d => do
    match ← callFilter g (some d) none with
    | .keep => pure (true, none)
    | .drop => pure (false, none)
    | .fail e => throw e
    | .needBody =>
      let b ← onSrc (preadBin E bp)
      match ← callFilter g (some d) (some b) with
      | .keep => pure (true, some b)
      | .drop => pure (false, some b)
      | .fail e => throw e
      -- 341-344: `std::logic_error`
      | .needBody => throw .logicError

/-- db_compact.cc:359-366: the body, unless the filter has got it already. -/
def itemBody {υ : Type} (E : Env) (bp : Nat) : Option Bytes → CompactM υ Bytes
  | some b => pure b
  | none => onSrc (preadBin E bp)

/-- db_compact.cc:374-375: the entry with another position of the body. -/
def patchBp (v : Bytes) (bp : Nat) : Bytes := v.take 5 ++ enc48 bp ++ v.drop 11

/-- db_compact.cc:368-370: ask for other metadata; what the document info then has as such, if it has changed.
(Here `info` is what the filter was shown, 324.) -/
def rewriteMeta {υ : Type} (rw : Option (DocInfoRewrite υ)) (k v b : Bytes) : CompactM υ (Option Bytes) :=
  match rw with
  | none => pure none
  | some w =>
    match bySeqReadDocInfo k v with
    | none => throw .corrupt
    | some d => fun s => .ok ((w s.user d b).2.map (·.revMeta)) { s with user := (w s.user d b).1 }

/-- util.cc:108-135 `arena_special_copy_buf_and_revmeta`: the value with other metadata. -/
def spliceMeta (v m : Bytes) : Option Bytes :=
  if v.length < 18 then none
  else
    let idsize := (decodeKvLength (slice v 0 5)).1
    if 18 + idsize > v.length then none else some (v.take (18 + idsize) ++ m)

/-- db_compact.cc:251-260: the value of the new entry. -/
def newValue (v : Bytes) : Option Bytes → Option Bytes
  | none => some v
  | some m => spliceMeta v m

/-- db_compact.cc:379-383 and 251-260. -/
def outputItem {υ : Type} (E : Env) (rq : Rq Unit) (k v : Bytes) (m : Option Bytes) : CompactM υ Unit :=
  match newValue v m with
  | none => throw .read
  | some v' => outputSeqtreeItem E rq k v'

/-- db_compact.cc:354-383: copy the body and the entry. -/
def copyItem {υ : Type} (E : Env) (rq : Rq Unit) (rw : Option (DocInfoRewrite υ)) (k v : Bytes) (bpDel : Nat)
    (item : Option Bytes) : CompactM υ Unit := do
  let bp := bpDel % bpDeletedFlag
  if bp ≠ 0 then
    let b ← itemBody E bp item
    let m ← rewriteMeta rw k v b
    let (newBp, _) ← onTgt (dbWriteBuf E b)
    outputItem E rq k (patchBp v ((bpDel &&& bpDeletedFlag) ||| newBp)) m
  else outputItem E rq k v none

/-- db_compact.cc:323: the filter, if there is one. -/
def keepItem {υ : Type} (E : Env) (flt : Option (CompactFilter υ)) (k v : Bytes) (bp : Nat) :
    CompactM υ (Bool × Option Bytes) :=
  match flt with
  | none => pure (true, none)
  | some g => filterItem E g k v bp

/-- db_compact.cc:298-389 `compact_seq_fetchcb`. -/
def compactSeqFetch {υ : Type} (E : Env) (rq : Rq Unit) (drop : Bool) (flt : Option (CompactFilter υ))
    (rw : Option (DocInfoRewrite υ)) (k v : Bytes) : CompactM υ Unit :=
  if v.length < 18 then throw .corrupt else
  let bpDel := beDec (slice v 5 6)
  if (bpDel &&& bpDeletedFlag != 0) && flt.isNone && drop then pure () else do
  let (keep, item) ← keepItem E flt k v (bpDel % bpDeletedFlag)
  if keep then copyItem E rq rw k v bpDel item else pure ()

/-- Run a callback on the context. -/
def runFetch {σ : Type} (m : Bytes → Bytes → EStateM Err σ Unit) (u : σ) (k : Bytes) :
    Option Bytes → σ × Option Err
  -- in a traversal there is always a value
  | none => (u, none)
  | some v =>
    match m k v u with
    | .ok () u' => (u', none)
    | .error e u' => (u', some e)

/-- What compaction is called with. -/
structure Compaction (υ : Type) where
  source : Db
  /-- `COUCHSTORE_COMPACT_FLAG_DROP_DELETES` -/
  dropDeletes : Bool
  /-- `COUCHSTORE_COMPACT_FLAG_UPGRADE_DB` -/
  upgrade : Bool
  filter : Option (CompactFilter υ)
  rewrite : Option (DocInfoRewrite υ) := none
  /-- the state of the callbacks -/
  user : υ
  getKey : KeyGetter
  /-- random bytes for the key of the target -/
  ctx : Bytes
  /-- how the raw operations on the target misbehave -/
  faults : List Fault
  /-- how reading the bodies from the source misbehaves -/
  bodyFaults : List Fault
  /-- how reading the local documents from the source misbehaves -/
  localFaults : List Fault

/-- db_compact.cc:391-442 `compact_seq_tree`; returns the entries for the by-id index and the state of the
filter. -/
def compactSeqTree {υ : Type} (E : Env) (c : Compaction υ) (p : NodePointer) : DbM (List (Bytes × Bytes) × υ) := fun t =>
  let rq := seqRq c.source.file.cfg
  let look : LookRq (CompactSt υ) :=
    { cmp := seqCmp, tolerate := false, fetch := runFetch (compactSeqFetch E rq c.dropDeletes c.filter c.rewrite), node := none }
  match btreeLookup E look true p.pointer [enc48 0]
      ⟨{ c.source.file with faults := c.bodyFaults }, t.file, newBtreeModres, [], c.user⟩ c.source.file with
  | .error e _ => .error e t
  | .ok (st, some e) _ => .error e { t with file := st.tgt }
  | .ok (st, none) _ =>
    (do let root ← liftF (completeNewBtree E rq st.mr)
        setHeader fun h => { h with bySeqRoot := root }
        pure (st.added, st.user)) { t with file := st.tgt }

/-- tree_writer.cc:240-275: add records to a tree. -/
def pushItems {σ : Type} (E : Env) (rq : Rq σ) : List (Bytes × Bytes) → MR → M MR
  | [], mr => pure mr
  | kv :: kvs, mr => do pushItems E rq kvs (← mrPushItem E rq kv.1 kv.2 mr)

/-- The request of db_compact.cc:179-186 (`TreeWriter::open`) and tree_writer.cc:222-234. -/
def treeWriterRq (cfg : Cfg) : Rq (IdCtx Unit) := idRq cfg 0 none

/-- tree_writer.cc:171-201 `TreeWriter::sort`: the order is that of the keys. -/
def treeWriterSort (kvs : List (Bytes × Bytes)) : Option (List (Bytes × Bytes)) :=
  mergeSortStream (fun a b : Bytes × Bytes => ebinCmp a.1 b.1 == .lt) (512 * 1024) kvs

/-- tree_writer.cc:203-285 `TreeWriter::write`. -/
def treeWriterWrite (E : Env) (cfg : Cfg) (kvs : List (Bytes × Bytes)) : M (Option NodePointer) := do
  let mr ← pushItems E (treeWriterRq cfg) kvs newBtreeModres
  completeNewBtree E (treeWriterRq cfg) mr

/-- db_compact.cc:192-199: sort the by-id entries and write their tree. -/
def compactIdTree (E : Env) (added : List (Bytes × Bytes)) : DbM Unit := do
  match treeWriterSort added with
  | none => throw .read
  | some sorted =>
    let root ← liftF (treeWriterWrite E (← get).file.cfg sorted)
    setHeader fun h => { h with byIdRoot := root }
    if added.length ≠ sorted.length then throw .corrupt else pure ()

/-- db_compact.cc:444-453 `compact_localdocs_fetchcb` on the target and `target_mr`. -/
def compactLocalFetch (E : Env) (rq : Rq Unit) (k v : Bytes) : EStateM Err (File × MR) Unit := fun s =>
  match mrPushItem E rq k v s.2 s.1 with
  | .ok mr f => .ok () (f, mr)
  | .error e f => .error e (f, s.2)

/-- db_compact.cc:455-497 `compact_localdocs_tree`. -/
def compactLocalTree (E : Env) (source : File) (p : NodePointer) : DbM Unit := fun t =>
  let rq := localRq source.cfg
  let look : LookRq (File × MR) :=
    { cmp := ebinCmp, tolerate := false, fetch := runFetch (compactLocalFetch E rq), node := none }
  match btreeLookup E look true p.pointer [[]] (t.file, newBtreeModres) source with
  | .error e _ => .error e t
  | .ok (st, some e) _ => .error e { t with file := st.1 }
  | .ok (st, none) _ =>
    (do let root ← liftF (completeNewBtree E rq st.2)
        setHeader fun h => { h with localRoot := root }) { t with file := st.1 }

/-- db_compact.cc:121-158: how the target is opened. -/
def compactFlags (source : Db) (upgrade : Bool) : OpenFlags :=
  let word := (source.file.cfg.kpThr / 1024) <<< 20 ||| (source.file.cfg.kvThr / 1024) <<< 16
  { create := true, rdonly := false, excl := true
    legacyCrc := decide (source.header.diskVersion ≤ 11) && !upgrade
    noCommitAtCreate := true, recovery := false
    kvThr := (nodesizeOptions word).2, kpThr := (nodesizeOptions word).1 }

/-- db_compact.cc:177-200: copy the documents, if there is an index. -/
def compactDocs {υ : Type} (E : Env) (c : Compaction υ) : DbM υ :=
  match c.source.header.bySeqRoot with
  | none => pure c.user
  | some p => do
    let (added, u) ← compactSeqTree E c p
    compactIdTree E added
    pure u

/-- db_compact.cc:202-204: copy the local documents, if there is an index. -/
def compactLocals {υ : Type} (E : Env) (c : Compaction υ) : DbM Unit :=
  match c.source.header.localRoot with
  | none => pure ()
  | some p => compactLocalTree E { c.source.file with faults := c.localFaults } p

/-- db_compact.cc:205-210: the last call of the filter. -/
def lastFilterCall {υ : Type} (c : Compaction υ) (u : υ) : DbM Unit :=
  match c.filter with
  | none => pure ()
  | some g =>
    match (g u none none).2 with
    | .fail e => throw e
    | _ => pure ()

/-- db_compact.cc:163-214: everything between opening the target and committing it. -/
def compactFill {υ : Type} (E : Env) (c : Compaction υ) : DbM Unit := do
  setHeader fun h => { h with
    updateSeq := c.source.header.updateSeq
    purgeSeq := if c.dropDeletes then c.source.header.purgeSeq + 1 else c.source.header.purgeSeq
    purgePtr := c.source.header.purgePtr }
  let u ← compactDocs E c
  compactLocals E c
  lastFilterCall c u

/-- The file that is created. -/
def newFile (faults : List Fault) : File :=
  { disk := [], pos := 0, cfg := ⟨.unknown, none, 0, 0⟩, faults := faults, log := [] }

/-- db_compact.cc:97-231 `cb::couchstore::compact`: the handle of the target before it is closed. -/
def compact {υ : Type} (E : Env) (c : Compaction υ) : Except Err Db :=
  -- 108-112: `std::invalid_argument`
  if c.filter.isNone && c.rewrite.isSome then .error .logicError
  else if c.source.dropped then .error .fileClosed
  else
    match openDb E (compactFlags c.source c.upgrade) c.getKey c.ctx (newFile c.faults) with
    | .error e _ => .error e
    | .ok t _ =>
      match (do compactFill E c; commit E c.source.header.timestamp (fun _ => false)) t with
      | .error e _ => .error e
      | .ok () t' => .ok t'

/-- db_compact.cc:499-501 `couchstore_set_purge_seq`. -/
def setPurgeSeq (n : Nat) : DbM Unit := setHeader fun h => { h with purgeSeq := n }

end Couchstore
