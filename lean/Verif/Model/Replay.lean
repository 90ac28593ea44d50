import Verif.Model.Compact
import Verif.Model.Open

/-
Model of the replay of changes on a compacted file: /repo/src/db_compact.cc:559-763 and
`scanLocalDocs` of /repo/src/couch_cxx_util.cc.

As in the model of compaction, the bodies are read from the source with misbehaviours of the raw file
operations of their own, while the indexes of the source are traversed.

Not modelled: changes that the hooks make to the databases, failing allocations.  All failures are thrown
as `std::runtime_error` by the code; here the error tells the reason.
-/

namespace Couchstore

/-- couch_db.h `PreCopyHook` gets the document or the local document. -/
abbrev PreCopyHook (υ : Type) := υ → DocInfo ⊕ LocalDoc → υ × Option Err

/-- What replay is called with, besides the two databases. -/
structure Replay (υ : Type) where
  /-- `sourceHeaderEndOffset` -/
  offset : Nat
  /-- `preCopyHook`; the default one accepts everything -/
  hook : PreCopyHook υ
  /-- `precommitHook` -/
  precommit : υ → Option Err
  user : υ
  flushThreshold : Nat
  /-- how reading the bodies from the source misbehaves -/
  bodyFaults : List Fault

/-- db_compact.cc:559-577 `struct Context`, with the source that bodies are read from. -/
structure ReplaySt (υ : Type) where
  src : Db
  tgt : Db
  localDocs : List LocalDoc
  /-- `docs` and `docInfos` -/
  items : List SaveItem
  size : Nat
  user : υ

abbrev ReplayM (υ : Type) := EStateM Err (ReplaySt υ)

def onSource {υ α : Type} (m : DbM α) : ReplayM υ α := fun s =>
  match m s.src with
  | .ok a d => .ok a { s with src := d }
  | .error e d => .error e { s with src := d }

def onTarget {υ α : Type} (m : DbM α) : ReplayM υ α := fun s =>
  match m s.tgt with
  | .ok a d => .ok a { s with tgt := d }
  | .error e d => .error e { s with tgt := d }

/-- Call the hook. -/
def callHook {υ : Type} (r : Replay υ) (d : DocInfo ⊕ LocalDoc) : ReplayM υ Unit := fun s =>
  match r.hook s.user d with
  | (u, none) => .ok () { s with user := u }
  | (u, some e) => .error e { s with user := u }

/-- db_compact.cc:633-637: documents are saved with their sequence numbers. -/
def replayOpts : SaveOpts := { compress := false, asIs := true }

/-- db_compact.cc:620-651 `Context::flush`. -/
def replayFlush {υ : Type} (E : Env) : ReplayM υ Unit := do
  let s ← get
  if s.localDocs ≠ [] then
    onTarget (updateLocalDocuments E s.localDocs)
    modify fun s => { s with localDocs := [], size := 0 }
  else if s.items = [] then pure ()
  else
    let _ ← onTarget (saveDocuments E replayOpts (none : Option (SaveCb Unit)) s.items ())
    modify fun s => { s with items := [], size := 0 }

/-- db_compact.cc:582-585, 607-617: write out what was collected if it is much. -/
def flushIfMuch {υ : Type} (E : Env) (r : Replay υ) : ReplayM υ Unit := do
  if (← get).size > r.flushThreshold then replayFlush E else pure ()

/-- db_compact.cc:579-586 `Context::spool` for a local document. -/
def spoolLocal {υ : Type} (E : Env) (r : Replay υ) (d : LocalDoc) : ReplayM υ Unit := do
  modify fun s => { s with localDocs := s.localDocs ++ [d], size := s.size + (d.id.length + d.json.length) }
  flushIfMuch E r

/-- db_compact.cc:603-618 `Context::spool` for a document. -/
def spoolDoc {υ : Type} (E : Env) (r : Replay υ) (info : DocInfo) (doc : Option Bytes) : ReplayM υ Unit := do
  modify fun s => { s with items := s.items ++ [⟨doc, info, 0⟩], size := s.size + info.physicalSize }
  flushIfMuch E r

/-- couch_cxx_util.cc:63-71 `openDocument` (with a document info) and db_compact.cc:671-679: the body of a
document of the source; a tombstone may have none. -/
def replayBody {υ : Type} (E : Env) (d : DocInfo) : ReplayM υ (Option Bytes) := fun s =>
  match openDocWithDocinfo E d false s.src with
  | .ok b src => .ok (some b) { s with src := src }
  | .error e src =>
    if d.deleted ∧ e.code = Err.docNotFound.code then .ok none { s with src := src } else .error e { s with src := src }

/-- db_compact.cc:663-682 `couchstore_changes_callback`. -/
def replayDoc {υ : Type} (E : Env) (r : Replay υ) (d : DocInfo) : ReplayM υ Unit := do
  callHook r (.inl d)
  let b ← replayBody E d
  spoolDoc E r d b

/-- couch_cxx_util.cc:95-129 `scanLocalDocsCallback` with db_compact.cc:705-714. -/
def replayLocal {υ : Type} (E : Env) (r : Replay υ) (k v : Bytes) : ReplayM υ Unit := do
  let d : LocalDoc := ⟨k, v, false⟩
  callHook r (.inr d)
  spoolLocal E r d

/-- A scan of the source by `m`, whose callbacks work on the context. -/
def scanSource {υ : Type} (r : Replay υ) (m : ReplaySt υ → DbM (ReplaySt υ × Option Err)) : ReplayM υ Unit := fun s =>
  match m { s with src := { s.src with file := { s.src.file with faults := r.bodyFaults } } } s.src with
  | .error e d => .error e { s with src := d }
  | .ok (s', some e) d => .error e { s' with src := d }
  | .ok (s', none) d => .ok () { s' with src := d }

/-- couch_cxx_util.cc:131-158 `scanLocalDocs` from the beginning. -/
def scanLocalDocs {σ : Type} (E : Env) (fetch : σ → Bytes → Option Bytes → σ × Option Err) (u : σ) :
    DbM (σ × Option Err) := do
  let db ← get
  if db.dropped then throw .fileClosed else
  match db.header.localRoot with
  | none => pure (u, none)
  | some p => liftF (btreeLookup E ⟨ebinCmp, false, fetch, none⟩ true p.pointer [[]] u)

/-- The callback of `couchstore_changes_since`. -/
def replayChanges {υ : Type} (E : Env) (r : Replay υ) : ChangesCb (ReplaySt υ) := fun s d =>
  match replayDoc E r d s with
  | .ok () s' => (s', none)
  | .error e s' => (s', some e)

/-- db_compact.cc:745-753: the last hook. -/
def callPrecommit {υ : Type} (r : Replay υ) : ReplayM υ Unit := fun s =>
  match r.precommit s.user with
  | none => .ok () s
  | some e => .error e s

/-- db_compact.cc:698: go to the header that is the last to include. -/
def replaySeek {υ : Type} (E : Env) (r : Replay υ) : ReplayM υ Unit := onSource (seekOffset E r.offset)

/-- db_compact.cc:705-727: copy the local documents. -/
def replayLocals {υ : Type} (E : Env) (r : Replay υ) : ReplayM υ Unit := do
  scanSource r (scanLocalDocs E (runFetch (replayLocal E r)))
  replayFlush E

/-- db_compact.cc:729-742: copy the documents that have changed. -/
def replayDocs {υ : Type} (E : Env) (r : Replay υ) (startSeqno : Nat) : ReplayM υ Unit := do
  scanSource r (changesSince E startSeqno ⟨false, false, false⟩ (replayChanges E r))
  replayFlush E

/-- db_compact.cc:744-760: the rest. -/
def replayCommit {υ : Type} (E : Env) (r : Replay υ) : ReplayM υ Unit := do
  let s ← get
  onTarget (setPurgeSeq s.src.header.purgeSeq)
  callPrecommit r
  onTarget (commit E s.src.header.timestamp (fun _ => false))

/-- db_compact.cc:685-763 `cb::couchstore::replay`. -/
def replayRun {υ : Type} (E : Env) (r : Replay υ) : ReplayM υ Unit := do
  let startSeqno := (← get).src.header.updateSeq + 1
  replaySeek E r
  replayLocals E r
  replayDocs E r startSeqno
  replayCommit E r

/-- `cb::couchstore::replay`: the two handles afterwards. -/
def replayChangesOn {υ : Type} (E : Env) (r : Replay υ) (source target : Db) : Except Err Unit × Db × Db :=
  match replayRun E r ⟨source, target, [], [], 0, r.user⟩ with
  | .ok () s => (.ok (), s.src, s.tgt)
  | .error e s => (.error e, s.src, s.tgt)

end Couchstore
