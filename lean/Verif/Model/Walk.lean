import Verif.Model.Db

/-! Walks over the trees of a database, /repo/src/couch_db.cc:1597-1717. -/

namespace Couchstore

/-- What the callback of a walk is called for (couch_db.h:754-759): a node with its size and reduction, or a document. -/
inductive WalkItem where
  | node (size : Nat) (reduce : Bytes)
  | doc (d : DocInfo)
deriving DecidableEq, Repr

/-- couch_db.h:733-759 `couchstore_walk_tree_callback_fn`, with the depth; a negative result is the error. -/
abbrev WalkCb (σ : Type) := σ → Nat → WalkItem → σ × Option Err

/-- couch_db.cc:1225-1236 `local_read_docinfo`. -/
def localReadDocInfo (k v : Bytes) : Option DocInfo :=
  some { id := k, dbSeq := 0, revSeq := 0, revMeta := [], deleted := false, contentMeta := 0, bp := 0,
         physicalSize := v.length }

/-- couch_db.cc:1446-1511 `lookup_callback` with `walk_callback`; the state has the depth. -/
def walkFetch {σ} (opts : ScanOpts) (read : Bytes → Bytes → Option DocInfo) (cb : WalkCb σ) (s : σ × Nat) (k : Bytes)
    (v : Option Bytes) : (σ × Nat) × Option Err :=
  lookupCallback opts read (fun s d => (((cb s.1 s.2 (.doc d)).1, s.2), (cb s.1 s.2 (.doc d)).2)) s k v

/-- couch_db.cc:1597-1617 `walk_node_callback`. -/
def walkNode {σ} (cb : WalkCb σ) (s : σ × Nat) : Option (Nat × Bytes) → (σ × Nat) × Option Err
  | some (size, reduce) => (((cb s.1 s.2 (.node size reduce)).1, s.2 + 1), (cb s.1 s.2 (.node size reduce)).2)
  | none => ((s.1, s.2 - 1), none)

/-- couch_db.cc:1655-1666: the request of a walk. -/
def walkRq {σ} (cmp : Bytes → Bytes → Ordering) (opts : ScanOpts) (read : Bytes → Bytes → Option DocInfo) (cb : WalkCb σ) :
    LookRq (σ × Nat) where
  cmp := cmp
  tolerate := opts.tolerate
  fetch := walkFetch opts read cb
  node := some (walkNode cb)

/-- couch_db.cc:1619-1671 `couchstore_walk_tree`; the callback's context and the error. -/
def walkTree {σ} (E : Env) (read : Bytes → Bytes → Option DocInfo) (root : Option NodePointer) (start : Bytes) (opts : ScanOpts)
    (cmp : Bytes → Bytes → Ordering) (cb : WalkCb σ) (u : σ) : DbM (σ × Option Err) := do
  let db ← get
  if db.dropped then throw .fileClosed else
  match root with
  | none => pure (u, none)
  | some p =>
    match cb u 0 (.node p.subtreesize p.reduceValue) with
    | (u, some e) => pure (u, some e)
    | (u, none) => do
      let (s, e) ← liftF (btreeLookup E (walkRq cmp opts read cb) true p.pointer [start] (u, 1))
      pure (s.1, e)

/-- couch_db.cc:1673-1683 `couchstore_walk_id_tree`; a null start key is the empty key. -/
def walkIdTree {σ} (E : Env) (start : Option Bytes) (opts : ScanOpts) (cb : WalkCb σ) (u : σ) : DbM (σ × Option Err) := do
  let db ← get
  walkTree E byIdReadDocInfo db.header.byIdRoot (start.getD []) opts ebinCmp cb u

/-- couch_db.cc:1685-1699 `couchstore_walk_seq_tree`. -/
def walkSeqTree {σ} (E : Env) (start : Nat) (opts : ScanOpts) (cb : WalkCb σ) (u : σ) : DbM (σ × Option Err) := do
  let db ← get
  walkTree E bySeqReadDocInfo db.header.bySeqRoot (enc48 start) opts seqCmp cb u

/-- couch_db.cc:1701-1717 `couchstore_walk_local_tree`. -/
def walkLocalTree {σ} (E : Env) (start : Option Bytes) (opts : ScanOpts) (cb : WalkCb σ) (u : σ) : DbM (σ × Option Err) := do
  let db ← get
  walkTree E localReadDocInfo db.header.localRoot (start.getD []) opts ebinCmp cb u

end Couchstore
