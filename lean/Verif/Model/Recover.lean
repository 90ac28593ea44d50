import Verif.Model.Compact

/-
Model of compaction in recovery mode: /repo/src/db_compact.cc:97-231 and 391-442 with
`COUCHSTORE_COMPACT_RECOVERY_MODE`, as `couch_dbck` uses it (dbck.cc:320-330).

The traversal of the by-sequence index goes on after every error (of a node, of a body, of the filter, of the
target), and remembers the last one; the rest of compaction is as usual, and if it succeeds the remembered error
is what is returned, beside a complete target.

A number that does not fit its field on disk is not noticed by the code (`.formatLimit` is where the model ends):
a run that meets this limit has no result here, whether or not errors are tolerated.
-/

namespace Couchstore

/-- db_compact.cc:298-389 as a callback of a traversal that goes on after errors; the second component of the
state tells whether a limit of the format was met (then the model does not describe the run). -/
def recoverFetch {υ : Type} (E : Env) (rq : Rq Unit) (drop : Bool) (flt : Option (CompactFilter υ))
    (rw : Option (DocInfoRewrite υ)) (u : CompactSt υ × Bool) (k : Bytes) (v : Option Bytes) : (CompactSt υ × Bool) × Option Err :=
  let r := runFetch (compactSeqFetch E rq drop flt rw) u.1 k v
  ((r.1, u.2 || decide (r.2 = some .formatLimit)), r.2)

/-- db_compact.cc:424-435: complete the tree whatever happened before; `complete_new_btree` returns no root when
it fails (btree_modify.cc:814-850), and its error, too, is tolerated. -/
def recoverRoot {υ : Type} (E : Env) (rq : Rq Unit) (t : Db) (st : CompactSt υ) (e : Option Err) :
    EStateM.Result Err Db (List (Bytes × Bytes) × υ × Option Err) :=
  match completeNewBtree E rq st.mr st.tgt with
  | .ok root f => .ok (st.added, st.user, e) { t with file := f, header := { t.header with bySeqRoot := root } }
  | .error .formatLimit f => .error .formatLimit { t with file := f }
  | .error x f => .ok (st.added, st.user, some x) { t with file := f, header := { t.header with bySeqRoot := none } }

/-- db_compact.cc:391-442 `compact_seq_tree` in recovery mode; returns the entries for the by-id index, the
state of the filter and the error that is remembered (`scan_err`). -/
def recoverSeqTree {υ : Type} (E : Env) (c : Compaction υ) (p : NodePointer) :
    DbM (List (Bytes × Bytes) × υ × Option Err) := fun t =>
  let rq := seqRq c.source.file.cfg
  let look : LookRq (CompactSt υ × Bool) :=
    { cmp := seqCmp, tolerate := true, fetch := recoverFetch E rq c.dropDeletes c.filter c.rewrite, node := none }
  match btreeLookup E look true p.pointer [enc48 0]
      (⟨{ c.source.file with faults := c.bodyFaults }, t.file, newBtreeModres, [], c.user⟩, false) c.source.file with
  | .error e _ => .error e t
  | .ok ((st, true), _) _ => .error .formatLimit { t with file := st.tgt }
  | .ok ((st, false), e) _ => recoverRoot E rq t st e

/-- db_compact.cc:177-200 in recovery mode. -/
def recoverDocs {υ : Type} (E : Env) (c : Compaction υ) : DbM (υ × Option Err) :=
  match c.source.header.bySeqRoot with
  | none => pure (c.user, none)
  | some p => do
    let (added, u, e) ← recoverSeqTree E c p
    compactIdTree E added
    pure (u, e)

/-- db_compact.cc:163-214 in recovery mode: everything between opening the target and committing it. -/
def recoverFill {υ : Type} (E : Env) (c : Compaction υ) : DbM (Option Err) := do
  setHeader fun h => { h with
    updateSeq := c.source.header.updateSeq
    purgeSeq := if c.dropDeletes then c.source.header.purgeSeq + 1 else c.source.header.purgeSeq
    purgePtr := c.source.header.purgePtr }
  let (u, e) ← recoverDocs E c
  compactLocals E c
  lastFilterCall c u
  pure e

/-- db_compact.cc:97-231 `cb::couchstore::compact` in recovery mode: an error without a target (it is removed),
or the handle of the target before it is closed together with the error that is returned all the same. -/
def recover {υ : Type} (E : Env) (c : Compaction υ) : Except Err (Db × Option Err) :=
  if c.filter.isNone && c.rewrite.isSome then .error .logicError
  else if c.source.dropped then .error .fileClosed
  else
    match openDb E (compactFlags c.source c.upgrade) c.getKey c.ctx (newFile c.faults) with
    | .error e _ => .error e
    | .ok t _ =>
      match (do let e ← recoverFill E c; commit E c.source.header.timestamp (fun _ => false); pure e) t with
      | .error e _ => .error e
      | .ok e t' => .ok (t', e)

end Couchstore
