import Verif.Model.Compact

/-! Compaction with what its callbacks do to the new file: /repo/src/db_compact.cc:45-231.  `Compact.lean` has compaction when the
callbacks do nothing to it. -/

namespace Couchstore

/-- couch_db.h:989-990 `PrecommitHook`: gets the source and the target, which it may write to.  It does not change the source. -/
abbrev PrecommitHook := Db → DbM Unit

structure HookedCompaction (υ : Type) extends Compaction υ where
  /-- What the filter has given to `couchstore_set_purge_seq` of the target when it is called the last time (db_compact.cc:205-210) or
  before, if it has called it.  That number is not used before the commit, so only the last call matters; the filter has it in its state. -/
  purge : υ → Option Nat
  hook : Option PrecommitHook

/-- The state of the filter after its last call (db_compact.cc:205-210). -/
def lastFilterState {υ : Type} (c : Compaction υ) (u : υ) : υ :=
  match c.filter with
  | none => u
  | some g => (g u none none).1

/-- db_compact.cc:499-501, if it was called. -/
def setPurgeIf : Option Nat → DbM Unit
  | none => pure ()
  | some n => setPurgeSeq n

/-- db_compact.cc:163-210, with the state of the filter as result. -/
def hookedFill {υ : Type} (E : Env) (c : Compaction υ) : DbM υ := do
  setHeader fun h => { h with
    updateSeq := c.source.header.updateSeq
    purgeSeq := if c.dropDeletes then c.source.header.purgeSeq + 1 else c.source.header.purgeSeq
    purgePtr := c.source.header.purgePtr }
  let u ← compactDocs E c
  compactLocals E c
  lastFilterCall c u
  pure (lastFilterState c u)

/-- db_compact.cc:212-214. -/
def runPrecommit (hook : Option PrecommitHook) (source : Db) : DbM Unit :=
  match hook with
  | none => pure ()
  | some h => h source

/-- db_compact.cc:97-231 `cb::couchstore::compact`: the handle of the target before it is closed. -/
def compactHooked {υ : Type} (E : Env) (c : HookedCompaction υ) : Except Err Db :=
  if c.filter.isNone && c.rewrite.isSome then .error .logicError
  else if c.source.dropped then .error .fileClosed
  else
    match openDb E (compactFlags c.source c.upgrade) c.getKey c.ctx (newFile c.faults) with
    | .error e _ => .error e
    | .ok t _ =>
      match (do
          let u ← hookedFill E c.toCompaction
          setPurgeIf (c.purge u)
          runPrecommit c.hook c.source
          commit E c.source.header.timestamp (fun _ => false)) t with
      | .error e _ => .error e
      | .ok () t' => .ok t'

end Couchstore
