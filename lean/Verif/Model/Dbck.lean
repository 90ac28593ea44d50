import Verif.Model.Recover
import Verif.Model.Walk

/-
Model of the recovery tool `couch_dbck`, /repo/src/dbck.cc.

The tool opens the damaged file three times, for reading, in recovery mode; here one handle stands for the three
(they are opened in the same way, and the operating system reads what is there).  Messages are not modelled.
-/

namespace Couchstore

/-- dbck.cc:146-166 `rewind_request` and `rewind_hook_param`: the handle of the recovered file and the number of
documents that are said to be recovered.  `limit` tells whether a limit of the file format was met (then the model
does not describe the run). -/
structure StaleSt where
  dst : Db
  count : Nat
  limit : Bool

/-- dbck.cc:220-225: save the document with its sequence number; nobody looks at the result. -/
def staleSave (E : Env) (st : StaleSt) (d : DocInfo) (b : Bytes) : StaleSt :=
  match saveDocuments E ⟨false, true⟩ none [⟨some b, d, 0⟩] () st.dst with
  | .ok _ db => ⟨db, st.count + 1, st.limit⟩
  | .error e db => ⟨db, st.count + 1, st.limit || decide (e = .formatLimit)⟩

/-- dbck.cc:179-229: a document of a stale commit is saved if the recovered file does not have its id and its body
can be read (`alt` is the other handle of the damaged file). -/
def staleDoc (E : Env) (alt : Db) (st : StaleSt) (d : DocInfo) : StaleSt :=
  match docinfoById E d.id st.dst with
  | .ok _ db => { st with dst := db }
  | .error _ db =>
    match openDocWithDocinfo E d false alt with
    | .error _ _ => { st with dst := db }
    | .ok b _ => staleSave E { st with dst := db } d b

/-- dbck.cc:168-230 `rewind_hook`. -/
def staleHook (E : Env) (alt : Db) : WalkCb StaleSt := fun st _ item =>
  match item with
  | .node _ _ => (st, none)
  | .doc d => (staleDoc E alt st d, none)

/-- dbck.cc:259-263: walk through the documents of the commit that the handle shows; errors are ignored. -/
def staleWalk (E : Env) (alt : Db) (st : StaleSt) (db : Db) : StaleSt :=
  match walkIdTree E none ⟨true, false, false⟩ (staleHook E alt) st db with
  | .ok (st', _) _ => st'
  | .error _ _ => st

/-- dbck.cc:244-271, the loop of `rewind_and_get_stale_data`: one stale commit after the other, until the handle
cannot be moved back.  `fuel` bounds the number of rounds (the position of the header gets smaller in each). -/
def staleLoop (E : Env) (alt : Db) : Nat → Db → StaleSt → StaleSt
  | 0, _, st => st
  | n + 1, db, st =>
    match rewindDbHeader E db with
    | .error _ _ => st
    | .ok () db' => staleLoop E alt n db' (staleWalk E alt st db')

/-- dbck.cc:232-281 `rewind_and_get_stale_data`. -/
def rewindAndGetStaleData (E : Env) (src dst : Db) : StaleSt :=
  staleLoop E src (src.header.position + 1) src ⟨dst, 0, false⟩

/-- dbck.cc:368-387: documents of stale commits are added to the recovered file, and this is committed. -/
def addStale (E : Env) (src dst : Db) (timestamp : Nat) : Except Err (Db × Nat) :=
  let st := rewindAndGetStaleData E src dst
  if st.limit then .error .formatLimit
  else if st.count = 0 then .ok (st.dst, 0)
  else
    match commit E timestamp (fun _ => false) st.dst with
    | .ok () db => .ok (db, st.count)
    | .error e _ => .error e

/-- dbck.cc:283-404 `recover_file`, after the source was opened: the handle of the recovered file and the number of
documents that are said to come from stale commits.

`c` is the compaction (its filter is `recover_file_hook`, 87-144, which counts and keeps everything).  The tool
looks for stale commits if compaction returns an error or the filter has counted a body that it could not read; the
latter is left out here, since compaction then returns an error as well.  If compaction fails, there is no target and
opening it fails: without `stale` that error is returned, with `stale` a null handle is used for every
document of a stale commit (here: at once, `assertFail`). -/
def dbck {υ : Type} (E : Env) (c : Compaction υ) (flags : OpenFlags) (stale : Bool) (timestamp : Nat) : Except Err (Db × Nat) :=
  match recover E c with
  | .error _ => .error (if stale then .assertFail else .noSuchFile)
  | .ok (t, er) =>
    match openDb E flags c.getKey c.ctx { t.file with faults := [] } with
    | .error e _ => .error (if stale then .assertFail else e)
    | .ok dst _ => if er.isSome && stale then addStale E c.source dst timestamp else .ok (dst, 0)

end Couchstore
