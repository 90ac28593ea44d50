import Verif.Model.Flags
import Verif.Model.Open
import Verif.Model.Walk

/-! The program that checks a file, /repo/src/check.cc.  What it prints is not modelled. -/

namespace Couchstore

/-- The options 0. -/
def noOpts : ScanOpts := ⟨false, false, false⟩

/-- check.cc:40-58 `callback_and_access_document`.  The callback ends the program with status 1; here it returns
the error, which ends the walk, and `checkDb` returns 1 then.  It reads with the handle of the walk; as the
callback cannot change the file that the model walks over, the handle is passed to it (so the model is right only
where the raw operations do not fail). -/
def checkDoc (E : Env) (db : Db) : ChangesCb Nat := fun n d =>
  match openDocWithDocinfo E d true db with
  | .ok _ _ => (n, none)
  | .error e _ => if d.deleted ∧ e = .docNotFound then (n, none) else (n, some e)

/-- check.cc:60-79 `callback_and_access_local_document`, with the same conventions. -/
def checkLocalDoc (E : Env) (db : Db) : WalkCb Unit := fun _ _ item =>
  match item with
  | .node _ _ => ((), none)
  | .doc d =>
    match openLocalDocument E d.id db with
    | .ok _ _ => ((), none)
    | .error e _ => if e = .docNotFound then ((), none) else ((), some e)

/-- check.cc:81-83 `callback`. -/
def checkNothing : ChangesCb Nat := fun n _ => (n, none)

/-- check.cc:111-143, what the program does with the opened file; its exit status.  The two counters are the
contexts of the walks, as in the code. -/
def checkDb (E : Env) (db : Db) : Nat :=
  match walkLocalTree E none noOpts (checkLocalDoc E db) () db with
  | .ok (_, none) db =>
    match changesSince E 0 noOpts (checkDoc E db) 0 db with
    | .ok (seqCount, none) db =>
      match allDocs E none noOpts checkNothing 0 db with
      | .ok (idCount, none) _ => if seqCount ≠ idCount then 1 else 0
      | _ => 1
    | _ => 1
  | _ => 1

/-- How the program ends. -/
inductive CheckEnd where
  | exit (status : Nat)
  /-- `print_error` (check.cc:32-38) dereferences the handle, which is null. -/
  | nullHandle
deriving DecidableEq, Repr

/-- check.cc:94-144 `main` with one argument, on the file `f`.  There is no way to give a key. -/
def checkMain (E : Env) (f : File) : CheckEnd :=
  let flags : OpenFlags := { create := false, rdonly := true, excl := false, legacyCrc := false, noCommitAtCreate := false,
                             recovery := false, kvThr := (nodesizeOptions 0).2, kpThr := (nodesizeOptions 0).1 }
  match openDb E flags none [] f with
  | .error _ _ => .nullHandle
  | .ok db _ => .exit (checkDb E db)

end Couchstore
