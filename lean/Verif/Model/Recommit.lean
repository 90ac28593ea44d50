import Verif.Model.DbInfoTool

/-! The program that adds a commit to a file: programs/recommit/recommit.cc.

Simplifications: the options are given as numbers; 0 is that of an option that is not given, as in the program. -/

namespace Couchstore

/-- recommit.cc:39-41. -/
structure RecommitArgs where
  byId : Nat := 0
  bySeq : Nat := 0
  local_ : Nat := 0
deriving DecidableEq, Repr

/-- The flags are 0 (recommit.cc:66). -/
def recommitFlags : OpenFlags :=
  { create := false, rdonly := false, excl := false, legacyCrc := false, noCommitAtCreate := false, recovery := false
    kvThr := (nodesizeOptions 0).2, kpThr := (nodesizeOptions 0).1 }

/-- recommit.cc:72-78, 79-85 and 86-92: the root with its new position, and what is printed: whether there is a star, and the position. -/
def recommitRoot (pos : Nat) : Option NodePointer → Option NodePointer × Option (Bool × Nat)
  | none => (none, none)
  | some p => if 0 < pos then (some { p with pointer := pos }, some (true, pos)) else (some p, some (false, p.pointer))

/-- recommit.cc:71-92. -/
def recommitHeader (a : RecommitArgs) (h : Header) : Header :=
  { h with
    byIdRoot := (recommitRoot a.byId h.byIdRoot).1
    bySeqRoot := (recommitRoot a.bySeq h.bySeqRoot).1
    localRoot := (recommitRoot a.local_ h.localRoot).1 }

/-- recommit.cc:71-92: what is printed for the three trees. -/
def recommitPrints (a : RecommitArgs) (h : Header) : List (Option (Bool × Nat)) :=
  [(recommitRoot a.byId h.byIdRoot).2, (recommitRoot a.bySeq h.bySeqRoot).2, (recommitRoot a.local_ h.localRoot).2]

/-- How the program ends; the handle is what there is of it then. -/
inductive RecommitResult where
  /-- 0 -/
  | done (out : List (Option (Bool × Nat))) (db : Db)
  /-- 2, after `open_db` -/
  | openFailed (e : Err)
  /-- 2, after `commit` -/
  | commitFailed (e : Err) (out : List (Option (Bool × Nat))) (db : Db)
deriving DecidableEq, Repr

/-- recommit.cc:37-100 `main`.  The file is opened without keys; the commit has no callback, and the time is that of the clock
(couch_db.cc:679-686 `couchstore_commit`). -/
def recommit (E : Env) (timestamp : Nat) (a : RecommitArgs) (f : File) : RecommitResult :=
  match openDb E recommitFlags none [] f with
  | .error e _ => .openFailed e
  | .ok db _ =>
    match commit E timestamp (fun _ => false) { db with header := recommitHeader a db.header } with
    | .ok () db' => .done (recommitPrints a db.header) db'
    | .error e db' => .commitFailed e (recommitPrints a db.header) db'

end Couchstore
