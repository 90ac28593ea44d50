import Verif.Model.Flags
import Verif.Model.Open

/-! The program that prints the headers of a file, /repo/src/dbinfo.cc, with
/repo/src/couch_cxx_util.cc (`openDatabase`).  What is printed is a list of records, one for each header. -/

namespace Couchstore

/-- What is printed about a header (dbinfo.cc:102-135); the sizes of the three b-trees are left out, and so are
the size of the file, the checksum and the name of the key, which are printed once (dbinfo.cc:80-98). -/
structure HeaderLine where
  position : Nat
  version : Nat
  updateSeq : Nat
  purgeSeq : Nat
  /-- from version 13 on -/
  timestamp : Option Nat
  docCount : Nat
  deletedCount : Nat
  dataSize : Nat
deriving DecidableEq, Repr

/-- dbinfo.cc:102-119 with `print_db_info` (:49-56), which does not look at what `couchstore_db_info` returns:
if that fails, the counters are 0 (couch_db.cc:1857). -/
def headerLine (db : Db) : HeaderLine :=
  let counts := match dbInfo db with
    | .ok i _ => (i.docCount, i.deletedCount, i.spaceUsed)
    | .error _ _ => (0, 0, 0)
  { position := db.header.position, version := db.header.diskVersion, updateSeq := db.header.updateSeq
    purgeSeq := db.header.purgeSeq, timestamp := if 13 ≤ db.header.diskVersion then some db.header.timestamp else none
    docCount := counts.1, deletedCount := counts.2.1, dataSize := counts.2.2 }

/-- dbinfo.cc:101-140, the loop over the headers: the lines, and whether the loop ended within `fuel` rounds. -/
def headerLines (E : Env) (d : Direction) : Nat → Db → List HeaderLine × Bool
  | 0, _ => ([], false)
  | fuel + 1, db =>
    match seekDir E d db with
    | .ok _ db' => (headerLine db :: (headerLines E d fuel db').1, (headerLines E d fuel db').2)
    | .error _ _ => ([headerLine db], true)

/-- How the program ends for one file. -/
inductive InfoEnd where
  /-- status 0 -/
  | printed (lines : List HeaderLine)
  /-- status 1 -/
  | failed
  /-- the loop has not ended -/
  | running
deriving DecidableEq, Repr

/-- `COUCHSTORE_OPEN_FLAG_RDONLY` (dbinfo.cc:68). -/
def infoFlags : OpenFlags :=
  { create := false, rdonly := true, excl := false, legacyCrc := false, noCommitAtCreate := false, recovery := false
    kvThr := (nodesizeOptions 0).2, kpThr := (nodesizeOptions 0).1 }

/-- couch_cxx_util.cc:160-182 `openDatabase`, read only. -/
def openAtOffset (E : Env) (getKey : KeyGetter) (offset : Option Nat) (f : File) : Option Db :=
  match openDb E infoFlags getKey [] f with
  | .error _ _ => none
  | .ok db _ =>
    match offset with
    | none => some db
    | some o =>
      match seekOffset E o db with
      | .ok _ db' => some db'
      | .error _ _ => none

/-- dbinfo.cc:58-143 `process_file` and :219-228 of `main`, for one file; `iterate` is the argument of
`--iterate-headers` (no argument means backward).  There are at most as many headers as blocks. -/
def infoMain (E : Env) (getKey : KeyGetter) (offset : Option Nat) (iterate : Option Direction) (f : File) : InfoEnd :=
  match openAtOffset E getKey offset f with
  | none => .failed
  | some db =>
    match iterate with
    | none => .printed [headerLine db]
    | some d =>
      let r := headerLines E d (db.file.pos / blockSize + 2) db
      if r.2 then .printed r.1 else .running

end Couchstore
