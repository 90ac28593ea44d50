import Verif.Model.DbInfoTool
import Verif.Model.DbDump
import Verif.Model.Walk

/-! The program that dumps documents, with `--tree`: src/dbdump.cc:693-740, 959-1003.

Simplifications: a line is a record, and its layout is left out (the indentation is the depth); what other libraries decode is
a parameter.  A line that is cut off by an exception is left out. -/

namespace Couchstore

/-- The argument of the program that says which tree is dumped. -/
inductive TreeMode where
  | bySeq
  | byId
  | locals
deriving DecidableEq, Repr

inductive TreeLine where
  /-- "+": the size of the subtree and the reduction -/
  | node (depth size : Nat) (reduce : Bytes)
  /-- "*" or "x": the sizes of the body and of the metadata, the sequence number and the name -/
  | doc (depth : Nat) (deleted : Bool) (size metaSize : Nat) (seq : Option Nat) (id : Bytes)
  /-- "**corrupt?**", with the metadata -/
  | corrupt (depth : Nat) (revMeta : Bytes)
deriving DecidableEq, Repr

structure TreeState where
  lines : List TreeLine
  count : Nat
  thrown : Bool
deriving DecidableEq, Repr

/-- dbdump.cc:693-740 `visit_node`, which never returns a negative number.  `showId` is `buildCollectionInfoId` (:334-392), `none`
if that throws; after an exception the program has ended; here the walk goes on, and the callback does nothing. -/
def visitNode (showId : Bytes → Option Bytes) (decodeNamespace : Bool) (mode : TreeMode) : WalkCb TreeState := fun st depth item =>
  if st.thrown then (st, none)
  else
    match item with
    | .node size reduce => ({ st with lines := st.lines ++ [.node depth size reduce] }, none)
    | .doc d =>
      if 0 < d.bp ∨ (d.bp = 0 ∧ d.deleted = true) ∨ mode = .locals then
        match (if mode ≠ .locals ∧ decodeNamespace = true then showId d.id else some d.id) with
        | none => ({ st with thrown := true }, none)
        | some id =>
          ({ st with
              lines := st.lines ++ [.doc depth d.deleted d.physicalSize d.revMeta.length (if mode = .bySeq then some d.dbSeq else none) id]
              count := st.count + 1 }, none)
      else ({ st with lines := st.lines ++ [.corrupt depth d.revMeta] }, none)

/-- How the program ends for one file. -/
inductive TreeEnd where
  /-- status 0, and the number of documents that is printed at the end -/
  | done (lines : List TreeLine) (count : Nat)
  /-- status 1 -/
  | failed (lines : List TreeLine)
  /-- ended by an exception -/
  | aborted (lines : List TreeLine)
deriving DecidableEq, Repr

/-- The end of a walk (dbdump.cc:1051-1058). -/
def treeEnd (st : TreeState) (e : Option Err) : TreeEnd :=
  if st.thrown then .aborted st.lines
  else match e with
    | none => .done st.lines st.count
    | some _ => .failed st.lines

/-- dbdump.cc:959-1003 with `dumpTree`. -/
def dumpTree (E : Env) (showId : Bytes → Option Bytes) (decodeNamespace : Bool) (mode : TreeMode) (db : Db) : TreeEnd :=
  let start : TreeState := { lines := [], count := 0, thrown := false }
  let opts : ScanOpts := ⟨true, false, false⟩
  let cb := visitNode showId decodeNamespace mode
  match (match mode with
    | .bySeq => walkSeqTree E 0 opts cb start db
    | .byId => walkIdTree E none opts cb start db
    | .locals => walkLocalTree E none opts cb start db) with
  | .ok (st, e) _ => treeEnd st e
  | .error e _ => treeEnd start (some e)

/-- dbdump.cc:901-1059 `process_vbucket_file` with `--tree`. -/
def dumpTreeMain (E : Env) (showId : Bytes → Option Bytes) (decodeNamespace : Bool) (mode : TreeMode) (getKey : KeyGetter)
    (offset : Option Nat) (f : File) : TreeEnd :=
  match openAtOffset E getKey offset f with
  | none => .failed []
  | some db => dumpTree E showId decodeNamespace mode db

end Couchstore
