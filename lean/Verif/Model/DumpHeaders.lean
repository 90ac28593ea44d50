import Verif.Model.DbDump

/-! The program that dumps documents, with `--iterate-headers`: src/dbdump.cc:901-1059 `process_vbucket_file`.

Simplifications: what is printed of the headers themselves (`--dump-headers`) is left out.  Other modes of the program
(local documents, the map of the file, the trees) are not in this module. -/

namespace Couchstore

/-- dbdump.cc:959-993, the dump of one header: what was printed and counted, and the error.  The counter of the program
goes on from header to header; here it is that of one header, and `AllEnd.after` adds them up. -/
def dumpRound (E : Env) (lib : DumpLib) (o : DumpOpts) (mode : DumpMode) (db : Db) : DumpState × Option Err :=
  let start : DumpState := { lines := [], count := 0, thrown := false }
  match mode with
  | .bySeq =>
    match changesSince E 0 ⟨true, false, false⟩ (dumpCb E lib o db) start db with
    | .ok (st, e) _ => (st, e)
    | .error e _ => (start, some e)
  | .byId =>
    match allDocs E none ⟨true, false, false⟩ (dumpCb E lib o db) start db with
    | .ok (st, e) _ => (st, e)
    | .error e _ => (start, some e)
  | .key k =>
    match docinfoById E k db with
    | .ok d _ => ((dumpCb E lib o db start d).1, none)
    | .error e _ => (start, some e)

/-- How the dump of all headers ends, with what was printed for each of them. -/
inductive AllEnd where
  /-- dbdump.cc:1057-1058: status 0, and the number of documents -/
  | done (rounds : List (List DumpLine)) (count : Nat)
  /-- dbdump.cc:1051-1055 -/
  | failed (rounds : List (List DumpLine))
  /-- an exception that nobody catches -/
  | aborted (rounds : List (List DumpLine))
  /-- the loop has not ended -/
  | running (rounds : List (List DumpLine))
deriving DecidableEq, Repr

/-- The rounds after a round. -/
def AllEnd.after (st : DumpState) : AllEnd → AllEnd
  | .done rs n => .done (st.lines :: rs) (st.count + n)
  | .failed rs => .failed (st.lines :: rs)
  | .aborted rs => .aborted (st.lines :: rs)
  | .running rs => .running (st.lines :: rs)

/-- dbdump.cc:945-1058 with `iterateHeaders`: the error of the dump (`dumpRound`) is overwritten by that of the move to the
previous header (:1037-1038); at the beginning of the file there is no error (:1044-1047).  The move is made from the handle
as it was before the dump, which changes nothing but the faults that are left (simplification). -/
def dumpHeaders (E : Env) (lib : DumpLib) (o : DumpOpts) (mode : DumpMode) : Nat → Db → AllEnd
  | 0, _ => .running []
  | fuel + 1, db =>
    let st := (dumpRound E lib o mode db).1
    if st.thrown then .aborted [st.lines]
    else match seekDir E .backward db with
      | .ok _ db' => (dumpHeaders E lib o mode fuel db').after st
      | .error e _ =>
        if e.code = Err.noHeader.code then .done [st.lines] st.count else .failed [st.lines]

/-- dbdump.cc:901-1059 `process_vbucket_file` with `--iterate-headers`.  There are at most as many headers as blocks. -/
def dumpAllMain (E : Env) (lib : DumpLib) (o : DumpOpts) (mode : DumpMode) (getKey : KeyGetter) (offset : Option Nat)
    (f : File) : AllEnd :=
  match openAtOffset E getKey offset f with
  | none => .failed []
  | some db => dumpHeaders E lib o mode (db.file.pos / blockSize + 2) db

end Couchstore
