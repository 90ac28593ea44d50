import Verif.Model.DbInfoTool

/-! The program that dumps documents, for local documents: src/dbdump.cc:770-899, 993-1007.

Simplifications: a line is a record, and its layout is left out (also the replacement of bytes of a name that are not UTF-8, in
JSON); what other libraries decode is a parameter. -/

namespace Couchstore

/-- What the program uses of other libraries. -/
structure LocalLib where
  /-- `maybe_decode_local_doc` of the data service: `none` if it fails, and no bytes if there is nothing to decode -/
  decode : Bytes → Bytes → Option Bytes
  /-- does `nlohmann::json::parse` accept the text -/
  isJson : Bytes → Bool

/-- What is printed for a local document. -/
inductive LocalLine where
  /-- name and value; as text also the size of the value in the file -/
  | doc (id value : Bytes) (size : Option Nat)
  /-- dbdump.cc:781-782, with nothing after it -/
  | keyOnly (id : Bytes)
deriving DecidableEq, Repr

/-- What was printed, and the counter. -/
structure LocalState where
  lines : List LocalLine
  count : Nat
deriving DecidableEq, Repr

/-- dbdump.cc:770-803 `local_doc_print` (`json` is false) and :805-850 `local_doc_print_json`. -/
def localPrint (lib : LocalLib) (json : Bool) (st : LocalState) (k : Bytes) : Option Bytes → LocalState × Option Err
  | none => (st, some .docNotFound)
  | some v =>
    let count := st.count + 1
    match lib.decode k v with
    | none => (⟨if json then st.lines else st.lines ++ [LocalLine.keyOnly k], count⟩, some .corrupt)
    | some x =>
      let value := if x.isEmpty then v else x
      if json then
        if lib.isJson value then (⟨st.lines ++ [LocalLine.doc k value none], count⟩, none)
        else (⟨st.lines, count⟩, some .corrupt)
      else (⟨st.lines ++ [LocalLine.doc k value (some v.length)], count⟩, none)

/-- How the program ends for one file. -/
inductive LocalEnd where
  /-- dbdump.cc:1057-1058: status 0, and the number of documents -/
  | done (lines : List LocalLine) (count : Nat)
  /-- dbdump.cc:1051-1055 -/
  | failed (lines : List LocalLine)
deriving DecidableEq, Repr

/-- dbdump.cc:863-899 `couchstore_print_local_docs`; `key` is the argument of `--key`. -/
def dumpLocals (E : Env) (lib : LocalLib) (json : Bool) (key : Option Bytes) (db : Db) : LocalEnd :=
  match db.header.localRoot with
  | none =>
    match key with
    | some _ => .failed []
    | none => .done [] 0
  | some p =>
    match btreeLookup E ⟨ebinCmp, true, localPrint lib json, none⟩ key.isNone p.pointer [key.getD []] ⟨[], 0⟩ db.file with
    | .ok (st, none) _ => .done st.lines st.count
    | .ok (st, some _) _ => .failed st.lines
    | .error _ _ => .failed []

/-- dbdump.cc:901-1059 `process_vbucket_file` with `--local`. -/
def dumpLocalMain (E : Env) (lib : LocalLib) (json : Bool) (key : Option Bytes) (getKey : KeyGetter) (offset : Option Nat)
    (f : File) : LocalEnd :=
  match openAtOffset E getKey offset f with
  | none => .failed []
  | some db => dumpLocals E lib json key db

end Couchstore
