import Verif.Model.DbInfoTool

/-! The program that dumps the documents of a file, /repo/src/dbdump.cc, for database files: `--json`, `--no-body`,
`--no-namespace`, `--byid`, `--byseq`, `--key` and `--header-offset`.  Trees are in Model/TreeDump, local
documents in Model/DumpLocal, the file map in Model/FileMap, all headers of a file in Model/DumpHeaders and index files in
Model/DumpIndex.  Not modelled: hexadecimal output and the layout of the text. -/

namespace Couchstore

/-- What the program uses of other libraries. -/
structure DumpLib where
  /-- `buildCollectionInfoId` (dbdump.cc:334-392), which decodes the collection before the key; `none` if that throws. -/
  showId : Bytes → Option Bytes
  /-- does `nlohmann::json::parse` accept the text -/
  isJson : Bytes → Bool
  /-- `cb::xattr::Blob`: the extended attributes as text, and what follows them; `none` if that throws -/
  xattr : Bytes → Option (Bytes × Bytes)

structure DumpOpts where
  json : Bool
  body : Bool
  decodeNamespace : Bool
deriving DecidableEq, Repr

/-- dbdump.cc:117-192 `CouchbaseRevMetaV3`, as it is printed (:545-572). -/
inductive SyncShown where
  | pending (level : Nat) (isDelete : Bool)
  | commit (prepareSeqno : Nat)
  | abort (prepareSeqno : Nat)
  | invalid
deriving DecidableEq, Repr

/-- What is printed of the metadata of the data service. -/
structure KvShown where
  /-- cas, expiry (or time of deletion), flags -/
  basic : Option (Nat × Nat × Nat)
  datatype : Option Nat
  confRes : Option Nat
  sync : Option SyncShown
  ttl : Bool
deriving DecidableEq, Repr

def byteAt (b : Bytes) (i : Nat) : Nat := (b.getD i 0).toNat

/-- dbdump.cc:117-192.  The six bytes after the first are reversed, so the bits of a pending operation are those
of the last one. -/
def syncOf (m : Bytes) : SyncShown :=
  if byteAt m 18 = 0 then .pending (byteAt m 24 / 2 % 4) (byteAt m 24 % 2 == 1)
  else if byteAt m 18 = 1 then .commit (beDec ((m.drop 19).take 6))
  else if byteAt m 18 = 2 then .abort (beDec ((m.drop 19).take 6))
  else .invalid

/-- dbdump.cc:470-572. -/
def kvShown (m : Bytes) : KvShown :=
  { basic := if 16 ≤ m.length then some (beDec (m.take 8), beDec ((m.drop 8).take 4), beDec ((m.drop 12).take 4)) else none
    datatype := if 18 ≤ m.length then some (byteAt m 17) else none
    confRes := if m.length = 19 then some (byteAt m 18) else none
    sync := if m.length = 25 then some (syncOf m) else none
    ttl := if 18 ≤ m.length then byteAt m 16 / 128 % 2 == 1 else false }

/-- How the body of a document is printed. -/
inductive BodyShown where
  /-- `--no-body` -/
  | omitted
  /-- "could not read document body", or null -/
  | unread
  /-- "could not inflate document body" -/
  | notInflated
  /-- the size of the stored document, the extended attributes and the body -/
  | data (size : Nat) (xattrs : Option Bytes) (body : Bytes)
deriving DecidableEq, Repr

structure DocShown where
  id : Bytes
  seq : Nat
  rev : Nat
  contentMeta : Nat
  size : Nat
  offset : Nat
  kv : KvShown
  /-- the source of the deletion is printed with it: is it the expiry -/
  deleted : Option Bool
  body : BodyShown
deriving DecidableEq, Repr

inductive DumpLine where
  | doc (d : DocShown)
  /-- "This b-tree node is corrupt; raw node value follows" -/
  | corrupt (id : Bytes) (seq : Nat) (raw : Bytes)
deriving DecidableEq, Repr

/-- What the program does for one document. -/
inductive DumpOut where
  | line (l : DumpLine)
  /-- it returns without having printed anything -/
  | nothing
  /-- an exception, which nobody catches -/
  | throws
deriving DecidableEq, Repr

/-- dbdump.cc:433-451. -/
def DumpLib.name (lib : DumpLib) (o : DumpOpts) (id : Bytes) : Option Bytes :=
  if o.decodeNamespace then lib.showId id else some id

/-- dbdump.cc:587-674, the body of a document.  `none` is an exception, `some none` is the return in :613. -/
def bodyShown (E : Env) (lib : DumpLib) (o : DumpOpts) (db : Db) (d : DocInfo) : Option (Option BodyShown) :=
  let datatype := (kvShown d.revMeta).datatype.getD 0
  if o.body then
    match openDocWithDocinfo E d true db with
    | .error _ _ => some (some .unread)
    | .ok data _ =>
      match (if datatype / 2 % 2 = 1 ∧ isCompressed d.contentMeta = false then E.inflate data else some data) with
      | none => if o.json then some none else some (some .notInflated)
      | some x =>
        match (if datatype / 4 % 2 = 1 then (lib.xattr x).map (fun p => (some p.1, p.2)) else some (none, x)) with
        | none => none
        | some (xa, rest) =>
          if o.json ∧ datatype % 2 = 1 ∧ lib.isJson rest = false then none
          else some (some (.data data.length xa rest))
  else some (some .omitted)

/-- dbdump.cc:421-691 `foldprint`.  The handle is that of the walk, as for `checkDoc`. -/
def dumpDoc (E : Env) (lib : DumpLib) (o : DumpOpts) (db : Db) (d : DocInfo) : DumpOut :=
  match lib.name o d.id with
  | none => .throws
  | some id =>
    if d.bp = 0 ∧ d.deleted = false ∧ o.json = false then .line (.corrupt id d.dbSeq d.revMeta)
    else
      match bodyShown E lib o db d with
      | none => .throws
      | some none => .nothing
      | some (some b) =>
        .line (.doc { id := id, seq := d.dbSeq, rev := d.revSeq, contentMeta := d.contentMeta, size := d.physicalSize
                      offset := d.bp, kv := kvShown d.revMeta
                      deleted := if d.deleted then some (kvShown d.revMeta).ttl else none, body := b })

structure DumpState where
  lines : List DumpLine
  count : Nat
  thrown : Bool
deriving DecidableEq, Repr

/-- `foldprint` as the callback of a walk: it never returns a negative number.  After an exception the program has
ended; here the walk goes on, and the callback does nothing. -/
def dumpCb (E : Env) (lib : DumpLib) (o : DumpOpts) (db : Db) : ChangesCb DumpState := fun st d =>
  if st.thrown then (st, none)
  else
    match dumpDoc E lib o db d with
    | .line l => ({ st with lines := st.lines ++ [l], count := st.count + 1 }, none)
    | .nothing => ({ st with count := st.count + 1 }, none)
    | .throws => ({ st with thrown := true }, none)

inductive DumpMode where
  | bySeq
  | byId
  | key (k : Bytes)
deriving DecidableEq, Repr

/-- How the program ends for one file. -/
inductive DumpEnd where
  /-- status 0, and the number of documents that is printed at the end -/
  | done (lines : List DumpLine) (count : Nat)
  /-- status 1 -/
  | failed (lines : List DumpLine)
  /-- ended by an exception -/
  | aborted (lines : List DumpLine)
deriving DecidableEq, Repr

def DumpEnd.lines : DumpEnd → List DumpLine
  | .done l _ => l
  | .failed l => l
  | .aborted l => l

/-- The end of a walk (dbdump.cc:1051-1058). -/
def dumpEnd (st : DumpState) (e : Option Err) : DumpEnd :=
  if st.thrown then .aborted st.lines
  else match e with
    | none => .done st.lines st.count
    | some _ => .failed st.lines

/-- dbdump.cc:959-993, with `COUCHSTORE_TOLERATE_CORRUPTION`. -/
def dumpDb (E : Env) (lib : DumpLib) (o : DumpOpts) (mode : DumpMode) (db : Db) : DumpEnd :=
  let start : DumpState := { lines := [], count := 0, thrown := false }
  match mode with
  | .bySeq =>
    match changesSince E 0 ⟨true, false, false⟩ (dumpCb E lib o db) start db with
    | .ok (st, e) _ => dumpEnd st e
    | .error e _ => dumpEnd start (some e)
  | .byId =>
    match allDocs E none ⟨true, false, false⟩ (dumpCb E lib o db) start db with
    | .ok (st, e) _ => dumpEnd st e
    | .error e _ => dumpEnd start (some e)
  | .key k =>
    match docinfoById E k db with
    | .ok d _ => dumpEnd (dumpCb E lib o db start d).1 none
    | .error e _ => dumpEnd start (some e)

/-- dbdump.cc:901-1059 `process_vbucket_file`; the file is opened as `openDatabase` does. -/
def dumpMain (E : Env) (lib : DumpLib) (o : DumpOpts) (mode : DumpMode) (getKey : KeyGetter) (offset : Option Nat)
    (f : File) : DumpEnd :=
  match openAtOffset E getKey offset f with
  | none => .failed []
  | some db => dumpDb E lib o mode db

end Couchstore
