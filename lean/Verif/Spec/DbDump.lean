import Verif.Model.DbDump
import Verif.Spec.History

/-! What the program that dumps documents should print.  Used by the property theorems. -/

namespace Couchstore

/-- The state of a durable write in the metadata of a document. -/
inductive SyncState where
  | pending (level : Nat) (isDelete : Bool)
  | commit (prepareSeqno : Nat)
  | abort (prepareSeqno : Nat)
deriving DecidableEq, Repr

/-- The metadata that the data service stores with a document. -/
structure KvMeta where
  cas : Nat
  expiry : Nat
  flags : Nat
  /-- deleted because it expired -/
  ttl : Bool
  datatype : Nat
  sync : Option SyncState
deriving DecidableEq, Repr

def SyncState.Ok : SyncState → Prop
  | .pending level _ => level < 4
  | .commit n => n < 2 ^ 48
  | .abort n => n < 2 ^ 48

def KvMeta.Ok (m : KvMeta) : Prop :=
  m.cas < 2 ^ 64 ∧ m.expiry < 2 ^ 32 ∧ m.flags < 2 ^ 32 ∧ m.datatype < 256 ∧ ∀ s, m.sync = some s → s.Ok

/-- All numbers are big-endian. -/
def SyncState.bytes : SyncState → Bytes
  | .pending level isDelete => beEnc 1 0 ++ beEnc 6 (level * 2 + if isDelete then 1 else 0)
  | .commit n => beEnc 1 1 ++ beEnc 6 n
  | .abort n => beEnc 1 2 ++ beEnc 6 n

def KvMeta.bytes (m : KvMeta) : Bytes :=
  beEnc 8 m.cas ++ beEnc 4 m.expiry ++ beEnc 4 m.flags ++ beEnc 1 (if m.ttl then 128 else 0) ++ beEnc 1 m.datatype ++
    match m.sync with
    | none => []
    | some s => s.bytes

def SyncState.shown : SyncState → SyncShown
  | .pending level isDelete => .pending level isDelete
  | .commit n => .commit n
  | .abort n => .abort n

/-- How this metadata is printed. -/
def KvMeta.shown (m : KvMeta) : KvShown :=
  { basic := some (m.cas, m.expiry, m.flags), datatype := some m.datatype, confRes := none
    sync := m.sync.map SyncState.shown, ttl := m.ttl }

/-- The datatype of a document; there is none in the metadata of older versions. -/
def DocInfo.datatype (d : DocInfo) : Nat := if 18 ≤ d.revMeta.length then (d.revMeta.getD 17 0).toNat else 0

/-- The bits of the datatype. -/
def DocInfo.isJson (d : DocInfo) : Bool := d.datatype &&& 1 != 0
def DocInfo.isSnappy (d : DocInfo) : Bool := d.datatype &&& 2 != 0
def DocInfo.hasXattr (d : DocInfo) : Bool := d.datatype &&& 4 != 0

/-- The body that the library returns for a document (decompressed, if the library has compressed it). -/
def bodyOf (E : Env) (db : Db) (id : Bytes) : Option Bytes :=
  match ask E db (.open id true) with
  | .body (.ok b) => some b
  | _ => none

/-- The contents of a document: a body that the data service has compressed itself is decompressed. -/
def docContents (E : Env) (d : DocInfo) (data : Bytes) : Option Bytes :=
  if d.isSnappy && !isCompressed d.contentMeta then E.inflate data else some data

/-- What is to be printed of the body. -/
def BodyRight (E : Env) (lib : DumpLib) (db : Db) (d : DocInfo) (b : BodyShown) : Prop :=
  match bodyOf E db d.id with
  | none => b = .unread
  | some data =>
    match docContents E d data with
    | none => b = .notInflated
    | some x =>
      if d.hasXattr then ∃ xa rest, lib.xattr x = some (xa, rest) ∧ b = .data data.length (some xa) rest
      else b = .data data.length none x

/-- The line shows the document `d` of the database `db`. -/
structure LineRight (E : Env) (lib : DumpLib) (o : DumpOpts) (db : Db) (d : DocInfo) (l : DocShown) : Prop where
  id : if o.decodeNamespace then lib.showId d.id = some l.id else l.id = d.id
  seq : l.seq = d.dbSeq
  rev : l.rev = d.revSeq
  contentMeta : l.contentMeta = d.contentMeta
  size : l.size = d.physicalSize
  offset : l.offset = d.bp
  kv : ∀ m : KvMeta, m.Ok → d.revMeta = m.bytes → l.kv = m.shown ∧ (d.deleted = true → l.deleted = some m.ttl)
  deleted : l.deleted.isSome = d.deleted
  body : if o.body then BodyRight E lib db d l.body else l.body = .omitted

/-- One line for each document. -/
def LinesRight (E : Env) (lib : DumpLib) (o : DumpOpts) (db : Db) : List DocInfo → List DumpLine → Prop
  | [], [] => True
  | d :: ds, .doc l :: ls => LineRight E lib o db d l ∧ LinesRight E lib o db ds ls
  | _, _ => False

/-- The document can be printed: its name and contents are what the libraries accept. -/
structure Printable (E : Env) (lib : DumpLib) (o : DumpOpts) (db : Db) (d : DocInfo) : Prop where
  name : o.decodeNamespace = true → lib.showId d.id ≠ none
  inflates : o.body = true → o.json = true → ∀ data, bodyOf E db d.id = some data → docContents E d data ≠ none
  xattr : o.body = true → ∀ data x, bodyOf E db d.id = some data → docContents E d data = some x → d.hasXattr = true →
    lib.xattr x ≠ none
  json : o.body = true → o.json = true → d.isJson = true → ∀ data x, bodyOf E db d.id = some data →
    docContents E d data = some x → lib.isJson (if d.hasXattr then ((lib.xattr x).getD ([], [])).2 else x) = true

/-- The documents of a database in the order of the dump. -/
def dumped (E : Env) (db : Db) : DumpMode → List DocInfo
  | .bySeq =>
    match ask E db (.changes 0 ⟨false, false, false⟩) with
    | .docs (.ok (ds, _)) => ds
    | _ => []
  | .byId =>
    match ask E db (.allDocs none ⟨false, false, false⟩) with
    | .docs (.ok (ds, _)) => ds
    | _ => []
  | .key k =>
    match ask E db (.docinfo k) with
    | .doc (.ok d) => [d]
    | _ => []

end Couchstore
