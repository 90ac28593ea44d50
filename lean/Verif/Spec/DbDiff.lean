import Verif.Model.DbDiff
import Verif.Spec.DbDump

/-! When two files hold the same documents.  Used by the property theorems. -/

namespace Couchstore

/-- The document with the id, as the library returns it. -/
def infoOf (E : Env) (db : Db) (id : Bytes) : Option DocInfo :=
  match ask E db (.docinfo id) with
  | .doc (.ok d) => some d
  | _ => none

/-- The body of the document as it is stored. -/
def rawBodyOf (E : Env) (db : Db) (id : Bytes) : Option Bytes :=
  match ask E db (.open id false) with
  | .body (.ok b) => some b
  | _ => none

/-- The two hold the same documents; where they are stored, and how many bytes that takes, may differ. -/
def SameDocs (E : Env) (db1 db2 : Db) : Prop :=
  ∀ id, (infoOf E db1 id).map (fun d => { d with bp := 0, physicalSize := 0 }) =
      (infoOf E db2 id).map (fun d => { d with bp := 0, physicalSize := 0 }) ∧
    rawBodyOf E db1 id = rawBodyOf E db2 id

/-- What the program takes for the same metadata of the data service.  Of 16 bytes and more the last four of the first 16 are
the flags; those of a deleted document do not count.  What comes after the 16 bytes counts only if it is two bytes.  (Of 17 bytes
the byte after them would be read.) -/
def MetaAgree (deleted : Bool) (m n : Bytes) : Prop :=
  m.length = n.length ∧ m.length ≠ 17 ∧
    if m.length < 16 then m = n
    else m.take 12 = n.take 12 ∧ (deleted = false → (m.drop 12).take 4 = (n.drop 12).take 4) ∧
      (m.length = 18 → m.drop 16 = n.drop 16)

/-- The metadata has the datatype at its end, and it says that the data service has compressed the body. -/
def DocInfo.saysSnappy (d : DocInfo) : Bool := d.revMeta.length == 18 && d.isSnappy

/-- What the program takes for the same document; `x` and `y` are the stored bodies. -/
structure DocsAgree (E : Env) (a b : DocInfo) (x y : Option Bytes) : Prop where
  seq : a.dbSeq = b.dbSeq
  rev : a.revSeq = b.revSeq
  deleted : a.deleted = b.deleted
  contentMeta : a.contentMeta = b.contentMeta
  kv : MetaAgree a.deleted a.revMeta b.revMeta
  /-- the sizes are compared only for what the data service has compressed -/
  size : a.saysSnappy = true → a.physicalSize = b.physicalSize
  /-- bodies are compared as they are if the data service has compressed them, and decompressed if it has not -/
  body : a.deleted = false → ∃ p q, x = some p ∧ y = some q ∧
    if a.saysSnappy then p = q else ∃ z, E.inflate p = some z ∧ E.inflate q = some z

/-- The same for all documents. -/
def AllAgree (E : Env) (db1 db2 : Db) : Prop := ∀ id,
  match infoOf E db1 id, infoOf E db2 id with
  | none, none => True
  | some a, some b => DocsAgree E a b (rawBodyOf E db1 id) (rawBodyOf E db2 id)
  | _, _ => False

/-- No document has 17 bytes of metadata in both. -/
def NoSeventeen (E : Env) (db1 db2 : Db) : Prop := ∀ id a b, infoOf E db1 id = some a → infoOf E db2 id = some b →
  ¬ (a.revMeta.length = 17 ∧ b.revMeta.length = 17)

/-- The metadata is as long, and has at least the 16 bytes. -/
def BothKv (a b : DocInfo) : Prop := a.revMeta.length = b.revMeta.length ∧ 16 ≤ a.revMeta.length

/-- What is compared of a body. -/
def comparedBody (E : Env) (a b : DocInfo) (x : Option Bytes) : Option Bytes :=
  if a.saysSnappy && a.revMeta.length == b.revMeta.length then x else x.bind E.inflate

/-- The documents differ in what a line says. -/
def FieldDiffers (E : Env) (a b : DocInfo) (x y : Option Bytes) : DiffField → Prop
  | .seq => a.dbSeq ≠ b.dbSeq
  | .rev => a.revSeq ≠ b.revSeq
  | .deleted => a.deleted ≠ b.deleted
  | .contentMeta => a.contentMeta ≠ b.contentMeta
  | .metaSize => a.revMeta.length ≠ b.revMeta.length
  | .cas => BothKv a b ∧ a.revMeta.take 8 ≠ b.revMeta.take 8
  | .expiry => BothKv a b ∧ (a.revMeta.drop 8).take 4 ≠ (b.revMeta.drop 8).take 4
  | .flags => BothKv a b ∧ (a.revMeta.drop 12).take 4 ≠ (b.revMeta.drop 12).take 4 ∧ a.deleted = false
  | .flexCode => a.revMeta.length = 18 ∧ b.revMeta.length = 18 ∧ a.revMeta[16]? ≠ b.revMeta[16]?
  | .datatype => a.revMeta.length = 18 ∧ b.revMeta.length = 18 ∧ a.revMeta[17]? ≠ b.revMeta[17]?
  | .metaBytes => a.revMeta.length = b.revMeta.length ∧ a.revMeta.length < 16 ∧ a.revMeta ≠ b.revMeta
  | .size => a.saysSnappy = true ∧ a.revMeta.length = b.revMeta.length ∧ a.physicalSize ≠ b.physicalSize
  | .bodySize => a.deleted = false ∧ ∃ p q, comparedBody E a b x = some p ∧ comparedBody E a b y = some q ∧ p.length ≠ q.length
  | .body => a.deleted = false ∧ ∃ p q, comparedBody E a b x = some p ∧ comparedBody E a b y = some q ∧ p.length = q.length ∧ p ≠ q

end Couchstore
