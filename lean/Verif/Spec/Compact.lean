import Verif.Spec.History

/-! Vocabulary for the properties of compaction. -/

namespace Couchstore

/-! ### The new file without some of the documents -/

/-- The documents of a database, in the order of their sequence numbers. -/
def documents (E : Env) (db : Db) : List DocInfo :=
  match ask E db (.changes 0 ⟨false, false, false⟩) with
  | .docs (.ok (ds, _)) => ds
  | _ => []

/-- The stored body of a document (compressed, if it is stored so). -/
def storedBodyOf (E : Env) (db : Db) (id : Bytes) : Option Bytes :=
  match ask E db (.open id false) with
  | .body (.ok b) => some b
  | _ => none

/-- The answer of a database that does not have the documents `gone`, when `db` has them. -/
def askWithout (E : Env) (db : Db) (gone : DocInfo → Bool) (purgeSeq : Nat) : Query → Reply
  | .docinfo id => without (ask E db (.docinfo id))
  | .docinfoSeq s => without (ask E db (.docinfoSeq s))
  | .open id dec =>
    match ask E db (.docinfo id) with
    | .doc (.ok d) => if gone d then .body (.error .docNotFound) else ask E db (.open id dec)
    | _ => ask E db (.open id dec)
  | .count lo hi => .num (.ok ((documents E db).countP fun d =>
      !gone d && decide (lo % 2 ^ 48 ≤ d.dbSeq) && decide (d.dbSeq ≤ hi % 2 ^ 48)))
  | .localDoc id => ask E db (.localDoc id)
  | .info =>
    match ask E db .info with
    | .stats (.ok (lastSeq, _, _, space, _)) => .stats (.ok (lastSeq,
        (documents E db).countP (fun d => !gone d && !d.deleted),
        (documents E db).countP (fun d => !gone d && d.deleted), space, purgeSeq))
    | r => r
  | q => without (ask E db q)
where
  /-- Omit the documents that are gone from an answer. -/
  without : Reply → Reply
    | .doc (.ok d) => .doc (if gone d then .error .docNotFound else .ok d)
    | .docs (.ok (ds, e)) => .docs (.ok (ds.filter fun d => !gone d, e))
    | r => r

/-- A document's metadata without the position of its body (only whether there is one) and, unless
`sizes`, without the size that it has in the file. -/
def DocInfo.plain (sizes : Bool) (d : DocInfo) : DocInfo :=
  { d with bp := min d.bp 1, physicalSize := if sizes then d.physicalSize else 0 }

/-- An answer without the positions (and sizes) of the bodies and without the space used. -/
def Reply.plain (sizes : Bool) : Reply → Reply
  | .doc (.ok d) => .doc (.ok (d.plain sizes))
  | .docs (.ok (ds, e)) => .docs (.ok (ds.map (DocInfo.plain sizes), e))
  | .stats (.ok (lastSeq, live, deleted, _, purgeSeq)) => .stats (.ok (lastSeq, live, deleted, 0, purgeSeq))
  | r => r

/-- `t` holds what `db` holds except for the documents `gone`; bodies may be elsewhere in the file, and
the space used may differ. -/
def HoldsWithout (E : Env) (db t : Db) (gone : DocInfo → Bool) (purgeSeq : Nat) (sizes : Bool := true) : Prop :=
  ∀ q : Query, q.Ok → (ask E t q).plain sizes = (askWithout E db gone purgeSeq q).plain sizes

/-! ### Filters -/

/-- What the filter says about a document; if it asks for the body it is called again with it. -/
def filterVerdict {υ : Type} (g : CompactFilter υ) (body : Option Bytes) (u : υ) (d : DocInfo) : υ × FilterAct :=
  match g u (some d) none with
  | (u1, .needBody) => g u1 (some d) body
  | r => r

/-- What the filter decides about the documents it is shown one after the other; `body` are their bodies.
`none`: it asks for a failure.  The result: the state of the filter and the documents that it keeps. -/
def applyFilter {υ : Type} (g : CompactFilter υ) (body : DocInfo → Option Bytes) : υ → List DocInfo → Option (υ × List DocInfo)
  | u, [] => some (u, [])
  | u, d :: ds =>
    match filterVerdict g (body d) u d with
    | (u', .keep) => (applyFilter g body u' ds).map fun (u2, kept) => (u2, d :: kept)
    | (u', .drop) => applyFilter g body u' ds
    | _ => none

/-- The filter never asks for the body of a document that has none. -/
def AsksForBodies {υ : Type} (g : CompactFilter υ) : Prop := ∀ u d, (g u (some d) none).2 = .needBody → d.bp ≠ 0

/-- The filter always comes to a decision: it never fails, and asks for a body only if there is one and it does not have it. -/
structure Reliable {υ : Type} (g : CompactFilter υ) : Prop where
  asks : AsksForBodies g
  first : ∀ u d e, (g u (some d) none).2 ≠ .fail e
  second : ∀ u d b, (g u (some d) (some b)).2 = .keep ∨ (g u (some d) (some b)).2 = .drop
  last : ∀ u e, (g u none none).2 ≠ .fail e

/-! ### Other metadata -/

/-- The document info with the metadata that the callback gives it, if there is a body (then it is called). -/
def rewritten {υ : Type} (w : DocInfoRewrite υ) (body : Option Bytes) (u : υ) (d : DocInfo) : υ × DocInfo :=
  match body with
  | none => (u, d)
  | some b =>
    match w u d b with
    | (u', none) => (u', d)
    | (u', some d') => (u', { d with revMeta := d'.revMeta })

/-- What a filter and a callback for the metadata make of the documents they are shown one after the other. -/
def applyCallbacks {υ : Type} (g : CompactFilter υ) (w : DocInfoRewrite υ) (body : DocInfo → Option Bytes) :
    υ → List DocInfo → Option (υ × List DocInfo)
  | u, [] => some (u, [])
  | u, d :: ds =>
    match filterVerdict g (body d) u d with
    | (u', .keep) =>
      let r := rewritten w (body d) u' d
      (applyCallbacks g w body r.1 ds).map fun (u2, kept) => (u2, r.2 :: kept)
    | (u', .drop) => applyCallbacks g w body u' ds
    | _ => none

/-- The document info with the metadata that the document of the same id has in a list, if there is one. -/
def DocInfo.metaFrom (kept : List DocInfo) (d : DocInfo) : DocInfo :=
  { d with revMeta := ((kept.find? fun k => decide (k.id = d.id)).map (·.revMeta)).getD d.revMeta }

/-- An answer with the metadata from a list. -/
def Reply.metaFrom (kept : List DocInfo) : Reply → Reply
  | .doc (.ok d) => .doc (.ok (d.metaFrom kept))
  | .docs (.ok (ds, e)) => .docs (.ok (ds.map (DocInfo.metaFrom kept), e))
  | r => r

/-- `t` holds those documents of `db` that are in the list, with the metadata they have there, and everything else
that `db` holds; bodies may be elsewhere in the file, and the space used may differ. -/
def HoldsWithMeta (E : Env) (db t : Db) (kept : List DocInfo) (purgeSeq : Nat) : Prop :=
  ∀ q : Query, q.Ok → (ask E t q).plain true =
    ((askWithout E db (fun d => !(kept.any fun k => decide (k.id = d.id))) purgeSeq q).metaFrom kept).plain true

end Couchstore
