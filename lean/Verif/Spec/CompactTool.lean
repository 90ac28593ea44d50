import Verif.Model.CompactTool
import Verif.Spec.CompactHook

/-! What the program that compacts a file should do.  Used by the property theorems. -/

namespace Couchstore

/-- The expiry of a document (of a tombstone: the time of the deletion) in the metadata of the data service. -/
def DocInfo.expiry (d : DocInfo) : Option Nat := if 16 ≤ d.revMeta.length then some (beDec ((d.revMeta.drop 8).take 4)) else none

/-- The tombstones from before a time, up to a sequence number. -/
def expired (before : Int) (upto : Option Nat) (d : DocInfo) : Bool :=
  d.deleted && (match d.expiry with | none => false | some t => decide ((t : Int) < before)) &&
    (match upto with | none => true | some n => decide (d.dbSeq ≤ n))

/-- The highest sequence number of the documents, 0 if there are none. -/
def highestSeq (ds : List DocInfo) : Nat := (ds.map (·.dbSeq)).foldr max 0

/-- The purge sequence number that the database shows. -/
def purgeSeqIn (E : Env) (db : Db) : Nat :=
  match ask E db .info with
  | .stats (.ok (_, _, _, _, p)) => p
  | _ => 0

end Couchstore
