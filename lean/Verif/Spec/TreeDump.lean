import Verif.Model.TreeDump
import Verif.Spec.Walk
import Verif.Spec.History

/-! What the dump of a tree should print.  Used by the property theorems. -/

namespace Couchstore

/-- What is printed of a node or a document at a depth, if `name` is how the names of documents are printed and `seq` says whether
sequence numbers are. -/
def TreeLine.of (name : Bytes → Bytes) (seq : Bool) : Nat × WalkItem → TreeLine
  | (depth, .node size reduce) => .node depth size reduce
  | (depth, .doc d) => .doc depth d.deleted d.physicalSize d.revMeta.length (if seq then some d.dbSeq else none) (name d.id)

/-- Names with the collection, if that is asked for. -/
def treeName (showId : Bytes → Option Bytes) (decodeNamespace : Bool) (id : Bytes) : Bytes :=
  if decodeNamespace then (showId id).getD id else id

/-- The reduction of a node of the tree by sequence numbers is the number of documents; that of the tree by names are the numbers
of documents that are not deleted and that are, and the sum of the sizes of the bodies. -/
def TreeReduction (seq : Bool) (ds : List DocInfo) (r : Bytes) : Prop :=
  if seq then r = enc40 ds.length
  else r = enc40 (ds.countP (!·.deleted)) ++ enc40 (ds.countP (·.deleted)) ++ enc48 (ds.map (·.physicalSize)).sum

end Couchstore
