import Verif.Model.CouchCreate

/-! Which documents belong into the file of a vbucket. -/

namespace Couchstore

/-- Of the keys with the numbers below `n` those whose hash, as clients compute it, belongs to the vbucket; not more than asked for. -/
def createDocs (p : CreateParams) (n v : Nat) : List Bytes :=
  let all := ((List.range n).filter fun k => (clientHashCrc32 (createLogicalKey k)).toNat % p.vbc = v).map fun k => p.pre ++ createLogicalKey k
  if p.keysPerVb then all.take p.keyCount else all

end Couchstore
