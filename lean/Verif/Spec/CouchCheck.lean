import Verif.Model.CouchCheck
import Verif.Spec.Recover
import Verif.Spec.Compact

/-! When two handles read the same.  Used by the property theorems about the program that checks files. -/

namespace Couchstore

/-- Whatever is read with the two handles (documents, indexes and statistics; with all options and callbacks in the
walks), the results are the same. -/
structure SameReads (E : Env) (db db' : Db) : Prop where
  asks : ∀ q : Query, ask E db' q = ask E db q
  ids : ∀ {σ : Type} start opts (cb : WalkCb σ) u,
    answer (walkIdTree E start opts cb u) db' = answer (walkIdTree E start opts cb u) db
  seqs : ∀ {σ : Type} start opts (cb : WalkCb σ) u,
    answer (walkSeqTree E start opts cb u) db' = answer (walkSeqTree E start opts cb u) db
  locals : ∀ {σ : Type} start opts (cb : WalkCb σ) u,
    answer (walkLocalTree E start opts cb u) db' = answer (walkLocalTree E start opts cb u) db
  bodies : ∀ d ∈ documents E db, ∀ dec,
    answer (openDocWithDocinfo E d dec) db' = answer (openDocWithDocinfo E d dec) db

/-- If the document has a body, then it can be decompressed, where its metadata says that it is compressed. -/
def Decompresses (E : Env) (db : Db) (id : Bytes) : Prop :=
  ∀ b, ask E db (.open id false) = .body (.ok b) → ∃ b', ask E db (.open id true) = .body (.ok b')

end Couchstore
