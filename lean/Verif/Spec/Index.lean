import Verif.Model.Reduces
import Verif.Spec.Tree
import Verif.Spec.DocInfo

/-! The three indexes of a database: what they may contain and what their reductions are. -/

namespace Couchstore

/-- Metadata within the documented field widths whose index entries fit a node record. -/
structure DocOk (d : DocInfo) : Prop where
  fits : d.Fits
  size : 23 + d.id.length + d.revMeta.length < 2 ^ 28

/-- The entry of a document in the by-id index. -/
def idKV (d : DocInfo) : KV := (d.id, assembleIdIndexValue d)

/-- The entry of a document in the by-sequence index. -/
def seqKV (d : DocInfo) : KV := (enc48 d.dbSeq, assembleSeqIndexValue d)

/-- Number of live documents, number of tombstones, sum of the stored sizes. -/
def docStats (ds : List DocInfo) : IdReduce :=
  { notDeleted := ds.countP (fun d => !d.deleted)
    deleted := ds.countP (·.deleted)
    size := (ds.map (·.physicalSize)).sum }

/-- The by-id index: entries of documents; the reduction holds their statistics. -/
def Idx.byId : Idx where
  V kv := ∃ d, DocOk d ∧ kv = idKV d
  R kvs r := ∃ ds, (∀ d ∈ ds, DocOk d) ∧ kvs = ds.map idKV ∧ r = encodeByIdReduce (docStats ds)

/-- The by-sequence index: entries of documents; the reduction is their number. -/
def Idx.bySeq : Idx where
  V kv := ∃ d, DocOk d ∧ kv = seqKV d
  R kvs r := r = enc40 kvs.length

/-- The index of local documents: any entries within the format's limits, no reduction. -/
def Idx.loc : Idx where
  V kv := kv.1.length < 4096 ∧ kv.2.length < 2 ^ 28
  R _ r := r = []

end Couchstore
