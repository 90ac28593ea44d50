import Verif.Model.SpatialGroup
import Verif.Spec.Spatial
import Verif.Spec.ViewUpdate

/-! What it means for a view group with spatial views to be in a file. -/

namespace Couchstore

/-- A spatial view: its number of dimensions and its records. -/
structure SpatialView where
  dim : Nat
  recs : List KV

/-- Records that an index can have: the key is that of a box, the value begins with the number of a partition, and the
sizes are within the limits of the format. -/
def SpatialView.Ok (v : SpatialView) : Prop :=
  v.dim ≤ 255 ∧ ∀ kv ∈ v.recs, ((∃ b, BoxOk v.dim b ∧ kv.1 = boxKey b) ∧ kv.1.length < 4096 ∧ kv.2.length < 2 ^ 28) ∧
    2 ≤ kv.2.length ∧ idPart kv < 1024

/-- The view without the records of the partitions that are being cleaned up. -/
def SpatialView.without (cleanup : Bytes) (v : SpatialView) : SpatialView :=
  { v with recs := v.recs.filter fun kv => !hasPart cleanup (idPart kv) }

/-- The indexes that a header names are in the file. -/
structure SpatialIndexesAt (E : Env) (kmax : Nat) (f : File) (h : IndexHeader) (ids : List KV) (views : List SpatialView) :
    Prop where
  ids : RootAt E (viewIdIdx kmax) f.atEnd h.idRoot ids
  views : List.Forall₂ (fun (v : SpatialView) r => SRootAt E v.dim f.atEnd r v.recs) views h.views

end Couchstore
