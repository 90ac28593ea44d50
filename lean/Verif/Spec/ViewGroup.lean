import Verif.Model.ViewGroup
import Verif.Spec.ViewReduce

/-! The indexes of a view group: what is in them, and what is to be left after a cleanup. -/

namespace Couchstore

/-- A view: its reduce functions, the class of its keys and what its index has, in order. -/
structure View where
  reducers : List Reducer
  keys : Bytes → Prop
  specs : List ReducerSpec
  emits : List Emit

/-- The comparison tells the keys apart, the reduce functions do what they are to do, and their results fit. -/
def View.Ok {D : Type} [LinearOrder D] (e : CollateEnv D) (v : View) : Prop :=
  ViewKeyClass e v.keys ∧ List.Forall₂ Reducer.Meets v.reducers v.specs ∧ ResultsFit v.specs

/-- The index of the view is at a root. -/
def View.At (E : Env) (f : File) (v : View) (root : Option NodePointer) : Prop :=
  RootAt E (viewIdx v.keys v.specs) f root (v.emits.map Emit.kv) ∧ ∀ m ∈ v.emits, m.Fits v.specs

/-- The view with other entries. -/
def View.having (v : View) (ms : List Emit) : View := { v with emits := ms }

/-- What is to be left of the index by document id when partitions are cleaned up. -/
def keptIds (cleanup : Bytes) (ids : List KV) : List KV := ids.filter fun kv => !hasPart cleanup (idPart kv)

/-- What is to be left of the index of a view. -/
def keptEmits (cleanup : Bytes) (ms : List Emit) : List Emit := ms.filter fun m => !hasPart cleanup m.part

/-- The number of ids that are to go. -/
def goneIds (cleanup : Bytes) (ids : List KV) : Nat := (ids.filter fun kv => hasPart cleanup (idPart kv)).length

/-- The number of values that are to go. -/
def goneValues (cleanup : Bytes) (ms : List Emit) : Nat :=
  ((ms.filter fun m => hasPart cleanup m.part).map fun m => m.values.length).sum

/-- The number of values in the index of a view. -/
def valueCount (ms : List Emit) : Nat := (ms.map fun m => m.values.length).sum

/-- No node of the tree can overflow when entries are removed (`roomy`). -/
def rootRoomy (E : Env) (f : File) (kvThr kpThr recMax : Nat) : Option NodePointer → Bool
  | none => true
  | some p => match treeHeight E f (p.pointer + 1) p with
    | some l => roomy E f kvThr kpThr recMax l p
    | none => false

end Couchstore
