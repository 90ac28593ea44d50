import Verif.Model.ViewUpdate
import Verif.Spec.IndexHeader
import Verif.Spec.Update

/-! What an update of a view group is to do. -/

namespace Couchstore

/-- A record as it is in a file for an update: the length of what follows, the number of the operation, the length of the
key, the key and the value. -/
def encodeRec (r : ViewRec) : Bytes :=
  leEnc32 (3 + r.key.length + r.val.length) ++ [r.op] ++ enc16 r.key.length ++ r.key ++ r.val

/-- A file with records that can be read to its end. -/
def recFile (recs : List ViewRec) : RecFile := ⟨recs.flatMap encodeRec, true⟩

/-- Records for an index: removals (1) and insertions (2), in ascending order of keys, where removals of a key may come
before an insertion of it. -/
structure RecsOk (cmp : Bytes → Bytes → Ordering) (K : Bytes → Prop) (V : KV → Prop) (recs : List ViewRec) : Prop where
  op : ∀ r ∈ recs, r.op = 1 ∨ r.op = 2
  sizes : ∀ r ∈ recs, 0 < r.key.length ∧ r.key.length < 2 ^ 16 ∧ r.val.length < 2 ^ 30
  keys : ∀ r ∈ recs, K r.key
  valid : ∀ r ∈ recs, r.op = 2 → V (r.key, r.val)
  sorted : recs.Pairwise fun a b => cmp a.key b.key = .lt ∨ (a.key = b.key ∧ a.op = 1)

/-- The last record for a key. -/
def lastRec (recs : List ViewRec) (k : Bytes) : Option ViewRec := recs.reverse.find? fun r => r.key == k

/-- After the records have been applied to the entries `old`, this entry is to be there: the last record for its key
inserted it, or no record has its key and it was there. -/
def Applied (recs : List ViewRec) (old : List KV) (kv : KV) : Prop :=
  match lastRec recs kv.1 with
  | some r => r.op = 2 ∧ r.val = kv.2
  | none => kv ∈ old

/-- The entries `new` are what an update of the entries `old` is to give, when the partitions `cleanup` are being cleaned
up: other partitions have exactly what they are to have; of the cleaned up ones there is nothing but what the records
brought; without records nothing changes. -/
structure Updated (cmp : Bytes → Bytes → Ordering) (cleanup : Bytes) (recs : List ViewRec) (old new : List KV) : Prop where
  sorted : SortedKV cmp new
  others : ∀ kv, hasPart cleanup (idPart kv) = false → (kv ∈ new ↔ Applied recs old kv)
  cleaned : recs ≠ [] → ∀ kv ∈ new, hasPart cleanup (idPart kv) = true → Applied recs [] kv
  unchanged : recs = [] → new = old

/-- The numbers of insertions and removals. -/
def countOps (recs : List ViewRec) : OpCount :=
  ⟨(recs.filter fun r => r.op = 2).length, (recs.filter fun r => r.op = 1).length⟩

/-- No record inserts an entry of a partition that is being cleaned up. -/
def NoInsertInto (cleanup : Bytes) (recs : List ViewRec) : Prop :=
  ∀ r ∈ recs, r.op = 2 → hasPart cleanup (idPart (r.key, r.val)) = false

/-- The entries whose keys no record has. -/
def unnamed (recs : List ViewRec) (kvs : List KV) : List KV := kvs.filter fun kv => (lastRec recs kv.1).isNone

/-- The same for the entries of a view. -/
def unnamedEmits (recs : List ViewRec) (ms : List Emit) : List Emit := ms.filter fun m => (lastRec recs m.kv.1).isNone

/-- The number of values in an entry of a view. -/
def valuesIn (v : Bytes) : Nat :=
  match decodeViewValue v with
  | .ok x => x.values.length
  | .error _ => 0

/-- The number of values that the records insert. -/
def valuesInserted (recs : List ViewRec) : Nat := ((recs.filter fun r => r.op = 2).map fun r => valuesIn r.val).sum

/-- How many ids are purged at least: without records the index is not looked at. -/
def leastIdsPurged (cleanup : Bytes) (recs : List ViewRec) (ids : List KV) : Nat :=
  if recs = [] then 0 else goneIds cleanup (unnamed recs ids)

/-- How many values of a view are purged at least. -/
def leastValuesPurged (cleanup : Bytes) (recs : List ViewRec) (ms : List Emit) : Nat :=
  if recs = [] then 0 else goneValues cleanup (unnamedEmits recs ms)

/-- The indexes that a header names are in the file. -/
structure IndexesAt (E : Env) (kmax : Nat) (f : File) (h : IndexHeader) (ids : List KV) (views : List View) : Prop where
  ids : RootAt E (viewIdIdx kmax) f.atEnd h.idRoot ids
  views : List.Forall₂ (fun (v : View) r => v.At E f.atEnd r) views h.views

end Couchstore
