import Verif.Spec.Purge

/-! What a batch of insertions and removals does to the entries of an index, with and without purging. -/

namespace Couchstore

/-- The entries after a batch of removals and insertions. -/
def applyPlain (cmp : Bytes → Bytes → Ordering) : List Action → List KV → List KV
  | [], kvs => kvs
  | a :: as, kvs =>
    applyPlain cmp as (if a.type = .remove then kvErase a.key kvs else kvInsert cmp a.key a.data kvs)

/-- The batch only inserts and removes. -/
def PlainActs (as : List Action) : Prop := ∀ a ∈ as, a.type = .remove ∨ a.type = .insert

/-- The entries whose keys the batch does not name. -/
def untouched (as : List Action) (kvs : List KV) : List KV := kvs.filter fun kv => !as.any fun a => a.key == kv.1

/-- The entries that are not to be purged. -/
def keptBy (D : KV → PurgeAct) (kvs : List KV) : List KV := kvs.filter fun kv => D kv ≠ .item

end Couchstore
