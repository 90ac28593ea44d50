import Verif.Spec.Check

/-! What a guided purge of an index means.  Used by property C34. -/

namespace Couchstore

/-- Going through the entries in key order and deciding for each of them: an entry to be purged
is dropped, an entry to be kept is kept, and a "stop" keeps that entry and all following ones.
Returns what is left, and whether purging is still on at the end. -/
def purgeList (D : KV → PurgeAct) : List KV → List KV × Bool
  | [] => ([], true)
  | kv :: rest =>
    match D kv with
    | .item => purgeList D rest
    | .stop => (kv :: rest, false)
    | _ => (kv :: (purgeList D rest).1, (purgeList D rest).2)

/-- When an answer for a whole subtree with entries `kvs` agrees with the decisions for its
entries: "purge" if every entry is to be purged, "keep" and "stop" if none is, "partial" if some
entry is. -/
def Agrees (D : KV → PurgeAct) (kvs : List KV) : PurgeAct → Prop
  | .item => purgeList D kvs = ([], true)
  | .keep => purgeList D kvs = (kvs, true)
  | .stop => purgeList D kvs = (kvs, false)
  | .part => (purgeList D kvs).1 ≠ kvs

/-- The purge callbacks of a request (which may keep a state and see of a subtree only its
pointer with the reduction) decide entry by entry as `D` says, and agree with `D` on every
subtree. -/
structure PurgeOk {σ} (rq : Rq σ) (X : Idx) (D : KV → PurgeAct) : Prop where
  kv : ∃ cb, rq.purgeKv = some cb ∧
    ∀ u k v, X.V (k, v) → ∃ u', cb u k v = .ok (u', D (k, v))
  part : ∀ kv, X.V kv → D kv ≠ .part
  kp : ∃ cb, rq.purgeKp = some cb ∧
    ∀ u p kvs, kvs ≠ [] → (∀ kv ∈ kvs, X.V kv) → X.R kvs p.reduceValue →
      ∃ u' a, cb u p = .ok (u', a) ∧ Agrees D kvs a

/-- What the state of the callbacks becomes: `S u v kvs` says that `v` is right for a state `u` after the decisions for
`kvs`.  A subtree answered with "partial" counts when its entries do. -/
structure PurgeTally {σ} (rq : Rq σ) (X : Idx) (S : σ → σ → List KV → Prop) : Prop where
  nil : ∀ u, S u u []
  append : ∀ u v w a b, S u v a → S v w b → S u w (a ++ b)
  kv : ∀ cb, rq.purgeKv = some cb → ∀ u k v u' a, X.V (k, v) → cb u k v = .ok (u', a) → S u u' [(k, v)]
  kp : ∀ cb, rq.purgeKp = some cb → ∀ u p kvs u' a, kvs ≠ [] → (∀ kv ∈ kvs, X.V kv) → X.R kvs p.reduceValue →
    cb u p = .ok (u', a) → S u u' (if a = .part then [] else kvs)

/-- The bytes entries take in a node. -/
def kvBytes (kvs : List KV) : Nat := (kvs.map fun kv => kv.1.length + kv.2.length + 5).sum

/-- No node of the tree below `p` (of height `h`) can overflow when entries are removed: a leaf
has at most three entries or is not larger than `kvThr`, and an interior node has at most three
records or `kpThr` is enough for as many records of `recMax` bytes. -/
def roomy (E : Env) (f : File) (kvThr kpThr recMax : Nat) : Nat → NodePointer → Bool
  | 0, p =>
    match nodeAt E f p.pointer with
    | some (_, recs) => decide (recs.length ≤ 3 ∨ kvBytes recs ≤ kvThr)
    | none => false
  | h + 1, p =>
    match nodeAt E f p.pointer with
    | some (_, recs) =>
      decide (recs.length ≤ 3 ∨ recs.length * recMax ≤ kpThr) &&
        recs.all fun kv =>
          match readPointer kv.1 kv.2 with
          | some q => roomy E f kvThr kpThr recMax h q
          | none => false
    | none => false

/-- The height of the tree below `p`, found by following the first records. -/
def treeHeight (E : Env) (f : File) : Nat → NodePointer → Option Nat
  | 0, _ => none
  | fuel + 1, p =>
    match nodeAt E f p.pointer with
    | some (0, kv :: _) =>
      match readPointer kv.1 kv.2 with
      | some q => (treeHeight E f fuel q).map (· + 1)
      | none => none
    | some (1, _) => some 0
    | _ => none

end Couchstore
