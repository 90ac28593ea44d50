import Verif.Model.BtreeRead
import Verif.Spec.Tree

/-! What a lookup is supposed to do: a sequence of callback invocations. -/

namespace Couchstore

/-- Invoke a callback for one event after another, stopping at its first error. -/
def visit {σ : Type} (fetch : σ → Bytes → Option Bytes → σ × Option Err) :
    List (Bytes × Option Bytes) → σ → σ × Option Err
  | [], u => (u, none)
  | (k, v) :: rest, u =>
    match fetch u k v with
    | (u', some e) => (u', some e)
    | (u', none) => visit fetch rest u'

/-- The events of looking up keys: each key with its value, or with nothing. -/
def findEvents (kvs : List KV) (ks : List Bytes) : List (Bytes × Option Bytes) :=
  ks.map fun k => (k, kvFind k kvs)

/-- Is the key within the bounds?  An empty lower bound (there is always one) admits every key. -/
def inRange (lc : Bytes → Bytes → Ordering) (lo : Bytes) (hi : Option Bytes) (k : Bytes) : Bool :=
  lc k lo ≠ .lt && (match hi with | none => true | some h => lc k h ≠ .gt)

/-- The events of scanning a range: each entry within the bounds, in order. -/
def rangeEvents (lc : Bytes → Bytes → Ordering) (lo : Bytes) (hi : Option Bytes) (kvs : List KV) :
    List (Bytes × Option Bytes) :=
  (kvs.filter fun kv => inRange lc lo hi kv.1).map fun kv => (kv.1, some kv.2)

end Couchstore
