import Verif.Model.Btree
import Verif.Lemmas.Chunk

/-! What it means for a B-tree to be stored in a file, and the abstract meaning of a batch of
index operations.  Used by the property theorems. -/

namespace Couchstore

/-- A key and its value. -/
abbrev KV := Bytes × Bytes

/-- What an index may contain (`V`) and what the reduction of a set of entries is (`R`). -/
structure Idx where
  V : KV → Prop
  R : List KV → Bytes → Prop

/-- The kind of a node at a distance from the leaves. -/
def kindOf : Nat → NodeKind
  | 0 => .kv
  | _ + 1 => .kp

/-- The greatest key (lists are ascending). -/
def lastKey (kvs : List KV) : Option Bytes := kvs.getLast?.map (·.1)

/-- A node pointer `p` refers to an intact node of the given kind holding exactly the entries
`kvs`: the node's records satisfy `P`, nodes below are earlier in the file, the recorded
reduction is one for `kvs`, and the recorded size (48 bits on disk) is the sum of the sizes of
the subtrees and of the node itself. -/
def NodeAt (E : Env) (X : Idx) (f : File) (P : Item → List KV → Prop) (kind : NodeKind)
    (p : NodePointer) (kvs : List KV) : Prop :=
  ∃ cs : List (Item × List KV), cs ≠ [] ∧ (∀ c ∈ cs, P c.1 c.2) ∧ kvs = cs.flatMap (·.2) ∧
    ZChunkAt E f p.pointer (kind.byte :: encodeItems (cs.map (·.1))) ∧
    X.R kvs p.reduceValue ∧ p.reduceValue.length < 2 ^ 16 ∧
    (∀ c ∈ cs, ∀ q, c.1.pointer = some q → q.pointer < p.pointer) ∧
    p.subtreesize % 2 ^ 48 = ((cs.map (fun c => c.1.sub)).sum +
      (chunkBytes E f.cfg p.pointer
        (E.deflate (kind.byte :: encodeItems (cs.map (·.1))))).length) % 2 ^ 48

/-- A record standing for the entries `kvs` in a node at height `l`: an entry in a leaf, a
pointer whose key is the greatest key below it in an interior node. -/
def ItemAt (E : Env) (X : Idx) (f : File) : Nat → Item → List KV → Prop
  | 0, it, kvs => it.pointer = none ∧ kvs = [(it.key, it.data)] ∧ X.V (it.key, it.data) ∧
      it.key.length < 4096 ∧ it.data.length < 2 ^ 28
  | l + 1, it, kvs => ∃ p, it = ptrItem p ∧ lastKey kvs = some p.key ∧
      NodeAt E X f (ItemAt E X f l) (kindOf l) p kvs

/-- `p` points to an intact tree of height `l` (all leaves at the same depth) with entries
`kvs`. -/
def TreeAt (E : Env) (X : Idx) (f : File) (l : Nat) (p : NodePointer) (kvs : List KV) : Prop :=
  NodeAt E X f (ItemAt E X f l) (kindOf l) p kvs

/-- The tree with the given root (null: empty tree) has the entries `kvs`. -/
def RootAt (E : Env) (X : Idx) (f : File) : Option NodePointer → List KV → Prop
  | none, kvs => kvs = []
  | some p, kvs => ∃ l, TreeAt E X f l p kvs

/-- Strictly ascending keys. -/
def SortedKV (cmp : Bytes → Bytes → Ordering) (kvs : List KV) : Prop :=
  kvs.Pairwise fun a b => cmp a.1 b.1 = .lt

/-- The value of a key. -/
def kvFind (k : Bytes) : List KV → Option Bytes
  | [] => none
  | (k', v) :: rest => if k' = k then some v else kvFind k rest

/-- Remove a key. -/
def kvErase (k : Bytes) (kvs : List KV) : List KV := kvs.filter fun kv => kv.1 ≠ k

/-- Set the value of a key, keeping the order. -/
def kvInsert (cmp : Bytes → Bytes → Ordering) (k v : Bytes) : List KV → List KV
  | [] => [(k, v)]
  | (k', v') :: rest =>
    match cmp k' k with
    | .lt => (k', v') :: kvInsert cmp k v rest
    | .eq => (k, v) :: rest
    | .gt => (k, v) :: (k', v') :: rest

/-- An insertion with its notification. -/
def specInsert {σ} (rq : Rq σ) (a : Action) (u : σ) (kvs : List KV) : Except Err (σ × List KV) :=
  match rq.saveCb with
  | none => .ok (u, kvInsert rq.cmp a.key a.data kvs)
  | some cb =>
    match cb u a.key (kvFind a.key kvs) a.data a.userReq with
    | .ok u' => .ok (u', kvInsert rq.cmp a.key a.data kvs)
    | .error e => .error e

/-- The meaning of one index operation. -/
def specStep {σ} (rq : Rq σ) (a : Action) (u : σ) (kvs : List KV) : Except Err (σ × List KV) :=
  match a.type with
  | .remove => .ok (u, kvErase a.key kvs)
  | .insert => specInsert rq a u kvs
  | _ =>
    match rq.fetchCb with
    | none => if a.type = .fetch then .ok (u, kvs) else specInsert rq a u kvs
    | some cb =>
      match cb u a (kvFind a.key kvs) with
      | .ok (u', t) => if t = .fetch then .ok (u', kvs) else specInsert rq a u' kvs
      | .error e => .error e

/-- The meaning of a batch: one operation after another. -/
def specFold {σ} (rq : Rq σ) : List Action → σ → List KV → Except Err (σ × List KV)
  | [], u, kvs => .ok (u, kvs)
  | a :: as, u, kvs =>
    match specStep rq a u kvs with
    | .ok (u', kvs') => specFold rq as u' kvs'
    | .error e => .error e

/-- Does the action insert? -/
def Action.inserts (a : Action) : Prop := a.type = .insert ∨ a.type = .fetchInsert

/-- Requirements on a batch: sorted, and nothing follows an insertion of a key for that key. -/
def BatchOk {σ} (rq : Rq σ) (as : List Action) : Prop :=
  as.Pairwise fun a b => rq.cmp a.key b.key = .lt ∨ (a.key = b.key ∧ ¬ a.inserts)

/-- Requirements on an index request: the order is a total order on the keys `K`, entries obey
the size limits, reductions can be computed and describe the entries, the leaf size limit is
not degenerate and callbacks do not turn fetches into insertions. -/
structure RqOk {σ} (rq : Rq σ) (K : Bytes → Prop) (X : Idx) : Prop where
  cmp : CmpLaws rq.cmp K
  entry : ∀ kv, X.V kv → K kv.1 ∧ kv.1.length < 4096 ∧ kv.2.length < 2 ^ 28
  reduce : ∀ is : List Item, is ≠ [] → (∀ i ∈ is, X.V (i.key, i.data)) →
    ∃ r, nodeReduce rq .kv is = .ok r ∧ X.R (is.map fun i => (i.key, i.data)) r ∧
      r.length < 2 ^ 16
  rereduce : ∀ cs : List (NodePointer × List KV), cs ≠ [] →
    (∀ c ∈ cs, X.R c.2 c.1.reduceValue) →
    ∃ r, nodeReduce rq .kp (cs.map fun c => ptrItem c.1) = .ok r ∧ X.R (cs.flatMap (·.2)) r ∧
      r.length < 2 ^ 16
  thr : 2 ≤ rq.kvThr
  fetch : ∀ cb, rq.fetchCb = some cb → ∀ u a v u' t, a.type = .fetch → cb u a v = .ok (u', t) →
    t = .fetch

end Couchstore
