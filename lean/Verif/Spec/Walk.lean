import Verif.Model.Walk

/-! What a walk over a tree shows. -/

namespace Couchstore

/-- The callback is called for one item after the other, each with its depth, until it fails. -/
def callAll {σ : Type} (cb : WalkCb σ) : List (Nat × WalkItem) → σ → σ × Option Err
  | [], u => (u, none)
  | (d, x) :: l, u =>
    match cb u d x with
    | (u, some e) => (u, some e)
    | (u, none) => callAll cb l u

/-- What is shown of a node of height `h` at depth `d`, below it: of a leaf its documents, one level deeper, but only those
that are `wanted`; of another node the nodes below it, in order and each followed by what is below that one, but only those
with a document that is not before the start (`reached`).  All leaves are at the same depth, `docs` are the documents below
the node, `R` holds for the documents below each node and the reduction that is shown for it, and the size of a node is the
sum of those directly below it and some bytes for itself, in 48 bits. -/
def ShownBelow {α : Type} (R : List α → Bytes → Prop) (reached wanted : α → Bool) (show' : α → DocInfo) :
    (h d size : Nat) → List α → List (Nat × WalkItem) → Prop
  | 0, d, _, docs, calls => calls = (docs.filter fun x => reached x && wanted x).map fun x => (d + 1, WalkItem.doc (show' x))
  | h + 1, d, size, docs, calls => ∃ below : List (Nat × Bytes × List α × List (Nat × WalkItem)),
    below ≠ [] ∧ docs = below.flatMap (·.2.2.1) ∧
    (∀ b ∈ below, b.2.2.1 ≠ [] ∧ R b.2.2.1 b.2.1 ∧ ShownBelow R reached wanted show' h (d + 1) b.1 b.2.2.1 b.2.2.2) ∧
    (∃ own, 0 < own ∧ size % 2 ^ 48 = ((below.map (·.1)).sum + own) % 2 ^ 48) ∧
    calls = below.flatMap fun b => if b.2.2.1.any reached then (d + 1, WalkItem.node b.1 b.2.1) :: b.2.2.2 else []

/-- What is shown of a tree with the documents `docs` and the size `size`: nothing of an empty one; otherwise the root first,
at depth 0, and what is below it. -/
def ShownTree {α : Type} (R : List α → Bytes → Prop) (reached wanted : α → Bool) (show' : α → DocInfo) (size : Nat)
    (docs : List α) (calls : List (Nat × WalkItem)) : Prop :=
  (docs = [] ∧ calls = []) ∨
  (docs ≠ [] ∧ ∃ h reduce below, R docs reduce ∧ ShownBelow R reached wanted show' h 0 size docs below ∧
    calls = (0, WalkItem.node size reduce) :: below)

/-- What a walk with callback `cb`, starting from the user state `u`, may return when `calls` are the calls it is about: all
were made, one by one until the first error of the callback; or, only if raw file operations misbehave, some first ones were
made and an error is reported. -/
def WalkResult {σ : Type} (cb : WalkCb σ) (db : Db) (calls : List (Nat × WalkItem)) (u : σ) (r : σ × Option Err) : Prop :=
  r = callAll cb calls u ∨ (db.file.faults ≠ [] ∧ r.2 ≠ none ∧ ∃ n, callAll cb (calls.take n) u = (r.1, none))

/-- In the mode that tolerates corruption errors of the callback are not reported faithfully; then the theorems are about
callbacks that do not fail, and files that do not misbehave. -/
def WalkTolerantOk {σ : Type} (opts : ScanOpts) (cb : WalkCb σ) (db : Db) : Prop :=
  opts.tolerate = true → (∀ u d x, (cb u d x).2 = none) ∧ db.file.faults = []

end Couchstore
