import Verif.Model.Btree

/-
Model of /repo/src/reduces.cc.  Counters are `uint64_t` in the code and `Nat` here; they are
stored modulo 2^40 or 2^48, which divide 2^64, so an overflow of the counter would not be visible
in the stored value.
-/

namespace Couchstore

/-- reduces.cc:9-19 `by_seq_reduce`. -/
def bySeqReduce (is : List Item) : Except Err Bytes := .ok (enc40 is.length)

/-- The reduction recorded in an interior record (`i->pointer->reduce_value`); a record without a
pointer is a null dereference. -/
def itemReduce (i : Item) : Except Err Bytes :=
  match i.pointer with
  | some p => .ok p.reduceValue
  | none => .error .assertFail

/-- reduces.cc:28-37, the loop of `by_seq_rereduce`. -/
def bySeqRereduceLoop : List Item → Nat → Except Err Nat
  | [], total => .ok total
  | i :: is, total => do
    let r ← itemReduce i
    if r.length < 5 then .error .corrupt else
    bySeqRereduceLoop is (total + beDec (slice r 0 5))

/-- reduces.cc:21-43 `by_seq_rereduce`. -/
def bySeqRereduce (is : List Item) : Except Err Bytes := do
  let total ← bySeqRereduceLoop is 0
  .ok (enc40 total)

/-- node_types.h:74-78 `raw_by_id_reduce` as numbers. -/
structure IdReduce where
  notDeleted : Nat
  deleted : Nat
  size : Nat
deriving DecidableEq, Repr

/-- reduces.cc:46-53 `encode_by_id_reduce`. -/
def encodeByIdReduce (r : IdReduce) : Bytes :=
  enc40 r.notDeleted ++ enc40 r.deleted ++ enc48 r.size

/-- reduces.cc:62-76, the loop of `by_id_reduce`. -/
def byIdReduceLoop : List Item → IdReduce → Except Err IdReduce
  | [], acc => .ok acc
  | i :: is, acc =>
    if i.data.length < 23 then .error .corrupt else
    let acc := if beDec (slice i.data 10 6) &&& bpDeletedFlag ≠ 0
      then { acc with deleted := acc.deleted + 1 }
      else { acc with notDeleted := acc.notDeleted + 1 }
    byIdReduceLoop is { acc with size := acc.size + beDec (slice i.data 6 4) }

/-- reduces.cc:55-83 `by_id_reduce`. -/
def byIdReduce (is : List Item) : Except Err Bytes := do
  let r ← byIdReduceLoop is ⟨0, 0, 0⟩
  .ok (encodeByIdReduce r)

/-- reduces.cc:92-102, the loop of `by_id_rereduce`. -/
def byIdRereduceLoop : List Item → IdReduce → Except Err IdReduce
  | [], acc => .ok acc
  | i :: is, acc => do
    let r ← itemReduce i
    if r.length < 16 then .error .corrupt else
    byIdRereduceLoop is
      { notDeleted := acc.notDeleted + beDec (slice r 0 5)
        deleted := acc.deleted + beDec (slice r 5 5)
        size := acc.size + beDec (slice r 10 6) }

/-- reduces.cc:85-107 `by_id_rereduce`. -/
def byIdRereduce (is : List Item) : Except Err Bytes := do
  let r ← byIdRereduceLoop is ⟨0, 0, 0⟩
  .ok (encodeByIdReduce r)

end Couchstore
