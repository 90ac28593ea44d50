import Verif.Spec.Tree

/-! An executable integrity check of a stored tree, in the style of a file checker.  It only uses
the read functions of the library (without injected faults) and is used by property C08. -/

namespace Couchstore

/-- The same file without pending I/O faults. -/
def File.calm (f : File) : File := { f with faults := [] }

/-- The type and the records of the node at a position, if it can be read and parsed. -/
def nodeAt (E : Env) (f : File) (pos : Nat) : Option (UInt8 × List KV) :=
  match readNode E pos f.calm with
  | .ok (t, recs) _ => (recs.mapM id).map fun kvs => (t, kvs)
  | .error _ _ => none

/-- The number of bytes the chunk at a position occupies, block markers not counted. -/
def chunkSize (E : Env) (f : File) (pos : Nat) : Option Nat :=
  match preadBin E pos f.calm with
  | .ok c _ => some (c.length + match f.cfg.cipher with | some _ => 4 + E.macSize | none => 8)
  | .error _ _ => none

/-- Check the children of an interior node: each record is a pointer to an earlier position, the
subtree passes the check, and the record's key is the greatest key in the subtree. -/
def checkKids (check : NodePointer → Option (List KV)) (p : NodePointer) :
    List KV → Option (List KV × Nat)
  | [] => some ([], 0)
  | (k, v) :: rest =>
    match readPointer k v with
    | none => none
    | some q =>
      match check q, checkKids check p rest with
      | some kvs, some (more, size) =>
        if q.pointer < p.pointer ∧ lastKey kvs = some k then some (kvs ++ more, q.subtreesize + size)
        else none
      | _, _ => none

/-- Check the tree below `p`, all leaves of which must be at depth `h`; returns the entries in
order.  Every node must be readable and not empty, be a leaf exactly at depth `h`, and the
pointer must carry a reduction accepted by `redOk` for the entries below and the size of the
subtree. -/
def checkTree (E : Env) (f : File) (redOk : List KV → Bytes → Bool) :
    Nat → NodePointer → Option (List KV)
  | 0, p =>
    match nodeAt E f p.pointer, chunkSize E f p.pointer with
    | some (t, recs), some n =>
      if t = 1 ∧ recs ≠ [] ∧ redOk recs p.reduceValue ∧ p.subtreesize % 2 ^ 48 = n % 2 ^ 48 then
        some recs
      else none
    | _, _ => none
  | h + 1, p =>
    match nodeAt E f p.pointer, chunkSize E f p.pointer with
    | some (t, recs), some n =>
      match checkKids (checkTree E f redOk h) p recs with
      | some (kvs, size) =>
        if t = 0 ∧ recs ≠ [] ∧ redOk kvs p.reduceValue ∧
            p.subtreesize % 2 ^ 48 = (size + n) % 2 ^ 48 then some kvs
        else none
      | none => none
    | _, _ => none

/-- Strictly ascending keys. -/
def ascending (cmp : Bytes → Bytes → Ordering) : List KV → Bool
  | a :: b :: rest => cmp a.1 b.1 == .lt && ascending cmp (b :: rest)
  | _ => true

end Couchstore
