import Verif.Spec.Tree
import Verif.Model.Spatial

/-! What a spatial index is: boxes, the tree of enclosing boxes in a file, and a search in it.  Used by the property
theorems. -/

namespace Couchstore

/-- A box: for each dimension the lower and the upper bound, as doubles of eight bytes. -/
abbrev Box := List (Bytes × Bytes)

/-- The number a bound stands for. -/
def bound (b : Bytes) : Int := (dblVal b).getD 0

/-- A bound is a number. -/
def IsBound (b : Bytes) : Prop := b.length = 8 ∧ dblVal b ≠ none

/-- A box with `d` dimensions. -/
def BoxOk (d : Nat) (b : Box) : Prop := b.length = d ∧ ∀ x ∈ b, IsBound x.1 ∧ IsBound x.2

/-- The key of a box: the number of bounds in 16 bits, and the bounds. -/
def boxKey (b : Box) : Bytes := beEnc 2 (2 * b.length) ++ b.flatMap fun x => x.1 ++ x.2

/-- One box lies within another, with common borders allowed. -/
def Encloses (outer inner : Box) : Prop :=
  List.Forall₂ (fun x y => bound x.1 ≤ bound y.1 ∧ bound y.2 ≤ bound x.2) outer inner

/-- `b` is the smallest box around the records `kvs` of dimension `d`. -/
def IsHull (d : Nat) (b : Box) (kvs : List KV) : Prop :=
  BoxOk d b ∧ (∀ kv ∈ kvs, ∀ r, BoxOk d r → kv.1 = boxKey r → Encloses b r) ∧
    ∀ c, BoxOk d c → (∀ kv ∈ kvs, ∀ r, BoxOk d r → kv.1 = boxKey r → Encloses c r) → Encloses c b

/-- The records of an index of dimension `d` (key and value within the limits of the format), and the box kept for a node. -/
def spatialIdx (d : Nat) : Idx where
  V kv := (∃ b, BoxOk d b ∧ kv.1 = boxKey b) ∧ kv.1.length < 4096 ∧ kv.2.length < 2 ^ 28
  R kvs r := ∃ b, IsHull d b kvs ∧ r = boxKey b

/-- A record standing for the records `kvs` in a node at height `l`: one of them in a leaf, a pointer whose key is the
box of the node (its reduction) in an interior node. -/
def SItemAt (E : Env) (X : Idx) (f : File) : Nat → Item → List KV → Prop
  | 0, it, kvs => it.pointer = none ∧ kvs = [(it.key, it.data)] ∧ X.V (it.key, it.data)
  | l + 1, it, kvs => ∃ p, it = ptrItem p ∧ p.key = p.reduceValue ∧
      NodeAt E X f (SItemAt E X f l) (kindOf l) p kvs

/-- The spatial index of dimension `d` with the given root (null: empty index) has the records `kvs`, in this order. -/
def SRootAt (E : Env) (d : Nat) (f : File) : Option NodePointer → List KV → Prop
  | none, kvs => kvs = []
  | some p, kvs => ∃ l, NodeAt E (spatialIdx d) f (SItemAt E (spatialIdx d) f l) (kindOf l) p kvs

/-- The box of a key. -/
def boxOf (k : Bytes) : Box :=
  (List.range ((k.length - 2) / 16)).map fun i => (slice k (2 + 16 * i) 8, slice k (10 + 16 * i) 8)

/-- Two boxes have a point in common, if none of them is empty. -/
def meets (w b : Box) : Bool :=
  decide (w.length = b.length) &&
    (w.zip b).all fun x => decide (bound x.1.1 ≤ bound x.2.2) && decide (bound x.2.1 ≤ bound x.1.2)

/-- The search goes down only where the box of the pointer meets the window. -/
def windowKids (w : Box) (descend : Nat → M (List KV)) : List (Option KV) → M (List KV)
  | [] => pure []
  | none :: _ => throw .corrupt
  | some (k, v) :: rs =>
    if meets w (boxOf k) then
      match readPointer k v with
      | none => throw .corrupt
      | some p => do
        let a ← descend p.pointer
        let b ← windowKids w descend rs
        pure (a ++ b)
    else windowKids w descend rs

/-- A search for the records whose boxes meet a window, from the node at an offset.  (Readers of these files are not in
this code; they rely on the boxes like this.) -/
def windowSearch (E : Env) (w : Box) : Nat → Nat → M (List KV)
  | 0, _ => throw .diverge
  | fuel + 1, pos => do
    let n ← readNode E pos
    if n.1 = 1 then pure ((n.2.filterMap id).filter fun kv => meets w (boxOf kv.1))
    else windowKids w (windowSearch E w fuel) n.2

/-! ### The space-filling curve -/

/-- Bit `i` of each coordinate, as a binary number, that of the first coordinate first. -/
def curveRow (xs : List Nat) (i : Nat) : Nat := xs.foldl (fun a x => 2 * a + (x.testBit i).toNat) 0

/-- The position on the curve of a point with coordinates of `k` bits: the highest bits of all coordinates, then the
next ones, down to the lowest. -/
def curve : Nat → List Nat → Nat
  | 0, _ => 0
  | k + 1, xs => curveRow xs k * 2 ^ (k * xs.length) + curve k xs

/-- The center of a box on the integer grid given by an offset and a scale for each dimension: `none` if a coordinate is not within
32 bits. -/
def gridPoint (A : SpatialArith) (sf : ScaleFactor) (b : Box) : Option (List Nat) :=
  (b.zip sf).mapM fun x => (A.scale (A.middle x.1.1 x.1.2) x.2.1 x.2.2).filter (· < 2 ^ 32)

end Couchstore
