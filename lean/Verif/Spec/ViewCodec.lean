import Verif.Model.ViewCodec

/-! What the codecs of view indexes are for: which partitions a bitmap stands for, which keys, values, reductions and
records fit the formats. -/

namespace Couchstore

/-- bitmap.h:27-29: the bitmap is a number of 1024 bits in big endian format; the partition `p` is in the set if bit
`p` of the number is set. -/
def hasPart (bm : Bytes) (p : Nat) : Bool := (beDec bm).testBit p

/-- The lengths and numbers fit their fields. -/
def ViewKey.Fits (k : ViewKey) : Prop := k.jsonKey.length < 2 ^ 16

def ViewIdKey.Fits (k : ViewIdKey) : Prop := k.partition < 2 ^ 16

def ViewValue.Fits (v : ViewValue) : Prop :=
  v.partition < 2 ^ 16 ∧ v.values.length < 2 ^ 16 ∧ ∀ x ∈ v.values, x.length < 2 ^ 24

def ViewKeys.Fits (m : ViewKeys) : Prop := m.keys.length < 2 ^ 16 ∧ ∀ x ∈ m.keys, x.length < 2 ^ 16

def ViewReduction.Fits (r : ViewReduction) : Prop :=
  r.kvCount < 2 ^ 40 ∧ r.partitions.length = 128 ∧ r.values.length < 256

/-- A record of a file for `inc`: there is something in it, and it is shorter than 2 GiB. -/
def ViewRec.Fits (inc : Bool) (r : ViewRec) : Prop :=
  r.key.length < 2 ^ 16 ∧ 0 < r.key.length + r.val.length ∧ r.key.length + r.val.length < 2 ^ 31 ∧
    (inc = false → r.op = 0)

/-- A file with the records. -/
def viewFile (inc : Bool) (rs : List ViewRec) : Bytes := rs.flatMap fun r => (writeViewRecord inc r).1

/-- How reading all the records of a file ends. -/
inductive RecEnd where
  | clean | broken | garbage
deriving DecidableEq, Repr

/-- The records read one after the other from a file, and how it ends; the first argument bounds the number. -/
def readAll (inc : Bool) : Nat → Bytes → List ViewRec × RecEnd
  | 0, _ => ([], .clean)
  | n + 1, b =>
    match readViewRecord inc b with
    | .eof => ([], .clean)
    | .fail => ([], .broken)
    | .garbage => ([], .garbage)
    | .record r rest => (r :: (readAll inc n rest).1, (readAll inc n rest).2)

end Couchstore
