import Verif.Model.Hex2bin
import Mathlib.Data.List.Forall2

/-! What a dump looks like.  Used by the property theorems. -/

namespace Couchstore

/-- The character is the hexadecimal digit `d`, in lower or upper case. -/
def IsHexDigit (c : UInt8) (d : Nat) : Prop :=
  (d < 10 ∧ c.toNat = 48 + d) ∨ (10 ≤ d ∧ d < 16 ∧ (c.toNat = 97 + (d - 10) ∨ c.toNat = 65 + (d - 10)))

/-- The text has the digits `ds`. -/
def HexText (text : Bytes) (ds : List Nat) : Prop := List.Forall₂ IsHexDigit text ds

/-- The number with these digits. -/
def hexDigitsValue (ds : List Nat) : Nat := ds.foldl (fun v d => v * 16 + d) 0

/-- The two digits of a byte. -/
def nibbles (b : UInt8) : List Nat := [b.toNat / 16, b.toNat % 16]

/-- The text shows the bytes in units of one to eight of them, each after spaces, and as a number whose lowest byte is the first.  What
comes after a bar does not count. -/
inductive UnitsText : List Bytes → Bytes → Prop
  | done (n : Nat) (tail : Bytes) (h : tail = [] ∨ ∃ r, tail = 124 :: r) : UnitsText [] (List.replicate n 32 ++ tail)
  | unit (n : Nat) (g text rest : Bytes) (gs : List Bytes) (h0 : g ≠ []) (h8 : g.length ≤ 8)
      (ht : HexText text (g.reverse.flatMap nibbles)) (h : UnitsText gs rest) :
      UnitsText (g :: gs) (List.replicate (n + 1) 32 ++ (text ++ rest))

/-- `Dump pos prev star bytes lines`: the lines show the bytes from the position `pos` on; the bytes in the line before are `prev`, and
`star` says that there was a star after it, which stands for copies of them.  Where bytes are missing in a dump there are question marks
in the bytes. -/
inductive Dump : Nat → Bytes → Bool → Bytes → List Bytes → Prop
  | nil (pos : Nat) (prev : Bytes) : Dump pos prev false [] []
  | star (pos : Nat) (prev bytes rest : Bytes) (b : Bool) (ls : List Bytes) (h0 : prev ≠ []) (h : Dump pos prev true bytes ls) :
      Dump pos prev b bytes ((42 :: rest) :: ls)
  | row (pos gap : Nat) (prev bytes text units : Bytes) (ds : List Nat) (gs ls : List Bytes)
      (h0 : ds ≠ []) (ht : HexText text ds) (hv : hexDigitsValue ds = pos + gap) (hlt : pos + gap < 2 ^ 64) (hu : UnitsText gs units)
      (h : Dump (pos + gap + gs.flatten.length) gs.flatten false bytes ls) :
      Dump pos prev false (List.replicate gap 63 ++ (gs.flatten ++ bytes)) ((text ++ units) :: ls)
  | copies (pos k : Nat) (prev bytes text units : Bytes) (ds : List Nat) (gs ls : List Bytes)
      (h0 : ds ≠ []) (ht : HexText text ds) (hv : hexDigitsValue ds = pos + k * prev.length) (hlt : pos + k * prev.length < 2 ^ 64)
      (hu : UnitsText gs units) (h : Dump (pos + k * prev.length + gs.flatten.length) gs.flatten false bytes ls) :
      Dump pos prev true ((List.replicate k prev).flatten ++ (gs.flatten ++ bytes)) ((text ++ units) :: ls)

/-- The digit in lower case. -/
def lowerDigit (d : Nat) : UInt8 := UInt8.ofNat (if d < 10 then 48 + d else 87 + d)

/-- `%02x`. -/
def hex2 (b : UInt8) : Bytes := (nibbles b).map lowerDigit

/-- What stands in the column at the right. -/
def shownChar (b : UInt8) : UInt8 := if 32 ≤ b.toNat ∧ b.toNat < 127 then b else 46

/-- A line of `hexdump -C`: the offset in eight digits, the bytes with a wider gap after eight of them, and the characters. -/
def canonicalLine (offset : Nat) (row : Bytes) : Bytes :=
  (beEnc 4 offset).flatMap hex2 ++ [32] ++ (row.take 8).flatMap (fun b => 32 :: hex2 b) ++
    (if row.drop 8 = [] then [] else [32]) ++ (row.drop 8).flatMap (fun b => 32 :: hex2 b) ++
    List.replicate (3 * (16 - row.length) + (if row.drop 8 = [] then 3 else 2)) 32 ++ [124] ++ row.map shownChar ++ [124]

/-- The lines of `hexdump -C -v` from an offset on: rows of sixteen bytes, and the offset of the end.
(Of an empty file it prints nothing.) -/
def canonicalLines (offset : Nat) (bytes : Bytes) : List Bytes :=
  if h : bytes = [] then [(beEnc 4 offset).flatMap hex2]
  else canonicalLine offset (bytes.take 16) :: canonicalLines (offset + (bytes.take 16).length) (bytes.drop 16)
termination_by bytes.length
decreasing_by
  have := List.length_pos_iff.mpr h
  rw [List.length_drop]
  omega

/-- The lines of `hexdump -C` from an offset on: one star stands for all the rows that are like the row `prev` before them; `star` says that
it has been printed. -/
def squeezedLines (offset : Nat) (prev : Bytes) (star : Bool) (bytes : Bytes) : List Bytes :=
  if h : bytes = [] then [(beEnc 4 offset).flatMap hex2]
  else if bytes.take 16 = prev then
    (if star then [] else [[42]]) ++ squeezedLines (offset + (bytes.take 16).length) prev true (bytes.drop 16)
  else canonicalLine offset (bytes.take 16) :: squeezedLines (offset + (bytes.take 16).length) (bytes.take 16) false (bytes.drop 16)
termination_by bytes.length
decreasing_by
  all_goals
    have := List.length_pos_iff.mpr h
    rw [List.length_drop]
    omega

end Couchstore
