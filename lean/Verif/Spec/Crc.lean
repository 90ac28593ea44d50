import Verif.Model.Disk
import Verif.Model.Crc

/-!
The cyclic redundancy check, by its usual definition: bit by bit, with a polynomial in reversed bit order.
-/

namespace Couchstore

/-- Division by the polynomial `P`, one bit. -/
def crcBit (P x : BitVec 32) : BitVec 32 := (x >>> 1) ^^^ (if x.getLsbD 0 then P else 0#32)

/-- `n` bits. -/
def crcBits (P : BitVec 32) : Nat → BitVec 32 → BitVec 32
  | 0, x => x
  | n + 1, x => crcBits P n (crcBit P x)

/-- One byte. -/
def crcByte (P : BitVec 32) (c : BitVec 32) (b : UInt8) : BitVec 32 := crcBits P 8 (c ^^^ b.toBitVec.setWidth 32)

/-- The checksum of a sequence of bytes: starting with ones, and inverted in the end. -/
def crc (P : BitVec 32) (bs : Bytes) : BitVec 32 := ~~~ (bs.foldl (crcByte P) (BitVec.allOnes 32))

/-- The polynomial of CRC-32 (IEEE 802.3). -/
def polyIEEE : BitVec 32 := 0xEDB88320#32

/-- The polynomial of CRC-32C (Castagnoli). -/
def polyCastagnoli : BitVec 32 := 0x82F63B78#32

/-- The checksum of a file is one of the two, computed as specified.  The table of the code is used for the first; the
second one comes from a library. -/
def ChecksumIsCrc (E : Env) (mode : CrcMode) : Prop :=
  (mode = .crc32 ∧ E.crc32 = hashCrc32) ∨ (mode = .crc32c ∧ ∀ b, (E.crc32c b).toBitVec = crc polyCastagnoli b)

/-- Where the `i`-th byte of what is stored from position `p` on is: the first byte of each block of 4096 is skipped. -/
def dataOffset (p : Nat) : Nat → Nat
  | 0 => if p % 4096 = 0 then p + 1 else p
  | i + 1 => if (dataOffset p i + 1) % 4096 = 0 then dataOffset p i + 2 else dataOffset p i + 1

/-- The file `d'` is `d`, but for a change of the bytes `j` to `j + k - 1` of what is stored from `p` on. -/
structure Damaged (d d' : Bytes) (p j k : Nat) : Prop where
  length : d'.length = d.length
  outside : ∀ i, (∀ t, t < k → i ≠ dataOffset p (j + t)) → d'[i]? = d[i]?
  changed : d' ≠ d

end Couchstore
