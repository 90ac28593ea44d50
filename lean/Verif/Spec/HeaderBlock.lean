import Verif.Lemmas.Disk
import Verif.Model.Header

/-! Which blocks of a file hold an intact database header, for any content of the file. -/

namespace Couchstore

/-- The block at `P` holds the header body `b` with a correct checksum (of either kind): after the
type byte come the length (which counts the checksum), the checksum and the body; the first byte
of every block in between is skipped. -/
def StoredBody (E : Env) (maxSize : Nat) (d : Bytes) (P : Nat) (b : Bytes) : Prop :=
  b.length + 4 ≤ maxSize ∧ ∃ crc, (crc = (E.crc32c b).toNat ∨ crc = (E.crc32 b).toNat) ∧
    ∃ q, Stored d (P + 1) (enc32 (b.length + 4) ++ enc32 crc ++ b) q

/-- The block at `P` is marked as a header, and what is stored there is exactly the encoding of the
header `h`, whose pointers go back to before `P`. -/
structure IntactHeader (E : Env) (d : Bytes) (P : Nat) (h : Header) : Prop where
  marker : d[P]? = some btHeader
  body : StoredBody E maxDbHeaderSize d P (encodeHeader h)
  fits : headerFits h = true
  version : h.diskVersion = 11 ∨ h.diskVersion = 12 ∨ h.diskVersion = 13 ∨ h.diskVersion = 14
  position : h.position = P
  purge : h.purgePtr ≤ P
  roots : ∀ r ∈ [h.byIdRoot, h.bySeqRoot, h.localRoot], ∀ p, r = some p → p.pointer < P ∧ p.key = []
  /-- fields that older versions do not have -/
  noTimestamp : h.diskVersion < 13 → h.timestamp = 0
  noPrev : h.diskVersion < 14 → h.prevHeaderPos = unknownPrevHeaderPos ∧ h.haveMeta = false

/-- The block at `P` holds a header body with a correct checksum that is empty or of a version the
library does not know.  (The library would read an empty body out of bounds.) -/
def ForeignHeader (E : Env) (d : Bytes) (P : Nat) : Prop :=
  d[P]? = some btHeader ∧ ∃ b, StoredBody E maxDbHeaderSize d P b ∧
    ∀ v, b.head? = some v → ¬ (11 ≤ v.toNat ∧ v.toNat ≤ 14)

end Couchstore
