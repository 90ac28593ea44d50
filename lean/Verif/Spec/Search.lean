import Verif.Spec.History

/-! The headers in a file, for the search by sequence number. -/

namespace Couchstore

/-- There is a header at `P`: a block starts there, and its first byte says that it has a header
(src/internal.h `COUCH_DISK_HEADER_BLOCK`). -/
def Sys.HeaderAt (s : Sys) (P : Nat) : Prop := P % blockSize = 0 ∧ s.db.file.disk[P]? = some btHeader

/-- The last sequence of the commit with its header at `P`. -/
def Sys.seqAt (s : Sys) (P : Nat) : Nat :=
  match s.commitAt P with
  | some c => c.db.header.updateSeq
  | none => 0

/-- The timestamp in the header at `P` (older file formats have none). -/
def Sys.timeAt (s : Sys) (P : Nat) : Nat :=
  match s.commitAt P with
  | some c => if 13 ≤ c.db.header.diskVersion then c.timestamp else 0
  | none => 0

/-- The headers up to `tip` have growing last sequences. -/
def Sys.SeqsGrow (s : Sys) (tip : Nat) : Prop :=
  ∀ P Q, s.HeaderAt P → s.HeaderAt Q → P < Q → Q ≤ tip → s.seqAt P < s.seqAt Q

/-- From the start of the file to `tip`, no header is further from the one before it than that one
is from its predecessors. -/
def Sys.GapsShrink (s : Sys) (tip : Nat) : Prop :=
  ∀ P Q R, P = 0 ∨ s.HeaderAt P → s.HeaderAt Q → s.HeaderAt R → P < Q → Q < R → R ≤ tip →
    (∀ X, Q < X → X < R → ¬ s.HeaderAt X) → R - Q ≤ Q - P

end Couchstore
