import Verif.Model.DbInfoTool
import Verif.Spec.History

/-! What the program that prints headers should print.  Used by the property theorems. -/

namespace Couchstore

/-- The line of a commit: where its header is, and what the handle answered to `couchstore_db_info` when commit was
called. -/
def Commit.line (c : Commit) (l : HeaderLine) : Prop :=
  l.position = c.pos ∧ l.version = c.db.header.diskVersion ∧
  l.timestamp = (if 13 ≤ c.db.header.diskVersion then some c.timestamp else none) ∧
  answer (dbInfo >>= fun r => pure (r.lastSequence, r.docCount, r.deletedCount, r.spaceUsed, r.purgeSeq)) c.db =
    .ok (l.updateSeq, l.docCount, l.deletedCount, l.dataSize, l.purgeSeq)

/-- One line for each commit. -/
def Lines : List Commit → List HeaderLine → Prop
  | [], [] => True
  | c :: cs, l :: ls => c.line l ∧ Lines cs ls
  | _, _ => False

/-- The successful commits that a commit was made on top of, one after the other (headers of older versions do
not tell). -/
inductive Ancestor (done : List Commit) : Commit → Commit → Prop where
  | refl {c : Commit} : Ancestor done c c
  | step {c d e : Commit} : Ancestor done c d → 14 ≤ d.db.header.diskVersion → e ∈ done → e.pos = d.prev → Ancestor done c e

end Couchstore
