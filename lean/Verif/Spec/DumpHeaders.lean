import Verif.Model.DumpHeaders
import Verif.Spec.DbDump
import Verif.Spec.DbInfoTool

/-! What the dump of all headers should print.  Used by the property theorems. -/

namespace Couchstore

/-- For each commit, one line for each document that it contains. -/
def RoundsRight (E : Env) (lib : DumpLib) (o : DumpOpts) (mode : DumpMode) : List Commit → List (List DumpLine) → Prop
  | [], [] => True
  | c :: cs, r :: rs => LinesRight E lib o c.db (dumped E c.db mode) r ∧ RoundsRight E lib o mode cs rs
  | _, _ => False

/-- How many documents the commits contain, all together. -/
def docsIn (E : Env) (mode : DumpMode) (cs : List Commit) : Nat :=
  (cs.map fun c => (dumped E c.db mode).length).sum

end Couchstore
