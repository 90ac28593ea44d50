import Verif.Model.DumpIndex

/-! What the dump of an index file should print.  Used by the property theorems. -/

namespace Couchstore

/-- The row of what a document emits for a key, if that is one value: the key in JSON and the value. -/
def Emit.row (m : Emit) : IndexRow := ⟨m.json, m.values.headD []⟩

/-- The row if there are several values: after the first one each is printed with its length, three bytes, before it. -/
def Emit.gluedRow (m : Emit) : IndexRow := ⟨m.json, m.values.headD [] ++ m.values.tail.flatMap fun v => beEnc 3 v.length ++ v⟩

end Couchstore
