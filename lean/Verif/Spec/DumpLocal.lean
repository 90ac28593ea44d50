import Verif.Model.DumpLocal
import Verif.Spec.History
import Verif.Spec.Recover

/-! What the dump of local documents should print.  Used by the property theorems. -/

namespace Couchstore

/-- The contents of a local document, if they can be decoded. -/
def localContents (lib : LocalLib) (d : LocalDoc) : Option Bytes :=
  match lib.decode d.id d.json with
  | none => none
  | some [] => some d.json
  | some x => some x

/-- The local document can be printed: it can be decoded, and for JSON it is JSON. -/
def LocalPrintable (lib : LocalLib) (json : Bool) (d : LocalDoc) : Prop :=
  ∃ x, localContents lib d = some x ∧ (json = true → lib.isJson x = true)

/-- The line of a local document.  Of one that cannot be printed there is no line, or, as text, the name alone. -/
def LocalRight (lib : LocalLib) (json : Bool) (d : LocalDoc) (ls : List LocalLine) : Prop :=
  (∀ x, localContents lib d = some x → (json = true → lib.isJson x = true) →
    ls = [.doc d.id x (if json then none else some d.json.length)]) ∧
  (¬ LocalPrintable lib json d → ls = if json then [] else [.keyOnly d.id])

/-- The lines of local documents, one after the other. -/
def LocalsRight (lib : LocalLib) (json : Bool) : List LocalDoc → List LocalLine → Prop
  | [], ls => ls = []
  | d :: ds, ls => ∃ a b, ls = a ++ b ∧ LocalRight lib json d a ∧ LocalsRight lib json ds b

end Couchstore
