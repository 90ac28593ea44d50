import Verif.Spec.History

/-! Other handles on a file that is being written. -/

namespace Couchstore

/-- Some calls of the library, one after another. -/
inductive Ops (E : Env) (getKey : KeyGetter) : Sys → Sys → Prop where
  | refl {s : Sys} : Ops E getKey s s
  | tail {s s1 s2 : Sys} : Ops E getKey s s1 → Op E getKey s1 s2 → Ops E getKey s s2

/-- What may be read from the file at some time after the events `log` and before the end of the events of `s`.  Every
byte has the value that it had at some moment in between; the moments may differ from byte to byte (so that a raw write
may be seen in part, and the bytes need not be read at the same time). -/
def Seen (s : Sys) (log : List Event) (img : Bytes) : Prop :=
  ∀ i : Nat, ∃ l, log <:+ l ∧ l <:+ s.db.file.log ∧ img[i]? = (replay s.base l)[i]?

/-- The handle, when the file holds `img`. -/
def Db.over (r : Db) (img : Bytes) : Db := { r with file := { r.file with disk := img } }

end Couchstore
