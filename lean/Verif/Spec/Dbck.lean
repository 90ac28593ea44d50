import Verif.Model.Dbck
import Verif.Spec.Recover
import Verif.Spec.Compact

/-! What the recovery tool is expected to find in old commits of a damaged file.  Used by the property theorems. -/

namespace Couchstore

/-- The headers of the damaged file `f` are headers of the intact file `f0`: what can be read as a header from `f`
can be read from `f0`, with the same content.  (Headers may be lost, but none is made up.) -/
def DamagedHeaders (E : Env) (f0 f : File) : Prop :=
  ∀ p b g, p % blockSize = 0 → f.disk[p]? = some btHeader → preadHeader E p maxDbHeaderSize f = .ok b g →
    f0.disk[p]? = some btHeader ∧ ∃ g', preadHeader E p maxDbHeaderSize { f0 with faults := [] } = .ok b g'

/-- The handles of an older commit of the file, as the tool moves back. -/
inductive Rewound (E : Env) (db : Db) : Db → Prop where
  | one {d : Db} : rewindDbHeader E db = .ok () d → Rewound E db d
  | more {d d' : Db} : Rewound E db d → rewindDbHeader E d = .ok () d' → Rewound E db d'

/-- The two descriptions are of the same version of a document; its body may be elsewhere in the file. -/
def SameVersion (d d' : DocInfo) : Prop :=
  d = { d' with bp := d.bp, physicalSize := d.physicalSize }

/-- The state of the database and the states at its commits. -/
def Sys.states (s : Sys) : List Db := s.db :: s.commits.map (·.db)

/-- The description `d` and the stored body are those of a document in the current state or at a commit (but for
the position and size of the body). -/
def WasThere (E : Env) (s : Sys) (d : DocInfo) (body : Option Bytes) : Prop :=
  ∃ db ∈ s.states, ∃ d' ∈ documents E db, SameVersion d d' ∧ storedBodyOf E db d'.id = body

/-- What the recovery from stale commits needs: there are not too many documents and no body is too long, whatever
the state; and a sequence number was never used for two different ids (as happens if a database is rolled
back and other documents are saved). -/
structure StaleFits (E : Env) (s : Sys) : Prop where
  few : ∃ l : List Bytes, l.length < 2 ^ 40 ∧ ∀ db ∈ s.states, ∀ d ∈ documents E db, d.id ∈ l
  seqs : ∀ db ∈ s.states, ∀ db' ∈ s.states, ∀ d ∈ documents E db, ∀ d' ∈ documents E db', d.dbSeq = d'.dbSeq → d.id = d'.id
  body : ∀ db ∈ s.states, ∀ d ∈ documents E db, ∀ b, storedBodyOf E db d.id = some b → 8 + b.length + E.macSize < 2 ^ 28

end Couchstore
