import Verif.Model.Replay
import Verif.Spec.Compact

/-! Vocabulary for the properties of the replay of changes on a compacted file. -/

namespace Couchstore

/-- The last sequence number of a database. -/
def lastSeqOf (E : Env) (db : Db) : Nat :=
  match ask E db .info with
  | .stats (.ok (lastSeq, _)) => lastSeq
  | _ => 0

/-- `b` is a later state of the database `a` in which documents were saved with new sequence numbers,
and local documents were saved: whatever differs has a new sequence number, nothing has vanished. -/
structure Grown (E : Env) (a b : Db) : Prop where
  /-- a document has a new sequence number, or it is the one of before, with the same body -/
  docs : ∀ d ∈ documents E b, lastSeqOf E a < d.dbSeq ∨
    (d ∈ documents E a ∧ storedBodyOf E a d.id = storedBodyOf E b d.id)
  /-- no document has vanished (but it may be a tombstone now) -/
  kept : ∀ d ∈ documents E a, ∃ d' ∈ documents E b, d'.id = d.id
  /-- the last sequence number is that of before or that of a document saved since -/
  last : lastSeqOf E b = lastSeqOf E a ∨ (lastSeqOf E a < lastSeqOf E b ∧ ∃ d ∈ documents E b, d.dbSeq = lastSeqOf E b)
  /-- no local document was deleted -/
  locals : ∀ id v, ask E a (.localDoc id) = .loc (.ok v) → ∃ v', ask E b (.localDoc id) = .loc (.ok v')

/-- A user saves documents (not with the option that keeps the given sequence numbers), saves local documents
(and deletes none), sets the purge sequence number and commits. -/
inductive Writes (E : Env) (getKey : KeyGetter) (s : Sys) : Sys → Prop where
  | refl : Writes E getKey s s
  | save {s1 : Sys} {σ : Type} (opts : SaveOpts) (cb : Option (SaveCb σ)) (items : List SaveItem) (u : σ) :
      Writes E getKey s s1 → opts.asIs = false → SaveArgs E s1.db opts items →
      Writes E getKey s { s1 with db := after (saveDocuments E opts cb items u) s1.db }
  | saveLocals {s1 : Sys} (ds : List LocalDoc) :
      Writes E getKey s s1 → LocalArgs ds → (∀ d ∈ ds, d.deleted = false) →
      Writes E getKey s { s1 with db := after (saveLocalDocuments E ds) s1.db }
  | setPurgeSeq {s1 : Sys} (n : Nat) :
      Writes E getKey s s1 → Writes E getKey s { s1 with db := after (setPurgeSeq n) s1.db }
  | commit {s1 : Sys} {db' : Db} (timestamp : Nat) (cb : Nat → Bool) :
      Writes E getKey s s1 → commit E timestamp cb s1.db = .ok () db' →
      Writes E getKey s { s1 with
        db := db'
        commits := Commit.of s1.db timestamp :: s1.commits
        done := Commit.of s1.db timestamp :: s1.done
        cands := [Commit.of s1.db timestamp] }

/-- The documents of `b` can be written to `t`: bodies are within the limit that they have in the new file, and
there are not too many documents. -/
structure CanCopy (E : Env) (b t : Db) : Prop where
  bodies : ∀ d ∈ documents E b, ∀ x, storedBodyOf E b d.id = some x → chunkLen E t.file.cfg x < 2 ^ 28
  few : (documents E t).length + (documents E b).length < 2 ^ 40

end Couchstore
