import Verif.Spec.Crash
import Verif.Spec.Recover

/-! Histories of a database file: creation, saves, commits, moving between headers, reopening and
crashes. -/

namespace Couchstore

/-- A call of commit. -/
structure Commit where
  /-- where its header goes: the first block at or after the append position -/
  pos : Nat
  /-- the handle when commit was called -/
  db : Db
  timestamp : Nat
  /-- the position of the header the handle had before -/
  prev : Nat

/-- The record of a commit of `db`. -/
def Commit.of (db : Db) (timestamp : Nat) : Commit :=
  { pos := (db.file.pos + 4095) / 4096 * 4096, db := db, timestamp := timestamp
    prev := db.header.position }

/-- A database file in use. -/
structure Sys where
  /-- the handle -/
  db : Db
  /-- what the storage held when the machine was started -/
  base : Bytes
  /-- the calls of commit, newest first; creating a database commits it -/
  commits : List Commit
  /-- those that succeeded -/
  done : List Commit
  /-- the commits of which one is found if the machine crashes now: the last successful one and
  the failed ones since then; empty if there was no successful commit yet -/
  cands : List Commit

/-- The newest commit with a header at `pos`. -/
def Sys.commitAt (s : Sys) (pos : Nat) : Option Commit := s.commits.find? fun c => c.pos = pos

/-- Arguments of `couchstore_open_db_ex` that are accepted for an existing database with the given
checksum. -/
structure OpenFlags.Ok (flags : OpenFlags) (legacy : Bool) : Prop where
  rdonly : ¬ (flags.rdonly = true ∧ flags.create = true)
  excl : flags.excl = true → flags.create = true
  crc : flags.legacyCrc = true → legacy = true
  thr : 2 ≤ flags.kvThr

/-- The file is now opened by somebody else. -/
def File.reset (f : File) (faults : List Fault) : File := { f with faults := faults }

/-- The file after a crash that left `img`. -/
def crashedFile (img : Bytes) (faults : List Fault) : File :=
  { disk := img, pos := 0, cfg := ⟨.unknown, none, 0, 0⟩, faults := faults, log := [] }

/-- The callback hands out the same keys for the whole life of the file, and an encrypted file has
no legacy checksum. -/
structure KeysOk (getKey : KeyGetter) (legacyCrc : Bool) : Prop where
  stable : ∀ f, getKey = some f → ∀ k, f [] = some k → f k.id = some k
  noLegacy : legacyCrc = true → ∀ f, getKey = some f → f [] = none

/-- One call of the library; `getKey` is the callback for encryption keys. -/
inductive Op (E : Env) (getKey : KeyGetter) : Sys → Sys → Prop where
  /-- documents or local documents are saved, or the file system starts to misbehave -/
  | step {s : Sys} {db' : Db} : Step E s.db db' → Op E getKey s { s with db := db' }
  /-- `couchstore_set_purge_seq` -/
  | setPurgeSeq {s : Sys} (n : Nat) : Op E getKey s { s with db := after (setPurgeSeq n) s.db }
  | commitOk {s : Sys} {db' : Db} (timestamp : Nat) (cb : Nat → Bool) :
      commit E timestamp cb s.db = .ok () db' →
      Op E getKey s { s with
        db := db'
        commits := Commit.of s.db timestamp :: s.commits
        done := Commit.of s.db timestamp :: s.done
        cands := [Commit.of s.db timestamp] }
  | commitFail {s : Sys} {db' : Db} {e : Err} (timestamp : Nat) (cb : Nat → Bool) :
      commit E timestamp cb s.db = .error e db' →
      Op E getKey s { s with
        db := db'
        commits := Commit.of s.db timestamp :: s.commits
        cands := if s.cands = [] then [] else Commit.of s.db timestamp :: s.cands }
  /-- the handle is moved to another header, or this fails; a handle that is closed by a failure is
  not used again.  (Asking for an offset that is no multiple of the block size is answered with
  `INVALID_ARGUMENTS`, and nothing happens.  If a raw file operation failed with that number, the
  handle would show an empty database: that is excluded here.) -/
  | move {s : Sys} {db' : Db} (m : DbM Unit) :
      (m = rewindDbHeader E ∨ m = fastForwardDbHeader E ∨ (∃ p, m = seekOffset E p) ∨
        ∃ d, m = seekDir E d) →
      after m s.db = db' → db'.dropped = false →
      (∀ e d, m s.db = .error e d → e.code ≠ Err.invalidArguments.code) →
      Op E getKey s { s with db := db' }
  /-- the file is closed (or abandoned) and opened again -/
  | reopen {s : Sys} {db' : Db} {f' : File} (flags : OpenFlags) (ctx : Bytes) (faults : List Fault) :
      2 ≤ flags.kvThr → openDb E flags getKey ctx (s.db.file.reset faults) = .ok db' f' →
      Op E getKey s { s with db := db' }

/-- A newly created database. -/
def Sys.created (db : Db) (noCommit : Bool) : Sys :=
  let c : Commit := { pos := db.header.position, db := db, timestamp := 0, prev := noPrevHeaderPos }
  let cs := if noCommit then [] else [c]
  { db := db, base := [], commits := cs, done := cs, cands := [] }

/-- All histories of a file, starting with its creation or with the compaction of another one
(or the recovery from a damaged one). -/
inductive History (E : Env) : KeyGetter → Sys → Prop where
  | create {getKey : KeyGetter} {db : Db} {f' : File} (flags : OpenFlags) (ctx : Bytes) (faults : List Fault) :
      2 ≤ flags.kvThr → KeysOk getKey flags.legacyCrc →
      openDb E flags getKey ctx (crashedFile [] faults) = .ok db f' →
      History E getKey (Sys.created db flags.noCommitAtCreate)
  /-- Compaction of a file into a new one, up to the final commit. -/
  | compact {getKey : KeyGetter} {s : Sys} {υ : Type} {t t' : Db} {f' : File} (c : Compaction υ) :
      History E getKey s → c.source = s.db → KeysOk c.getKey (compactFlags c.source c.upgrade).legacyCrc →
      openDb E (compactFlags c.source c.upgrade) c.getKey c.ctx (crashedFile [] c.faults) = .ok t f' →
      RewritesFit c.rewrite → compactFill E c t = .ok () t' →
      History E c.getKey { Sys.created t true with db := t' }
  /-- Recovery from a damaged file into a new one, up to the final commit. -/
  | recover {getKey : KeyGetter} {s : Sys} {υ : Type} {t t' : Db} {f' : File} {er : Option Err} (c : Compaction υ) :
      History E getKey s → c.source = { s.db with file := c.source.file } → DamagedFile E s.db.file c.source.file →
      c.bodyFaults = [] → c.localFaults = [] → c.faults = [] → KeepsAll c.filter → c.rewrite = none →
      KeysOk c.getKey (compactFlags c.source c.upgrade).legacyCrc →
      openDb E (compactFlags c.source c.upgrade) c.getKey c.ctx (crashedFile [] c.faults) = .ok t f' →
      recoverFill E c t = .ok er t' →
      History E c.getKey { Sys.created t true with db := t' }
  | op {getKey : KeyGetter} {s s' : Sys} : History E getKey s → Op E getKey s s' → History E getKey s'
  /-- After the first successful commit the machine may crash at any time, and the file is opened
  again.  The crash is between two calls (`s' = s`) or during one; `log` is what had happened.
  (Opening only reads the file: for opening with failing reads, let `reopen` follow.) -/
  | crash {getKey : KeyGetter} {s s' : Sys} {log : List Event} {img : Bytes} {db' : Db} {f' : File} (flags : OpenFlags)
      (ctx : Bytes) :
      History E getKey s → s' = s ∨ Op E getKey s s' → s.cands ≠ [] →
      s.db.file.log <:+ log → log <:+ s'.db.file.log →
      CrashImage s.base log img →
      2 ≤ flags.kvThr → openDb E flags getKey ctx (crashedFile img []) = .ok db' f' →
      History E getKey
        { db := db', base := img, commits := s'.commits
          done := (s'.commits.find? fun c => c.pos = db'.header.position).toList ++ s.done
          cands := (s'.commits.find? fun c => c.pos = db'.header.position).toList }

/-- The handle shows the state that was committed: every question has the answer it had on the
handle when commit was called, and the timestamp is that of the commit (older file formats have no
timestamps). -/
structure Shows (E : Env) (db : Db) (c : Commit) : Prop where
  answers : SameAnswers E c.db db
  position : db.header.position = c.pos
  timestamp : db.header.timestamp = if 13 ≤ c.db.header.diskVersion then c.timestamp else 0

/-- The handles a user may have: reached from a new database by some saves, or by any history of a
file with saves, commits, moves, reopening and crashes. -/
def Reachable (E : Env) (db : Db) : Prop :=
  ∃ db0, (Fresh db0 ∨ ∃ getKey s, History E getKey s ∧ s.db = db0) ∧ Steps E db0 db

end Couchstore
