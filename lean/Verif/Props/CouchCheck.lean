import Verif.Lemmas.CouchCheckOpen
import Verif.Props.Recover

/-! Property theorem C66: the program that checks a file. -/

namespace Couchstore.Props

open Couchstore

/-! ## C66 The exit status of couch_check -/

/-- Bytes of a file have changed anywhere, in a way that the checksums notice (perhaps none has).  The checking
program ends with status 0 if and only if everything that can be read from the database, its documents, their
bodies, its local documents, both its indexes and the statistics, reads exactly as before, and every body that
is marked as compressed can be decompressed. -/
theorem C66_exit_status (E : Env) (L : E.Laws) (getKey : KeyGetter) (s : Sys) (hs : History E getKey s) (db : Db)
    (hdb : db = { s.db with file := db.file }) (D : DamagedFile E s.db.file db.file) :
    checkDb E db = 0 ↔ SameReads E s.db db ∧ ∀ d ∈ documents E s.db, Decompresses E s.db d.id := by
  obtain ⟨ids, seqs, locs, S⟩ := (hs.hist L).handle
  exact same_iff L S.inv S.opened D hdb

/-- A file that has passed has not lost a document. -/
theorem C66_pass_means_nothing_lost (E : Env) (L : E.Laws) (getKey : KeyGetter) (s : Sys) (hs : History E getKey s) (db : Db)
    (hdb : db = { s.db with file := db.file }) (D : DamagedFile E s.db.file db.file) (h : checkDb E db = 0)
    (d : DocInfo) (hd : d ∈ documents E s.db) : lost E db d = false := by
  obtain ⟨R, -⟩ := (C66_exit_status E L getKey s hs db hdb D).mp h
  have h0 := C59_undamaged_nothing_lost E L getKey s hs d hd
  unfold lost at h0 ⊢
  have h1 : answer (docinfoBySequence E d.dbSeq) db = answer (docinfoBySequence E d.dbSeq) s.db := by
    have := R.asks (.docinfoSeq d.dbSeq)
    exact Reply.doc.inj this
  rw [h1, R.bodies d hd false]
  exact h0

/-- The flags that the program opens a file with are good for every file. -/
theorem checkFlags_ok (legacy : Bool) :
    OpenFlags.Ok { create := false, rdonly := true, excl := false, legacyCrc := false, noCommitAtCreate := false,
                   recovery := false, kvThr := (nodesizeOptions 0).2, kpThr := (nodesizeOptions 0).1 } legacy :=
  ⟨(fun h => nomatch h.2), (fun h => nomatch h), (fun h => nomatch h), by decide⟩

/-- There are no false alarms: the machine crashes at any time after the first successful commit of an unencrypted
database (or does not crash; then nothing of the log is missing).  The program accepts what is left, unless a
document of the commit that is found there has a body marked as compressed that cannot be decompressed. -/
theorem C66_no_false_alarm (E : Env) (L : E.Laws) (s s' : Sys) (hs : History E none s)
    (hop : s' = s ∨ Op E none s s') (hc : s.cands ≠ [])
    (log : List Event) (h1 : s.db.file.log <:+ log) (h2 : log <:+ s'.db.file.log)
    (img : Bytes) (hi : CrashImage s.base log img) :
    ∃ c, (c ∈ s.cands ∨ c ∈ s'.cands) ∧ ∃ status, checkMain E (crashedFile img []) = .exit status ∧
      (status = 0 ↔ ∀ d ∈ documents E c.db, Decompresses E c.db d.id) := by
  obtain ⟨db, k1, c, k2, k3, k4⟩ := C21_any_history E L none s s' hs hop hc log h1 h2 img hi _ (checkFlags_ok _) []
  have hh := History.crash _ [] hs hop hc h1 h2 hi (checkFlags_ok false).thr k1
  have hcalm := crash_calm L hs hop hc h1 h2 hi k1
  refine ⟨c, k2, checkDb E db, ?_, ?_⟩
  · unfold checkMain
    dsimp only
    rw [k1]
  have hx := C66_exit_status E L none _ hh db rfl (damagedFile_refl E _ hcalm)
  have hdocs : documents E db = documents E c.db := by
    unfold documents
    rw [k3.answers (.changes 0 ⟨false, false, false⟩) (by show 0 < 2 ^ 48; decide)]
  have hdec : ∀ id, Decompresses E db id ↔ Decompresses E c.db id := by
    intro id
    unfold Decompresses
    rw [k3.answers (.open id false) trivial, k3.answers (.open id true) trivial]
  have hself : SameReads E db db := ⟨fun _ => rfl, fun _ _ _ _ => rfl, fun _ _ _ _ => rfl, fun _ _ _ _ => rfl, fun _ _ _ => rfl⟩
  rw [hx]
  constructor
  · rintro ⟨-, h⟩ d hd
    exact (hdec _).mp (h d (hdocs ▸ hd))
  · intro h
    exact ⟨hself, fun d hd => (hdec _).mpr (h d (hdocs ▸ hd))⟩

/-! ### Examples -/

theorem check_sample : checkDb Env.toy (damage [0]) = 0 ∧ checkDb Env.toy (damage [10, 40]) = 1 ∧
    checkDb Env.toy (damage [234]) = 1 ∧ (noticedIn kdb2.file (damage [0]).file kdb2.file.disk.length = true ∧
    kdb2.file.faults = [] ∧ (damage [0]).file.disk.length = kdb2.file.disk.length) ∧ (documents Env.toy kdb2).length = 3 := by
  decide +kernel

/-- The program accepts a committed file. -/
theorem check_main : checkMain Env.toy (crashedFile kdb3.file.disk []) = .exit 0 := by
  decide +kernel

/-- Somebody has said of a body that it is compressed, and it is not: the program does not accept the intact file. -/
def liarOpts : SaveOpts := { sampleOpts with compress := false }
def liarItems : List SaveItem := [sampleItem [98] (some [1, 2, 3]) 128]
def liar1 : Db := after (saveDocuments Env.toy liarOpts (some sampleCb) liarItems []) kdb0
def liar2 : Db := after (commit Env.toy 1000 (fun _ => false)) liar1

theorem check_liar : checkMain Env.toy (crashedFile liar2.file.disk []) = .exit 1 := by
  decide +kernel

/-- How many documents a walk has shown. -/
def listed : Reply → Option Nat
  | .docs (.ok (l, none)) => some l.length
  | _ => none

/-- A file whose by-id index is gone. -/
def mismatch1 : Db := { kdb2 with header := { kdb2.header with byIdRoot := none } }
def mismatch2 : Db := after (commit Env.toy 1000 (fun _ => false)) mismatch1

theorem check_mismatch : isOk (commit Env.toy 1000 (fun _ => false) mismatch1) = true ∧
    checkMain Env.toy (mismatch2.file.reset []) = .exit 0 ∧
    listed (ask Env.toy mismatch2 (.changes 0 noOpts)) = some 3 ∧
    listed (ask Env.toy mismatch2 (.allDocs none noOpts)) = some 0 := by
  decide +kernel

/-- The two numbers of documents that the program compares are never counted: it accepts a file with three
documents in one index and none in the other. -/
theorem C66_index_mismatch_unnoticed : ∃ db1 db2 : Db, commit Env.toy 1000 (fun _ => false) db1 = .ok () db2 ∧
    checkMain Env.toy (db2.file.reset []) = .exit 0 ∧
    listed (ask Env.toy db2 (.changes 0 noOpts)) = some 3 ∧ listed (ask Env.toy db2 (.allDocs none noOpts)) = some 0 :=
  ⟨mismatch1, mismatch2, commit_after check_mismatch.1, check_mismatch.2⟩

/-- If the file cannot be opened, the program goes on with a handle that is null. -/
theorem C66_unopenable_file_uses_null_handle (E : Env) : checkMain E (crashedFile [] []) = .nullHandle := by
  rfl

attribute [local irreducible] kdb0 kdb1 kdb2 kdb3

/-- Damage where nothing is stored is not reported, and everything reads as before. -/
example : SameReads Env.toy kdb2 (damage [0]) :=
  ((C66_exit_status Env.toy Env.toy_laws none _ recoveryHist (damage [0]) rfl
    (damaged_of rfl check_sample.2.2.2.1.2.2 check_sample.2.2.2.1.2.1 check_sample.2.2.2.1.2.1 check_sample.2.2.2.1.1)).mp check_sample.1).1

/-- Damage to documents or to an index is reported. -/
example : ¬ (SameReads Env.toy kdb2 (damage [234]) ∧ ∀ d ∈ documents Env.toy kdb2, Decompresses Env.toy kdb2 d.id) := fun h =>
  absurd ((C66_exit_status Env.toy Env.toy_laws none _ recoveryHist (damage [234]) rfl sampleDamaged.2).mpr h)
    (by rw [check_sample.2.2.1]; decide)

example : ∀ d ∈ documents Env.toy kdb2, lost Env.toy (damage [0]) d = false :=
  C66_pass_means_nothing_lost Env.toy Env.toy_laws none _ recoveryHist (damage [0]) rfl
    (damaged_of rfl check_sample.2.2.2.1.2.2 check_sample.2.2.2.1.2.1 check_sample.2.2.2.1.2.1 check_sample.2.2.2.1.1) check_sample.1

/-- A crash right after a commit, or closing the file then. -/
example : ∃ c, (c ∈ (oneCommit kdb0 kdb2 kdb3).cands ∨ c ∈ (oneCommit kdb0 kdb2 kdb3).cands) ∧
    ∃ status, checkMain Env.toy (crashedFile (replay [] kdb3.file.log) []) = .exit status ∧
      (status = 0 ↔ ∀ d ∈ documents Env.toy c.db, Decompresses Env.toy c.db d.id) :=
  C66_no_false_alarm Env.toy Env.toy_laws _ _ sourceHist (Or.inl rfl) (by simp [oneCommit]) _ List.suffix_rfl List.suffix_rfl _
    (crashImage_replay _ _)

end Couchstore.Props
