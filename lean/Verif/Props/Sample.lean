import Verif.Lemmas.CommitAppend
import Verif.Model.Search
import Verif.Props.Save

/-! A sample history, used to show that the hypotheses of the theorems in `Props/Commit.lean` are
met: an encrypted database is created, documents are saved, committed at time 1000, other documents
are saved, and committed at time 2000. -/

namespace Couchstore.Props

/-- Flags of the examples: create the file if it does not exist, small nodes. -/
def sampleFlags : OpenFlags := ⟨true, false, false, false, false, false, 64, 64⟩

/-- The handle that opening gives. -/
def openedDb (E : Env) (flags : OpenFlags) (getKey : KeyGetter) (f : File) : Db :=
  after (openBody E flags getKey [7, 7]) (newHandle flags f)

theorem openDb_opened {E : Env} {flags : OpenFlags} {getKey : KeyGetter} {f : File}
    (h1 : (flags.rdonly && flags.create || flags.excl && !flags.create) = false)
    (h : isOk (openBody E flags getKey [7, 7] (newHandle flags f)) = true) :
    openDb E flags getKey [7, 7] f = .ok (openedDb E flags getKey f) (openedDb E flags getKey f).file := by
  unfold openDb openedDb after
  rw [if_neg (by intro h; simp [h] at h1), if_neg (by intro h; simp [h] at h1)]
  cases hp : openBody E flags getKey [7, 7] (newHandle flags f) with
  | ok a db => rfl
  | error e db => rw [hp] at h; cases h

theorem commit_after {E : Env} {ts : Nat} {cb : Nat → Bool} {db : Db} (h : isOk (commit E ts cb db) = true) :
    commit E ts cb db = .ok () (after (commit E ts cb) db) := by
  unfold after
  cases hp : commit E ts cb db with
  | ok a d => rfl
  | error e d => rw [hp] at h; cases h

/-- A key of the examples: the file key is the first byte of the context. -/
def sampleKey : Kdk := ⟨[75], .keyBased, fun _ => none, fun b => b.head?.map UInt8.toNat⟩
/-- The callback for keys of the examples. -/
def sampleGetKey : KeyGetter := some fun id => if id = [] ∨ id = [75] then some sampleKey else none

theorem sampleKeys : KeysOk sampleGetKey false := by
  refine ⟨?_, by simp⟩
  intro f hf k hk
  simp only [sampleGetKey, Option.some.injEq] at hf
  subst hf
  simp at hk
  subst hk
  rfl

/-- The documents saved first and second. -/
def histItems : List SaveItem := [sampleItem [98] (some [1, 2, 3]) 128, sampleItem [97] none 0]
def histItems2 : List SaveItem := [sampleItem [97] (some [4]) 0]

/-- The handle after the creation, -/
def hdb0 : Db := openedDb Env.toy sampleFlags sampleGetKey (crashedFile [] [])
/-- the first save, -/
def hdb1 : Db := after (saveDocuments Env.toy sampleOpts (some sampleCb) histItems []) hdb0
/-- the first commit, -/
def hdb2 : Db := after (commit Env.toy 1000 (fun _ => false)) hdb1
/-- the second save -/
def hdb3 : Db := after (saveDocuments Env.toy sampleOpts (some sampleCb) histItems2 []) hdb2
/-- and the second commit. -/
def hdb4 : Db := after (commit Env.toy 2000 (fun _ => false)) hdb3

/-- The handle after rewinding it. -/
def hdb5 : Db := after (rewindDbHeader Env.toy) hdb4
/-- The same, when the next raw operation fails with the number of `INVALID_ARGUMENTS`. -/
def hdb5bad : Db := { hdb5 with file := { hdb5.file with faults := [.err (-10)] } }

/-- All that is needed about these handles, evaluated at once. -/
theorem hdb_all :
    (isOk (openBody Env.toy sampleFlags sampleGetKey [7, 7] (newHandle sampleFlags (crashedFile [] []))) = true ∧
      argsB Env.toy hdb0 sampleOpts histItems = true ∧ isOk (commit Env.toy 1000 (fun _ => false) hdb1) = true ∧
      argsB Env.toy hdb2 sampleOpts histItems2 = true ∧ isOk (commit Env.toy 2000 (fun _ => false) hdb3) = true) ∧
    ((hdb4.file.faults = [] ∧ hdb4.header.diskVersion = 14 ∧ hdb4.header.position = (Commit.of hdb3 2000).pos ∧
      (Commit.of hdb1 1000).pos = (Commit.of hdb3 2000).prev) ∧
    (isOk (rewindDbHeader Env.toy hdb4) = true ∧ hdb5.file.faults = [] ∧ hdb5.dropped = false ∧
      hdb5.header.position < (Commit.of hdb3 2000).pos) ∧
    (match seekDir Env.toy .forward hdb5bad with
      | .error e db => e == .io (-10) && !db.dropped && (answer (openDocument Env.toy [98] true) hdb5).toOption == some [1, 2, 3] &&
          (answer (openDocument Env.toy [98] true) db).toOption == none
      | .ok _ _ => false) = true) ∧
    ((4096 < hdb1.file.pos ∧ hdb1.file.disk[0]? = some btMeta) ∧
      (answer (openDocument Env.toy [98] true) hdb2).toOption = some [1, 2, 3] ∧
      ((answer (openDocument Env.toy [97] true) hdb1).toOption = none ∧
        (answer (openDocument Env.toy [97] true) hdb3).toOption = some [4]) ∧
      (match seekOffset Env.toy 0 hdb2 with
        | .error e db => e == .noHeader && !db.dropped && db.header.position == hdb2.header.position
        | .ok _ _ => false) = true) ∧
    (hdb4.file.disk.length ≤ 4 * blockSize ∧ hdb4.file.disk[0]? = some btMeta ∧
      hdb4.file.disk[1 * blockSize]? = some btHeader ∧
      hdb4.file.disk[2 * blockSize]? = some btHeader ∧ hdb4.file.disk[3 * blockSize]? = some btHeader ∧
      hdb0.header.position = 1 * blockSize ∧ (Commit.of hdb1 1000).pos = 2 * blockSize ∧
      (Commit.of hdb3 2000).pos = 3 * blockSize ∧ hdb0.header.updateSeq = 0 ∧ hdb1.header.updateSeq = 2 ∧
      hdb3.header.updateSeq = 3 ∧ hdb4.file.faults = [] ∧
      (match seekFirst Env.toy 100 1 hdb4 with
        | .ok _ db => db.header.position == 3 * blockSize
        | .error _ _ => false) = true) := by
  decide +kernel

theorem hdb0_eq : openDb Env.toy sampleFlags sampleGetKey [7, 7] (crashedFile [] []) = .ok hdb0 hdb0.file :=
  openDb_opened (by decide) hdb_all.1.1
theorem hdb1_eq : SaveArgs Env.toy hdb0 sampleOpts histItems := args_of hdb_all.1.2.1
theorem hdb2_eq : commit Env.toy 1000 (fun _ => false) hdb1 = .ok () hdb2 := commit_after hdb_all.1.2.2.1
theorem hdb3_eq : SaveArgs Env.toy hdb2 sampleOpts histItems2 := args_of hdb_all.1.2.2.2.1
theorem hdb4_eq : commit Env.toy 2000 (fun _ => false) hdb3 = .ok () hdb4 := commit_after hdb_all.1.2.2.2.2

/-- The history of two commits with the given handles. -/
def twoCommits1 (d0 d1 : Db) : Sys := { Sys.created d0 false with db := d1 }
def twoCommits2 (d0 d1 d2 : Db) : Sys :=
  { twoCommits1 d0 d1 with
    db := d2, commits := Commit.of d1 1000 :: (Sys.created d0 false).commits
    done := Commit.of d1 1000 :: (Sys.created d0 false).done, cands := [Commit.of d1 1000] }
def twoCommits3 (d0 d1 d2 d3 : Db) : Sys := { twoCommits2 d0 d1 d2 with db := d3 }
def twoCommits4 (d0 d1 d2 d3 d4 : Db) : Sys :=
  { twoCommits3 d0 d1 d2 d3 with
    db := d4, commits := Commit.of d3 2000 :: (twoCommits2 d0 d1 d2).commits
    done := Commit.of d3 2000 :: (twoCommits2 d0 d1 d2).done, cands := [Commit.of d3 2000] }

section
variable {E : Env} {getKey : KeyGetter} {flags : OpenFlags} {ctx : Bytes} {d0 d1 d2 d3 d4 : Db}
theorem twoCommits1_hist (ht : 2 ≤ flags.kvThr) (hk : KeysOk getKey flags.legacyCrc)
    (hn : flags.noCommitAtCreate = false)
    (h0 : openDb E flags getKey ctx (crashedFile [] []) = .ok d0 d0.file) (h1 : Step E d0 d1) :
    History E getKey (twoCommits1 d0 d1) := by
  have h := History.create flags ctx [] ht hk h0
  rw [hn] at h
  exact .op h (.step h1)
theorem twoCommits2_hist (h : History E getKey (twoCommits1 d0 d1))
    (h2 : commit E 1000 (fun _ => false) d1 = .ok () d2) : History E getKey (twoCommits2 d0 d1 d2) :=
  .op h (.commitOk 1000 _ h2)
theorem twoCommits3_hist (h : History E getKey (twoCommits2 d0 d1 d2)) (h3 : Step E d2 d3) :
    History E getKey (twoCommits3 d0 d1 d2 d3) := .op h (.step h3)
theorem twoCommits4_op (h4 : commit E 2000 (fun _ => false) d3 = .ok () d4) :
    Op E getKey (twoCommits3 d0 d1 d2 d3) (twoCommits4 d0 d1 d2 d3 d4) := .commitOk 2000 _ h4
theorem twoCommits4_hist (h : History E getKey (twoCommits3 d0 d1 d2 d3))
    (h4 : commit E 2000 (fun _ => false) d3 = .ok () d4) : History E getKey (twoCommits4 d0 d1 d2 d3 d4) :=
  .op h (twoCommits4_op h4)
theorem twoCommits4_at (h : d4.header.position = (Commit.of d3 2000).pos) :
    (twoCommits4 d0 d1 d2 d3 d4).commitAt (twoCommits4 d0 d1 d2 d3 d4).db.header.position =
      some (Commit.of d3 2000) := by
  have h' : (twoCommits4 d0 d1 d2 d3 d4).db.header.position = (Commit.of d3 2000).pos := h
  rw [h']
  simp [Sys.commitAt, twoCommits4]
/-- The commit that creating a database makes. -/
def createdCommit (db : Db) : Commit :=
  { pos := db.header.position, db := db, timestamp := 0, prev := noPrevHeaderPos }
end

theorem sampleHist1 : History Env.toy sampleGetKey (twoCommits1 hdb0 hdb1) :=
  twoCommits1_hist (flags := sampleFlags) (by decide) sampleKeys rfl hdb0_eq
    (.save sampleOpts (some sampleCb) histItems [] hdb1_eq)
theorem sampleHist2 : History Env.toy sampleGetKey (twoCommits2 hdb0 hdb1 hdb2) :=
  twoCommits2_hist sampleHist1 hdb2_eq
theorem sampleHist3 : History Env.toy sampleGetKey (twoCommits3 hdb0 hdb1 hdb2 hdb3) :=
  twoCommits3_hist sampleHist2 (.save sampleOpts (some sampleCb) histItems2 [] hdb3_eq)
theorem sampleHist4 : History Env.toy sampleGetKey (twoCommits4 hdb0 hdb1 hdb2 hdb3 hdb4) :=
  twoCommits4_hist sampleHist3 hdb4_eq

/-! ### Crashes -/

/-- Everything that was written after the last sync may be lost. -/
theorem crashImage_lost (d : Bytes) (evs l : List Event) (h : ∀ e ∈ evs, e ≠ .sync) :
    CrashImage d (evs ++ .sync :: l) (replay d (.sync :: l)) := by
  induction evs with
  | nil => exact crashImage_replay d _
  | cons e evs ih =>
    obtain ⟨h1, h2, h3⟩ := ih fun e he => h e (by simp [he])
    cases e with
    | write off b =>
      exact ⟨h1, Nat.le_trans h2 (length_pwriteDisk _ _ _), fun i x hx => Or.inl (h3 i x hx)⟩
    | sync => exact absurd rfl (h .sync (by simp))
    | encrypted k n p => exact ⟨h1, h2, h3⟩

section
variable {E : Env} {getKey : KeyGetter} {d0 d1 d2 d3 d4 : Db}
theorem twoCommits_crash (L : E.Laws) (hs1 : History E getKey (twoCommits1 d0 d1))
    (hs2 : History E getKey (twoCommits2 d0 d1 d2)) (hs3 : History E getKey (twoCommits3 d0 d1 d2 d3))
    (h2 : commit E 1000 (fun _ => false) d1 = .ok () d2) (h3 : Step E d2 d3)
    (h4 : commit E 2000 (fun _ => false) d3 = .ok () d4) :
    ∃ log, d2.file.log <:+ log ∧ d3.file.log <:+ log ∧ log <:+ d4.file.log ∧
      log ≠ d4.file.log ∧ CrashImage [] log (replay [] d2.file.log) := by
  obtain ⟨e1, m, C⟩ := (commit_cases (hs1.hist L)).1 _ h2
  obtain ⟨e1', m', C'⟩ := (commit_cases (hs3.hist L)).1 _ h4
  obtain ⟨ids, seqs, locs, hh⟩ := (hs2.hist L).handle
  obtain ⟨evs, v1, v2, v3⟩ := (h3.saved hh.inv.wf).evs
  have hc : d2.file.log = .sync :: (m ++ .sync :: (e1 ++ d1.file.log)) := C.log
  have hc' : d4.file.log = .sync :: (m' ++ .sync :: (e1' ++ d3.file.log)) := C'.log
  have he1 : ∀ e ∈ e1', e ≠ .sync := by
    rintro e he rfl
    exact absurd (C'.prep.evs _ he) (by simp [EvOk])
  have he2 : ∀ e ∈ evs, e ≠ .sync := by
    rintro e he rfl
    exact absurd (v2 _ he) (by simp [EvOk])
  refine ⟨e1' ++ d3.file.log, ?_, ⟨e1', rfl⟩, ?_, ?_, ?_⟩
  · rw [v1]; exact ⟨e1' ++ evs, by simp⟩
  · rw [hc']; exact ⟨.sync :: (m' ++ [.sync]), by simp⟩
  · rw [hc']
    intro h
    have := congrArg List.length h
    simp at this
    omega
  · rw [v1, ← List.append_assoc, hc]
    exact crashImage_lost _ _ _ fun e he => by
      rcases List.mem_append.mp he with h | h
      · exact he1 e h
      · exact he2 e h
end

/-- A crash during the second commit, before its first sync, in which all is lost that was written
since the first commit. -/
theorem sampleCrash : ∃ log, hdb2.file.log <:+ log ∧ hdb3.file.log <:+ log ∧ log <:+ hdb4.file.log ∧
    log ≠ hdb4.file.log ∧ CrashImage [] log (replay [] hdb2.file.log) :=
  twoCommits_crash Env.toy_laws sampleHist1 sampleHist2 sampleHist3 hdb2_eq
    (.save sampleOpts (some sampleCb) histItems2 [] hdb3_eq) hdb4_eq

/-! ### Moving -/

/-- The history with the handle moved. -/
def twoCommits5 (d0 d1 d2 d3 d4 d5 : Db) : Sys := { twoCommits4 d0 d1 d2 d3 d4 with db := d5 }

theorem twoCommits5_hist {E : Env} {getKey : KeyGetter} {d0 d1 d2 d3 d4 : Db}
    (h : History E getKey (twoCommits4 d0 d1 d2 d3 d4))
    (h1 : isOk (rewindDbHeader E d4) = true) (h2 : (after (rewindDbHeader E) d4).dropped = false) :
    History E getKey (twoCommits5 d0 d1 d2 d3 d4 (after (rewindDbHeader E) d4)) :=
  .op h (.move (rewindDbHeader E) (Or.inl rfl) rfl h2 (by
    intro e d hd
    have hd : rewindDbHeader E d4 = _ := hd
    rw [hd] at h1
    cases h1))

theorem sampleHist5 : History Env.toy sampleGetKey (twoCommits5 hdb0 hdb1 hdb2 hdb3 hdb4 hdb5) :=
  twoCommits5_hist sampleHist4 hdb_all.2.1.2.1.1 hdb_all.2.1.2.1.2.2.1

/-! ### The older file format -/

def legacyFlags : OpenFlags := ⟨true, false, false, true, false, false, 64, 64⟩
def ldb0 : Db := openedDb Env.toy legacyFlags none (crashedFile [] [])
def ldb1 : Db := after (saveDocuments Env.toy sampleOpts (some sampleCb) histItems2 []) ldb0
def ldb2 : Db := after (commit Env.toy 1000 (fun _ => false)) ldb1
theorem ldb_all : isOk (openBody Env.toy legacyFlags none [7, 7] (newHandle legacyFlags (crashedFile [] []))) = true ∧
    argsB Env.toy ldb0 sampleOpts histItems2 = true ∧ isOk (commit Env.toy 1000 (fun _ => false) ldb1) = true ∧
    ldb2.file.faults = [] ∧ ldb2.header.diskVersion = 11 ∧ ldb0.header.position < ldb2.header.position := by
  decide +kernel
theorem ldb0_eq : openDb Env.toy legacyFlags none [7, 7] (crashedFile [] []) = .ok ldb0 ldb0.file :=
  openDb_opened (by decide) ldb_all.1
theorem ldb1_eq : SaveArgs Env.toy ldb0 sampleOpts histItems2 := args_of ldb_all.2.1
theorem ldb2_eq : commit Env.toy 1000 (fun _ => false) ldb1 = .ok () ldb2 := commit_after ldb_all.2.2.1

theorem legacyHist : History Env.toy none (twoCommits2 ldb0 ldb1 ldb2) :=
  twoCommits2_hist (twoCommits1_hist (flags := legacyFlags) (by decide) ⟨by simp, by simp⟩ rfl ldb0_eq
    (.save sampleOpts (some sampleCb) histItems2 [] ldb1_eq)) ldb2_eq

theorem ldb2_facts : ldb2.file.faults = [] ∧ ldb2.header.diskVersion = 11 ∧
    ldb0.header.position < ldb2.header.position := ldb_all.2.2.2

theorem hdb3_step : Step Env.toy hdb2 hdb3 := .save sampleOpts (some sampleCb) histItems2 [] hdb3_eq
theorem hdb5_eq : rewindDbHeader Env.toy hdb4 = .ok () hdb5 := by
  obtain ⟨⟨⟩, h⟩ := exists_of_isOk hdb_all.2.1.2.1.1
  exact h

attribute [irreducible] hdb0 hdb1 hdb2 hdb3 hdb4 hdb5 hdb5bad ldb0 ldb1 ldb2

end Couchstore.Props
