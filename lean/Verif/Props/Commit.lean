import Verif.Props.Sample
-- only so that the two are not built at the same time, which takes too much memory
import Verif.Props.Search

/-! Property theorems C05, C20, C21, C22 and C24: commit, reopening, crashes and moving between
headers.

`History E getKey s` (Spec/History.lean): the file in use `s` is reached from its creation by any
sequence of saves, commits, moves between headers, reopening and crashes, each of which may fail,
under any schedule of misbehaving raw file operations.  `Shows E db c`: the handle `db` answers
every question as it was answered when commit `c` was called.  `CrashImage base log img`
(Spec/Crash.lean): `img` may be found on the storage after a crash when the events `log` had
happened.  `crashedFile img []` is the file with that content, opened without further failures.

The examples use the history of Props/Sample.lean. -/

namespace Couchstore.Props

variable {σ : Type}

/-! ## C05 The file is append-only

For any handle, also on a corrupt file, whose append position is not after the end of the file. -/

theorem C05_save_documents (E : Env) (opts : SaveOpts) (cb : Option (SaveCb σ)) (items : List SaveItem) (u : σ)
    (db : Db) (w : db.file.WF) (i : Nat) (hi : i < db.file.pos) :
    (after (saveDocuments E opts cb items u) db).file.disk[i]? = db.file.disk[i]? := by
  have hle := w.pos_le
  rcases (pres_saveDocuments E opts cb items u db w).after with ⟨_, h⟩ | ⟨_, h⟩ <;>
    exact h.ext.frame.agree i hi (by omega)

theorem C05_save_local_document (E : Env) (d : LocalDoc) (db : Db) (w : db.file.WF) (i : Nat) (hi : i < db.file.pos) :
    (after (saveLocalDocument E d) db).file.disk[i]? = db.file.disk[i]? := by
  have hle := w.pos_le
  rcases (pres_saveLocalDocument E d db w).after with ⟨_, h⟩ | ⟨_, h⟩ <;>
    exact h.ext.frame.agree i hi (by omega)

theorem C05_save_local_documents (E : Env) (ds : List LocalDoc) (db : Db) (w : db.file.WF) (i : Nat)
    (hi : i < db.file.pos) :
    (after (saveLocalDocuments E ds) db).file.disk[i]? = db.file.disk[i]? := by
  have hle := w.pos_le
  rcases (pres_saveLocalDocuments E ds db w).after with ⟨_, h⟩ | ⟨_, h⟩ <;>
    exact h.ext.frame.agree i hi (by omega)

theorem C05_commit (E : Env) (ts : Nat) (cb : Nat → Bool) (db : Db) (w : db.file.WF) (i : Nat)
    (hi : i < db.file.pos) :
    (after (commit E ts cb) db).file.disk[i]? = db.file.disk[i]? := by
  rcases (commit_before E ts cb db w).after with ⟨_, h⟩ | ⟨_, h⟩ <;> exact h i hi

theorem twoCommits1_wf {E : Env} (L : E.Laws) {getKey : KeyGetter} {d0 d1 : Db}
    (h : History E getKey (twoCommits1 d0 d1)) : d1.file.WF := by
  obtain ⟨_, _, _, hh⟩ := (h.hist L).handle
  exact hh.inv.wf

/-- The file of the example meets the hypotheses, and is not empty. -/
example : hdb1.file.WF ∧ 4096 < hdb1.file.pos ∧ hdb1.file.disk[0]? = some btMeta :=
  ⟨twoCommits1_wf Env.toy_laws sampleHist1, hdb_all.2.2.1.1⟩

/-! ## C20 Committed data survives reopening -/

/-- After a successful commit, opening the file succeeds and gives the same answers, with the same
timestamp. -/
theorem C20_commit_reopen (E : Env) (L : E.Laws) (getKey : KeyGetter) (s : Sys) (hs : History E getKey s)
    (ts : Nat) (cb : Nat → Bool) (db1 : Db) (hc : commit E ts cb s.db = .ok () db1)
    (flags : OpenFlags) (ok : flags.Ok (s.db.file.cfg.crcMode == .crc32)) (ctx : Bytes) :
    ∃ db2, openDb E flags getKey ctx (db1.file.reset []) = .ok db2 db2.file ∧
      SameAnswers E s.db db1 ∧ SameAnswers E db1 db2 ∧
      db1.header.timestamp = (if 13 ≤ s.db.header.diskVersion then ts else 0) ∧
      db2.header.timestamp = db1.header.timestamp ∧
      db2.header.position = db1.header.position ∧ db2.file.disk = db1.file.disk := by
  have H := hs.hist L
  obtain ⟨e1, m, C⟩ := (commit_cases H).1 _ hc
  have H1 := H.commitOk C
  have hsame := commit_same L H ts cb
  unfold after at hsame
  rw [hc] at hsame
  obtain ⟨db2, h1, h2, c, h3, h4⟩ := openDb_of (mode := s.db.file.cfg.crcMode)
    ((H1.reopen_ok L (by simp) flags ctx ok.thr).mono (fun _ _ h => h)
      (fun _ _ h => by rw [← C.cfg]; exact h)) ok
  rw [List.mem_singleton] at h3
  subst h3
  have ht : db1.header.timestamp = if 13 ≤ s.db.header.diskVersion then ts else 0 := by rw [C.eq]; rfl
  refine ⟨db2, h1, hsame, ?_, ht, h4.timestamp.trans ht.symm, ?_, h2⟩
  · intro q hq
    rw [h4.answers q hq, hsame q hq]
    rfl
  · rw [h4.position, commit_pos, C.eq]

theorem sampleFlags_ok (legacy : Bool) : sampleFlags.Ok legacy :=
  ⟨by decide, by decide, (by intro h; cases h), by decide⟩

/-- The hypotheses are met by the first commit of the sample history: the file is opened with the
documents saved before. -/
example : ∃ db2, openDb Env.toy sampleFlags sampleGetKey [7, 7] (hdb2.file.reset []) = .ok db2 db2.file ∧
    SameAnswers Env.toy hdb2 db2 ∧ (answer (openDocument Env.toy [98] true) hdb2).toOption = some [1, 2, 3] := by
  have h := C20_commit_reopen Env.toy Env.toy_laws sampleGetKey (twoCommits1 hdb0 hdb1) sampleHist1 1000
    (fun _ => false) hdb2 hdb2_eq sampleFlags (sampleFlags_ok _) [7, 7]
  obtain ⟨db2, h1, _, h3, _⟩ := h
  exact ⟨db2, h1, h3, hdb_all.2.2.1.2.1⟩

/-- Commit itself, successful or not, does not change any answer. -/
theorem C20_commit_keeps_answers (E : Env) (L : E.Laws) (getKey : KeyGetter) (s : Sys) (hs : History E getKey s)
    (ts : Nat) (cb : Nat → Bool) : SameAnswers E s.db (after (commit E ts cb) s.db) :=
  commit_same L (hs.hist L) ts cb

/-- A commit that no raw operation disturbs succeeds, unless a number does not fit its field in the
header. -/
theorem C20_commit_succeeds (E : Env) (L : E.Laws) (getKey : KeyGetter) (s : Sys) (hs : History E getKey s)
    (hf : s.db.file.faults = []) (ts : Nat) (cb : Nat → Bool) :
    (∃ db1, commit E ts cb s.db = .ok () db1) ∨ ∃ db1, commit E ts cb s.db = .error .formatLimit db1 := by
  obtain ⟨ids, seqs, locs, hh⟩ := (hs.hist L).handle
  have hsp := commit_spec E ts cb s.db hh
  unfold Sp at hsp
  cases hp : commit E ts cb s.db with
  | ok a db1 => exact Or.inl ⟨db1, rfl⟩
  | error e db1 =>
    rw [hp] at hsp
    rcases hsp.2 with h | h
    · exact absurd hf h
    · exact Or.inr ⟨db1, by rw [h]⟩

/-! ## C21 Commit is atomic under crashes -/

/-- Commit a state, save any number of times and commit again, successfully or not.  If the machine
crashes at any time after the first commit, `log` being what had happened until then, opening the
file succeeds and shows the first committed state or the second one, and it is the first one if
the header marker was not yet written by the second commit. -/
theorem C21_commit_atomic (E : Env) (L : E.Laws) (getKey : KeyGetter) (s : Sys) (hs : History E getKey s)
    (ts1 : Nat) (cb1 : Nat → Bool) (db1 : Db) (hc : commit E ts1 cb1 s.db = .ok () db1)
    (db2 : Db) (hsteps : Steps E db1 db2) (ts2 : Nat) (cb2 : Nat → Bool)
    (log : List Event) (h1 : db1.file.log <:+ log) (h2 : log <:+ (after (commit E ts2 cb2) db2).file.log)
    (img : Bytes) (hi : CrashImage s.base log img)
    (flags : OpenFlags) (ok : flags.Ok (s.db.file.cfg.crcMode == .crc32)) (ctx : Bytes) :
    ∃ db, openDb E flags getKey ctx (crashedFile img []) = .ok db db.file ∧
      (Shows E db (Commit.of s.db ts1) ∨ Shows E db (Commit.of db2 ts2)) ∧
      (.write (Commit.of db2 ts2).pos [btHeader] ∉ log.take (log.length - db2.file.log.length) →
        Shows E db (Commit.of s.db ts1)) := by
  have H := hs.hist L
  obtain ⟨e1, m, C⟩ := (commit_cases H).1 _ hc
  have H1 := H.commitOk C
  have H2 := H1.steps L hsteps
  obtain ⟨ids, seqs, locs, hh1⟩ := H1.handle
  have sv := hsteps.saved L ⟨⟨ids, seqs, locs, hh1.inv⟩, hh1.opened⟩
  obtain ⟨evs, v1, v2, v3⟩ := sv.evs
  have hcfg : db2.file.cfg = s.db.file.cfg := sv.cfg.trans C.cfg
  -- the second commit
  have hcase : (∃ e1 m, Committed E db2 ts2 (after (commit E ts2 cb2) db2) e1 m) ∨
      CommitFailed E db2 ts2 (after (commit E ts2 cb2) db2) := by
    unfold after
    cases hp : commit E ts2 cb2 db2 with
    | ok a d => exact Or.inl ((commit_cases H2).1 _ hp)
    | error e d => exact Or.inr ((commit_cases H2).2 _ _ hp)
  have hlist : ∀ c ∈ Commit.of db2 ts2 :: Commit.of s.db ts1 :: s.commits,
      c.prev = noPrevHeaderPos ∨ c.prev % blockSize = 0 ∧ c.prev < c.pos := by
    rcases hcase with ⟨e1', m', C'⟩ | C'
    · exact (H2.commitOk C').nav.list
    · exact (H2.commitFail C').nav.list
  have hsuf : db2.file.log <:+ (after (commit E ts2 cb2) db2).file.log := by
    rcases hcase with ⟨e1', m', C'⟩ | C'
    · rw [C'.log]
      exact ⟨.sync :: (m' ++ .sync :: e1'), by simp⟩
    · obtain ⟨ids, seqs, locs, hh2⟩ := H2.handle
      obtain ⟨_, l, hl, _⟩ := C'.handle hh2
      rw [hl]
      exact ⟨l, rfl⟩
  rcases List.suffix_or_suffix_of_suffix h2 hsuf with h | h
  · -- during the saves
    have hz : log.length - db2.file.log.length = 0 := by have := h.length_le; omega
    rw [v1] at h
    obtain ⟨a, ha, rfl⟩ := suffix_append_cases h1 h
    have V := (H1.vault (by simp)).append (fun e he => v2 e (ha.subset he)) (Nat.le_refl _)
    obtain ⟨db, k1, c, k2, k3, _⟩ := V.openDb L hi flags ctx (by rw [C.cfg]; exact ok) H1.nav.list
    rw [List.mem_singleton] at k2
    subst k2
    exact ⟨db, k1, Or.inl k3, fun _ => k3⟩
  · obtain ⟨pos, new, hn, V, V'⟩ := commit_mid H2 (by simp) hcase h h2
    have hn : log = new ++ db2.file.log := hn
    have hnew : log.take (log.length - db2.file.log.length) = new := by
      rw [hn]
      simp
    rw [hnew]
    obtain ⟨db, k1, c, k2, k3, _⟩ := V.openDb L hi flags ctx (by show flags.Ok (db2.file.cfg.crcMode == _); rw [hcfg]; exact ok) hlist
    refine ⟨db, k1, ?_, fun hno => ?_⟩
    · rcases List.mem_cons.mp k2 with rfl | k2
      · exact Or.inr k3
      · rw [List.mem_singleton] at k2
        subst k2
        exact Or.inl k3
    · obtain ⟨db', j1, c', j2, j3, _⟩ := (V' hno).openDb L hi flags ctx (by show flags.Ok (db2.file.cfg.crcMode == _); rw [hcfg]; exact ok) hlist
      rw [k1] at j1
      cases j1
      rw [List.mem_singleton] at j2
      subst j2
      exact j3

/-- The hypotheses are met by a crash during the second commit of the sample history, in which all
is lost that was written since the first one; the header was not marked yet. -/
example : ∃ log db, log ≠ hdb4.file.log ∧ hdb3.file.log <:+ log ∧ log <:+ hdb4.file.log ∧
    CrashImage [] log (replay [] hdb2.file.log) ∧
    openDb Env.toy sampleFlags sampleGetKey [] (crashedFile (replay [] hdb2.file.log) []) = .ok db db.file ∧
    (Shows Env.toy db (Commit.of hdb1 1000) ∨ Shows Env.toy db (Commit.of hdb3 2000)) := by
  obtain ⟨log, h1, h2, h3, h4, h5⟩ := sampleCrash
  have h := C21_commit_atomic Env.toy Env.toy_laws sampleGetKey (twoCommits1 hdb0 hdb1) sampleHist1 1000
    (fun _ => false) hdb2 hdb2_eq hdb3 (.step .refl hdb3_step)
    2000 (fun _ => false) log h1 (by unfold after; rw [hdb4_eq]; exact h3) (replay [] hdb2.file.log) h5 sampleFlags (sampleFlags_ok _) []
  obtain ⟨db, k1, k2, _⟩ := h
  exact ⟨log, db, h4, h2, h3, h5, k1, k2⟩

/-- The two outcomes differ. -/
example : (answer (openDocument Env.toy [97] true) hdb1).toOption = none ∧
    (answer (openDocument Env.toy [97] true) hdb3).toOption = some [4] := hdb_all.2.2.1.2.2.1

/-- If the machine crashes after a successful commit, opening the file shows the committed state. -/
theorem C21_commit_durable (E : Env) (L : E.Laws) (getKey : KeyGetter) (s : Sys) (hs : History E getKey s)
    (ts : Nat) (cb : Nat → Bool) (db1 : Db) (hc : commit E ts cb s.db = .ok () db1)
    (db2 : Db) (hsteps : Steps E db1 db2) (img : Bytes) (hi : CrashImage s.base db2.file.log img)
    (flags : OpenFlags) (ok : flags.Ok (s.db.file.cfg.crcMode == .crc32)) (ctx : Bytes) :
    ∃ db, openDb E flags getKey ctx (crashedFile img []) = .ok db db.file ∧ Shows E db (Commit.of s.db ts) := by
  have H := hs.hist L
  obtain ⟨e1, m, C⟩ := (commit_cases H).1 _ hc
  have H2 := (H.commitOk C).steps L hsteps
  obtain ⟨ids, seqs, locs, hh1⟩ := (H.commitOk C).handle
  have sv := hsteps.saved L ⟨⟨ids, seqs, locs, hh1.inv⟩, hh1.opened⟩
  have hcfg : db2.file.cfg = s.db.file.cfg := sv.cfg.trans C.cfg
  obtain ⟨db, k1, c, k2, k3, _⟩ := (H2.vault (by simp)).openDb L hi flags ctx
    (by show flags.Ok (db2.file.cfg.crcMode == _); rw [hcfg]; exact ok) H2.nav.list
  have k2 : c ∈ [Commit.of s.db ts] := k2
  rw [List.mem_singleton] at k2
  subst k2
  exact ⟨db, k1, k3⟩

/-- A crash at any time of any history, between two calls or during one, after the first successful
commit: opening the file succeeds and shows a state that was the last one committed or that some
later (failed or interrupted) commit tried to commit. -/
theorem C21_any_history (E : Env) (L : E.Laws) (getKey : KeyGetter) (s s' : Sys) (hs : History E getKey s)
    (hop : s' = s ∨ Op E getKey s s') (hc : s.cands ≠ [])
    (log : List Event) (h1 : s.db.file.log <:+ log) (h2 : log <:+ s'.db.file.log)
    (img : Bytes) (hi : CrashImage s.base log img)
    (flags : OpenFlags) (ok : flags.Ok (s.db.file.cfg.crcMode == .crc32)) (ctx : Bytes) :
    ∃ db, openDb E flags getKey ctx (crashedFile img []) = .ok db db.file ∧
      ∃ c, (c ∈ s.cands ∨ c ∈ s'.cands) ∧ Shows E db c ∧ s'.commitAt db.header.position = some c := by
  have H := hs.hist L
  rcases hop with rfl | hop
  · have : log = s'.db.file.log := h2.eq_of_length (Nat.le_antisymm h2.length_le h1.length_le)
    subst this
    obtain ⟨db, k1, c, k2, k3, k4⟩ := (H.vault hc).openDb L hi flags ctx ok H.nav.list
    exact ⟨db, k1, c, Or.inl k2, k3, k4⟩
  · obtain ⟨pos, cands, V, hm⟩ := Op.mid L H hop hc h1 h2
    obtain ⟨db, k1, c, k2, k3, k4⟩ := V.openDb L hi flags ctx ok (hop.hist L H).nav.list
    exact ⟨db, k1, c, hm c k2, k3, k4⟩

/-- The hypotheses of this theorem and the next are met by the same crash. -/
example : ∃ log s2, hdb3.file.log <:+ log ∧ log <:+ hdb4.file.log ∧ log ≠ hdb4.file.log ∧
    openDb Env.toy sampleFlags sampleGetKey [] (crashedFile (replay [] hdb2.file.log) []) = .ok s2.db s2.db.file ∧
    History Env.toy sampleGetKey s2 := by
  obtain ⟨log, h1, h2, h3, h4, h5⟩ := sampleCrash
  have h := C21_any_history Env.toy Env.toy_laws sampleGetKey (twoCommits3 hdb0 hdb1 hdb2 hdb3)
    (twoCommits4 hdb0 hdb1 hdb2 hdb3 hdb4) sampleHist3 (Or.inr (twoCommits4_op hdb4_eq)) (by simp [twoCommits3, twoCommits2])
    log h2 h3 (replay [] hdb2.file.log) h5 sampleFlags (sampleFlags_ok _) []
  obtain ⟨db, k1, _⟩ := h
  exact ⟨log, _, h2, h3, h4, k1, .crash sampleFlags [] sampleHist3 (Or.inr (twoCommits4_op hdb4_eq))
    (by simp [twoCommits3, twoCommits2]) h2 h3 h5 (by decide) k1⟩

/-! ## C22 Recovery after a crash is repeatable -/

/-- The handle one gets by opening the file after a crash is again one of a history, of which all
theorems about histories and about reachable handles hold; until the next successful commit, what
the next crash reveals is what this one has revealed, or what is being committed. -/
theorem C22_recovery_repeatable (E : Env) (L : E.Laws) (getKey : KeyGetter) (s s' : Sys) (hs : History E getKey s)
    (hop : s' = s ∨ Op E getKey s s') (hc : s.cands ≠ [])
    (log : List Event) (h1 : s.db.file.log <:+ log) (h2 : log <:+ s'.db.file.log)
    (img : Bytes) (hi : CrashImage s.base log img)
    (flags : OpenFlags) (ok : flags.Ok (s.db.file.cfg.crcMode == .crc32)) (ctx : Bytes) :
    ∃ s2 c, openDb E flags getKey ctx (crashedFile img []) = .ok s2.db s2.db.file ∧ Shows E s2.db c ∧
      History E getKey s2 ∧ s2.base = img ∧ s2.cands = [c] ∧ (∀ d ∈ s.done, d ∈ s2.done) ∧
      Reachable E s2.db := by
  obtain ⟨db, k1, c, k2, k3, k4⟩ := C21_any_history E L getKey s s' hs hop hc log h1 h2 img hi flags ok ctx
  have h := History.crash flags ctx hs hop hc h1 h2 hi ok.thr k1
  unfold Sys.commitAt at k4
  refine ⟨_, c, k1, k3, h, rfl, ?_, ?_, _, Or.inr ⟨getKey, _, h, rfl⟩, .refl⟩
  · show Option.toList _ = _
    rw [k4]
    rfl
  · intro d hd
    exact List.mem_append_right _ hd

/-! ## C24 Time travel -/

/-- Whatever header a handle is moved to, by whatever function and with whatever failing raw
operations, it shows exactly the state that was committed there (the position identifies the
commit). -/
theorem C24_time_travel (E : Env) (L : E.Laws) (getKey : KeyGetter) (s : Sys) (hs : History E getKey s)
    (m : DbM Unit) (hm : m = rewindDbHeader E ∨ m = fastForwardDbHeader E ∨ (∃ p, m = seekOffset E p) ∨
      ∃ d, m = seekDir E d) (db' : Db) (h : m s.db = .ok () db') :
    ∃ c ∈ s.commits, s.commitAt db'.header.position = some c ∧ Shows E db' c ∧
      db'.file.disk = s.db.file.disk := by
  have H := hs.hist L
  have M := H.movable
  have hl : ∃ P c, Landed E s.commits s.db db' P c := by
    rcases hm with rfl | rfl | ⟨p, rfl⟩ | ⟨d, rfl⟩
    · obtain ⟨P, c, k, _⟩ := (rewindDbHeader_spec M).ok h
      exact ⟨P, c, k⟩
    · obtain ⟨P, c, k, _⟩ := (fastForwardDbHeader_spec M).ok h
      exact ⟨P, c, k⟩
    · obtain ⟨c, k⟩ := (seekOffset_spec M p).ok h
      exact ⟨p, c, k⟩
    · obtain ⟨P, c, k, _⟩ := (seekDir_spec M d).ok h
      exact ⟨P, c, k⟩
  obtain ⟨P, c, k⟩ := hl
  have hsh := k.shows L H
  refine ⟨c, List.mem_of_find?_eq_some k.found, ?_, hsh, k.lost.disk⟩
  unfold Sys.commitAt
  rw [hsh.position, find_pos k.found]
  exact k.found

/-- Rewinding the sample history shows the first commit. -/
example : ∃ c ∈ (twoCommits4 hdb0 hdb1 hdb2 hdb3 hdb4).commits, Shows Env.toy hdb5 c := by
  obtain ⟨c, h1, _, h2, _⟩ := C24_time_travel Env.toy Env.toy_laws sampleGetKey (twoCommits4 hdb0 hdb1 hdb2 hdb3 hdb4) sampleHist4
    (rewindDbHeader Env.toy) (Or.inl rfl) hdb5 hdb5_eq
  exact ⟨c, h1, h2⟩

/-- Seeking to the header of any successful commit of the past succeeds. -/
theorem C24_seek_commit (E : Env) (L : E.Laws) (getKey : KeyGetter) (s : Sys) (hs : History E getKey s)
    (hf : s.db.file.faults = []) (c : Commit) (hc : c ∈ s.done) :
    ∃ db', seekOffset E c.pos s.db = .ok () db' ∧ Shows E db' c := by
  have H := hs.hist L
  obtain ⟨o1, o2, o3, o4⟩ := H.live.oks c hc
  obtain ⟨c', h, q, g1, g2, g3, _⟩ := H.live.headers c.pos o2 (Or.inl o4)
  have hlt := g2.hdr.lt
  have hsp := seekOffset_spec H.movable c.pos
  unfold Sp at hsp
  cases hp : seekOffset E c.pos s.db with
  | ok a db' =>
    rw [hp] at hsp
    obtain ⟨c2, k⟩ := hsp
    have := k.found
    rw [o1] at this
    cases this
    exact ⟨db', rfl, k.shows L H⟩
  | error e db' =>
    rw [hp] at hsp
    exact absurd ⟨o2, by omega, o4⟩ (hsp.2 hf)

/-- From the end of the sample history to its first commit. -/
example : ∃ db', seekOffset Env.toy (Commit.of hdb1 1000).pos hdb4 = .ok () db' ∧ Shows Env.toy db' (Commit.of hdb1 1000) :=
  C24_seek_commit Env.toy Env.toy_laws sampleGetKey (twoCommits4 hdb0 hdb1 hdb2 hdb3 hdb4) sampleHist4
    hdb_all.2.1.1.1 (Commit.of hdb1 1000) (by simp [twoCommits4, twoCommits2])

/-- Rewinding goes to the header that the handle had when the current state was committed (current
file format). -/
theorem C24_rewind (E : Env) (L : E.Laws) (getKey : KeyGetter) (s : Sys) (hs : History E getKey s)
    (hf : s.db.file.faults = []) (hv : 14 ≤ s.db.header.diskVersion) (c c' : Commit)
    (hc : s.commitAt s.db.header.position = some c) (hd : c' ∈ s.done) (hp : c'.pos = c.prev) :
    ∃ db', rewindDbHeader E s.db = .ok () db' ∧ Shows E db' c' := by
  have H := hs.hist L
  obtain ⟨o1, o2, o3, o4⟩ := H.live.oks c' hd
  unfold Sys.commitAt at hc
  have hprev : s.db.header.prevHeaderPos = c'.pos := by
    rcases H.nav.prev hv with ⟨c2, h1, h2⟩ | ⟨h1, _⟩
    · rw [hc] at h1; cases h1
      rw [h2, hp]
    · rw [hc] at h1; cases h1
  have hno : c.prev ≠ noPrevHeaderPos := by
    intro h
    rw [hp, h] at o2
    revert o2
    decide
  have hun : c'.pos ≠ unknownPrevHeaderPos := by
    intro h
    rw [h] at o2
    revert o2
    decide
  have hlt : c'.pos < s.db.header.position := by
    rcases H.nav.list c (List.mem_of_find?_eq_some hc) with h | h
    · exact absurd h hno
    · rw [hp]
      have := find_pos hc
      omega
  have hsp := rewindDbHeader_spec H.movable
  unfold Sp at hsp
  cases hx : rewindDbHeader E s.db with
  | ok a db' =>
    rw [hx] at hsp
    obtain ⟨P, c2, k1, k2, k3, k4⟩ := hsp
    have hP := k4 hf hv (by rw [hprev]; exact hlt) (by rw [hprev]; exact hun) (by rw [hprev]; exact o4)
    rw [hprev] at hP
    have := k1.found
    rw [hP, o1] at this
    cases this
    exact ⟨db', rfl, k1.shows L H⟩
  | error e db' =>
    rw [hx] at hsp
    exact absurd o4 (by
      have := hsp.2.2 hf hv (by rw [hprev]; exact hlt) (by rw [hprev]; exact hun) (by rw [hprev, hp]; exact hno)
      rwa [hprev] at this)

/-- From the second commit of the sample history to the first. -/
example : ∃ db', rewindDbHeader Env.toy hdb4 = .ok () db' ∧ Shows Env.toy db' (Commit.of hdb1 1000) :=
  C24_rewind Env.toy Env.toy_laws sampleGetKey (twoCommits4 hdb0 hdb1 hdb2 hdb3 hdb4) sampleHist4
    hdb_all.2.1.1.1 (Nat.le_of_eq hdb_all.2.1.1.2.1.symm) (Commit.of hdb3 2000) (Commit.of hdb1 1000)
    (twoCommits4_at hdb_all.2.1.1.2.2.1) (by simp [twoCommits4, twoCommits2]) hdb_all.2.1.1.2.2.2

/-- In older file formats rewinding goes to the nearest header before the current one; in particular
it does not skip a successful commit. -/
theorem C24_rewind_old (E : Env) (L : E.Laws) (getKey : KeyGetter) (s : Sys) (hs : History E getKey s)
    (hf : s.db.file.faults = []) (hv : s.db.header.diskVersion < 14) (c1 : Commit) (hd : c1 ∈ s.done)
    (hp : c1.pos < s.db.header.position) :
    ∃ db' c, rewindDbHeader E s.db = .ok () db' ∧ Shows E db' c ∧ c ∈ s.commits ∧
      c.pos < s.db.header.position ∧ ∀ c' ∈ s.done, c'.pos < s.db.header.position → c'.pos ≤ c.pos := by
  have H := hs.hist L
  have hal := H.nav.aligned
  have hbs : blockSize = 4096 := rfl
  have hgap : ∀ c' ∈ s.done, c'.pos < s.db.header.position → c'.pos + 2 ≤ s.db.header.position := by
    intro c' h1 h2
    have := (H.live.oks c' h1).2.1
    simp only [hbs] at hal this
    omega
  have hsp := rewindDbHeader_spec H.movable
  unfold Sp at hsp
  cases hx : rewindDbHeader E s.db with
  | ok a db' =>
    rw [hx] at hsp
    obtain ⟨P, c, k1, k2, k3, k4⟩ := hsp
    refine ⟨db', c, rfl, k1.shows L H, List.mem_of_find?_eq_some k1.found, by rw [find_pos k1.found]; exact k2, ?_⟩
    intro c' h1 h2
    rw [find_pos k1.found]
    obtain ⟨o1, o2, o3, o4⟩ := H.live.oks c' h1
    rcases k3 hf with h | h
    · omega
    · rcases Nat.lt_or_ge P c'.pos with hlt | hge
      · exact absurd o4 (h c'.pos o2 hlt (hgap c' h1 h2))
      · exact hge
  | error e db' =>
    rw [hx] at hsp
    obtain ⟨o1, o2, o3, o4⟩ := H.live.oks c1 hd
    exfalso
    rcases hsp.2.1 hf with h | h | h
    · omega
    · simp only [hbs] at hal h
      omega
    · exact h c1.pos o2 (hgap c1 hd hp) o4

/-- From the commit of a legacy file to its creation. -/
example : ∃ db' c, rewindDbHeader Env.toy ldb2 = .ok () db' ∧ Shows Env.toy db' c ∧ c.pos < ldb2.header.position := by
  obtain ⟨db', c, h1, h2, _, h3, _⟩ := C24_rewind_old Env.toy Env.toy_laws none (twoCommits2 ldb0 ldb1 ldb2)
    legacyHist ldb2_facts.1 (show ldb2.header.diskVersion < 14 by rw [ldb2_facts.2.1]; decide)
    (createdCommit ldb0) (by simp [twoCommits2, Sys.created, createdCommit]) ldb2_facts.2.2
  exact ⟨db', c, h1, h2, h3⟩

/-- Fast forward goes to the nearest header after the current one; in particular it does not skip a
successful commit. -/
theorem C24_fast_forward (E : Env) (L : E.Laws) (getKey : KeyGetter) (s : Sys) (hs : History E getKey s)
    (hf : s.db.file.faults = []) (c1 : Commit) (hd : c1 ∈ s.done) (hp : s.db.header.position < c1.pos) :
    ∃ db' c, fastForwardDbHeader E s.db = .ok () db' ∧ Shows E db' c ∧ c ∈ s.commits ∧
      s.db.header.position < c.pos ∧ ∀ c' ∈ s.done, s.db.header.position < c'.pos → c.pos ≤ c'.pos := by
  have H := hs.hist L
  have hsp := fastForwardDbHeader_spec H.movable
  unfold Sp at hsp
  cases hx : fastForwardDbHeader E s.db with
  | ok a db' =>
    rw [hx] at hsp
    obtain ⟨P, c, k1, k2, k3⟩ := hsp
    refine ⟨db', c, rfl, k1.shows L H, List.mem_of_find?_eq_some k1.found, by rw [find_pos k1.found]; exact k2, ?_⟩
    intro c' h1 h2
    rw [find_pos k1.found]
    obtain ⟨o1, o2, o3, o4⟩ := H.live.oks c' h1
    rcases Nat.lt_or_ge c'.pos P with hlt | hge
    · exact absurd o4 (k3 hf c'.pos o2 h2 hlt)
    · exact hge
  | error e db' =>
    rw [hx] at hsp
    obtain ⟨o1, o2, o3, o4⟩ := H.live.oks c1 hd
    obtain ⟨c', h, q, g1, g2, g3, _⟩ := H.live.headers c1.pos o2 (Or.inl o4)
    have hlt := g2.hdr.lt
    exact absurd o4 (hsp.2 hf c1.pos o2 hp (by omega))

/-- From the rewound handle to the second commit. -/
example : ∃ db' c, fastForwardDbHeader Env.toy hdb5 = .ok () db' ∧ Shows Env.toy db' c ∧
    hdb5.header.position < c.pos := by
  obtain ⟨db', c, h1, h2, _, h3, _⟩ := C24_fast_forward Env.toy Env.toy_laws sampleGetKey
    (twoCommits5 hdb0 hdb1 hdb2 hdb3 hdb4 hdb5) sampleHist5 hdb_all.2.1.2.1.2.1 (Commit.of hdb3 2000)
    (by simp [twoCommits5, twoCommits4]) hdb_all.2.1.2.1.2.2.2
  exact ⟨db', c, h1, h2, h3⟩

/-- A failed seek leaves the handle as it was, on its current header, or closes it (unless a raw
operation failed with the number of `INVALID_ARGUMENTS`, see `C24_invalid_arguments_empties`). -/
theorem C24_failed_seek (E : Env) (L : E.Laws) (getKey : KeyGetter) (s : Sys) (hs : History E getKey s)
    (m : DbM Unit) (hm : (∃ p, m = seekOffset E p) ∨ ∃ d, m = seekDir E d) (e : Err) (db' : Db)
    (h : m s.db = .error e db') (he : e.code ≠ Err.invalidArguments.code ∨ db' = s.db) :
    db' = s.db ∨ db'.dropped = true ∨
      ∃ c, s.commitAt s.db.header.position = some c ∧ Shows E db' c := by
  have H := hs.hist L
  have hst : Stayed E s.commits s.db e db' := by
    rcases hm with ⟨p, rfl⟩ | ⟨d, rfl⟩
    · exact ((seekOffset_spec H.movable p).error h).1
    · exact (seekDir_spec H.movable d).error h
  rcases he with he | he
  · rcases hst with h | ⟨c, h⟩ | h | h
    · exact Or.inl h
    · exact Or.inr (Or.inr ⟨c, h.found, h.shows L H⟩)
    · exact Or.inr (Or.inl h)
    · exact absurd h he
  · exact Or.inl he

/-- Where there is no header the seek fails, and the handle stays. -/
example : (match seekOffset Env.toy 0 hdb2 with
    | .error e db => e == .noHeader && !db.dropped && db.header.position == hdb2.header.position
    | .ok _ _ => false) = true := hdb_all.2.2.1.2.2.2

/-- Concrete witness: if a raw operation of `seek(Forward)` fails with the number of
`INVALID_ARGUMENTS`, the handle is neither as it was nor closed: a document that was found before is
not found any more. -/
theorem C24_invalid_arguments_empties :
    ∃ db, seekDir Env.toy .forward hdb5bad = .error (.io (-10)) db ∧ db.dropped = false ∧
      (answer (openDocument Env.toy [98] true) hdb5).toOption = some [1, 2, 3] ∧
      (answer (openDocument Env.toy [98] true) db).toOption = none := by
  have h := hdb_all.2.1.2.2
  generalize hdb5bad = b at h ⊢
  generalize hdb5 = d at h ⊢
  cases hp : seekDir Env.toy .forward b with
  | ok a db => rw [hp] at h; cases h
  | error e db =>
    rw [hp] at h
    simp only [Bool.and_eq_true, beq_iff_eq, Bool.not_eq_true'] at h
    obtain ⟨⟨⟨rfl, h2⟩, h3⟩, h4⟩ := h
    exact ⟨db, rfl, h2, h3, h4⟩

end Couchstore.Props
