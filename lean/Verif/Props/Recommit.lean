import Verif.Lemmas.Recommit
import Verif.Lemmas.CommitAppend
import Verif.Props.Sample
import Verif.Props.Open

/-! C85: the program that adds a commit keeps the documents. -/

namespace Couchstore.Props
open Couchstore

/-- The program `recommit` without options, on a file that is not encrypted, in whatever state a crash has left it.  It ends with success
unless the format of the header has no room; and whatever happens to it while it runs, the file then has the documents that it had: every
question has the answer of the commit that was the newest, and every successful commit, the newest too, can still be opened at its offset. -/
theorem C85_keeps_documents (E : Env) (L : E.Laws)
    (s s' : Sys) (hs : History E none s) (hop : s' = s ∨ Op E none s s') (hc : s.cands ≠ [])
    (log : List Event) (h1 : s.db.file.log <:+ log) (h2 : log <:+ s'.db.file.log) (img : Bytes) (hi : CrashImage s.base log img)
    (timestamp : Nat) :
    ∃ c out db, (c ∈ s.cands ∨ c ∈ s'.cands) ∧
      (recommit E timestamp {} (crashedFile img []) = .done out db ∨
        recommit E timestamp {} (crashedFile img []) = .commitFailed .formatLimit out db) ∧
      ∀ log2, log2 <:+ db.file.log → ∀ img2, CrashImage img log2 img2 →
        ∃ v, openDb E infoFlags none [] (crashedFile img2 []) = .ok v v.file ∧ SameAnswers E c.db v ∧
          ∀ d ∈ c :: s.done, ∃ w, openAtOffset E none (some d.pos) (crashedFile img2 []) = some w ∧ Shows E w d := by
  obtain ⟨u, c, k1, k2, A, hu, ub, ul, up, uc, ud⟩ := open_left L hs hop hc h1 h2 hi recommitFlags recommitFlags_ok
  have hdb : ({ u.db with header := recommitHeader {} u.db.header } : Db) = u.db := by rw [recommitHeader_none]
  obtain ⟨ids, seqs, locs, hh⟩ := A.hist.handle
  have hcs := commit_spec E timestamp (fun _ => false) u.db hh
  have key : ∀ t : Sys, Op E none u t → (∀ d ∈ t.cands, d = c ∨ d = Commit.of u.db timestamp) →
      ∀ log2, log2 <:+ t.db.file.log → ∀ img2, CrashImage img log2 img2 →
        ∃ v, openDb E infoFlags none [] (crashedFile img2 []) = .ok v v.file ∧ SameAnswers E c.db v ∧
          ∀ d ∈ c :: s.done, ∃ w, openAtOffset E none (some d.pos) (crashedFile img2 []) = some w ∧ Shows E w d := by
    intro t ho ht log2 hl img2 hi2
    obtain ⟨v, d, o1, o2, B, -, -, -, -, -, vd⟩ := open_left L hu (Or.inr ho) (by rw [uc]; simp) (by rw [ul]; exact List.nil_suffix) hl
      (by rw [ub]; exact hi2) infoFlags infoFlags_ok
    refine ⟨v.db, o1, ?_, fun d hd => B.seek L (by rw [vd, ud]; exact List.mem_cons_of_mem _ hd) o1⟩
    have hd : d = c ∨ d = Commit.of u.db timestamp := by
      rcases o2 with o2 | o2
      · rw [uc] at o2
        exact Or.inl (List.mem_singleton.mp o2)
      · exact ht d o2
    rcases hd with rfl | rfl
    · exact B.shows_.answers
    · exact A.shows_.answers.trans B.shows_.answers
  unfold Sp at hcs
  cases hp : commit E timestamp (fun _ => false) u.db with
  | ok a db' =>
    refine ⟨c, recommitPrints {} u.db.header, db', k2, Or.inl ?_, key _ (.commitOk timestamp _ hp) (fun d hd => Or.inr (List.mem_singleton.mp hd))⟩
    · unfold recommit
      rw [k1]
      dsimp only
      rw [hdb, hp]
  | error e db' =>
    rw [hp] at hcs
    have he : e = .formatLimit := hcs.2.resolve_left (fun h => h A.calm)
    subst he
    refine ⟨c, recommitPrints {} u.db.header, db', k2, Or.inr ?_, key _ (.commitFail timestamp _ hp) ?_⟩
    · unfold recommit
      rw [k1]
      dsimp only
      rw [hdb, hp]
    · intro d hd
      dsimp only at hd
      rw [uc, if_neg (by simp)] at hd
      rcases List.mem_cons.mp hd with rfl | hd
      · exact Or.inr rfl
      · exact Or.inl (List.mem_singleton.mp hd)

/-- If it ends with success there is a new commit: even when the machine crashes right after it, the file opens at a header in the first
block at or after its old end. -/
theorem C85_new_commit (E : Env) (L : E.Laws)
    (s s' : Sys) (hs : History E none s) (hop : s' = s ∨ Op E none s s') (hc : s.cands ≠ [])
    (log : List Event) (h1 : s.db.file.log <:+ log) (h2 : log <:+ s'.db.file.log) (img : Bytes) (hi : CrashImage s.base log img)
    (timestamp : Nat) (out : List (Option (Bool × Nat))) (db : Db)
    (hr : recommit E timestamp {} (crashedFile img []) = .done out db)
    (img2 : Bytes) (hi2 : CrashImage img db.file.log img2) :
    ∃ v, openDb E infoFlags none [] (crashedFile img2 []) = .ok v v.file ∧
      v.header.position = (img.length + 4095) / 4096 * 4096 ∧
      v.header.timestamp = if 13 ≤ db.header.diskVersion then timestamp else 0 := by
  obtain ⟨u, c, k1, k2, A, hu, ub, ul, up, uc, ud⟩ := open_left L hs hop hc h1 h2 hi recommitFlags recommitFlags_ok
  unfold recommit at hr
  rw [k1] at hr
  dsimp only at hr
  rw [recommitHeader_none] at hr
  cases hp : commit E timestamp (fun _ => false) u.db with
  | error e db' =>
    rw [hp] at hr
    cases hr
  | ok a db' =>
    rw [hp] at hr
    cases hr
    obtain ⟨e1, m, C⟩ := (commit_cases A.hist).1 _ hp
    obtain ⟨v, d, o1, o2, B, -⟩ := open_left L (hu.op (.commitOk timestamp _ hp)) (Or.inl rfl) (by simp) (List.suffix_refl _)
      (List.suffix_refl _) (by dsimp only; rw [ub]; exact hi2) infoFlags infoFlags_ok
    have hd : d = Commit.of u.db timestamp := by simpa using o2
    subst hd
    refine ⟨v.db, o1, ?_, ?_⟩
    · rw [B.shows_.position, ← up]
      rfl
    · rw [B.shows_.timestamp]
      have : db.header.diskVersion = u.db.header.diskVersion := by rw [C.eq]; rfl
      rw [this]
      rfl

/-- With any options, and whether or not the commit fails: no byte that was in the file is changed.  So a pointer that is wrong does no
harm to the older commits. -/
theorem C85_only_appends (E : Env) (L : E.Laws)
    (s s' : Sys) (hs : History E none s) (hop : s' = s ∨ Op E none s s') (hc : s.cands ≠ [])
    (log : List Event) (h1 : s.db.file.log <:+ log) (h2 : log <:+ s'.db.file.log) (img : Bytes) (hi : CrashImage s.base log img)
    (timestamp : Nat) (a : RecommitArgs) (e : Err) (out : List (Option (Bool × Nat))) (db : Db)
    (hr : recommit E timestamp a (crashedFile img []) = .done out db ∨
      recommit E timestamp a (crashedFile img []) = .commitFailed e out db) :
    ∀ i, i < img.length → db.file.disk[i]? = img[i]? := by
  obtain ⟨u, c, k1, k2, A, hu, ub, ul, up, uc, ud⟩ := open_left L hs hop hc h1 h2 hi recommitFlags recommitFlags_ok
  obtain ⟨ids, seqs, locs, hh⟩ := A.hist.handle
  have hdisk : u.db.file.disk = img := by
    have := A.hist.replay
    rw [ub, ul] at this
    exact this
  have hb := commit_before E timestamp (fun _ => false) { u.db with header := recommitHeader a u.db.header } hh.inv.wf
  unfold Sp at hb
  unfold recommit at hr
  rw [k1] at hr
  dsimp only at hr hb
  rw [up, hdisk] at hb
  cases hp : commit E timestamp (fun _ => false) { u.db with header := recommitHeader a u.db.header } with
  | ok x db' =>
    rw [hp] at hr hb
    rcases hr with hr | hr <;> cases hr
    exact hb
  | error x db' =>
    rw [hp] at hr hb
    rcases hr with hr | hr <;> cases hr
    exact hb

/-- With any options and any file: what is committed are the roots of the newest commit, each with the position that was given for it if
one was.  Everything else in them stays, also the reduce values, and so do the numbers in the header.  What is printed are the positions that
are committed, with a star before each that was given. -/
theorem C85_roots (E : Env) (timestamp : Nat) (a : RecommitArgs) (f : File) (out : List (Option (Bool × Nat))) (db : Db)
    (hr : recommit E timestamp a f = .done out db) :
    ∃ db0 f0, openDb E recommitFlags none [] f = .ok db0 f0 ∧
      db.header.byIdRoot = db0.header.byIdRoot.map (fun p => { p with pointer := if a.byId = 0 then p.pointer else a.byId }) ∧
      db.header.bySeqRoot = db0.header.bySeqRoot.map (fun p => { p with pointer := if a.bySeq = 0 then p.pointer else a.bySeq }) ∧
      db.header.localRoot = db0.header.localRoot.map (fun p => { p with pointer := if a.local_ = 0 then p.pointer else a.local_ }) ∧
      db.header.updateSeq = db0.header.updateSeq ∧ db.header.purgeSeq = db0.header.purgeSeq ∧
      db.header.diskVersion = db0.header.diskVersion ∧
      out = [db.header.byIdRoot.map fun p => (decide (a.byId ≠ 0), p.pointer),
        db.header.bySeqRoot.map fun p => (decide (a.bySeq ≠ 0), p.pointer),
        db.header.localRoot.map fun p => (decide (a.local_ ≠ 0), p.pointer)] := by
  have hroot : ∀ pos r, (recommitRoot pos r).1 = r.map (fun p : NodePointer => { p with pointer := if pos = 0 then p.pointer else pos }) ∧
      (recommitRoot pos r).2 = (recommitRoot pos r).1.map fun p => (decide (pos ≠ 0), p.pointer) := by
    intro pos r
    cases r with
    | none => exact ⟨rfl, rfl⟩
    | some p =>
      unfold recommitRoot
      dsimp only
      by_cases hp : pos = 0
      · subst hp
        exact ⟨rfl, rfl⟩
      · rw [if_pos (Nat.pos_of_ne_zero hp)]
        simp [hp]
  unfold recommit at hr
  cases ho : openDb E recommitFlags none [] f with
  | error e f' => rw [ho] at hr; cases hr
  | ok db0 f0 =>
    rw [ho] at hr
    dsimp only at hr
    cases hp : commit E timestamp (fun _ => false) { db0 with header := recommitHeader a db0.header } with
    | error e db' => rw [hp] at hr; cases hr
    | ok x db' =>
      rw [hp] at hr
      cases hr
      obtain ⟨a1, a2, a3, a4, a5, -, a7⟩ := (keeps_commit E timestamp (fun _ => false) _).ok hp
      refine ⟨db0, f0, rfl, a1.trans (hroot _ _).1, a2.trans (hroot _ _).1, a3.trans (hroot _ _).1, a4, a5, a7, ?_⟩
      rw [a1, a2, a3]
      unfold recommitPrints
      rw [(hroot a.byId _).2, (hroot a.bySeq _).2, (hroot a.local_ _).2]
      rfl

/-- Damage is not covered by a new commit: if in a file of any content the last block that does not hold data is not an intact header, the
program ends with the error of opening. -/
theorem C85_damage_is_reported (E : Env) (timestamp : Nat) (a : RecommitArgs) (d : Bytes) (P : Nat) (hP : 0 < P) (hb : BlockOf d P)
    (hn : NotData d P) (hbad : ∀ h, ¬ IntactHeader E d P h) (hl : LastOf (NotData d) d P) :
    ∃ e f', openDb E recommitFlags none [] (crashedFile d []) = .error e f' ∧ e ≠ .noHeader ∧ f'.disk = d ∧
      recommit E timestamp a (crashedFile d []) = .openFailed e := by
  obtain ⟨-, h⟩ := C23_damaged_header_reported E recommitFlags none [] d [] rfl (by simp) hb hn hbad hl
  obtain ⟨e, f', h1, h2, h3⟩ := h ⟨by decide, by decide⟩ rfl hP
  refine ⟨e, f', h1, h2, h3, ?_⟩
  unfold recommit
  rw [h1]

/-- A file whose second header is damaged. -/
example (timestamp : Nat) (a : RecommitArgs) : ∃ e, recommit Env.toy timestamp a (crashedFile damaged []) = .openFailed e ∧ e ≠ .noHeader := by
  obtain ⟨_, _, _, _, _, hl, hm, _⟩ := odb_facts
  obtain ⟨e, f', -, h2, -, h4⟩ := C85_damage_is_reported Env.toy timestamp a damaged blockSize (by decide) ⟨rfl, hl⟩
    ⟨by rw [hm]; decide, by rw [hm]; decide⟩ (fun h hi => damaged_body _ hi.body)
    (fun Q hQ hlt => by
      have := damaged_block hQ (by omega)
      omega)
  exact ⟨e, h4, h2⟩

/-- The program has succeeded. -/
private def isDone : RecommitResult → Bool
  | .done _ _ => true
  | _ => false

/-- The file of the sample, with documents, after its commit: with and without an option the program adds a commit. -/
theorem recommit_runs : isDone (recommit Env.toy 3000 {} (crashedFile ldb2.file.disk [])) = true ∧
    isDone (recommit Env.toy 3000 { byId := 1 } (crashedFile ldb2.file.disk [])) = true := by
  decide +kernel

theorem ldb2_image : CrashImage (twoCommits2 ldb0 ldb1 ldb2).base (twoCommits2 ldb0 ldb1 ldb2).db.file.log ldb2.file.disk := by
  have := crashImage_replay (twoCommits2 ldb0 ldb1 ldb2).base (twoCommits2 ldb0 ldb1 ldb2).db.file.log
  rw [← (legacyHist.hist Env.toy_laws).replay] at this
  exact this

example (timestamp : Nat) := C85_keeps_documents Env.toy Env.toy_laws _ _ legacyHist (Or.inl rfl) (by simp [twoCommits2]) _
  (List.suffix_refl _) (List.suffix_refl _) _ ldb2_image timestamp

example : ∃ out db, recommit Env.toy 3000 {} (crashedFile ldb2.file.disk []) = .done out db ∧
    ∃ v, openDb Env.toy infoFlags none [] (crashedFile (replay ldb2.file.disk db.file.log) []) = .ok v v.file ∧
      v.header.position = (ldb2.file.disk.length + 4095) / 4096 * 4096 := by
  have h := recommit_runs.1
  cases hr : recommit Env.toy 3000 {} (crashedFile ldb2.file.disk []) with
  | done out db =>
    obtain ⟨v, h1, h2, -⟩ := C85_new_commit Env.toy Env.toy_laws _ _ legacyHist (Or.inl rfl) (by simp [twoCommits2]) _
      (List.suffix_refl _) (List.suffix_refl _) _ ldb2_image 3000 out db hr _ (crashImage_replay _ _)
    exact ⟨out, db, rfl, v, h1, h2⟩
  | openFailed e => rw [hr] at h; cases h
  | commitFailed e out db => rw [hr] at h; cases h

example : ∃ out db, recommit Env.toy 3000 { byId := 1 } (crashedFile ldb2.file.disk []) = .done out db ∧
    ∀ i, i < ldb2.file.disk.length → db.file.disk[i]? = ldb2.file.disk[i]? := by
  have h := recommit_runs.2
  cases hr : recommit Env.toy 3000 { byId := 1 } (crashedFile ldb2.file.disk []) with
  | done out db =>
    exact ⟨out, db, rfl, C85_only_appends Env.toy Env.toy_laws _ _ legacyHist (Or.inl rfl) (by simp [twoCommits2]) _
      (List.suffix_refl _) (List.suffix_refl _) _ ldb2_image 3000 { byId := 1 } .corrupt out db (Or.inl hr)⟩
  | openFailed e => rw [hr] at h; cases h
  | commitFailed e out db => rw [hr] at h; cases h

end Couchstore.Props
