import Verif.Lemmas.DumpHeaders
import Verif.Props.Commit
-- only so that the two are not built at the same time, which takes too much memory
import Verif.Props.DbDump

/-! C79: the dump of the documents of all headers of a file.

In these theorems the machine crashes at any time after the first successful commit (or does not crash; then nothing
of the log is missing), and `img` is what is left of the file.  `lib` are other libraries, of which nothing is assumed. -/

namespace Couchstore.Props

/-- For each header from the newest one backward, the documents of that commit are dumped: one line for each, in the order
asked for; no commit is dumped twice, and all successful commits that the newest one was made on top of are dumped (in files
of older versions, all successful commits).  If the oldest of them is at the beginning of the file, the program reports
success and the number of documents.  Missing of the full claim: the documents have to be such that they can be printed
(`C69_one_document_ends_the_dump`), and otherwise the program may report a failure, see `C79_complete_dump_fails`. -/
theorem C79_every_header_partial (E : Env) (L : E.Laws) (lib : DumpLib) (o : DumpOpts) (mode : DumpMode)
    (getKey : KeyGetter) (s s' : Sys) (hs : History E getKey s)
    (hop : s' = s ∨ Op E getKey s s') (hc : s.cands ≠ [])
    (log : List Event) (h1 : s.db.file.log <:+ log) (h2 : log <:+ s'.db.file.log)
    (img : Bytes) (hi : CrashImage s.base log img)
    (hp : ∀ c ∈ s'.commits, ∀ d ∈ dumped E c.db mode, Printable E lib o c.db d) :
    ∃ c cs rounds,
      (dumpAllMain E lib o mode getKey none (crashedFile img []) = .done rounds (docsIn E mode (c :: cs)) ∨
        dumpAllMain E lib o mode getKey none (crashedFile img []) = .failed rounds) ∧
      RoundsRight E lib o mode (c :: cs) rounds ∧
      (c ∈ s.cands ∨ c ∈ s'.cands) ∧ (∀ d ∈ c :: cs, d ∈ s'.commits) ∧ (c :: cs).Pairwise (fun a b => b.pos < a.pos) ∧
      (∀ d, Ancestor s.done c d → d ∈ c :: cs) ∧
      ((∀ d ∈ s'.commits, d.db.header.diskVersion < 14) → ∀ d ∈ s.done, d ∈ c :: cs) ∧
      (((c :: cs).getLast (by simp)).pos = 0 →
        dumpAllMain E lib o mode getKey none (crashedFile img []) = .done rounds (docsIn E mode (c :: cs))) ∧
      (14 ≤ ((c :: cs).getLast (by simp)).db.header.diskVersion → ((c :: cs).getLast (by simp)).prev = noPrevHeaderPos →
        ((c :: cs).getLast (by simp)).pos ≠ 0 →
        dumpAllMain E lib o mode getKey none (crashedFile img []) = .failed rounds) := by
  obtain ⟨s2, c, k1, k2, A, k3, k4, k5⟩ := info_open L hs hop hc h1 h2 hi
  obtain ⟨cs, rs, g1, g2, g3, g4, g5, g6, g7, g8⟩ := dump_run (lib := lib) (o := o) L mode A (by rw [k3]; exact hp)
  rw [k3] at g3 g6
  have he : dumpAllMain E lib o mode getKey none (crashedFile img []) =
      dumpHeaders E lib o mode (s2.db.file.pos / blockSize + 2) s2.db := by
    unfold dumpAllMain openAtOffset
    rw [k1]
  rw [he]
  refine ⟨c, cs, rs, g1, g2, k2, g3, g4, fun d hd => g5 d (hd.mono k4), fun hv d hd => g6 hv d (k4 d hd) ?_, g7, g8⟩
  obtain ⟨o1, o2, o3, o4⟩ := A.hist.mark (k4 d hd)
  rcases Nat.lt_or_ge c.pos d.pos with h | h
  · exact absurd o3 (k5 d.pos o2 (by rw [← A.pos]; exact h))
  · exact h

/-- As text, without decoding of collections, every document can be printed if extended attributes can be decoded. -/
theorem text_printable {E : Env} {lib : DumpLib} {o : DumpOpts} (ho : o.json = false) (hn : o.decodeNamespace = false)
    (hx : ∀ b, lib.xattr b ≠ none) (db : Db) (d : DocInfo) : Printable E lib o db d :=
  ⟨fun h => absurd h (by rw [hn]; simp), fun _ h => absurd h (by rw [ho]; simp), fun _ _ x _ _ _ => hx x,
    fun _ h => absurd h (by rw [ho]; simp)⟩

/-- Libraries that decode everything. -/
def openLib : DumpLib := { dumpLib with xattr := fun b => some ([], b) }

/-- In the legacy file of the sample the created header is at the beginning. -/
theorem ldb_first : (createdCommit ldb0).pos = 0 := by decide +kernel

/-- Of a legacy file the commit is dumped and then what the file contained when it was created, and the program reports
success. -/
example : ∃ c cs rounds, dumpAllMain Env.toy openLib ⟨false, true, false⟩ .bySeq none none (crashedFile (replay [] ldb2.file.log) []) =
      .done rounds (docsIn Env.toy .bySeq (c :: cs)) ∧
    RoundsRight Env.toy openLib ⟨false, true, false⟩ .bySeq (c :: cs) rounds ∧
    createdCommit ldb0 ∈ c :: cs ∧ Commit.of ldb1 1000 ∈ c :: cs := by
  obtain ⟨c, cs, ls, -, k2, -, k5, k6, -, k4, k7, -⟩ := C79_every_header_partial Env.toy Env.toy_laws openLib ⟨false, true, false⟩
    .bySeq none (twoCommits2 ldb0 ldb1 ldb2) _ legacyHist (Or.inl rfl) (by simp [twoCommits2])
    ldb2.file.log (List.suffix_refl _) (List.suffix_refl _) (replay [] ldb2.file.log) (crashImage_replay _ _)
    (fun c _ d _ => text_printable rfl rfl (by simp [openLib]) c.db d)
  have hv : ∀ d ∈ (twoCommits2 ldb0 ldb1 ldb2).commits, d.db.header.diskVersion < 14 := by
    intro d hd
    simp only [twoCommits2, Sys.created, Bool.false_eq_true, if_false, List.mem_cons, List.not_mem_nil, or_false] at hd
    rcases hd with rfl | rfl
    · exact Nat.lt_of_le_of_lt (Nat.le_of_eq ldb_version.1) (by decide)
    · exact Nat.lt_of_le_of_lt (Nat.le_of_eq ldb_version.2) (by decide)
  have hm : createdCommit ldb0 ∈ c :: cs := k4 hv _ (by simp [twoCommits2, Sys.created, createdCommit])
  refine ⟨c, cs, ls, k7 ?_, k2, hm, k4 hv _ (by simp [twoCommits2])⟩
  have := last_least k6 hm
  rw [ldb_first] at this
  omega

/-- The same from the header of any successful commit. -/
theorem C79_every_header_from_partial (E : Env) (L : E.Laws) (lib : DumpLib) (o : DumpOpts) (mode : DumpMode)
    (getKey : KeyGetter) (s s' : Sys) (hs : History E getKey s)
    (hop : s' = s ∨ Op E getKey s s') (hc : s.cands ≠ [])
    (log : List Event) (h1 : s.db.file.log <:+ log) (h2 : log <:+ s'.db.file.log)
    (img : Bytes) (hi : CrashImage s.base log img) (c : Commit) (hd : c ∈ s.done)
    (hp : ∀ c ∈ s'.commits, ∀ d ∈ dumped E c.db mode, Printable E lib o c.db d) :
    ∃ cs rounds,
      (dumpAllMain E lib o mode getKey (some c.pos) (crashedFile img []) = .done rounds (docsIn E mode (c :: cs)) ∨
        dumpAllMain E lib o mode getKey (some c.pos) (crashedFile img []) = .failed rounds) ∧
      RoundsRight E lib o mode (c :: cs) rounds ∧
      (∀ d ∈ c :: cs, d ∈ s'.commits) ∧ (c :: cs).Pairwise (fun a b => b.pos < a.pos) ∧
      (∀ d, Ancestor s.done c d → d ∈ c :: cs) ∧
      ((∀ d ∈ s'.commits, d.db.header.diskVersion < 14) → ∀ d ∈ s.done, d.pos ≤ c.pos → d ∈ c :: cs) ∧
      (((c :: cs).getLast (by simp)).pos = 0 →
        dumpAllMain E lib o mode getKey (some c.pos) (crashedFile img []) = .done rounds (docsIn E mode (c :: cs))) := by
  obtain ⟨s2, c2, k1, k2, A, k3, k4, k5⟩ := info_open L hs hop hc h1 h2 hi
  obtain ⟨db', hsk, A'⟩ := info_seek L A (k4 c hd)
  obtain ⟨cs, rs, g1, g2, g3, g4, g5, g6, g7, g8⟩ := dump_run (lib := lib) (o := o) L mode A'
    (by rw [show ({ s2 with db := db' } : Sys).commits = s'.commits from k3]; exact hp)
  rw [show ({ s2 with db := db' } : Sys).commits = s'.commits from k3] at g3 g6
  have he : dumpAllMain E lib o mode getKey (some c.pos) (crashedFile img []) =
      dumpHeaders E lib o mode (db'.file.pos / blockSize + 2) db' := by
    unfold dumpAllMain openAtOffset
    rw [k1]
    dsimp only
    rw [hsk]
  rw [he]
  exact ⟨cs, rs, g1, g2, g3, g4, fun d h => g5 d (h.mono k4), fun hv d h => g6 hv d (k4 d h), g7⟩

/-- From the first commit of the sample history; the commit before it is dumped too. -/
example : ∃ cs rounds, RoundsRight Env.toy openLib ⟨false, true, false⟩ .byId (Commit.of hdb1 1000 :: cs) rounds ∧
    (dumpAllMain Env.toy openLib ⟨false, true, false⟩ .byId sampleGetKey (some (Commit.of hdb1 1000).pos)
        (crashedFile (replay [] hdb4.file.log) []) = .done rounds (docsIn Env.toy .byId (Commit.of hdb1 1000 :: cs)) ∨
      dumpAllMain Env.toy openLib ⟨false, true, false⟩ .byId sampleGetKey (some (Commit.of hdb1 1000).pos)
        (crashedFile (replay [] hdb4.file.log) []) = .failed rounds) := by
  obtain ⟨cs, ls, k1, k2, -⟩ := C79_every_header_from_partial Env.toy Env.toy_laws openLib ⟨false, true, false⟩ .byId sampleGetKey
    (twoCommits4 hdb0 hdb1 hdb2 hdb3 hdb4) _ sampleHist4 (Or.inl rfl) (by simp [twoCommits4])
    hdb4.file.log (List.suffix_refl _) (List.suffix_refl _) (replay [] hdb4.file.log) (crashImage_replay _ _)
    (Commit.of hdb1 1000) (by simp [twoCommits4, twoCommits2])
    (fun c _ d _ => text_printable rfl rfl (by simp [openLib]) c.db d)
  exact ⟨cs, ls, k2, k1⟩

/-- The headers of the sample, one after the other, and what they say about the one before them. -/
theorem hdb_chain : (createdCommit hdb0).pos = 4096 ∧ (Commit.of hdb1 1000).pos = 8192 ∧ (Commit.of hdb1 1000).prev = 4096 ∧
    (Commit.of hdb3 2000).pos > 4096 ∧ (Commit.of hdb3 2000).prev = 8192 ∧
    hdb0.header.diskVersion = 14 ∧ hdb1.header.diskVersion = 14 := by decide +kernel

/-- The full claim is false: of an encrypted file, where the first header is not at the beginning of the file, everything is
dumped, but the program reports a failure and no number of documents. -/
theorem C79_complete_dump_fails : ∃ (s : Sys) (c : Commit) (cs : List Commit) (rounds : List (List DumpLine)),
    History Env.toy sampleGetKey s ∧ s.db.file.faults = [] ∧
    RoundsRight Env.toy openLib ⟨false, true, false⟩ .bySeq (c :: cs) rounds ∧ (∀ d ∈ s.done, d ∈ c :: cs) ∧ 3 ≤ s.done.length ∧
    dumpAllMain Env.toy openLib ⟨false, true, false⟩ .bySeq sampleGetKey none (crashedFile (replay s.base s.db.file.log) []) =
      .failed rounds := by
  obtain ⟨c, cs, ls, -, k2, k3, k5, k6, k4, -, -, k7⟩ := C79_every_header_partial Env.toy Env.toy_laws openLib ⟨false, true, false⟩
    .bySeq sampleGetKey (twoCommits4 hdb0 hdb1 hdb2 hdb3 hdb4) _ sampleHist4 (Or.inl rfl) (by simp [twoCommits4])
    hdb4.file.log (List.suffix_refl _) (List.suffix_refl _) (replay [] hdb4.file.log) (crashImage_replay _ _)
    (fun c _ d _ => text_printable rfl rfl (by simp [openLib]) c.db d)
  obtain rfl : c = Commit.of hdb3 2000 := by simpa [twoCommits4] using k3
  obtain ⟨p0, p1, q1, p3, q3, v0, v1⟩ := hdb_chain
  have a1 : Ancestor (twoCommits4 hdb0 hdb1 hdb2 hdb3 hdb4).done (Commit.of hdb3 2000) (Commit.of hdb1 1000) :=
    .step .refl (Nat.le_of_eq hdb3_version.symm) (by simp [twoCommits4, twoCommits2]) (by rw [p1, q3])
  have a0 : Ancestor (twoCommits4 hdb0 hdb1 hdb2 hdb3 hdb4).done (Commit.of hdb3 2000) (createdCommit hdb0) :=
    .step a1 (Nat.le_of_eq v1.symm) (by simp [twoCommits4, twoCommits2, Sys.created, createdCommit]) (by rw [p0, q1])
  have hl : (Commit.of hdb3 2000 :: cs).getLast (by simp) = createdCommit hdb0 := by
    have hle := last_least k6 (k4 _ a0)
    have hmem := k5 _ (List.getLast_mem (l := Commit.of hdb3 2000 :: cs) (by simp))
    rw [p0] at hle
    simp only [twoCommits4, twoCommits2, Sys.created, Bool.false_eq_true, if_false, List.mem_cons, List.not_mem_nil,
      or_false] at hmem
    rcases hmem with h | h | h
    · rw [h] at hle; omega
    · rw [h] at hle; omega
    · exact h
  refine ⟨_, _, cs, ls, sampleHist4, ?_, k2, ?_, by simp [twoCommits4, twoCommits2, Sys.created], k7 ?_ ?_ ?_⟩
  · exact hdb_all.2.1.1.1
  · intro d hd
    simp only [twoCommits4, twoCommits2, Sys.created, Bool.false_eq_true, if_false, List.mem_cons, List.not_mem_nil,
      or_false] at hd
    rcases hd with rfl | rfl | rfl
    · exact List.mem_cons_self
    · exact k4 _ a1
    · exact k4 _ a0
  · rw [hl]; exact Nat.le_of_eq v0.symm
  · rw [hl]; rfl
  · rw [hl, p0]; decide

/-- The full claim is false in the other direction too: that the dump of a header fails is not reported if all headers are
dumped.  Here it is the first header of the file. -/
theorem C79_failure_not_reported (E : Env) (lib : DumpLib) (o : DumpOpts) (mode : DumpMode) (db : Db) (hd : db.dropped = false)
    (h0 : db.header.position = 0) (ls : List DumpLine) (hf : dumpDb E lib o mode db = .failed ls) (fuel : Nat) :
    ∃ n, dumpHeaders E lib o mode (fuel + 1) db = .done [ls] n := by
  rw [dumpDb_round] at hf
  unfold dumpHeaders
  dsimp only
  rw [seekDir_first hd h0]
  unfold dumpEnd at hf
  split at hf
  · cases hf
  · rw [if_neg ‹_›]
    split at hf
    · cases hf
    · cases hf
      exact ⟨_, if_pos rfl⟩

/-- A document that is not there. -/
example (o : DumpOpts) : dumpDb Env.toy dumpLib o (.key [99]) ldb0 = .failed [] ∧
    ∃ n, dumpHeaders Env.toy dumpLib o (.key [99]) 2 ldb0 = .done [[]] n := by
  have h : dumpDb Env.toy dumpLib o (.key [99]) ldb0 = .failed [] := by
    unfold dumpDb
    dsimp only
    have hx : (match docinfoById Env.toy [99] ldb0 with | .ok _ _ => true | .error _ _ => false) = false := by decide +kernel
    split at hx
    · cases hx
    · rename_i he; rw [he]; rfl
  exact ⟨h, C79_failure_not_reported Env.toy dumpLib o (.key [99]) ldb0 (by decide +kernel) (by decide +kernel) [] h 1⟩

end Couchstore.Props
