import Verif.Lemmas.DbInfoToolOpen
import Verif.Props.Commit
-- only so that the two are not built at the same time, which takes too much memory
import Verif.Props.Replay


/-! C68: the program that prints the headers of a file.

In these theorems the machine crashes at any time after the first successful commit (or does not crash; then nothing
of the log is missing), and `img` is what is left of the file. -/

namespace Couchstore.Props

theorem hdb3_version : hdb3.header.diskVersion = 14 := by decide +kernel
theorem ldb_version : ldb1.header.diskVersion = 11 ∧ ldb0.header.diskVersion = 11 := by decide +kernel

/-- Without options the newest commit is printed. -/
theorem C68_prints_newest (E : Env) (L : E.Laws) (getKey : KeyGetter) (s s' : Sys) (hs : History E getKey s)
    (hop : s' = s ∨ Op E getKey s s') (hc : s.cands ≠ [])
    (log : List Event) (h1 : s.db.file.log <:+ log) (h2 : log <:+ s'.db.file.log)
    (img : Bytes) (hi : CrashImage s.base log img) :
    ∃ c l, (c ∈ s.cands ∨ c ∈ s'.cands) ∧ c.line l ∧ infoMain E getKey none none (crashedFile img []) = .printed [l] := by
  obtain ⟨s2, c, k1, k2, A, -, -, -⟩ := info_open L hs hop hc h1 h2 hi
  refine ⟨c, _, k2, A.line, ?_⟩
  unfold infoMain openAtOffset
  rw [k1]

/-- A crash during the second commit of the sample history. -/
example : ∃ c l, (c = Commit.of hdb1 1000 ∨ c = Commit.of hdb3 2000) ∧ c.line l ∧
    infoMain Env.toy sampleGetKey none none (crashedFile (replay [] hdb2.file.log) []) = .printed [l] := by
  obtain ⟨log, h1, h2, h3, h4, h5⟩ := sampleCrash
  obtain ⟨c, l, k1, k2, k3⟩ := C68_prints_newest Env.toy Env.toy_laws sampleGetKey (twoCommits3 hdb0 hdb1 hdb2 hdb3)
    (twoCommits4 hdb0 hdb1 hdb2 hdb3 hdb4) sampleHist3 (Or.inr (twoCommits4_op hdb4_eq)) (by simp [twoCommits3, twoCommits2])
    log h2 h3 _ h5
  refine ⟨c, l, ?_, k2, k3⟩
  rcases k1 with h | h
  · exact Or.inl (by simpa [twoCommits3, twoCommits2] using h)
  · exact Or.inr (by simpa [twoCommits4] using h)

/-- Going backward, the lines are those of commits, the newest first, and none is printed twice.  All successful
commits that the newest one was made on top of are printed; in files of older versions, all successful commits. -/
theorem C68_lists_backward (E : Env) (L : E.Laws) (getKey : KeyGetter) (s s' : Sys) (hs : History E getKey s)
    (hop : s' = s ∨ Op E getKey s s') (hc : s.cands ≠ [])
    (log : List Event) (h1 : s.db.file.log <:+ log) (h2 : log <:+ s'.db.file.log)
    (img : Bytes) (hi : CrashImage s.base log img) :
    ∃ c cs ls, infoMain E getKey none (some .backward) (crashedFile img []) = .printed ls ∧ Lines (c :: cs) ls ∧
      (c ∈ s.cands ∨ c ∈ s'.cands) ∧ (∀ d ∈ c :: cs, d ∈ s'.commits) ∧ (c :: cs).Pairwise (fun a b => b.pos < a.pos) ∧
      (∀ d, Ancestor s.done c d → d ∈ c :: cs) ∧
      ((∀ d ∈ s'.commits, d.db.header.diskVersion < 14) → ∀ d ∈ s.done, d ∈ c :: cs) := by
  obtain ⟨s2, c, k1, k2, A, k3, k4, k5⟩ := info_open L hs hop hc h1 h2 hi
  obtain ⟨cs, ls, g1, g2, g3, g4, g5, g6⟩ := backward_run L A
  rw [k3] at g3 g6
  refine ⟨c, cs, ls, ?_, g2, k2, g3, g4, fun d hd => g5 d (hd.mono k4), fun hv d hd => g6 hv d (k4 d hd) ?_⟩
  · unfold infoMain openAtOffset
    rw [k1]
    dsimp only
    rw [g1]
    rfl
  · obtain ⟨o1, o2, o3, o4⟩ := A.hist.mark (k4 d hd)
    rcases Nat.lt_or_ge c.pos d.pos with h | h
    · exact absurd o3 (k5 d.pos o2 (by rw [← A.pos]; exact h))
    · exact h

/-- Of the sample history the second commit is printed, and then the one that it was made on top of. -/
example : ∃ cs ls, infoMain Env.toy sampleGetKey none (some .backward) (crashedFile (replay [] hdb4.file.log) []) = .printed ls ∧
    Lines (Commit.of hdb3 2000 :: cs) ls ∧ Commit.of hdb1 1000 ∈ Commit.of hdb3 2000 :: cs := by
  obtain ⟨c, cs, ls, k1, k2, k3, -, -, k4, -⟩ := C68_lists_backward Env.toy Env.toy_laws sampleGetKey
    (twoCommits4 hdb0 hdb1 hdb2 hdb3 hdb4) _ sampleHist4 (Or.inl rfl) (by simp [twoCommits4])
    hdb4.file.log (List.suffix_refl _) (List.suffix_refl _) (replay [] hdb4.file.log) (crashImage_replay _ _)
  obtain rfl : c = Commit.of hdb3 2000 := by simpa [twoCommits4] using k3
  exact ⟨cs, ls, k1, k2, k4 _ (.step .refl (Nat.le_of_eq hdb3_version.symm) (by simp [twoCommits4, twoCommits2])
    hdb_all.2.1.1.2.2.2)⟩

/-- Of a legacy file the commit is printed, and that of its creation. -/
example : ∃ c cs ls, infoMain Env.toy none none (some .backward) (crashedFile (replay [] ldb2.file.log) []) = .printed ls ∧
    Lines (c :: cs) ls ∧ createdCommit ldb0 ∈ c :: cs ∧ Commit.of ldb1 1000 ∈ c :: cs := by
  obtain ⟨c, cs, ls, k1, k2, -, -, -, -, k4⟩ := C68_lists_backward Env.toy Env.toy_laws none
    (twoCommits2 ldb0 ldb1 ldb2) _ legacyHist (Or.inl rfl) (by simp [twoCommits2])
    ldb2.file.log (List.suffix_refl _) (List.suffix_refl _) (replay [] ldb2.file.log) (crashImage_replay _ _)
  have hv : ∀ d ∈ (twoCommits2 ldb0 ldb1 ldb2).commits, d.db.header.diskVersion < 14 := by
    intro d hd
    simp only [twoCommits2, Sys.created, Bool.false_eq_true, if_false, List.mem_cons, List.not_mem_nil, or_false] at hd
    rcases hd with rfl | rfl
    · exact Nat.lt_of_le_of_lt (Nat.le_of_eq ldb_version.1) (by decide)
    · exact Nat.lt_of_le_of_lt (Nat.le_of_eq ldb_version.2) (by decide)
  exact ⟨c, cs, ls, k1, k2, k4 hv _ (by simp [twoCommits2, Sys.created, createdCommit]), k4 hv _ (by simp [twoCommits2])⟩

/-- The same from the header of any successful commit. -/
theorem C68_lists_backward_from (E : Env) (L : E.Laws) (getKey : KeyGetter) (s s' : Sys) (hs : History E getKey s)
    (hop : s' = s ∨ Op E getKey s s') (hc : s.cands ≠ [])
    (log : List Event) (h1 : s.db.file.log <:+ log) (h2 : log <:+ s'.db.file.log)
    (img : Bytes) (hi : CrashImage s.base log img) (c : Commit) (hd : c ∈ s.done) :
    ∃ cs ls, infoMain E getKey (some c.pos) (some .backward) (crashedFile img []) = .printed ls ∧ Lines (c :: cs) ls ∧
      (∀ d ∈ c :: cs, d ∈ s'.commits) ∧ (c :: cs).Pairwise (fun a b => b.pos < a.pos) ∧
      (∀ d, Ancestor s.done c d → d ∈ c :: cs) ∧
      ((∀ d ∈ s'.commits, d.db.header.diskVersion < 14) → ∀ d ∈ s.done, d.pos ≤ c.pos → d ∈ c :: cs) := by
  obtain ⟨s2, c2, k1, k2, A, k3, k4, k5⟩ := info_open L hs hop hc h1 h2 hi
  obtain ⟨db', hsk, A'⟩ := info_seek L A (k4 c hd)
  obtain ⟨cs, ls, g1, g2, g3, g4, g5, g6⟩ := backward_run L A'
  rw [show ({ s2 with db := db' } : Sys).commits = s'.commits from k3] at g3 g6
  refine ⟨cs, ls, ?_, g2, g3, g4, fun d h => g5 d (h.mono k4), fun hv d h => g6 hv d (k4 d h)⟩
  unfold infoMain openAtOffset
  rw [k1]
  dsimp only
  rw [hsk]
  dsimp only
  rw [show headerLines E .backward (db'.file.pos / blockSize + 2) db' = (ls, true) from g1]
  rfl

/-- From the first commit of the sample history. -/
example : ∃ cs ls, infoMain Env.toy sampleGetKey (some (Commit.of hdb1 1000).pos) (some .backward)
    (crashedFile (replay [] hdb4.file.log) []) = .printed ls ∧ Lines (Commit.of hdb1 1000 :: cs) ls := by
  obtain ⟨cs, ls, k1, k2, -⟩ := C68_lists_backward_from Env.toy Env.toy_laws sampleGetKey
    (twoCommits4 hdb0 hdb1 hdb2 hdb3 hdb4) _ sampleHist4 (Or.inl rfl) (by simp [twoCommits4])
    hdb4.file.log (List.suffix_refl _) (List.suffix_refl _) (replay [] hdb4.file.log) (crashImage_replay _ _)
    (Commit.of hdb1 1000) (by simp [twoCommits4, twoCommits2])
  exact ⟨cs, ls, k1, k2⟩

/-- Going forward from the header of a successful commit, the lines are those of commits, the oldest first, and
none is printed twice; all successful commits from there on are printed.  Missing of the full claim, that all headers
of the file are printed: the header from which to begin has to be known (`C68_forward_prints_one`). -/
theorem C68_lists_forward_partial (E : Env) (L : E.Laws) (getKey : KeyGetter) (s s' : Sys) (hs : History E getKey s)
    (hop : s' = s ∨ Op E getKey s s') (hc : s.cands ≠ [])
    (log : List Event) (h1 : s.db.file.log <:+ log) (h2 : log <:+ s'.db.file.log)
    (img : Bytes) (hi : CrashImage s.base log img) (c : Commit) (hd : c ∈ s.done) :
    ∃ cs ls, infoMain E getKey (some c.pos) (some .forward) (crashedFile img []) = .printed ls ∧ Lines (c :: cs) ls ∧
      (∀ d ∈ c :: cs, d ∈ s'.commits) ∧ (c :: cs).Pairwise (fun a b => a.pos < b.pos) ∧
      ∀ d ∈ s.done, c.pos ≤ d.pos → d ∈ c :: cs := by
  obtain ⟨s2, c2, k1, k2, A, k3, k4, k5⟩ := info_open L hs hop hc h1 h2 hi
  obtain ⟨db', hsk, A'⟩ := info_seek L A (k4 c hd)
  obtain ⟨cs, ls, g1, g2, g3, g4, -, g6⟩ := forward_run L A'
  rw [show ({ s2 with db := db' } : Sys).commits = s'.commits from k3] at g3
  refine ⟨cs, ls, ?_, g2, g3, g4, fun d h => g6 d (k4 d h)⟩
  unfold infoMain openAtOffset
  rw [k1]
  dsimp only
  rw [hsk]
  dsimp only
  rw [show headerLines E .forward (db'.file.pos / blockSize + 2) db' = (ls, true) from g1]
  rfl

/-- From the first commit of the sample history to the second. -/
example : ∃ cs ls, infoMain Env.toy sampleGetKey (some (Commit.of hdb1 1000).pos) (some .forward)
    (crashedFile (replay [] hdb4.file.log) []) = .printed ls ∧ Lines (Commit.of hdb1 1000 :: cs) ls ∧
    Commit.of hdb3 2000 ∈ Commit.of hdb1 1000 :: cs := by
  obtain ⟨cs, ls, k1, k2, -, -, k3⟩ := C68_lists_forward_partial Env.toy Env.toy_laws sampleGetKey
    (twoCommits4 hdb0 hdb1 hdb2 hdb3 hdb4) _ sampleHist4 (Or.inl rfl) (by simp [twoCommits4])
    hdb4.file.log (List.suffix_refl _) (List.suffix_refl _) (replay [] hdb4.file.log) (crashImage_replay _ _)
    (Commit.of hdb1 1000) (by simp [twoCommits4, twoCommits2])
  refine ⟨cs, ls, k1, k2, k3 _ (by simp [twoCommits4]) ?_⟩
  obtain ⟨-, -, -, -, -, -, p1, p3, -⟩ := hdb_all.2.2.2
  rw [p1, p3]
  decide

/-- Where there is no header, nothing is printed: a position is accepted only if it is that of a commit. -/
theorem C68_bad_position (E : Env) (L : E.Laws) (getKey : KeyGetter) (s s' : Sys) (hs : History E getKey s)
    (hop : s' = s ∨ Op E getKey s s') (hc : s.cands ≠ [])
    (log : List Event) (h1 : s.db.file.log <:+ log) (h2 : log <:+ s'.db.file.log)
    (img : Bytes) (hi : CrashImage s.base log img) (offset : Nat) (it : Option Direction)
    (hno : ∀ c ∈ s'.commits, c.pos ≠ offset) : infoMain E getKey (some offset) it (crashedFile img []) = .failed := by
  obtain ⟨s2, c2, k1, k2, A, k3, k4, k5⟩ := info_open L hs hop hc h1 h2 hi
  have hsp := seekOffset_spec A.hist.movable offset
  unfold infoMain openAtOffset
  rw [k1]
  dsimp only
  unfold Sp at hsp
  cases hp : seekOffset E offset s2.db with
  | ok a db' =>
    rw [hp] at hsp
    obtain ⟨c, k⟩ := hsp
    exact absurd (find_pos k.found) (hno c (by rw [← k3]; exact List.mem_of_find?_eq_some k.found))
  | error e db' => rfl

/-- The first block of the sample file holds no header. -/
example : infoMain Env.toy sampleGetKey (some 0) none (crashedFile (replay [] hdb4.file.log) []) = .failed := by
  refine C68_bad_position Env.toy Env.toy_laws sampleGetKey
    (twoCommits4 hdb0 hdb1 hdb2 hdb3 hdb4) _ sampleHist4 (Or.inl rfl) (by simp [twoCommits4])
    hdb4.file.log (List.suffix_refl _) (List.suffix_refl _) (replay [] hdb4.file.log) (crashImage_replay _ _) 0 none ?_
  obtain ⟨-, -, -, -, -, p0, p1, p3, -⟩ := hdb_all.2.2.2
  intro c hc
  simp only [twoCommits4, twoCommits2, Sys.created, Bool.false_eq_true, if_false, List.mem_cons, List.not_mem_nil, or_false] at hc
  rcases hc with rfl | rfl | rfl
  · rw [p3]; decide
  · rw [p1]; decide
  · intro h
    exact absurd (p0.symm.trans h) (by decide)

/-! ### What is not so -/

/-- Going forward without a position begins at the newest header, and so prints that one only: never the history
of the file. -/
theorem C68_forward_prints_one (E : Env) (L : E.Laws) (getKey : KeyGetter) (s s' : Sys) (hs : History E getKey s)
    (hop : s' = s ∨ Op E getKey s s') (hc : s.cands ≠ [])
    (log : List Event) (h1 : s.db.file.log <:+ log) (h2 : log <:+ s'.db.file.log)
    (img : Bytes) (hi : CrashImage s.base log img) :
    ∃ l, infoMain E getKey none (some .forward) (crashedFile img []) = .printed [l] := by
  obtain ⟨s2, c, k1, k2, A, k3, k4, k5⟩ := info_open L hs hop hc h1 h2 hi
  obtain ⟨cs, ls, g1, g2, g3, g4, g5, g6⟩ := forward_run L A
  have hcs : cs = [] := by
    rcases cs with _ | ⟨d, cs⟩
    · rfl
    · obtain ⟨m1, m2⟩ := g5 d List.mem_cons_self
      have := (List.pairwise_cons.mp g4).1 d List.mem_cons_self
      exact absurd m1 (k5 d.pos m2 (by rw [← A.pos]; exact this))
  rw [hcs] at g2
  rcases ls with _ | ⟨l, _ | ⟨l2, ls⟩⟩
  · exact g2.elim
  · refine ⟨l, ?_⟩
    unfold infoMain openAtOffset
    rw [k1]
    dsimp only
    rw [g1]
    rfl
  · exact g2.2.elim

/-- Of the sample history, with its two commits and the creation. -/
example : ∃ l, infoMain Env.toy sampleGetKey none (some .forward) (crashedFile (replay [] hdb4.file.log) []) = .printed [l] :=
  C68_forward_prints_one Env.toy Env.toy_laws sampleGetKey
    (twoCommits4 hdb0 hdb1 hdb2 hdb3 hdb4) _ sampleHist4 (Or.inl rfl) (by simp [twoCommits4])
    hdb4.file.log (List.suffix_refl _) (List.suffix_refl _) (replay [] hdb4.file.log) (crashImage_replay _ _)

end Couchstore.Props
