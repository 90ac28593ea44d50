import Verif.Lemmas.DbDump
import Verif.Lemmas.DbInfoToolOpen
import Verif.Props.Commit
-- only so that the two are not built at the same time, which takes too much memory
import Verif.Props.DbInfoTool

/-! C69: the program that dumps the documents of a file.

In these theorems the machine crashes at any time after the first successful commit (or does not crash; then nothing
of the log is missing), and `img` is what is left of the file.  `lib` are other libraries, of which nothing is assumed. -/

namespace Couchstore.Props

/-- What the newest commit that is left contains is dumped: one line for each document, in the order asked for, and
their number; or the line of the document with the key.  Missing of the full claim: the documents have to be such
that they can be printed; of the others see `C69_json_leaves_out` and `C69_one_document_ends_the_dump`. -/
theorem C69_every_document_partial (E : Env) (L : E.Laws) (lib : DumpLib) (o : DumpOpts) (mode : DumpMode)
    (getKey : KeyGetter) (s s' : Sys) (hs : History E getKey s)
    (hop : s' = s ∨ Op E getKey s s') (hc : s.cands ≠ [])
    (log : List Event) (h1 : s.db.file.log <:+ log) (h2 : log <:+ s'.db.file.log)
    (img : Bytes) (hi : CrashImage s.base log img) :
    ∃ c, (c ∈ s.cands ∨ c ∈ s'.cands) ∧
      ((∀ d ∈ dumped E c.db mode, Printable E lib o c.db d) → (∀ k, mode = .key k → dumped E c.db mode ≠ []) →
        ∃ ls, dumpMain E lib o mode getKey none (crashedFile img []) = .done ls (dumped E c.db mode).length ∧
          LinesRight E lib o c.db (dumped E c.db mode) ls) := by
  obtain ⟨s2, c, k1, k2, A, -, -, -⟩ := info_open L hs hop hc h1 h2 hi
  refine ⟨c, k2, fun hp hk => ?_⟩
  obtain ⟨ids, seqs, locs, hh⟩ := A.hist.handle
  have hsame := dumped_same A.shows_.answers mode
  rw [← hsame] at hp hk ⊢
  obtain ⟨ls, g1, g2⟩ := dumpDb_all (lib := lib) (o := o) L hh.inv hh.opened A.calm mode hk fun d hd => (hp d hd).same A.shows_.answers
  refine ⟨ls, ?_, LinesRight.same A.shows_.answers _ _ g2⟩
  unfold dumpMain openAtOffset
  rw [k1]
  exact g1

/-- A sample of the other libraries: a collection is one byte before the key, JSON begins with a brace, and of extended attributes
the first byte is the length. -/
def dumpLib : DumpLib :=
  { showId := fun b => b.head?.map fun x => [40, x, 41] ++ b.drop 1
    isJson := fun b => b.head? == some 123
    xattr := fun b => b.head?.map fun n => ((b.drop 1).take n.toNat, (b.drop 1).drop n.toNat) }

/-- Documents that are not empty in name and have no special datatype. -/
def plainDocs (ds : List DocInfo) : Bool := ds.all fun d => d.id != [] && d.datatype == 0

/-- All that is needed about the sample, evaluated at once. -/
theorem hdb_dump : plainDocs (dumped Env.toy hdb3 .bySeq) = true ∧ plainDocs (dumped Env.toy hdb3 .byId) = true ∧
    plainDocs (dumped Env.toy hdb3 (.key [97])) = true ∧ (dumped Env.toy hdb3 .bySeq).length = 2 ∧
    (dumped Env.toy hdb3 (.key [97])).length = 1 ∧ (dumped Env.toy hdb3 (.key [99])).isEmpty = true := by decide +kernel

/-- Both documents of the sample can be printed in every way. -/
theorem hdb_printable (o : DumpOpts) {mode : DumpMode} (hm : mode = .bySeq ∨ mode = .byId ∨ mode = .key [97]) :
    ∀ d ∈ dumped Env.toy hdb3 mode, Printable Env.toy dumpLib o hdb3 d := by
  have h : plainDocs (dumped Env.toy hdb3 mode) = true := by
    rcases hm with rfl | rfl | rfl
    · exact hdb_dump.1
    · exact hdb_dump.2.1
    · exact hdb_dump.2.2.1
  intro d hd
  have h1 := List.all_eq_true.mp h d hd
  simp only [Bool.and_eq_true, bne_iff_ne, ne_eq, beq_iff_eq] at h1
  obtain ⟨hid, h0⟩ := h1
  refine ⟨fun _ => ?_, fun _ _ data _ => ?_, fun _ data x _ _ hx => ?_, fun _ _ hj => ?_⟩
  · cases hi : d.id with
    | nil => exact absurd hi hid
    | cons x r => simp [dumpLib]
  · simp [docContents, DocInfo.isSnappy, h0]
  · simp [DocInfo.hasXattr, h0] at hx
  · simp [DocInfo.isJson, h0] at hj

/-- The newest commit of the sample has two documents, and both are printed. -/
example (o : DumpOpts) : ∃ ls, dumpMain Env.toy dumpLib o .bySeq sampleGetKey none (crashedFile (replay [] hdb4.file.log) []) = .done ls 2 ∧
    LinesRight Env.toy dumpLib o hdb3 (dumped Env.toy hdb3 .bySeq) ls := by
  obtain ⟨c, k1, k2⟩ := C69_every_document_partial Env.toy Env.toy_laws dumpLib o .bySeq sampleGetKey
    (twoCommits4 hdb0 hdb1 hdb2 hdb3 hdb4) _ sampleHist4 (Or.inl rfl) (by simp [twoCommits4])
    hdb4.file.log (List.suffix_refl _) (List.suffix_refl _) (replay [] hdb4.file.log) (crashImage_replay _ _)
  obtain rfl : c = Commit.of hdb3 2000 := by simpa [twoCommits4] using k1
  have hl : (dumped Env.toy hdb3 .bySeq).length = 2 := hdb_dump.2.2.2.1
  exact hl ▸ k2 (hdb_printable o (Or.inl rfl)) (by simp)

/-- The same for the header of any successful commit. -/
theorem C69_every_document_at_partial (E : Env) (L : E.Laws) (lib : DumpLib) (o : DumpOpts) (mode : DumpMode)
    (getKey : KeyGetter) (s s' : Sys) (hs : History E getKey s)
    (hop : s' = s ∨ Op E getKey s s') (hc : s.cands ≠ [])
    (log : List Event) (h1 : s.db.file.log <:+ log) (h2 : log <:+ s'.db.file.log)
    (img : Bytes) (hi : CrashImage s.base log img) (c : Commit) (hd : c ∈ s.done)
    (hp : ∀ d ∈ dumped E c.db mode, Printable E lib o c.db d) (hk : ∀ k, mode = .key k → dumped E c.db mode ≠ []) :
    ∃ ls, dumpMain E lib o mode getKey (some c.pos) (crashedFile img []) = .done ls (dumped E c.db mode).length ∧
      LinesRight E lib o c.db (dumped E c.db mode) ls := by
  obtain ⟨s2, c2, k1, k2, A, k3, k4, k5⟩ := info_open L hs hop hc h1 h2 hi
  obtain ⟨db', hsk, A'⟩ := info_seek L A (k4 c hd)
  obtain ⟨ids, seqs, locs, hh⟩ := A'.hist.handle
  have hsame := dumped_same A'.shows_.answers mode
  rw [← hsame] at hp hk ⊢
  obtain ⟨ls, g1, g2⟩ := dumpDb_all (lib := lib) (o := o) L hh.inv hh.opened A'.calm mode hk fun d hd => (hp d hd).same A'.shows_.answers
  refine ⟨ls, ?_, LinesRight.same A'.shows_.answers _ _ g2⟩
  unfold dumpMain openAtOffset
  rw [k1]
  dsimp only
  rw [hsk]
  exact g1

/-- The document as it is in the second commit, by its key. -/
example (o : DumpOpts) : ∃ ls, dumpMain Env.toy dumpLib o (.key [97]) sampleGetKey (some (Commit.of hdb3 2000).pos)
    (crashedFile (replay [] hdb4.file.log) []) = .done ls 1 ∧
    LinesRight Env.toy dumpLib o hdb3 (dumped Env.toy hdb3 (.key [97])) ls := by
  have hl : (dumped Env.toy hdb3 (.key [97])).length = 1 := hdb_dump.2.2.2.2.1
  obtain ⟨ls, g1, g2⟩ := C69_every_document_at_partial Env.toy Env.toy_laws dumpLib o (.key [97]) sampleGetKey
    (twoCommits4 hdb0 hdb1 hdb2 hdb3 hdb4) _ sampleHist4 (Or.inl rfl) (by simp [twoCommits4])
    hdb4.file.log (List.suffix_refl _) (List.suffix_refl _) (replay [] hdb4.file.log) (crashImage_replay _ _)
    (Commit.of hdb3 2000) (by simp [twoCommits4]) (hdb_printable o (Or.inr (Or.inr rfl)))
    (fun k _ h => by rw [show dumped Env.toy hdb3 (.key [97]) = [] from h] at hl; simp at hl)
  exact ⟨ls, hl ▸ g1, g2⟩

/-- As text, without decoding of collections, every document is printed, whatever its metadata and body are, if
extended attributes can be decoded. -/
theorem C69_text_dump (E : Env) (L : E.Laws) (lib : DumpLib) (o : DumpOpts) (mode : DumpMode) (hm : ∀ k, mode ≠ .key k)
    (ho : o.json = false) (hn : o.decodeNamespace = false) (hx : ∀ b, lib.xattr b ≠ none)
    (getKey : KeyGetter) (s s' : Sys) (hs : History E getKey s)
    (hop : s' = s ∨ Op E getKey s s') (hc : s.cands ≠ [])
    (log : List Event) (h1 : s.db.file.log <:+ log) (h2 : log <:+ s'.db.file.log)
    (img : Bytes) (hi : CrashImage s.base log img) :
    ∃ c ls, (c ∈ s.cands ∨ c ∈ s'.cands) ∧
      dumpMain E lib o mode getKey none (crashedFile img []) = .done ls (dumped E c.db mode).length ∧
      LinesRight E lib o c.db (dumped E c.db mode) ls := by
  obtain ⟨c, k1, k2⟩ := C69_every_document_partial E L lib o mode getKey s s' hs hop hc log h1 h2 img hi
  obtain ⟨ls, g1, g2⟩ := k2 (fun d _ => ⟨fun h => absurd h (by rw [hn]; simp), fun _ h => absurd h (by rw [ho]; simp),
    fun _ _ x _ _ _ => hx x, fun _ h => absurd h (by rw [ho]; simp)⟩) (fun k h => absurd h (hm k))
  exact ⟨c, ls, k1, g1, g2⟩

example : ∃ ls, dumpMain Env.toy { dumpLib with xattr := fun b => some ([], b) } ⟨false, true, false⟩ .byId sampleGetKey none
    (crashedFile (replay [] hdb4.file.log) []) = .done ls (dumped Env.toy hdb3 .byId).length := by
  obtain ⟨c, ls, k1, k2, -⟩ := C69_text_dump Env.toy Env.toy_laws { dumpLib with xattr := fun b => some ([], b) } ⟨false, true, false⟩
    .byId (by simp) rfl rfl (by simp) sampleGetKey
    (twoCommits4 hdb0 hdb1 hdb2 hdb3 hdb4) _ sampleHist4 (Or.inl rfl) (by simp [twoCommits4])
    hdb4.file.log (List.suffix_refl _) (List.suffix_refl _) (replay [] hdb4.file.log) (crashImage_replay _ _)
  obtain rfl : c = Commit.of hdb3 2000 := by simpa [twoCommits4] using k1
  exact ⟨ls, k2⟩

/-- Whatever is dumped, also by a dump that does not succeed, are documents of that commit, in the order asked for, none of
them twice. -/
theorem C69_nothing_else (E : Env) (L : E.Laws) (lib : DumpLib) (o : DumpOpts) (mode : DumpMode)
    (getKey : KeyGetter) (s s' : Sys) (hs : History E getKey s)
    (hop : s' = s ∨ Op E getKey s s') (hc : s.cands ≠ [])
    (log : List Event) (h1 : s.db.file.log <:+ log) (h2 : log <:+ s'.db.file.log)
    (img : Bytes) (hi : CrashImage s.base log img) :
    ∃ c ds, (c ∈ s.cands ∨ c ∈ s'.cands) ∧ ds.Sublist (dumped E c.db mode) ∧
      LinesRight E lib o c.db ds (dumpMain E lib o mode getKey none (crashedFile img [])).lines := by
  obtain ⟨s2, c, k1, k2, A, -, -, -⟩ := info_open L hs hop hc h1 h2 hi
  obtain ⟨ids, seqs, locs, hh⟩ := A.hist.handle
  obtain ⟨ds, g1, g2⟩ := dumpDb_right (lib := lib) (o := o) L hh.inv hh.opened A.calm mode
  rw [dumped_same A.shows_.answers mode] at g1
  refine ⟨c, ds, k2, g1, ?_⟩
  unfold dumpMain openAtOffset
  rw [k1]
  exact LinesRight.same A.shows_.answers _ _ g2

example (o : DumpOpts) : ∃ ds, ds.Sublist (dumped Env.toy hdb3 .bySeq) ∧ LinesRight Env.toy dumpLib o hdb3 ds
    (dumpMain Env.toy dumpLib o .bySeq sampleGetKey none (crashedFile (replay [] hdb4.file.log) [])).lines := by
  obtain ⟨c, ds, k1, k2, k3⟩ := C69_nothing_else Env.toy Env.toy_laws dumpLib o .bySeq sampleGetKey
    (twoCommits4 hdb0 hdb1 hdb2 hdb3 hdb4) _ sampleHist4 (Or.inl rfl) (by simp [twoCommits4])
    hdb4.file.log (List.suffix_refl _) (List.suffix_refl _) (replay [] hdb4.file.log) (crashImage_replay _ _)
  obtain rfl : c = Commit.of hdb3 2000 := by simpa [twoCommits4] using k1
  exact ⟨ds, k2, k3⟩

/-- A key that no document has is an error. -/
theorem C69_missing_key (E : Env) (L : E.Laws) (lib : DumpLib) (o : DumpOpts) (k : Bytes)
    (getKey : KeyGetter) (s s' : Sys) (hs : History E getKey s)
    (hop : s' = s ∨ Op E getKey s s') (hc : s.cands ≠ [])
    (log : List Event) (h1 : s.db.file.log <:+ log) (h2 : log <:+ s'.db.file.log)
    (img : Bytes) (hi : CrashImage s.base log img) :
    ∃ c, (c ∈ s.cands ∨ c ∈ s'.cands) ∧
      (dumped E c.db (.key k) = [] → dumpMain E lib o (.key k) getKey none (crashedFile img []) = .failed []) := by
  obtain ⟨s2, c, k1, k2, A, -, -, -⟩ := info_open L hs hop hc h1 h2 hi
  obtain ⟨ids, seqs, locs, hh⟩ := A.hist.handle
  refine ⟨c, k2, fun hk => ?_⟩
  rw [← dumped_same A.shows_.answers] at hk
  unfold dumpMain openAtOffset
  rw [k1]
  exact dumpDb_missing L hh.inv hh.opened A.calm k hk

example (o : DumpOpts) : dumpMain Env.toy dumpLib o (.key [99]) sampleGetKey none (crashedFile (replay [] hdb4.file.log) []) =
    .failed [] := by
  obtain ⟨c, k1, k2⟩ := C69_missing_key Env.toy Env.toy_laws dumpLib o [99] sampleGetKey
    (twoCommits4 hdb0 hdb1 hdb2 hdb3 hdb4) _ sampleHist4 (Or.inl rfl) (by simp [twoCommits4])
    hdb4.file.log (List.suffix_refl _) (List.suffix_refl _) (replay [] hdb4.file.log) (crashImage_replay _ _)
  obtain rfl : c = Commit.of hdb3 2000 := by simpa [twoCommits4] using k1
  exact k2 (List.isEmpty_iff.mp hdb_dump.2.2.2.2.2)

/-- The lists of `dumped` are the documents of the database: all of them, each once, in ascending order. -/
theorem C69_order (E : Env) (L : E.Laws) (db : Db) (hr : Reachable E db) :
    (∀ d, d ∈ dumped E db .bySeq ↔ answer (docinfoById E d.id) db = .ok d) ∧
    (dumped E db .bySeq).Pairwise (fun a b => a.dbSeq < b.dbSeq) ∧
    (∀ d, d ∈ dumped E db .byId ↔ answer (docinfoById E d.id) db = .ok d) ∧
    (dumped E db .byId).Pairwise (fun a b => a.id < b.id) := by
  obtain ⟨⟨ids, seqs, locs, inv⟩, hd⟩ := hr.good L
  refine ⟨fun d => ?_, ?_, fun d => ?_, ?_⟩
  · rw [dumped_bySeq L inv hd, known_iff E L inv hd, (inv.perm.map (fun e : Entry => e.info)).mem_iff]
  · rw [dumped_bySeq L inv hd, List.pairwise_map]
    exact inv.seqSorted
  · rw [dumped_byId L inv hd, known_iff E L inv hd]
  · rw [dumped_byId L inv hd, List.pairwise_map]
    exact inv.idSorted.imp fun h => (ebinCmp_lt_iff _ _).mp h

example : Reachable Env.toy sampleDb2 ∧ (dumped Env.toy sampleDb2 .byId).map (·.id) = [[97], [98], [99], [100, 1]] ∧
    (dumped Env.toy sampleDb2 .bySeq).map (·.id) = [[97], [99], [98], [100, 1]] := ⟨sampleReach2, by decide +kernel⟩

/-! ### What is not so -/

/-- In JSON a document whose body cannot be decompressed is left out, but counted; the program reports success. -/
theorem C69_json_leaves_out (E : Env) (L : E.Laws) (lib : DumpLib) (o : DumpOpts) (mode : DumpMode) (db : Db)
    (hr : Reachable E db) (hf : db.file.faults = []) (ho : o.json = true) (hb : o.body = true)
    (d : DocInfo) (data : Bytes) (hone : dumped E db mode = [d]) (hn : o.decodeNamespace = true → lib.showId d.id ≠ none)
    (hbody : bodyOf E db d.id = some data) (hinf : docContents E d data = none) :
    dumpDb E lib o mode db = .done [] 1 := by
  obtain ⟨⟨ids, seqs, locs, inv⟩, hd⟩ := hr.good L
  rw [dumpDb_eq L inv hd hf mode (fun k _ => by rw [hone]; simp), hone]
  obtain ⟨e, he, rfl⟩ := dumped_mem L inv hd mode (d := d) (by rw [hone]; simp)
  have hdd := dumpDoc_leaves_out (lib := lib) (o := o) L inv hd hf he ho hb hn hbody hinf
  show dumpEnd (dumpCb E lib o db dumpStart e.info).1 none = _
  unfold dumpCb
  rw [if_neg (by simp [dumpStart]), hdd]
  rfl

/-- In JSON one document that is marked as JSON and is none ends the program: nothing after it is printed. -/
theorem C69_one_document_ends_the_dump (E : Env) (L : E.Laws) (lib : DumpLib) (o : DumpOpts) (mode : DumpMode) (db : Db)
    (hr : Reachable E db) (hf : db.file.faults = []) (ho : o.json = true) (hb : o.body = true)
    (before after : List DocInfo) (d : DocInfo) (data x : Bytes) (hl : dumped E db mode = before ++ d :: after)
    (hp : ∀ a ∈ before, Printable E lib o db a)
    (hbody : bodyOf E db d.id = some data) (hinf : docContents E d data = some x) (hj : d.isJson = true) (hx : d.hasXattr = false)
    (hno : lib.isJson x = false) :
    ∃ ls, dumpDb E lib o mode db = .aborted ls ∧ LinesRight E lib o db before ls := by
  obtain ⟨⟨ids, seqs, locs, inv⟩, hd⟩ := hr.good L
  rw [dumpDb_eq L inv hd hf mode (fun k _ => by rw [hl]; simp), hl]
  have hmem : ∀ a ∈ before ++ d :: after, ∃ e ∈ ids, e.info = a := fun a h => dumped_mem L inv hd mode (by rw [hl]; exact h)
  obtain ⟨new, g1, g2⟩ := dumpRun_all (E := E) (lib := lib) (o := o) (db := db)
    (P := fun d l => ∃ x, l = DumpLine.doc x ∧ LineRight E lib o db d x) before (by
      intro a ha l hl
      obtain ⟨e, he, rfl⟩ := hmem a (List.mem_append_left _ ha)
      exact dumpDoc_right L inv hd hf he hl) (by
      intro a ha
      obtain ⟨e, he, rfl⟩ := hmem a (List.mem_append_left _ ha)
      exact dumpDoc_printable L inv hd hf he (hp _ ha)) dumpStart rfl
  obtain ⟨e, he, rfl⟩ := hmem d (by simp)
  have hdd := dumpDoc_throws (lib := lib) (o := o) L inv hd hf he ho hb hbody hinf hj hx hno
  refine ⟨new, ?_, paired_right _ _ g2⟩
  rw [dumpRun_append, g1]
  unfold dumpRun
  have : (dumpCb E lib o db { lines := dumpStart.lines ++ new, count := dumpStart.count + before.length, thrown := false } e.info).1 =
      { lines := dumpStart.lines ++ new, count := dumpStart.count + before.length, thrown := true } := by
    unfold dumpCb
    rw [if_neg (by simp), hdd]
  rw [this, dumpRun_thrown _ _ rfl]
  simp [dumpEnd, dumpStart]

/-- Documents with the metadata of the data service: `c` is marked as compressed and is not, `b` is marked as JSON and is not. -/
def dumpMeta (datatype : Nat) : KvMeta := ⟨77, 5, 1, false, datatype, none⟩
def dumpItem (id body : Bytes) (datatype : Nat) : SaveItem := ⟨some body, ⟨id, 0, 1, (dumpMeta datatype).bytes, false, 0, 0, 0⟩, 5⟩
def dumpDb1 : Db := after (saveDocuments Env.toy sampleOpts (some sampleCb) [dumpItem [99] [1, 2] 2] []) newDb
def dumpDb2 : Db := after (saveDocuments Env.toy sampleOpts (some sampleCb)
  [dumpItem [97] [123, 125] 1, dumpItem [98] [1, 2] 1, dumpItem [99] [7, 123, 125] 3] []) newDb

theorem dumpReach1 : Reachable Env.toy dumpDb1 :=
  ⟨newDb, .inl newDb_fresh, .step .refl (.save sampleOpts (some sampleCb) [dumpItem [99] [1, 2] 2] [] (args_of (by decide +kernel)))⟩
theorem dumpReach2 : Reachable Env.toy dumpDb2 :=
  ⟨newDb, .inl newDb_fresh, .step .refl (.save sampleOpts (some sampleCb)
    [dumpItem [97] [123, 125] 1, dumpItem [98] [1, 2] 1, dumpItem [99] [7, 123, 125] 3] [] (args_of (by decide +kernel)))⟩

/-- The document `c` is left out. -/
example : (dumped Env.toy dumpDb1 .bySeq).map (·.id) = [[99]] ∧ dumpDb Env.toy dumpLib ⟨true, true, false⟩ .bySeq dumpDb1 = .done [] 1 := by
  have h : (match dumped Env.toy dumpDb1 .bySeq with
    | [d] => d.id == [99] && bodyOf Env.toy dumpDb1 d.id == some [1, 2] && docContents Env.toy d [1, 2] == none
    | _ => false) = true := by decide +kernel
  split at h
  · rename_i d hd
    simp only [Bool.and_eq_true, beq_iff_eq] at h
    exact ⟨by rw [hd]; simp [h.1.1], C69_json_leaves_out Env.toy Env.toy_laws dumpLib ⟨true, true, false⟩ .bySeq dumpDb1 dumpReach1
      (List.isEmpty_iff.mp (by decide +kernel)) rfl rfl d [1, 2] hd (by simp) h.1.2 h.2⟩
  · cases h

/-- The document `b` ends the dump, and `c` is not printed. -/
example : (dumped Env.toy dumpDb2 .bySeq).map (·.id) = [[97], [98], [99]] ∧
    ∃ l, dumpDb Env.toy dumpLib ⟨true, true, false⟩ .bySeq dumpDb2 = .aborted [.doc l] ∧ l.id = [97] ∧
      l.kv = (dumpMeta 1).shown ∧ l.body = .data 2 none [123, 125] := by
  have h : (match dumpDb Env.toy dumpLib ⟨true, true, false⟩ .bySeq dumpDb2 with
    | .aborted [.doc l] => l.id == [97] && l.kv == (dumpMeta 1).shown && l.body == .data 2 none [123, 125]
    | _ => false) = true := by decide +kernel
  refine ⟨by decide +kernel, ?_⟩
  split at h
  · rename_i l hl
    simp only [Bool.and_eq_true, beq_iff_eq] at h
    exact ⟨l, hl, h.1.1, h.1.2, h.2⟩
  · cases h

/-- The hypotheses of `C69_one_document_ends_the_dump` are met by it. -/
example : ∃ a b c, dumped Env.toy dumpDb2 .bySeq = [a] ++ b :: [c] ∧ Printable Env.toy dumpLib ⟨true, true, false⟩ dumpDb2 a ∧
    bodyOf Env.toy dumpDb2 b.id = some [1, 2] ∧ docContents Env.toy b [1, 2] = some [1, 2] ∧ b.isJson = true ∧ b.hasXattr = false ∧
    dumpLib.isJson [1, 2] = false := by
  have h : (match dumped Env.toy dumpDb2 .bySeq with
    | [a, b, c] => bodyOf Env.toy dumpDb2 a.id == some [123, 125] && a.datatype == 1 && bodyOf Env.toy dumpDb2 b.id == some [1, 2] &&
        docContents Env.toy b [1, 2] == some [1, 2] && b.isJson && !b.hasXattr
    | _ => false) = true := by decide +kernel
  split at h
  · rename_i a b c hd
    simp only [Bool.and_eq_true, beq_iff_eq, Bool.not_eq_true'] at h
    obtain ⟨⟨⟨⟨⟨h1, h2⟩, h3⟩, h4⟩, h5⟩, h6⟩ := h
    refine ⟨a, b, c, hd, ⟨by simp, fun _ _ data _ => ?_, fun _ data x _ _ hx => ?_, fun _ _ _ data x hb hx => ?_⟩, h3, h4, h5, h6, by decide⟩
    · simp [docContents, DocInfo.isSnappy, h2]
    · simp [DocInfo.hasXattr, h2] at hx
    · rw [h1] at hb
      cases hb
      simp only [docContents, DocInfo.isSnappy, h2] at hx
      simp at hx
      subst hx
      simp [DocInfo.hasXattr, h2, dumpLib]
  · cases h

end Couchstore.Props
