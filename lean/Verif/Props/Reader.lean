import Verif.Lemmas.Reader
import Verif.Props.Commit

/-! Readers of a file that is being written. -/

namespace Couchstore.Props

/-- **C73, readers are isolated from the writer**: a second handle was opened on the file at any time, between two calls
of the writer (`s1 = s`) or during one; `log` is what the writer had written by then.  Then the writer goes on in any way
(saving, committing, moving between headers, reopening, with any failures), and meanwhile the file holds `img`.  Whatever
is asked, the second handle gives the answer that it gave in the beginning; and that is what was shown by the handle of the
writer when it called commit, for one of its commits. -/
theorem C73_reader_isolated (E : Env) (L : E.Laws) (getKey : KeyGetter) (s s1 s2 : Sys) (hs : History E getKey s)
    (hop : s1 = s ∨ Op E getKey s s1) (log : List Event) (h1 : s.db.file.log <:+ log) (h2 : log <:+ s1.db.file.log)
    (flags : OpenFlags) (ctx : Bytes) (faults : List Fault) (ht : 2 ≤ flags.kvThr) (r : Db) (f' : File)
    (ho : openDb E flags getKey ctx (crashedFile (replay s.base log) faults) = .ok r f')
    (hops : Ops E getKey s1 s2) (img : Bytes) (hi : Seen s2 log img) :
    SameAnswers E r (r.over img) ∧ ∃ c, s1.commitAt r.header.position = some c ∧ Shows E r c :=
  (reader_spec L (hs.hist L) hop h1 h2 flags ctx faults ht ho hops hi).1

/-- **C73, a reader can open the file at any time** after the first commit: at every moment of every call of the writer
opening succeeds if no raw operation on the handle of the reader fails, and the reader sees the last successful commit, a
failed one after it, or the one that is going on. -/
theorem C73_reader_opens (E : Env) (L : E.Laws) (getKey : KeyGetter) (s s1 : Sys) (hs : History E getKey s)
    (hop : s1 = s ∨ Op E getKey s s1) (hc : s.cands ≠ []) (log : List Event) (h1 : s.db.file.log <:+ log)
    (h2 : log <:+ s1.db.file.log) (flags : OpenFlags) (ok : flags.Ok (s.db.file.cfg.crcMode == .crc32)) (ctx : Bytes) :
    ∃ r, openDb E flags getKey ctx (crashedFile (replay s.base log) []) = .ok r r.file ∧
      ∃ c, (c ∈ s.cands ∨ c ∈ s1.cands) ∧ Shows E r c ∧ s1.commitAt r.header.position = some c :=
  C21_any_history E L getKey s s1 hs hop hc log h1 h2 _ (crashImage_replay _ _) flags ok ctx

/-- In the sample, a reader opens the file after the first commit.  Then documents are saved and committed again.  With
the old content of the file and with the new one, the reader sees what was committed first. -/
theorem reader_sample {E : Env} (L : E.Laws) {getKey : KeyGetter} {d0 d1 d2 d3 d4 : Db}
    (h2 : History E getKey (twoCommits2 d0 d1 d2)) (h3 : Step E d2 d3)
    (h4 : commit E 2000 (fun _ => false) d3 = .ok () d4) (flags : OpenFlags) (ok : ∀ b, flags.Ok b) :
    ∃ r, openDb E flags getKey [] (crashedFile d2.file.disk []) = .ok r r.file ∧
      SameAnswers E r (r.over d4.file.disk) ∧ Shows E r (Commit.of d1 1000) := by
  have H2 := h2.hist L
  have H4 := (twoCommits4_hist (twoCommits3_hist h2 h3) h4).hist L
  have hr : d2.file.disk = replay [] d2.file.log := H2.replay
  obtain ⟨r, k1, c, k2, k3, k4⟩ := C73_reader_opens E L getKey _ _ h2 (Or.inl rfl) (by simp [twoCommits2]) _
    (List.suffix_refl _) (List.suffix_refl _) flags (ok _) []
  have k1 : openDb E flags getKey [] (crashedFile (replay [] d2.file.log) []) = .ok r r.file := k1
  have hcands : c ∈ [Commit.of d1 1000] := by rcases k2 with h | h <;> exact h
  have ops : Ops E getKey (twoCommits2 d0 d1 d2) (twoCommits4 d0 d1 d2 d3 d4) :=
    .tail (.tail .refl (.step h3)) (twoCommits4_op h4)
  obtain ⟨_, W⟩ := ops.went L H2
  obtain ⟨evs, e1, _⟩ := W.evs
  have e1 : d4.file.log = evs ++ d2.file.log := e1
  obtain ⟨q, _⟩ := C73_reader_isolated E L getKey _ _ _ h2 (Or.inl rfl) _ (List.suffix_refl _) (List.suffix_refl _)
    flags [] [] (ok true).thr r _ k1 ops d4.file.disk
    (fun i => ⟨_, ⟨evs, e1.symm⟩, List.suffix_refl _, by rw [show d4.file.disk = replay [] d4.file.log from H4.replay]; rfl⟩)
  rw [hr]
  exact ⟨r, k1, q, by rw [← List.mem_singleton.mp hcands]; exact k3⟩

theorem sample_step : Step Env.toy hdb2 hdb3 := by
  delta hdb3
  exact .save sampleOpts (some sampleCb) histItems2 [] hdb3_eq

example : ∃ r, openDb Env.toy sampleFlags sampleGetKey [] (crashedFile hdb2.file.disk []) = .ok r r.file ∧
    SameAnswers Env.toy r (r.over hdb4.file.disk) ∧ Shows Env.toy r (Commit.of hdb1 1000) :=
  reader_sample (d3 := hdb3) Env.toy_laws sampleHist2 sample_step hdb4_eq sampleFlags sampleFlags_ok

end Couchstore.Props
