import Verif.Lemmas.DumpLocal
-- only so that the two are not built at the same time, which takes too much memory
import Verif.Props.DumpHeaders
import Verif.Props.Recover

/-! C80: the dump of local documents.  `lib` are other libraries, of which nothing is assumed. -/

namespace Couchstore.Props

/-- Of a damaged file, the local documents that can still be opened are dumped, in the order of their names, and no others.
Success is reported, with their number, if these are all local documents and all of them can be printed; otherwise a failure
is reported, and the documents after the one that cannot be read or printed are dumped nevertheless.  (`db0` is the handle
of the intact file.) -/
theorem C80_local_documents_of_damaged_file (E : Env) (L : E.Laws) (lib : LocalLib) (json : Bool) (db0 db : Db)
    (hr : Reachable E db0) (hdb : db = { db0 with file := db.file }) (D : DamagedFile E db0.file db.file) :
    ∃ docs ls, LocalsRight lib json docs ls ∧ docs.Pairwise (fun a b => a.id < b.id) ∧
      (∀ d, d ∈ docs ↔ answer (openLocalDocument E d.id) db0 = .ok d ∧ answer (openLocalDocument E d.id) db = .ok d) ∧
      ((∀ d, answer (openLocalDocument E d.id) db0 = .ok d → d ∈ docs ∧ LocalPrintable lib json d) →
        dumpLocals E lib json none db = .done ls docs.length) ∧
      ((∃ d, answer (openLocalDocument E d.id) db0 = .ok d ∧ ¬ (d ∈ docs ∧ LocalPrintable lib json d)) →
        dumpLocals E lib json none db = .failed ls) := by
  obtain ⟨⟨ids, seqs, locs, inv⟩, hd⟩ := hr.good L
  exact locals_all L inv hd hdb D

/-- A sample of the other libraries: nothing is to be decoded, and JSON begins with a brace. -/
def localLib : LocalLib := ⟨fun _ _ => some [], fun b => b.head? == some 123⟩

attribute [local irreducible] kdb0 kdb1 kdb2

/-- The local document of the sample, in the file and in two damaged copies. -/
theorem kdb_local : (answer (openLocalDocument Env.toy [95]) kdb2).toOption = some ⟨[95], [1, 2], false⟩ ∧
    (answer (openLocalDocument Env.toy [95]) (damage [10, 40])).toOption = some ⟨[95], [1, 2], false⟩ ∧
    (answer (openLocalDocument Env.toy [95]) (damage [234])).toOption = none := by
  decide +kernel

theorem kdb2_reachable : Reachable Env.toy kdb2 := ⟨kdb2, Or.inr ⟨_, _, recoveryHist, rfl⟩, .refl⟩

theorem ok_of_toOption {α : Type} {x : Except Err α} {a : α} (h : x.toOption = some a) : x = .ok a := by
  cases x with
  | error e => cases h
  | ok b => cases h; rfl

/-- In a damaged copy of the sample its local document is dumped as text, but not as JSON, since it is none. -/
example : (∃ docs ls, LocalsRight localLib true docs ls ∧ ⟨[95], [1, 2], false⟩ ∈ docs ∧
      dumpLocals Env.toy localLib true none (damage [10, 40]) = .failed ls) ∧
    ∃ docs ls, LocalsRight localLib false docs ls ∧ ⟨[95], [1, 2], false⟩ ∈ docs ∧
      (dumpLocals Env.toy localLib false none (damage [10, 40]) = .done ls docs.length ∨
        dumpLocals Env.toy localLib false none (damage [10, 40]) = .failed ls) := by
  have h0 := ok_of_toOption kdb_local.1
  have h1 := ok_of_toOption kdb_local.2.1
  constructor
  · obtain ⟨docs, ls, k1, -, k2, -, k3⟩ := C80_local_documents_of_damaged_file Env.toy Env.toy_laws localLib true kdb2
      (damage [10, 40]) kdb2_reachable rfl sampleDamaged.1
    refine ⟨docs, ls, k1, (k2 ⟨[95], [1, 2], false⟩).mpr ⟨h0, h1⟩, k3 ⟨⟨[95], [1, 2], false⟩, h0, fun h => ?_⟩⟩
    obtain ⟨x, hx, hj⟩ := h.2
    cases hx
    exact absurd (hj rfl) (by decide)
  · obtain ⟨docs, ls, k1, -, k2, k4, k3⟩ := C80_local_documents_of_damaged_file Env.toy Env.toy_laws localLib false kdb2
      (damage [10, 40]) kdb2_reachable rfl sampleDamaged.1
    refine ⟨docs, ls, k1, (k2 ⟨[95], [1, 2], false⟩).mpr ⟨h0, h1⟩, ?_⟩
    by_cases h : ∀ d, answer (openLocalDocument Env.toy d.id) kdb2 = .ok d → d ∈ docs ∧ LocalPrintable localLib false d
    · exact Or.inl (k4 h)
    · exact Or.inr (k3 (by
        by_cases hx : ∃ d, answer (openLocalDocument Env.toy d.id) kdb2 = .ok d ∧ ¬ (d ∈ docs ∧ LocalPrintable localLib false d)
        · exact hx
        · exact absurd (fun d hd => by
            by_cases hy : d ∈ docs ∧ LocalPrintable localLib false d
            · exact hy
            · exact absurd ⟨d, hd, hy⟩ hx) h))

/-- In another one it is lost, and that is reported. -/
example : ∃ ls, dumpLocals Env.toy localLib false none (damage [234]) = .failed ls := by
  obtain ⟨docs, ls, -, -, k2, -, k3⟩ := C80_local_documents_of_damaged_file Env.toy Env.toy_laws localLib false kdb2
    (damage [234]) kdb2_reachable rfl sampleDamaged.2
  refine ⟨ls, k3 ⟨⟨[95], [1, 2], false⟩, ok_of_toOption kdb_local.1, fun h => ?_⟩⟩
  have := ((k2 _).mp h.1).2
  have hn := kdb_local.2.2
  rw [show answer (openLocalDocument Env.toy [95]) (damage [234]) = _ from this] at hn
  cases hn

/-- Of a file that a crash has left, the local documents of the newest commit are dumped, in the order of their names.  Here the
machine crashes at any time after the first successful commit (or does not crash), and `img` is what is left of the file. -/
theorem C80_local_documents (E : Env) (L : E.Laws) (lib : LocalLib) (json : Bool)
    (getKey : KeyGetter) (s s' : Sys) (hs : History E getKey s)
    (hop : s' = s ∨ Op E getKey s s') (hc : s.cands ≠ [])
    (log : List Event) (h1 : s.db.file.log <:+ log) (h2 : log <:+ s'.db.file.log)
    (img : Bytes) (hi : CrashImage s.base log img) :
    ∃ c docs ls, (c ∈ s.cands ∨ c ∈ s'.cands) ∧ LocalsRight lib json docs ls ∧ docs.Pairwise (fun a b => a.id < b.id) ∧
      (∀ d, d ∈ docs ↔ answer (openLocalDocument E d.id) c.db = .ok d) ∧
      ((∀ d ∈ docs, LocalPrintable lib json d) →
        dumpLocalMain E lib json none getKey none (crashedFile img []) = .done ls docs.length) ∧
      ((∃ d ∈ docs, ¬ LocalPrintable lib json d) →
        dumpLocalMain E lib json none getKey none (crashedFile img []) = .failed ls) := by
  obtain ⟨s2, c, k1, k2, A, -, -, -⟩ := info_open L hs hop hc h1 h2 hi
  obtain ⟨ids, seqs, locs, hh⟩ := A.hist.handle
  obtain ⟨docs, ls, g1, g2, g3, g4, g5⟩ := locals_all (lib := lib) (json := json) L hh.inv hh.opened (db := s2.db) rfl
    (DamagedFile.none A.calm)
  have hans : ∀ id, answer (openLocalDocument E id) c.db = answer (openLocalDocument E id) s2.db := by
    intro id
    have := A.shows_.answers (.localDoc id) trivial
    exact (Reply.loc.inj this).symm
  have he : dumpLocalMain E lib json none getKey none (crashedFile img []) = dumpLocals E lib json none s2.db := by
    unfold dumpLocalMain openAtOffset
    rw [k1]
  rw [he]
  refine ⟨c, docs, ls, k2, g1, g2, fun d => ?_, fun h => g4 fun d hd => ?_, ?_⟩
  · rw [hans, g3 d]
    exact ⟨fun h => h.1, fun h => ⟨h, h⟩⟩
  · have hm := (g3 d).mpr ⟨hd, hd⟩
    exact ⟨hm, h d hm⟩
  · rintro ⟨d, hd, hn⟩
    exact g5 ⟨d, ((g3 d).mp hd).1, fun h => hn h.2⟩

/-- The local document of the sample is dumped as text. -/
example : ∃ docs ls, LocalsRight localLib false docs ls ∧ ⟨[95], [1, 2], false⟩ ∈ docs ∧
    dumpLocalMain Env.toy localLib false none none none (crashedFile (replay [] kdb3.file.log) []) = .done ls docs.length := by
  obtain ⟨c, docs, ls, k1, k2, -, k3, k4, -⟩ := C80_local_documents Env.toy Env.toy_laws localLib false none
    (oneCommit kdb0 kdb2 kdb3) _ sourceHist (Or.inl rfl) (by simp [oneCommit])
    kdb3.file.log (List.suffix_refl _) (List.suffix_refl _) (replay [] kdb3.file.log) (crashImage_replay _ _)
  obtain rfl : c = Commit.of kdb2 1000 := by simpa [oneCommit] using k1
  exact ⟨docs, ls, k2, (k3 ⟨[95], [1, 2], false⟩).mpr (ok_of_toOption kdb_local.1),
    k4 fun d _ => ⟨d.json, rfl, fun h => nomatch h⟩⟩

/-- With a name, that local document alone is dumped if it can be read; one that cannot be read, also because there is none,
is a failure. -/
theorem C80_one_local_document (E : Env) (L : E.Laws) (lib : LocalLib) (json : Bool) (db0 db : Db)
    (hr : Reachable E db0) (hdb : db = { db0 with file := db.file }) (D : DamagedFile E db0.file db.file) (d : LocalDoc)
    (h0 : answer (openLocalDocument E d.id) db0 = .ok d) :
    (answer (openLocalDocument E d.id) db = .ok d → ∃ ls, LocalRight lib json d ls ∧
      (LocalPrintable lib json d → dumpLocals E lib json (some d.id) db = .done ls 1) ∧
      (¬ LocalPrintable lib json d → dumpLocals E lib json (some d.id) db = .failed ls)) ∧
    (answer (openLocalDocument E d.id) db ≠ .ok d → dumpLocals E lib json (some d.id) db = .failed []) := by
  obtain ⟨⟨ids, seqs, locs, inv⟩, hd⟩ := hr.good L
  obtain ⟨evs, A⟩ := locals_at (lib := lib) (json := json) L inv hd hdb D
  obtain ⟨hdel, hm⟩ := (answer_local L inv hd d).mp h0
  have hdl : locDoc (d.id, d.json) = d := by obtain ⟨i, j, dl⟩ := d; cases hdel; rfl
  have hop := A.opens _ hm
  rw [hdl] at hop
  constructor
  · intro h
    obtain ⟨ls, e, g1, g2, g3⟩ := localPrint_some (lib := lib) (json := json) ⟨[], 0⟩ (d.id, d.json)
    rw [hdl] at g2 g3
    have := A.one _ (hop.mp h)
    rw [g1] at this
    refine ⟨ls, g2, fun hp => ?_, fun hp => ?_⟩
    · rw [g3.mpr hp] at this; exact this
    · cases e with
      | none => exact absurd (g3.mp rfl) hp
      | some x => exact this
  · intro h
    exact A.none_ _ hm fun hx => h (hop.mpr hx)

example : ∃ ls, LocalRight localLib false ⟨[95], [1, 2], false⟩ ls ∧
    dumpLocals Env.toy localLib false (some [95]) (damage [10, 40]) = .done ls 1 ∧
    dumpLocals Env.toy localLib false (some [95]) (damage [234]) = .failed [] := by
  have h0 := ok_of_toOption kdb_local.1
  obtain ⟨ls, k1, k2, -⟩ := (C80_one_local_document Env.toy Env.toy_laws localLib false kdb2 (damage [10, 40]) kdb2_reachable rfl
    sampleDamaged.1 ⟨[95], [1, 2], false⟩ h0).1 (ok_of_toOption kdb_local.2.1)
  refine ⟨ls, k1, k2 ⟨[1, 2], rfl, fun h => nomatch h⟩, ?_⟩
  refine (C80_one_local_document Env.toy Env.toy_laws localLib false kdb2 (damage [234]) kdb2_reachable rfl
    sampleDamaged.2 ⟨[95], [1, 2], false⟩ h0).2 fun h => ?_
  have hn := kdb_local.2.2
  rw [show answer (openLocalDocument Env.toy [95]) (damage [234]) = _ from h] at hn
  cases hn

/-- A local document that is not there. -/
theorem C80_missing_local_document (E : Env) (L : E.Laws) (lib : LocalLib) (json : Bool) (db : Db)
    (hr : Reachable E db) (hf : db.file.faults = []) (id : Bytes) (h : ∀ d, answer (openLocalDocument E id) db ≠ .ok d) :
    dumpLocals E lib json (some id) db = .failed [] := by
  obtain ⟨⟨ids, seqs, locs, inv⟩, hd⟩ := hr.good L
  exact dumpLocals_missing L inv hf id (answer_local_missing L inv hd id h)

example : dumpLocals Env.toy localLib false (some [94]) kdb2 = .failed [] := by
  refine C80_missing_local_document Env.toy Env.toy_laws localLib false kdb2 kdb2_reachable rdb_ok.2.1 [94] fun d h => ?_
  have hn : (answer (openLocalDocument Env.toy [94]) kdb2).toOption = none := by decide +kernel
  rw [h] at hn
  cases hn

end Couchstore.Props
