import Verif.Lemmas.DbDiff
import Verif.Props.DbDump

/-! C83: the program that compares two files.

The full claim is that it reports success exactly if the two files hold the same documents (`SameDocs`).  In the theorems about two
handles no raw file operation misbehaves. -/

namespace Couchstore.Props

/-- The program reports success exactly if all documents agree in what it compares.  Missing of the full claim: that this is to hold
the same documents, which is false (`C83_same_file_fails`, `C83_difference_is_missed`). -/
theorem C83_same_partial (E : Env) (L : E.Laws) (db1 db2 : Db) (hr1 : Reachable E db1) (hr2 : Reachable E db2)
    (hf1 : db1.file.faults = []) (hf2 : db2.file.faults = []) :
    diffDb E db1 db2 = .same ↔ AllAgree E db1 db2 := by
  obtain ⟨⟨ids1, seqs1, locs1, inv1⟩, hd1⟩ := hr1.good L
  obtain ⟨⟨ids2, seqs2, locs2, inv2⟩, hd2⟩ := hr2.good L
  have m1 := infoOf_mem L inv1 hd1
  have m2 := infoOf_mem L inv2 hd2
  have i1 := fun id d => infoOf_id (id := id) (d := d) L inv1 hd1
  have i2 := fun id d => infoOf_id (id := id) (d := d) L inv2 hd2
  rw [diffDb_eq L inv1 hd1 hf1 inv2 hd2 hf2]
  constructor
  · intro h
    cases hg : diffRun (deepOut E db1 db2) (ids1.map (·.info)) (.going []) with
    | failed ls => rw [hg] at h; cases h
    | undefined => rw [hg] at h; cases h
    | going ls =>
      rw [hg] at h
      dsimp only at h
      split at h
      · rename_i he
        obtain ⟨g1, rfl⟩ := (diffRun_going _ _ _ _).mp hg
        rw [List.isEmpty_iff, List.nil_append, List.append_eq_nil_iff, List.flatMap_eq_nil_iff, List.flatMap_eq_nil_iff] at he
        obtain ⟨e1, e2⟩ := he
        have k1 : ∀ a, infoOf E db1 a.id = some a → deepOut E db1 db2 a = .lines [] := by
          intro a ha
          have hm := (m1 a).mpr ha
          obtain ⟨l, hl⟩ := g1 a hm
          have := e1 a hm
          rw [hl] at this ⊢
          exact congrArg DiffOut.lines this
        have k2 : ∀ b, infoOf E db2 b.id = some b → (existOut E db1 b).ls = [] := fun b hb => e2 b ((m2 b).mpr hb)
        intro id
        cases ha : infoOf E db1 id with
        | none =>
          cases hb : infoOf E db2 id with
          | none => trivial
          | some b =>
            obtain rfl := i2 id b hb
            have := k2 b hb
            unfold existOut at this
            rw [ha] at this
            cases this
        | some a =>
          obtain rfl := i1 id a ha
          have := k1 a ha
          unfold deepOut at this
          cases hb : infoOf E db2 a.id with
          | none => rw [hb] at this; cases this
          | some b =>
            rw [hb] at this
            exact diffPair_nil.mp this
      · cases h
  · intro h
    have k1 : ∀ a ∈ ids1.map (·.info), deepOut E db1 db2 a = .lines [] := by
      intro a ha
      have ha := (m1 a).mp ha
      have := h a.id
      rw [ha] at this
      unfold deepOut
      cases hb : infoOf E db2 a.id with
      | none => rw [hb] at this; exact this.elim
      | some b => rw [hb] at this; exact diffPair_nil.mpr this
    have k2 : ∀ b ∈ ids2.map (·.info), (existOut E db1 b).ls = [] := by
      intro b hb
      have hb := (m2 b).mp hb
      have := h b.id
      rw [hb] at this
      unfold existOut
      cases ha : infoOf E db1 b.id with
      | none => rw [ha] at this; exact this.elim
      | some a =>
        rw [ha] at this
        have hdel := this.deleted
        simp [DiffOut.ls, hdel]
    rw [(diffRun_going (deepOut E db1 db2) (ids1.map (·.info)) [] []).mpr ⟨fun d hd => ⟨[], k1 d hd⟩, by
      rw [List.nil_append, eq_comm, List.flatMap_eq_nil_iff]
      intro d hd
      rw [k1 d hd]
      rfl⟩]
    dsimp only
    rw [if_pos]
    rw [List.isEmpty_iff, List.nil_append, List.flatMap_eq_nil_iff]
    exact k2

/-- If the program reports differences, then it names exactly the documents that are missing in one of the files, and says of each
document in both files exactly in what it differs. -/
theorem C83_lines (E : Env) (L : E.Laws) (db1 db2 : Db) (hr1 : Reachable E db1) (hr2 : Reachable E db2)
    (hf1 : db1.file.faults = []) (hf2 : db2.file.faults = []) (ls : List DiffLine) (h : diffDb E db1 db2 = .differ ls) :
    ls ≠ [] ∧
    (∀ id, .missing id false ∈ ls ↔ infoOf E db1 id ≠ none ∧ infoOf E db2 id = none) ∧
    (∀ id, .missing id true ∈ ls ↔ ∃ b, infoOf E db2 id = some b ∧ ∀ a, infoOf E db1 id = some a → a.deleted ≠ b.deleted) ∧
    (∀ id f, .differs id f ∈ ls ↔ ∃ a b, infoOf E db1 id = some a ∧ infoOf E db2 id = some b ∧
      FieldDiffers E a b (rawBodyOf E db1 id) (rawBodyOf E db2 id) f) := by
  obtain ⟨⟨ids1, seqs1, locs1, inv1⟩, hd1⟩ := hr1.good L
  obtain ⟨⟨ids2, seqs2, locs2, inv2⟩, hd2⟩ := hr2.good L
  have m1 := infoOf_mem L inv1 hd1
  have m2 := infoOf_mem L inv2 hd2
  have i1 := fun id d => infoOf_id (id := id) (d := d) L inv1 hd1
  have i2 := fun id d => infoOf_id (id := id) (d := d) L inv2 hd2
  rw [diffDb_eq L inv1 hd1 hf1 inv2 hd2 hf2] at h
  cases hg : diffRun (deepOut E db1 db2) (ids1.map (·.info)) (.going []) with
  | failed ls => rw [hg] at h; cases h
  | undefined => rw [hg] at h; cases h
  | going l1 =>
    rw [hg] at h
    dsimp only at h
    split at h
    · cases h
    · rename_i hne
      cases h
      obtain ⟨g1, rfl⟩ := (diffRun_going _ _ _ _).mp hg
      refine ⟨fun h => hne (List.isEmpty_iff.mpr h), ?_⟩
      have h1 : ∀ l, l ∈ ([] ++ (ids1.map (·.info)).flatMap fun d => (deepOut E db1 db2 d).ls) ↔
          ∃ a, infoOf E db1 a.id = some a ∧ l ∈ (deepOut E db1 db2 a).ls := by
        intro l
        rw [List.nil_append, List.mem_flatMap]
        exact exists_congr fun a => and_congr_left' (m1 a)
      have h2 : ∀ l, l ∈ ((ids2.map (·.info)).flatMap fun d => (existOut E db1 d).ls) ↔
          ∃ b, infoOf E db2 b.id = some b ∧ l ∈ (existOut E db1 b).ls := by
        intro l
        rw [List.mem_flatMap]
        exact exists_congr fun b => and_congr_left' (m2 b)
      have hpair : ∀ a b, infoOf E db1 a.id = some a → infoOf E db2 a.id = some b →
          ∃ l, diffPair E a b (rawBodyOf E db1 a.id) (rawBodyOf E db2 a.id) = .lines l ∧ (deepOut E db1 db2 a).ls = l := by
        intro a b ha hb
        obtain ⟨l, hl⟩ := g1 a ((m1 a).mpr ha)
        refine ⟨l, ?_, by rw [hl]; rfl⟩
        unfold deepOut at hl
        rw [hb] at hl
        exact hl
      have hex : ∀ b l, l ∈ (existOut E db1 b).ls ↔
          l = .missing b.id true ∧ ∀ a, infoOf E db1 b.id = some a → a.deleted ≠ b.deleted := by
        intro b l
        unfold existOut DiffOut.ls
        dsimp only
        cases infoOf E db1 b.id with
        | none => simp
        | some o =>
          dsimp only
          by_cases hd : o.deleted = b.deleted
          · simp [hd]
          · simp [hd]
      refine ⟨fun id => ?_, fun id => ?_, fun id f => ?_⟩
      · rw [List.mem_append, h1, h2]
        constructor
        · rintro (⟨a, ha, hl⟩ | ⟨b, hb, hl⟩)
          · cases hb : infoOf E db2 a.id with
            | none =>
              unfold deepOut at hl
              rw [hb] at hl
              simp only [DiffOut.ls, List.mem_singleton, DiffLine.missing.injEq, and_true] at hl
              subst hl
              exact ⟨by rw [ha]; simp, hb⟩
            | some b =>
              obtain ⟨l, k1, k2⟩ := hpair a b ha hb
              rw [k2] at hl
              obtain ⟨f, hf⟩ := diffPair_lines k1 _ hl
              cases hf
          · rw [hex] at hl
            simp at hl
        · rintro ⟨h3, h4⟩
          obtain ⟨a, ha⟩ := Option.ne_none_iff_exists'.mp h3
          obtain rfl := i1 id a ha
          refine Or.inl ⟨a, ha, ?_⟩
          unfold deepOut
          rw [h4]
          simp [DiffOut.ls]
      · rw [List.mem_append, h1, h2]
        constructor
        · rintro (⟨a, ha, hl⟩ | ⟨b, hb, hl⟩)
          · cases hb : infoOf E db2 a.id with
            | none =>
              unfold deepOut at hl
              rw [hb] at hl
              simp [DiffOut.ls] at hl
            | some b =>
              obtain ⟨l, k1, k2⟩ := hpair a b ha hb
              rw [k2] at hl
              obtain ⟨f, hf⟩ := diffPair_lines k1 _ hl
              cases hf
          · rw [hex] at hl
            obtain ⟨e, hl⟩ := hl
            cases e
            exact ⟨b, hb, hl⟩
        · rintro ⟨b, hb, hl⟩
          obtain rfl := i2 id b hb
          exact Or.inr ⟨b, hb, (hex _ _).mpr ⟨rfl, hl⟩⟩
      · rw [List.mem_append, h1, h2]
        constructor
        · rintro (⟨a, ha, hl⟩ | ⟨b, hb, hl⟩)
          · cases hb : infoOf E db2 a.id with
            | none =>
              unfold deepOut at hl
              rw [hb] at hl
              simp [DiffOut.ls] at hl
            | some b =>
              obtain ⟨l, k1, k2⟩ := hpair a b ha hb
              rw [k2] at hl
              obtain ⟨rfl, hf⟩ := (mem_diffPair k1 id f).mp hl
              exact ⟨a, b, ha, hb, hf⟩
          · rw [hex] at hl
            cases hl.1
        · rintro ⟨a, b, ha, hb, hf⟩
          obtain rfl := i1 id a ha
          obtain ⟨l, k1, k2⟩ := hpair a b ha hb
          refine Or.inl ⟨a, ha, ?_⟩
          rw [k2]
          exact (mem_diffPair k1 _ f).mpr ⟨rfl, hf⟩

/-- For files that hold the same documents the program reports success, if the bodies that the data service has not compressed can
be decompressed all the same (and those that it has compressed take as many bytes).  Missing of the full claim: other bodies. -/
theorem C83_same_documents_partial (E : Env) (L : E.Laws) (db1 db2 : Db) (hr1 : Reachable E db1) (hr2 : Reachable E db2)
    (hf1 : db1.file.faults = []) (hf2 : db2.file.faults = []) (hs : SameDocs E db1 db2)
    (h17 : ∀ id a, infoOf E db1 id = some a → a.revMeta.length ≠ 17)
    (hsize : ∀ id a b, infoOf E db1 id = some a → infoOf E db2 id = some b → a.saysSnappy = true → a.physicalSize = b.physicalSize)
    (hbody : ∀ id a, infoOf E db1 id = some a → a.deleted = false → ∃ p, rawBodyOf E db1 id = some p ∧
      (a.saysSnappy = false → E.inflate p ≠ none)) :
    diffDb E db1 db2 = .same := by
  rw [C83_same_partial E L db1 db2 hr1 hr2 hf1 hf2]
  intro id
  obtain ⟨h1, h2⟩ := hs id
  cases ha : infoOf E db1 id with
  | none =>
    rw [ha] at h1
    cases hb : infoOf E db2 id with
    | none => trivial
    | some b => rw [hb] at h1; cases h1
  | some a =>
    rw [ha] at h1
    cases hb : infoOf E db2 id with
    | none => rw [hb] at h1; cases h1
    | some b =>
      rw [hb] at h1
      simp only [Option.map_some, Option.some.injEq, DocInfo.mk.injEq] at h1
      have hm : a.revMeta = b.revMeta := by simp_all
      refine ⟨by simp_all, by simp_all, by simp_all, by simp_all, ?_, hsize id a b ha hb, fun hdel => ?_⟩
      · rw [← hm]
        refine ⟨rfl, h17 id a ha, ?_⟩
        split <;> simp
      · obtain ⟨p, hp, hi⟩ := hbody id a ha hdel
        refine ⟨p, p, hp, h2 ▸ hp, ?_⟩
        cases hsn : a.saysSnappy with
        | true => rfl
        | false =>
          obtain ⟨z, hz⟩ := Option.ne_none_iff_exists'.mp (hi hsn)
          exact ⟨z, hz, hz⟩

/-! ### What is not so -/

/-- The program decompresses the bodies that are not compressed: one document of both files, whose body is not compressed by the data
service and cannot be decompressed, ends it with an error, also if the files hold the same documents. -/
theorem C83_plain_body_fails (E : Env) (L : E.Laws) (db1 db2 : Db) (hr1 : Reachable E db1) (hr2 : Reachable E db2)
    (hf1 : db1.file.faults = []) (hf2 : db2.file.faults = []) (h17 : NoSeventeen E db1 db2)
    (id : Bytes) (a b : DocInfo) (p : Bytes) (ha : infoOf E db1 id = some a) (hb : infoOf E db2 id = some b)
    (hlive : a.deleted = false) (hplain : a.saysSnappy = false) (hp : rawBodyOf E db1 id = some p) (hi : E.inflate p = none) :
    ∃ ls, diffDb E db1 db2 = .failed ls := by
  obtain ⟨⟨ids1, seqs1, locs1, inv1⟩, hd1⟩ := hr1.good L
  obtain ⟨⟨ids2, seqs2, locs2, inv2⟩, hd2⟩ := hr2.good L
  have m1 := infoOf_mem L inv1 hd1
  obtain rfl := infoOf_id L inv1 hd1 ha
  have hbey : ∀ id a b, infoOf E db1 id = some a → infoOf E db2 id = some b → diffBeyond a b = false := by
    intro id a b ha hb
    have := h17 id a b ha hb
    simpa [diffBeyond] using this
  obtain ⟨ls, hls⟩ := diffRun_failed (deepOut E db1 db2) (ids1.map (·.info)) [] (by
    intro d hd
    have hd := (m1 d).mp hd
    unfold deepOut
    cases ho : infoOf E db2 d.id with
    | none => simp
    | some o =>
      dsimp only
      unfold diffPair
      rw [hbey _ d o hd ho]
      simp only [Bool.false_eq_true, if_false]
      split <;> simp) ⟨a, (m1 a).mpr ha, (diffInfo a b).map (DiffLine.differs a.id), by
    unfold deepOut
    rw [hb]
    dsimp only
    unfold diffPair
    rw [hbey _ a b ha hb, diffBody_eq (hbey _ a b ha hb)]
    simp [comparedBody, hlive, hplain, hp, hi]⟩
  exact ⟨ls, by rw [diffDb_eq L inv1 hd1 hf1 inv2 hd2 hf2, hls]⟩

/-- A document with the metadata of the data service; the body is as it is stored. -/
def diffItem (id body : Bytes) (sync : Option SyncState) (datatype : Nat) : SaveItem :=
  ⟨some body, ⟨id, 0, 1, (KvMeta.mk 77 5 1 false datatype sync).bytes, false, 0, 0, 0⟩, 5⟩

/-- The document `a` is in the state of a pending write, with the level 1; `b` is compressed by the data service. -/
def diffItems1 : List SaveItem := [diffItem [97] [7, 1, 2] (some (.pending 1 false)) 0, diffItem [98] [7, 5] none 2]
/-- The same with another level. -/
def diffItems2 : List SaveItem := [diffItem [97] [7, 1, 2] (some (.pending 2 false)) 0, diffItem [98] [7, 5] none 2]
/-- Another body, and other documents. -/
def diffItems3 : List SaveItem := [diffItem [97] [7, 1, 3] (some (.pending 1 false)) 0, diffItem [99] [7, 5] none 2]
/-- A plain body. -/
def diffItems4 : List SaveItem := [diffItem [97] [1, 2] none 0, diffItem [98] [7, 5] none 2]

def diffSample (items : List SaveItem) : Db := after (saveDocuments Env.toy sampleOpts (some sampleCb) items []) newDb

theorem diffReach1 : Reachable Env.toy (diffSample diffItems1) :=
  ⟨newDb, .inl newDb_fresh, .step .refl (.save sampleOpts (some sampleCb) diffItems1 [] (args_of (by decide +kernel)))⟩
theorem diffReach2 : Reachable Env.toy (diffSample diffItems2) :=
  ⟨newDb, .inl newDb_fresh, .step .refl (.save sampleOpts (some sampleCb) diffItems2 [] (args_of (by decide +kernel)))⟩
theorem diffReach3 : Reachable Env.toy (diffSample diffItems3) :=
  ⟨newDb, .inl newDb_fresh, .step .refl (.save sampleOpts (some sampleCb) diffItems3 [] (args_of (by decide +kernel)))⟩
theorem diffReach4 : Reachable Env.toy (diffSample diffItems4) :=
  ⟨newDb, .inl newDb_fresh, .step .refl (.save sampleOpts (some sampleCb) diffItems4 [] (args_of (by decide +kernel)))⟩

/-- What is needed of the samples, evaluated at once. -/
theorem diffRuns :
    (diffDb Env.toy (diffSample diffItems1) (diffSample diffItems2) = .same ∧
      (diffSample diffItems1).file.faults.isEmpty = true ∧ (diffSample diffItems2).file.faults.isEmpty = true) ∧
    (diffDb Env.toy (diffSample diffItems1) (diffSample diffItems3) =
      .differ [.differs [97] .body, .missing [98] false, .missing [99] true] ∧ (diffSample diffItems3).file.faults.isEmpty = true) ∧
    diffDb Env.toy (diffSample diffItems4) (diffSample diffItems4) = .failed [] ∧
    (diffSample diffItems4).file.faults.isEmpty = true ∧
    ((infoOf Env.toy (diffSample diffItems1) [97]).map (·.revMeta.length) = some 25 ∧
      (infoOf Env.toy (diffSample diffItems1) [97]).map (fun d => d.revMeta[24]?) = some (some 2) ∧
      (infoOf Env.toy (diffSample diffItems2) [97]).map (fun d => d.revMeta[24]?) = some (some 4) ∧
      (infoOf Env.toy (diffSample diffItems1) [98]).map (·.saysSnappy) = some true) := by
  decide +kernel

/-- Of a file and itself the program says that they cannot be compared. -/
theorem C83_same_file_fails : ∃ db, Reachable Env.toy db ∧ db.file.faults = [] ∧ SameDocs Env.toy db db ∧
    diffDb Env.toy db db = .failed [] :=
  ⟨diffSample diffItems4, diffReach4, List.isEmpty_iff.mp diffRuns.2.2.2.1, fun _ => ⟨rfl, rfl⟩, diffRuns.2.2.1⟩

/-- Of two files that differ in the state of a pending write the program says that they are the same. -/
theorem C83_difference_is_missed : ∃ db1 db2, Reachable Env.toy db1 ∧ Reachable Env.toy db2 ∧ db1.file.faults = [] ∧
    db2.file.faults = [] ∧ ¬ SameDocs Env.toy db1 db2 ∧ diffDb Env.toy db1 db2 = .same := by
  refine ⟨diffSample diffItems1, diffSample diffItems2, diffReach1, diffReach2, List.isEmpty_iff.mp diffRuns.1.2.1,
    List.isEmpty_iff.mp diffRuns.1.2.2, fun h => ?_, diffRuns.1.1⟩
  obtain ⟨-, h1, h2, -⟩ := diffRuns.2.2.2.2
  have h3 := congrArg (Option.map fun d : DocInfo => d.revMeta[24]?) (h [97]).1
  rw [Option.map_map, Option.map_map] at h3
  have h4 := (h1.symm.trans h3).trans h2
  revert h4
  decide

/-- The samples meet the hypotheses: all documents of the first two agree, and of the third other ones are named. -/
example : AllAgree Env.toy (diffSample diffItems1) (diffSample diffItems2) := by
  have h := C83_same_partial Env.toy Env.toy_laws (diffSample diffItems1) (diffSample diffItems2) diffReach1 diffReach2
    (List.isEmpty_iff.mp diffRuns.1.2.1) (List.isEmpty_iff.mp diffRuns.1.2.2)
  have h2 := diffRuns.1.1
  rwa [h] at h2

example : infoOf Env.toy (diffSample diffItems3) [98] = none ∧ infoOf Env.toy (diffSample diffItems1) [99] = none := by
  obtain ⟨-, h1, h2, -⟩ := C83_lines Env.toy Env.toy_laws (diffSample diffItems1) (diffSample diffItems3) diffReach1 diffReach3 (List.isEmpty_iff.mp diffRuns.1.2.1)
    (List.isEmpty_iff.mp diffRuns.2.1.2) _ diffRuns.2.1.1
  refine ⟨((h1 [98]).mp (by simp)).2, ?_⟩
  obtain ⟨b, hb, ha⟩ := (h2 [99]).mp (by simp)
  have : (infoOf Env.toy (diffSample diffItems1) [99]).isNone = true := by decide +kernel
  exact Option.isNone_iff_eq_none.mp this

/-- What is found is among the documents. -/
theorem mem_dumped {E : Env} (L : E.Laws) {db : Db} (hr : Reachable E db) {id : Bytes} {d : DocInfo} (h : infoOf E db id = some d) :
    d ∈ dumped E db .byId ∧ d.id = id := by
  obtain ⟨⟨ids, seqs, locs, inv⟩, hd⟩ := hr.good L
  obtain rfl := infoOf_id L inv hd h
  rw [dumped_byId L inv hd]
  exact ⟨(infoOf_mem L inv hd d).mpr h, rfl⟩

/-- All that is needed about the documents of the samples. -/
theorem diffDocs :
    ((dumped Env.toy (diffSample diffItems1) .byId).all fun d => d.revMeta.length != 17 &&
      (match rawBodyOf Env.toy (diffSample diffItems1) d.id with
        | some p => (Env.toy.inflate p).isSome
        | none => false)) = true ∧
    (dumped Env.toy (diffSample diffItems1) .byId).length = 2 ∧
    ((dumped Env.toy (diffSample diffItems4) .byId).all fun d => d.revMeta.length != 17) = true ∧
    (match infoOf Env.toy (diffSample diffItems4) [97] with
      | some d => !d.deleted && !d.saysSnappy
      | none => false) = true ∧
    rawBodyOf Env.toy (diffSample diffItems4) [97] = some [1, 2] := by
  decide +kernel

/-- The hypotheses of `C83_same_documents_partial` are met by a file with two documents. -/
example : diffDb Env.toy (diffSample diffItems1) (diffSample diffItems1) = .same := by
  have hall := List.all_eq_true.mp diffDocs.1
  refine C83_same_documents_partial Env.toy Env.toy_laws (diffSample diffItems1) (diffSample diffItems1) diffReach1 diffReach1
    (List.isEmpty_iff.mp diffRuns.1.2.1) (List.isEmpty_iff.mp diffRuns.1.2.1) (fun _ => ⟨rfl, rfl⟩) ?_ ?_ ?_
  · intro id a ha
    have := hall a (mem_dumped Env.toy_laws diffReach1 ha).1
    simp only [Bool.and_eq_true, bne_iff_ne] at this
    exact this.1
  · intro id a b ha hb _
    rw [ha] at hb
    cases hb
    rfl
  · intro id a ha _
    obtain ⟨h1, rfl⟩ := mem_dumped Env.toy_laws diffReach1 ha
    have := hall a h1
    simp only [Bool.and_eq_true, bne_iff_ne] at this
    cases hp : rawBodyOf Env.toy (diffSample diffItems1) a.id with
    | none => rw [hp] at this; cases this.2
    | some p =>
      rw [hp] at this
      refine ⟨p, rfl, fun _ h => ?_⟩
      have h2 : (Env.toy.inflate p).isSome = true := this.2
      rw [h] at h2
      cases h2

/-- The hypotheses of `C83_plain_body_fails` are met by a file with a plain document. -/
example : ∃ ls, diffDb Env.toy (diffSample diffItems4) (diffSample diffItems4) = .failed ls := by
  obtain ⟨-, -, h1, h2, h3⟩ := diffDocs
  cases ha : infoOf Env.toy (diffSample diffItems4) [97] with
  | none => rw [ha] at h2; cases h2
  | some a =>
    rw [ha] at h2
    simp only [Bool.and_eq_true, Bool.not_eq_true'] at h2
    refine C83_plain_body_fails Env.toy Env.toy_laws (diffSample diffItems4) (diffSample diffItems4) diffReach4 diffReach4
      (List.isEmpty_iff.mp diffRuns.2.2.2.1) (List.isEmpty_iff.mp diffRuns.2.2.2.1) ?_ [97] a a [1, 2] ha ha h2.1 h2.2 h3 rfl
    rintro id x y hx - ⟨h, -⟩
    have := List.all_eq_true.mp h1 x (mem_dumped Env.toy_laws diffReach4 hx).1
    simp only [bne_iff_ne] at this
    exact this h

/-! ### Files -/

theorem infoOf_same {E : Env} {db db' : Db} (h : SameAnswers E db db') (id : Bytes) : infoOf E db' id = infoOf E db id := by
  unfold infoOf
  rw [h (.docinfo id) trivial]

theorem rawBodyOf_same {E : Env} {db db' : Db} (h : SameAnswers E db db') (id : Bytes) : rawBodyOf E db' id = rawBodyOf E db id := by
  unfold rawBodyOf
  rw [h (.open id false) trivial]

/-- The same for two files, each of which is what a crash has left: it is the newest commits that are compared.  Missing is the same as
in `C83_same_partial`. -/
theorem C83_files_partial (E : Env) (L : E.Laws) (getKey : KeyGetter)
    (s s' : Sys) (hs : History E getKey s) (hop : s' = s ∨ Op E getKey s s') (hc : s.cands ≠ [])
    (log : List Event) (h1 : s.db.file.log <:+ log) (h2 : log <:+ s'.db.file.log) (img : Bytes) (hi : CrashImage s.base log img)
    (t t' : Sys) (ht : History E getKey t) (top : t' = t ∨ Op E getKey t t') (tc : t.cands ≠ [])
    (tlog : List Event) (t1 : t.db.file.log <:+ tlog) (t2 : tlog <:+ t'.db.file.log) (timg : Bytes) (ti : CrashImage t.base tlog timg) :
    ∃ c d, (c ∈ s.cands ∨ c ∈ s'.cands) ∧ (d ∈ t.cands ∨ d ∈ t'.cands) ∧
      (diffMain E getKey (crashedFile img []) (crashedFile timg []) = .same ↔ AllAgree E c.db d.db) := by
  obtain ⟨u, c, k1, k2, A, -, -, -⟩ := info_open L hs hop hc h1 h2 hi
  obtain ⟨v, d, l1, l2, B, -, -, -⟩ := info_open L ht top tc t1 t2 ti
  have hru : Reachable E u.db :=
    ⟨u.db, Or.inr ⟨getKey, _, History.crash infoFlags [] hs hop hc h1 h2 hi (infoFlags_ok false).thr k1, rfl⟩, .refl⟩
  have hrv : Reachable E v.db :=
    ⟨v.db, Or.inr ⟨getKey, _, History.crash infoFlags [] ht top tc t1 t2 ti (infoFlags_ok false).thr l1, rfl⟩, .refl⟩
  refine ⟨c, d, k2, l2, ?_⟩
  have hm : diffMain E getKey (crashedFile img []) (crashedFile timg []) = diffDb E u.db v.db := by
    unfold diffMain openAtOffset
    rw [k1, l1]
  rw [hm, C83_same_partial E L u.db v.db hru hrv A.calm B.calm]
  unfold AllAgree
  simp only [infoOf_same A.shows_.answers, infoOf_same B.shows_.answers, rawBodyOf_same A.shows_.answers, rawBodyOf_same B.shows_.answers]

/-- The newest commit of the sample, and what a crash right after it leaves: they are compared with each other. -/
example : diffMain Env.toy sampleGetKey (crashedFile (replay [] hdb4.file.log) []) (crashedFile (replay [] hdb4.file.log) []) = .same ↔
    AllAgree Env.toy hdb3 hdb3 := by
  obtain ⟨c, d, k1, k2, k3⟩ := C83_files_partial Env.toy Env.toy_laws sampleGetKey
    (twoCommits4 hdb0 hdb1 hdb2 hdb3 hdb4) _ sampleHist4 (Or.inl rfl) (by simp [twoCommits4])
    hdb4.file.log (List.suffix_refl _) (List.suffix_refl _) (replay [] hdb4.file.log) (crashImage_replay _ _)
    (twoCommits4 hdb0 hdb1 hdb2 hdb3 hdb4) _ sampleHist4 (Or.inl rfl) (by simp [twoCommits4])
    hdb4.file.log (List.suffix_refl _) (List.suffix_refl _) (replay [] hdb4.file.log) (crashImage_replay _ _)
  obtain rfl : c = Commit.of hdb3 2000 := by simpa [twoCommits4] using k1
  obtain rfl : d = Commit.of hdb3 2000 := by simpa [twoCommits4] using k2
  exact k3

/-- A file that cannot be opened is an error. -/
theorem C83_unreadable_file (E : Env) (getKey : KeyGetter) (f1 f2 g : File) (er : Err)
    (h : openDb E infoFlags getKey [] f1 = .error er g ∨ openDb E infoFlags getKey [] f2 = .error er g) :
    diffMain E getKey f1 f2 = .failed [] := by
  unfold diffMain openAtOffset
  rcases h with h | h
  · rw [h]
  · rw [h]
    dsimp only
    split <;> rfl

example : diffMain Env.toy none File.empty File.empty = .failed [] := by
  have run : (match openDb Env.toy infoFlags none [] File.empty with
    | .error _ _ => true
    | .ok _ _ => false) = true := by decide +kernel
  cases e : openDb Env.toy infoFlags none [] File.empty with
  | ok db g => rw [e] at run; cases run
  | error er g => exact C83_unreadable_file Env.toy none File.empty File.empty g er (Or.inl e)

end Couchstore.Props
