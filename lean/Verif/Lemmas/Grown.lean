import Verif.Lemmas.ReplayRun

/-! Saving documents makes a database grow. -/

namespace Couchstore

theorem documents_same {E : Env} {a b : Db} (h : SameAnswers E a b) : documents E a = documents E b := by
  unfold documents
  rw [h _ (by show 0 < 2 ^ 48; omega)]

theorem storedBodyOf_same {E : Env} {a b : Db} (h : SameAnswers E a b) (id : Bytes) : storedBodyOf E a id = storedBodyOf E b id := by
  unfold storedBodyOf
  rw [h (.open id false) trivial]

theorem lastSeq_same {E : Env} {a b : Db} (h : SameAnswers E a b) : lastSeqOf E a = lastSeqOf E b := by
  unfold lastSeqOf
  rw [h .info trivial]

theorem Grown.congr {E : Env} {a a' b b' : Db} (G : Grown E a b) (ha : SameAnswers E a a') (hb : SameAnswers E b b') :
    Grown E a' b' := by
  have h1 := documents_same ha
  have h2 := documents_same hb
  have h3 := lastSeq_same ha
  have h4 := lastSeq_same hb
  refine ⟨?_, ?_, ?_, ?_⟩
  · rw [← h1, ← h2, ← h3]
    intro d hd
    rw [← storedBodyOf_same ha, ← storedBodyOf_same hb]
    exact G.docs d hd
  · rw [← h1, ← h2]; exact G.kept
  · rw [← h2, ← h3, ← h4]; exact G.last
  · intro id v h
    rw [ha (.localDoc id) trivial] at h
    rw [hb (.localDoc id) trivial]
    exact G.locals id v h

theorem Grown.refl (E : Env) (a : Db) : Grown E a a :=
  ⟨fun _ hd => .inr ⟨hd, rfl⟩, fun d hd => ⟨d, hd, rfl⟩, .inl rfl, fun _ v h => ⟨v, h⟩⟩

theorem Grown.trans {E : Env} (L : E.Laws) {a b c : Db} {bids bseqs blocs cids cseqs clocs}
    (ib : Inv E b bids bseqs blocs) (hb : b.dropped = false) (ic : Inv E c cids cseqs clocs) (hc : c.dropped = false)
    (G : Grown E a b) (G' : Grown E b c) : Grown E a c := by
  have hab : lastSeqOf E a ≤ lastSeqOf E b := by rcases G.last with h | h <;> omega
  refine ⟨fun d hd => ?_, fun d hd => ?_, ?_, fun id v h => ?_⟩
  · rcases G'.docs d hd with h | ⟨h, h'⟩
    · exact .inl (by omega)
    · rcases G.docs d h with h1 | ⟨h1, h2⟩
      · exact .inl h1
      · exact .inr ⟨h1, h2.trans h'⟩
  · obtain ⟨d1, h1, h2⟩ := G.kept d hd
    obtain ⟨d2, h3, h4⟩ := G'.kept d1 h1
    exact ⟨d2, h3, h4.trans h2⟩
  · rcases G'.last with h | ⟨h, d, hd, hs⟩
    · rcases G.last with h1 | ⟨h1, d, hd, hs⟩
      · exact .inl (h.trans h1)
      · refine .inr ⟨by omega, ?_⟩
        obtain ⟨d', hd', hid⟩ := G'.kept d hd
        refine ⟨d', hd', ?_⟩
        rcases G'.docs d' hd' with h2 | ⟨h2, -⟩
        · rw [documents_eq L ic hc] at hd'
          obtain ⟨e, he, rfl⟩ := List.mem_map.mp hd'
          have := ic.upd e (ic.perm.mem_iff.mp he)
          rw [lastSeq_eq L ic hc] at h
          omega
        · rw [documents_eq L ib hb] at h2 hd
          obtain ⟨e, he, rfl⟩ := List.mem_map.mp h2
          obtain ⟨e', he', rfl⟩ := List.mem_map.mp hd
          have h3 := entFind_of_mem ib.idSorted (ib.perm.mem_iff.mp he)
          have h4 := entFind_of_mem ib.idSorted (ib.perm.mem_iff.mp he')
          rw [hid, h4] at h3
          cases h3
          rw [hs, h]
    · exact .inr ⟨by omega, d, hd, hs⟩
  · obtain ⟨v', h'⟩ := G.locals id v h
    exact G'.locals id v' h'

variable {σ : Type}

theorem assignAll_seqs {opts : SaveOpts} (ha : opts.asIs = false) (its : List SaveItem) (seq : Nat) :
    ∀ d ∈ (assignAll opts seq its).1, seq < d.dbSeq ∧ d.dbSeq ≤ (assignAll opts seq its).2 := by
  obtain ⟨h1, h2⟩ := assignAll_false ha its seq
  intro d hd
  have := List.mem_map_of_mem (f := (·.dbSeq)) hd
  rw [h1] at this
  obtain ⟨i, hi, h3⟩ := List.mem_map.mp this
  rw [List.mem_range] at hi
  omega

theorem save_grown (E : Env) (L : E.Laws) (opts : SaveOpts) (ha : opts.asIs = false) (cb : Option (SaveCb σ))
    (its : List SaveItem) (u : σ) (db : Db) {ids seqs locs} (inv : Inv E db ids seqs locs) (hd : db.dropped = false)
    (args : SaveArgs E db opts its) : Grown E db (after (saveDocuments E opts cb its u) db) := by
  have h := saveDocuments_spec E L opts cb its u db inv hd (args.fits L inv hd)
  unfold Sp at h
  unfold after
  cases hx : saveDocuments E opts cb its u db with
  | error e d =>
    rw [hx] at h
    refine (Grown.refl E db).congr (fun _ _ => rfl) fun q hq => ?_
    rw [ask_eq E L inv hd q hq, ask_eq E L (h.inv inv) (by rw [h.1]; exact hd) q hq, show d.header = db.header by rw [h.1]]
  | ok r d =>
    rw [hx] at h
    obtain ⟨-, h2, h3, -, h5, es, ids', seqs', h6, -, h8, h9⟩ := h
    dsimp only
    have hlast : d.header.updateSeq = (assignAll opts db.header.updateSeq its).2 := by rw [h2]
    obtain ⟨f1, f2, f3⟩ := h6.get
    have hes : ∀ e ∈ es, db.header.updateSeq < e.info.dbSeq := by
      intro e he
      obtain ⟨i, hi⟩ := List.getElem?_of_mem he
      have hlt : i < its.length := by rw [f2]; exact (List.getElem?_eq_some_iff.mp hi).1
      obtain ⟨dd, e', h1, h1', h1''⟩ := f3 i its[i] (List.getElem?_eq_getElem hlt)
      rw [hi] at h1'
      cases h1'
      have := (h1''.fields).1
      have hs : e.info.dbSeq = dd.dbSeq := by rw [this]
      rw [hs]
      rw [h5] at h1
      exact (assignAll_seqs ha its _ dd (List.mem_of_getElem? h1)).1
    have hmem : ∀ e, e ∈ seqs' ↔ e ∈ es ∨ e ∈ ids ∧ ∀ x ∈ es, x.info.id ≠ e.info.id := by
      intro e
      rw [h9.perm.mem_iff]
      exact h8.mem e
    refine ⟨?_, ?_, ?_, ?_⟩
    · rw [lastSeq_eq L inv hd, documents_eq L inv hd, documents_eq L h9 h3]
      intro x hx
      obtain ⟨e, he, rfl⟩ := List.mem_map.mp hx
      rcases (hmem e).mp he with h | ⟨h, -⟩
      · exact .inl (hes e h)
      · refine .inr ⟨List.mem_map.mpr ⟨e, inv.perm.mem_iff.mpr h, rfl⟩, ?_⟩
        rw [storedBodyOf_eq L inv hd h, storedBodyOf_eq L h9 h3 (h9.perm.mem_iff.mp he)]
    · rw [documents_eq L inv hd, documents_eq L h9 h3]
      intro x hx
      obtain ⟨e, he, rfl⟩ := List.mem_map.mp hx
      by_cases hin : ∀ x ∈ es, x.info.id ≠ e.info.id
      · exact ⟨e.info, List.mem_map.mpr ⟨e, (hmem e).mpr (.inr ⟨inv.perm.mem_iff.mp he, hin⟩), rfl⟩, rfl⟩
      · simp only [not_forall, not_not] at hin
        obtain ⟨x, hx, hid⟩ := hin
        exact ⟨x.info, List.mem_map.mpr ⟨x, (hmem x).mpr (.inl hx), rfl⟩, hid⟩
    · rw [lastSeq_eq L inv hd, documents_eq L h9 h3, lastSeq_eq L h9 h3, hlast]
      obtain ⟨g1, g2⟩ := assignAll_false ha its db.header.updateSeq
      by_cases hn : its.length = 0
      · exact .inl (by rw [g2]; omega)
      · refine .inr ⟨by rw [g2]; omega, ?_⟩
        obtain ⟨dd, e, k1, k2, k3⟩ := f3 (its.length - 1) its[its.length - 1] (List.getElem?_eq_getElem (by omega))
        refine ⟨e.info, List.mem_map.mpr ⟨e, (hmem e).mpr (.inl (List.mem_of_getElem? k2)), rfl⟩, ?_⟩
        have hs : e.info.dbSeq = dd.dbSeq := by rw [(k3.fields).1]
        rw [hs, g2]
        rw [h5] at k1
        have h0 := congrArg (fun l : List Nat => l[its.length - 1]?) g1
        simp only [List.getElem?_map, k1, Option.map_some] at h0
        rw [List.getElem?_range (by omega)] at h0
        simp at h0
        omega
    · intro id v h
      rw [ask_eq E L inv hd (.localDoc id) trivial] at h
      rw [ask_eq E L h9 h3 (.localDoc id) trivial]
      exact ⟨v, h⟩

theorem saveLocals_grown (E : Env) (L : E.Laws) (ds : List LocalDoc) (db : Db) {ids seqs locs}
    (inv : Inv E db ids seqs locs) (hd : db.dropped = false) (args : LocalArgs ds) (hdel : ∀ d ∈ ds, d.deleted = false) :
    Grown E db (after (saveLocalDocuments E ds) db) := by
  have h := saveLocalDocuments_spec E L db inv hd ds args.item
    (by have := args.idsNodup; rwa [List.nodup_iff_pairwise_ne, List.pairwise_map] at this)
  unfold Sp at h
  unfold after
  cases hx : saveLocalDocuments E ds db with
  | error e d =>
    rw [hx] at h
    refine (Grown.refl E db).congr (fun _ _ => rfl) fun q hq => ?_
    rw [ask_eq E L inv hd q hq, ask_eq E L (h.inv inv) (by rw [h.1]; exact hd) q hq, show d.header = db.header by rw [h.1]]
  | ok r d =>
    rw [hx] at h
    dsimp only
    obtain ⟨-, h2, locs', h3, h4⟩ := h
    have hd' : d.dropped = false := by rw [h2]; exact hd
    have e1 : documents E d = documents E db := by rw [documents_eq L h3 hd', documents_eq L inv hd]
    have e2 : lastSeqOf E d = lastSeqOf E db := by rw [lastSeq_eq L h3 hd', lastSeq_eq L inv hd, h2]
    have e3 : ∀ id, storedBodyOf E d id = storedBodyOf E db id := by
      intro id
      unfold storedBodyOf
      rw [ask_eq E L inv hd (.open id false) trivial, ask_eq E L h3 hd' (.open id false) trivial]
      rfl
    refine ⟨fun x hx => .inr ⟨by rw [← e1]; exact hx, (e3 _).symm⟩, fun x hx => ⟨x, by rw [e1]; exact hx, rfl⟩, .inl e2, ?_⟩
    intro id v h
    rw [ask_eq E L inv hd (.localDoc id) trivial] at h
    rw [ask_eq E L h3 hd' (.localDoc id) trivial]
    simp only [specAsk, Reply.loc.injEq] at h ⊢
    rw [h4]
    unfold localSet
    cases hf : ds.find? (fun d => d.id = id) with
    | none => exact ⟨v, h⟩
    | some x =>
      dsimp only
      rw [hdel x (List.mem_of_find?_eq_some hf)]
      exact ⟨_, rfl⟩

end Couchstore
