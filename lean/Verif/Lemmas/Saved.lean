import Verif.Lemmas.Reach

/-! Helper lemmas for the properties of saves. -/

namespace Couchstore

variable {σ : Type}

theorem AllSaved.get {E c opts its ds es} (h : AllSaved E c opts its ds es) :
    its.length = ds.length ∧ its.length = es.length ∧
      ∀ (i : Nat) (it : SaveItem), its[i]? = some it → ∃ d e, ds[i]? = some d ∧ es[i]? = some e ∧ SavedAs E c opts it.doc d e := by
  induction h with
  | nil => exact ⟨rfl, rfl, by simp⟩
  | cons h1 _ ih =>
    obtain ⟨i1, i2, i3⟩ := ih
    refine ⟨by simp [i1], by simp [i2], ?_⟩
    intro i it hi
    cases i with
    | zero =>
      simp only [List.getElem?_cons_zero, Option.some.injEq] at hi
      subst hi
      exact ⟨_, _, rfl, rfl, h1⟩
    | succ i =>
      simp only [List.getElem?_cons_succ] at hi ⊢
      exact i3 i it hi

/-- The metadata of document `i` of a batch before it is stored. -/
theorem assignAll_get (opts : SaveOpts) (its : List SaveItem) (seq i : Nat) (it : SaveItem) (d : DocInfo)
    (hi : its[i]? = some it) (hd : (assignAll opts seq its).1[i]? = some d) :
    d = { it.info with dbSeq := d.dbSeq } := by
  induction its generalizing seq i with
  | nil => simp at hi
  | cons x its ih =>
    cases i with
    | zero =>
      simp only [List.getElem?_cons_zero, Option.some.injEq, assignAll] at hi hd
      subst hi hd
      exact assignSeq_eq ..
    | succ i =>
      simp only [List.getElem?_cons_succ, assignAll] at hi hd
      exact ih _ i hi hd

theorem SavedAs.fields {E c opts doc d e} (h : SavedAs E c opts doc d e) :
    e.info = { d with
      deleted := d.deleted || doc.isNone
      bp := e.info.bp
      physicalSize := (doc.map fun b => chunkLen E c (storedBody E opts d b)).getD 0 } ∧
    e.raw = doc.map (storedBody E opts d) := by
  cases doc with
  | none =>
    have h : e = _ := h
    subst h
    simp
  | some b =>
    obtain ⟨bp, -, rfl⟩ := h
    simp

theorem storedBody_congr (E : Env) (opts : SaveOpts) (d d' : DocInfo) (b : Bytes)
    (h : d.contentMeta = d'.contentMeta) : storedBody E opts d b = storedBody E opts d' b := by
  unfold storedBody; rw [h]

theorem entFind_saved {es ids ids' : List Entry} (hs : SavedInto es ids ids') (h' : IdSorted ids') :
    (∀ e ∈ es, entFind e.info.id ids' = some e) ∧
    ∀ id, (∀ e ∈ es, e.info.id ≠ id) → entFind id ids' = entFind id ids := by
  constructor
  · intro e he
    exact entFind_of_mem h' ((hs.mem e).mpr (Or.inl he))
  · intro id hid
    cases hf : entFind id ids with
    | none =>
      rw [entFind_none] at hf ⊢
      intro x hx
      rcases (hs.mem x).mp hx with h1 | ⟨h1, -⟩
      · exact hid x h1
      · exact hf x h1
    | some x =>
      obtain ⟨h1, rfl⟩ := mem_of_entFind hf
      exact entFind_of_mem h' ((hs.mem x).mpr (Or.inr ⟨h1, hid⟩))

/-! ### Sequence numbers and buffer space, for any handle -/

theorem addDocs_ok (E : Env) (opts : SaveOpts) (its : List SaveItem) (seq fb : Nat) (f f' : File)
    (r : List DocInfo × List Terms × Nat × Nat) (h : addDocs E opts its seq fb f = .ok r f') :
    r.1 = (assignAll opts seq its).1 ∧ r.2.2.1 = (assignAll opts seq its).2 := by
  induction its generalizing seq fb f f' r with
  | nil =>
    simp only [addDocs, pure, EStateM.pure, EStateM.Result.ok.injEq] at h
    obtain ⟨rfl, rfl⟩ := h
    exact ⟨rfl, rfl⟩
  | cons it its ih =>
    unfold addDocs at h
    simp only [bind, EStateM.bind] at h
    cases h1 : addDocToUpdateList E opts it.doc (assignSeq opts seq it.info).2 fb f with
    | error e g => simp only [h1] at h; cases h
    | ok a g =>
      simp only [h1] at h
      cases h2 : addDocs E opts its (assignSeq opts seq it.info).1 a.2 g with
      | error e g => simp only [h2] at h; cases h
      | ok b g2 =>
        simp only [h2, pure, EStateM.pure, EStateM.Result.ok.injEq] at h
        obtain ⟨rfl, rfl⟩ := h
        obtain ⟨i1, i2⟩ := ih _ _ _ _ _ h2
        exact ⟨by simp [assignAll, i1], by simp [assignAll, i2]⟩

theorem updateIndexes_seq (E : Env) (cb : Option (SaveCb σ)) (ts : List (Terms × Nat)) (u : σ) (db : Db) :
    Sp (updateIndexes E cb ts u) db (fun _ d => d.header.updateSeq = db.header.updateSeq)
      (fun _ d => d.header = db.header) := by
  have hlift : ∀ {α : Type} (m : M α) (db : Db),
      Sp (liftF m) db (fun _ d => d.header = db.header) (fun _ d => d.header = db.header) := by
    intro α m db
    unfold Sp liftF
    cases m db.file <;> rfl
  have hexc : ∀ {α : Type} (x : Except Err α) (db : Db),
      Sp (updateIndexes.ofExceptD x) db (fun _ d => d.header = db.header) (fun _ d => d.header = db.header) := by
    intro α x db
    cases x <;> exact rfl
  unfold updateIndexes
  apply Sp.get_bind
  dsimp only
  refine Sp.bind' (hexc _ db) ?_ fun _ _ h => h
  intro _ d1 h1
  refine Sp.bind' (hexc _ d1) ?_ fun _ _ h => by rw [h, h1]
  intro _ d2 h2
  refine Sp.bind' (hlift _ d2) ?_ fun _ _ h => by rw [h, h2, h1]
  rintro ⟨st, r⟩ d3 h3
  dsimp only
  split
  · show d3.header = _
    rw [h3, h2, h1]
  · refine Sp.bind' (hlift _ d3) ?_ fun _ _ h => by rw [h, h3, h2, h1]
    rintro ⟨_, r'⟩ d4 h4
    show d4.header.updateSeq = _
    rw [h4, h3, h2, h1]

theorem saveDocuments_seq (E : Env) (opts : SaveOpts) (cb : Option (SaveCb σ)) (its : List SaveItem) (u : σ)
    (db : Db) :
    Sp (saveDocuments E opts cb its u) db
      (fun r d => r.1 = (assignAll opts db.header.updateSeq its).1 ∧
        d.header.updateSeq = (assignAll opts db.header.updateSeq its).2)
      (fun _ d => d.header = db.header) := by
  unfold saveDocuments
  apply Sp.get_bind
  split
  · exact rfl
  · dsimp only
    refine Sp.bind' (Q1 := fun _ d => d = db) (R1 := fun _ d => d = db) ?_ ?_ fun _ _ h => congrArg Db.header h
    · generalize fatbufGet _ _ = x
      cases x <;> exact rfl
    · rintro fb d rfl
      refine Sp.bind' (Q1 := fun r d' => d'.header = d.header ∧
        r.1 = (assignAll opts d.header.updateSeq its).1 ∧ r.2.2.1 = (assignAll opts d.header.updateSeq its).2)
        (R1 := fun _ d' => d'.header = d.header) ?_ ?_ fun _ _ h => h
      · unfold Sp liftF
        cases hx : addDocs E opts its d.header.updateSeq fb d.file with
        | ok r f => exact ⟨rfl, addDocs_ok _ _ _ _ _ _ _ _ hx⟩
        | error e f => exact rfl
      · rintro ⟨infos, ts, seq, fb'⟩ d2 ⟨h1, h2, h3⟩
        dsimp only at h2 h3 ⊢
        refine Sp.bind' (updateIndexes_seq E cb _ u d2) ?_ fun _ _ h => by rw [h, h1]
        intro u' d3 _
        exact ⟨h2, h3⟩

/-- What is left of the term buffer after a successful run. -/
theorem addDocs_fb (E : Env) (opts : SaveOpts) (its : List SaveItem) (seq fb : Nat) (f f' : File)
    (r : List DocInfo × List Terms × Nat × Nat) (h : addDocs E opts its seq fb f = .ok r f') :
    r.2.2.2 + termMetaSize its = fb := by
  have hget : ∀ {α : Type} (n m : Nat) (k : Nat → M α) (f f' : File) (r : α),
      (ofExcept (fatbufGet n m) >>= k) f = .ok r f' → m ≤ n ∧ k (n - m) f = .ok r f' := by
    intro α n m k f f' r h
    unfold fatbufGet at h
    split at h
    · cases h
    · exact ⟨by omega, h⟩
  induction its generalizing seq fb f f' r with
  | nil =>
    simp only [addDocs, pure, EStateM.pure, EStateM.Result.ok.injEq] at h
    obtain ⟨rfl, rfl⟩ := h
    simp [termMetaSize]
  | cons it its ih =>
    unfold addDocs at h
    simp only [bind, EStateM.bind] at h
    cases h1 : addDocToUpdateList E opts it.doc (assignSeq opts seq it.info).2 fb f with
    | error e g => simp only [h1] at h; cases h
    | ok a g =>
      simp only [h1] at h
      cases h2 : addDocs E opts its (assignSeq opts seq it.info).1 a.2 g with
      | error e g => simp only [h2] at h; cases h
      | ok b g2 =>
        simp only [h2, pure, EStateM.pure, EStateM.Result.ok.injEq] at h
        obtain ⟨rfl, rfl⟩ := h
        have i1 := ih _ _ _ _ _ h2
        unfold addDocToUpdateList at h1
        obtain ⟨k1, h1⟩ := hget _ _ _ _ _ _ h1
        simp only [bind, EStateM.bind] at h1
        cases h3 : updatedInfo E opts it.doc (assignSeq opts seq it.info).2 f with
        | error e g => simp only [h3] at h1; cases h1
        | ok d g1 =>
          simp only [h3] at h1
          have hd : d.id = it.info.id ∧ d.revMeta = it.info.revMeta := by
            have ha : (assignSeq opts seq it.info).2.id = it.info.id ∧
                (assignSeq opts seq it.info).2.revMeta = it.info.revMeta := by
              unfold assignSeq; split <;> exact ⟨rfl, rfl⟩
            rw [← ha.1, ← ha.2]
            unfold updatedInfo at h3
            cases hdoc : it.doc with
            | none =>
              rw [hdoc] at h3
              simp only [pure, EStateM.pure, EStateM.Result.ok.injEq] at h3
              obtain ⟨rfl, rfl⟩ := h3
              exact ⟨rfl, rfl⟩
            | some body =>
              rw [hdoc] at h3
              simp only [bind, EStateM.bind] at h3
              split at h3
              · simp only [pure, EStateM.pure, EStateM.Result.ok.injEq] at h3
                obtain ⟨rfl, rfl⟩ := h3
                exact ⟨rfl, rfl⟩
              · cases h3
          obtain ⟨k2, h1⟩ := hget _ _ _ _ _ _ h1
          obtain ⟨k3, h1⟩ := hget _ _ _ _ _ _ h1
          simp only [pure, EStateM.pure, EStateM.Result.ok.injEq] at h1
          obtain ⟨rfl, rfl⟩ := h1
          rw [hd.1, hd.2] at k2 i1
          rw [hd.1, hd.2] at k3
          unfold termMetaSize at i1 ⊢
          rw [List.map_cons, List.sum_cons]
          dsimp only at i1 ⊢
          have key : ∀ S C A B F : Nat, 6 ≤ F → 18 + A + B ≤ F - 6 → 23 + B ≤ F - 6 - (18 + A + B) →
              C + S = F - 6 - (18 + A + B) - (23 + B) →
              C + (6 + (18 + A + B) + (23 + B) + S) = F := by
            intro S C A B F h1 h2 h3 h4
            have h5 : 18 + A + B + (23 + B) ≤ F - 6 := by omega
            have h6 : C + S + (18 + A + B + (23 + B)) = F - 6 := by omega
            omega
          exact key _ _ _ _ _ k1 k2 k3 i1

end Couchstore
