import Verif.Lemmas.Save

/-! The invariant of a database handle, and its preservation by saves. -/

namespace Couchstore

variable {σ : Type}

/-- The handle holds the documents `ids` (ordered by id), the same documents `seqs` (ordered by
sequence number), and the local documents `locs`. -/
structure Inv (E : Env) (db : Db) (ids seqs : List Entry) (locs : List KV) : Prop where
  wf : db.file.WF
  pos : 0 < db.file.pos
  thr : 2 ≤ db.file.cfg.kvThr
  idRoot : RootAt E Idx.byId db.file db.header.byIdRoot (idKVs ids)
  seqRoot : RootAt E Idx.bySeq db.file db.header.bySeqRoot (seqKVs seqs)
  locRoot : RootAt E Idx.loc db.file db.header.localRoot locs
  idSorted : IdSorted ids
  seqSorted : SeqSorted seqs
  locSorted : SortedKV ebinCmp locs
  perm : seqs.Perm ids
  ok : ∀ e ∈ ids, DocOk e.info
  upd : ∀ e ∈ ids, e.info.dbSeq ≤ db.header.updateSeq
  updLt : db.header.updateSeq < 2 ^ 48
  body : ∀ e ∈ ids, BodyAt E db.file e
  few : ids.length < 2 ^ 40

theorem nodup_length_le {α : Type} {l m : List α} (hn : l.Nodup) (h : ∀ x ∈ l, x ∈ m) :
    l.length ≤ m.length := by
  induction l generalizing m with
  | nil => simp
  | cons x xs ih =>
    obtain ⟨a, b, rfl⟩ := List.append_of_mem (h x (by simp))
    obtain ⟨h1, h2⟩ := List.nodup_cons.mp hn
    have := ih (m := a ++ b) h2 (by
      intro y hy
      have hy' := h y (by simp [hy])
      have hne : y ≠ x := fun h0 => h1 (h0 ▸ hy)
      simp only [List.mem_append, List.mem_cons] at hy' ⊢
      rcases hy' with h | h | h
      · exact Or.inl h
      · exact absurd h hne
      · exact Or.inr h)
    simp only [List.length_append, List.length_cons] at *
    omega

theorem sorted_seqKVs {l : List Entry} (hs : SeqSorted l) (hok : ∀ x ∈ l, DocOk x.info) :
    SortedKV seqCmp (seqKVs l) := by
  unfold SortedKV seqKVs
  rw [List.pairwise_map]
  refine hs.imp_of_mem ?_
  intro a b ha hb h
  show seqCmp (enc48 _) (enc48 _) = _
  rw [seqCmp_enc48 (hok a ha).fits.dbSeq (hok b hb).fits.dbSeq, if_neg (by omega), if_pos h]

theorem SeqSorted.inj {l : List Entry} (hs : SeqSorted l) {a b : Entry} (ha : a ∈ l) (hb : b ∈ l)
    (h : a.info.dbSeq = b.info.dbSeq) : a = b := by
  induction l with
  | nil => simp at ha
  | cons x xs ih =>
    obtain ⟨h1, h2⟩ := List.pairwise_cons.mp hs
    rcases List.mem_cons.mp ha with ha' | ha' <;> rcases List.mem_cons.mp hb with hb' | hb'
    · rw [ha', hb']
    · subst ha'; have := h1 b hb'; omega
    · subst hb'; have := h1 a ha'; omega
    · exact ih h2 ha' hb'

theorem IdSorted.nodup {l : List Entry} (hs : IdSorted l) : l.Nodup := by
  unfold List.Nodup
  exact hs.imp fun {a b} h (h0 : a = b) => ebin_lt_ne h (by rw [h0])

theorem SeqSorted.nodup {l : List Entry} (hs : SeqSorted l) : l.Nodup := by
  unfold List.Nodup
  exact hs.imp fun {a b} h (h0 : a = b) => by rw [h0] at h; omega

theorem Inv.seqOk {E : Env} {db : Db} {ids seqs locs} (h : Inv E db ids seqs locs) :
    ∀ e ∈ seqs, DocOk e.info := fun e he => h.ok e (h.perm.mem_iff.mp he)

/-- Only the file changed, and only by appending. -/
theorem Inv.ext {E : Env} {db db' : Db} {ids seqs locs} (h : Inv E db ids seqs locs)
    (hh : db'.header = db.header) (e : Ext db.file db'.file) : Inv E db' ids seqs locs where
  wf := e.wf h.wf
  pos := by have := e.pos; have := h.pos; omega
  thr := by rw [e.frame.cfg]; exact h.thr
  idRoot := by rw [hh]; exact h.idRoot.keep (e.keep h.wf)
  seqRoot := by rw [hh]; exact h.seqRoot.keep (e.keep h.wf)
  locRoot := by rw [hh]; exact h.locRoot.keep (e.keep h.wf)
  idSorted := h.idSorted
  seqSorted := h.seqSorted
  locSorted := h.locSorted
  perm := h.perm
  ok := h.ok
  upd := by rw [hh]; exact h.upd
  updLt := by rw [hh]; exact h.updLt
  body e he := (h.body e he).keep (Ext.keep ‹_› h.wf)
  few := h.few

/-- Order of the documents of a batch by id. -/
def entryLe (a b : Entry × Nat) : Bool := ebinCmp a.1.info.id b.1.info.id != .gt

theorem entryLe_ok : LeOk entryLe (fun _ => True) where
  total a b _ _ := by
    unfold entryLe
    simp only [bne_iff_ne, ne_eq, ebinCmp_gt_iff]
    by_cases h : b.1.info.id < a.1.info.id
    · right; exact fun h' => absurd (bytes_lt_trans h h') (List.lt_irrefl _)
    · left; exact h
  trans a b c _ _ _ := by
    unfold entryLe
    simp only [bne_iff_ne, ne_eq, ebinCmp_gt_iff, List.not_lt]
    exact fun h1 h2 => List.le_trans h1 h2

/-- The batch, sorted by id. -/
def byIdOrder (es : List (Entry × Nat)) : List (Entry × Nat) := sortBy entryLe es

theorem byIdOrder_sorted {es : List (Entry × Nat)}
    (hid : es.Pairwise fun a b => a.1.info.id ≠ b.1.info.id) :
    (byIdOrder es).Pairwise fun a b => ebinCmp a.1.info.id b.1.info.id = .lt := by
  have h1 := sortBy_sorted entryLe_ok es fun _ _ => trivial
  have h2 : (byIdOrder es).Pairwise fun a b => a.1.info.id ≠ b.1.info.id :=
    (List.Perm.pairwise_iff (fun h h0 => h h0.symm) (sortBy_perm entryLe es)).mpr hid
  refine (h1.and h2).imp ?_
  rintro a b ⟨h3, h4⟩
  unfold entryLe at h3
  simp only [bne_iff_ne, ne_eq] at h3
  cases h : ebinCmp a.1.info.id b.1.info.id with
  | lt => rfl
  | eq => exact absurd ((ebinCmp_eq_iff _ _).mp h) h4
  | gt => exact absurd h h3

/-- What a save does to the documents of a database. -/
structure SavedInto (es : List Entry) (ids ids' : List Entry) : Prop where
  mem : ∀ x, x ∈ ids' ↔ x ∈ es ∨ (x ∈ ids ∧ ∀ e ∈ es, e.info.id ≠ x.info.id)

theorem Sp.ofExceptD_ok {α β : Type} {x : α} {k : α → DbM β} {f : Db} {Q R}
    (h : Sp (k x) f Q R) : Sp (updateIndexes.ofExceptD (.ok x) >>= k) f Q R := h

/-- What a failed operation on a handle guarantees: the header is as before, the file was at most
appended to, and a raw operation misbehaved or a limit of the format was hit. -/
def FailDb (db : Db) (e : Err) (db' : Db) : Prop :=
  db' = { db with file := db'.file } ∧ FailT db.file e db'.file

theorem updateIndexes_spec (E : Env) (L : E.Laws) (cb : Option (SaveCb σ)) (es : List (Entry × Nat))
    (u : σ) (db : Db) {ids seqs locs} (inv : Inv E db ids seqs locs)
    (heok : ∀ e ∈ es, DocOk e.1.info)
    (hid : es.Pairwise fun a b => a.1.info.id ≠ b.1.info.id)
    (hseq : es.Pairwise fun a b => a.1.info.dbSeq ≠ b.1.info.dbSeq)
    (hclash : ∀ e ∈ es, ∀ x ∈ ids, x.info.dbSeq = e.1.info.dbSeq → ∃ e' ∈ es, e'.1.info.id = x.info.id) :
    Sp (updateIndexes E cb (es.map fun e => (termsOf e.1, e.2)) u) db
      (fun r db' => db' = { db with file := db'.file, header := { db.header with
            byIdRoot := db'.header.byIdRoot, bySeqRoot := db'.header.bySeqRoot } } ∧
        Ext db.file db'.file ∧ r = (byIdOrder es).foldl (cbStep cb ids) u ∧
        ∃ ids' seqs', RootAt E Idx.byId db'.file db'.header.byIdRoot (idKVs ids') ∧
          RootAt E Idx.bySeq db'.file db'.header.bySeqRoot (seqKVs seqs') ∧
          IdSorted ids' ∧ SeqSorted seqs' ∧ seqs'.Perm ids' ∧ SavedInto (es.map (·.1)) ids ids')
      (FailDb db) := by
  unfold updateIndexes
  rw [List.length_map]
  apply Sp.get_bind
  dsimp only
  rw [fatbufGet_ok (by unfold sizeofAction sizeofSizedBuf; omega)]
  apply Sp.ofExceptD_ok
  rw [fatbufGet_ok (by unfold sizeofAction sizeofSizedBuf; omega)]
  apply Sp.ofExceptD_ok
  -- the by-id batch
  have hsort : (sortBy idTermLe (es.map fun e => (termsOf e.1, e.2))).map
      (fun t => Action.mk .fetchInsert t.1.idKey t.1.idVal t.2) = (byIdOrder es).map idAct := by
    rw [sortBy_map (le := entryLe) (le' := idTermLe) (g := fun e : Entry × Nat => (termsOf e.1, e.2))
      (fun a b => rfl), List.map_map]
    rfl
  rw [hsort]
  have hlt := byIdOrder_sorted hid
  have hmem : ∀ e, e ∈ byIdOrder es ↔ e ∈ es := fun e => mem_sortBy
  have hlen : (byIdOrder es).length = es.length := length_sortBy _ _
  obtain ⟨ctx', ids', s1, s2, s3, s4, s5⟩ := idFold_spec db.file.cfg es.length cb (byIdOrder es) ids
    ⟨[], es.length * (2 * sizeofAction + sizeofSizedBuf + 6) - es.length * sizeofAction -
      es.length * sizeofAction, u⟩ inv.idSorted inv.ok (fun e he => heok e ((hmem e).mp he)) hlt
    (by rw [hlen]; simp only; unfold sizeofAction sizeofSizedBuf; omega) (by rw [hlen]; simp)
  have hmod := modifyBtree_spec E L (idRq_ok db.file.cfg inv.thr es.length cb) db.header.byIdRoot
    (idKVs ids) ((byIdOrder es).map idAct)
    ⟨[], es.length * (2 * sizeofAction + sizeofSizedBuf + 6) - es.length * sizeofAction -
      es.length * sizeofAction, u⟩ db.file inv.wf inv.idRoot (sorted_idKVs.mpr inv.idSorted)
    (by
      unfold BatchOk
      rw [List.pairwise_map]
      exact hlt.imp fun h => Or.inl h)
    (by
      intro a ha
      obtain ⟨e, he, rfl⟩ := List.mem_map.mp ha
      exact ⟨trivial, fun _ => ⟨e.1.info, heok e ((hmem e).mp he), rfl⟩⟩)
  refine Sp.bind' (liftF_spec hmod) ?_ ?_
  · rintro ⟨st, idRoot⟩ db1 ⟨hdb1, x1, u', out, x2, x3, x4, -⟩
    rw [s1] at x2
    obtain ⟨rfl, rfl⟩ : ctx' = u' ∧ idKVs ids' = out := by cases x2; exact ⟨rfl, rfl⟩
    dsimp only at x3 x4 ⊢
    subst x3
    dsimp only
    -- the by-sequence batch
    have hins : (es.map fun e => (termsOf e.1, e.2)).map (fun t => Action.mk .insert t.1.seqKey t.1.seqVal 0) =
        (es.map (·.1)).map insAct := by rw [List.map_map, List.map_map]; rfl
    have hrm : ∃ olds : List Entry, ctx'.removes = olds.map (fun o => rmAct o.info.dbSeq) ∧
        olds.length ≤ es.length ∧
        ∀ o, o ∈ olds ↔ ∃ e ∈ es, entFind e.1.info.id ids = some o := by
      refine ⟨(byIdOrder es).filterMap fun e => entFind e.1.info.id ids, ?_, ?_, ?_⟩
      · rw [s4, List.map_filterMap]; rfl
      · rw [← hlen]; exact List.length_filterMap_le _ _
      · intro o
        rw [List.mem_filterMap]
        constructor <;> rintro ⟨e, he, h⟩
        · exact ⟨e, (hmem e).mp he, h⟩
        · exact ⟨e, (hmem e).mpr he, h⟩
    obtain ⟨olds, r1, r2, r3⟩ := hrm
    have hold : ∀ o ∈ olds, o ∈ ids ∧ ∃ e ∈ es, e.1.info.id = o.info.id := by
      intro o ho
      obtain ⟨e, he, h⟩ := (r3 o).mp ho
      exact ⟨(mem_of_entFind h).1, e, he, (mem_of_entFind h).2.symm⟩
    rw [hins, r1]
    rw [if_neg (by simp; omega)]
    have hes1 : ∀ e ∈ es.map (·.1), DocOk e.info := by
      intro e he
      obtain ⟨x, hx, rfl⟩ := List.mem_map.mp he
      exact heok x hx
    have hseq1 : (es.map (·.1)).Pairwise fun a b => a.info.dbSeq ≠ b.info.dbSeq := by
      rw [List.pairwise_map]; exact hseq
    have hinj : ∀ a ∈ es.map (·.1), ∀ b ∈ es.map (·.1), a.info.dbSeq = b.info.dbSeq → a = b := by
      generalize es.map (·.1) = l at hseq1
      induction l with
      | nil => intro a ha; simp at ha
      | cons x xs ih =>
        obtain ⟨p1, p2⟩ := List.pairwise_cons.mp hseq1
        intro a ha b hb h
        rcases List.mem_cons.mp ha with ha' | ha' <;> rcases List.mem_cons.mp hb with hb' | hb'
        · rw [ha', hb']
        · subst ha'; exact absurd h (p1 b hb')
        · subst hb'; exact absurd h.symm (p1 a ha')
        · exact ih p2 a ha' b hb' h
    have hacts : ∀ a ∈ sortBy seqActionLe (olds.map (fun o => rmAct o.info.dbSeq) ++ (es.map (·.1)).map insAct),
        (∃ s, s < 2 ^ 48 ∧ a = rmAct s) ∨ ∃ e ∈ es.map (·.1), a = insAct e := by
      intro a ha
      rcases List.mem_append.mp (mem_sortBy.mp ha) with h | h
      · obtain ⟨o, ho, rfl⟩ := List.mem_map.mp h
        exact Or.inl ⟨_, (inv.ok o (hold o ho).1).fits.dbSeq, rfl⟩
      · obtain ⟨e, he, rfl⟩ := List.mem_map.mp h
        exact Or.inr ⟨e, he, rfl⟩
    have hbatch : BatchOk (seqRq db.file.cfg)
        (sortBy seqActionLe (olds.map (fun o => rmAct o.info.dbSeq) ++ (es.map (·.1)).map insAct)) := by
      apply seqBatch_ok
      · intro a ha
        rcases List.mem_append.mp ha with h | h <;> obtain ⟨o, -, rfl⟩ := List.mem_map.mp h <;>
          simp [rmAct, insAct]
      · rw [List.pairwise_append]
        refine ⟨?_, ?_, ?_⟩
        · rw [List.pairwise_map, List.pairwise_iff_forall_sublist]
          intro a b _ h
          rcases h with h | h <;> simp [rmAct] at h
        · rw [List.pairwise_map]
          refine hseq1.imp_of_mem ?_
          intro a b ha hb h _ _ h0
          exact h (enc48_inj (hes1 a ha).fits.dbSeq (hes1 b hb).fits.dbSeq h0)
        · intro a ha b _ h
          obtain ⟨o, -, rfl⟩ := List.mem_map.mp ha
          rcases h with h | h <;> simp [rmAct] at h
      · intro a ha
        rcases List.mem_append.mp ha with h | h <;> obtain ⟨o, -, rfl⟩ := List.mem_map.mp h <;>
          simp [rmAct, insAct]
    obtain ⟨seqs', q1, q2, q3⟩ := seqFold_spec db.file.cfg
      (sortBy seqActionLe (olds.map (fun o => rmAct o.info.dbSeq) ++ (es.map (·.1)).map insAct))
      (es.map (·.1)) seqs inv.seqSorted inv.seqOk hes1 hinj hacts hbatch
    have hw1 := x1.wf inv.wf
    have hmod2 := modifyBtree_spec E L (seqRq_ok db.file.cfg inv.thr) db.header.bySeqRoot (seqKVs seqs)
      (sortBy seqActionLe (olds.map (fun o => rmAct o.info.dbSeq) ++ (es.map (·.1)).map insAct)) ()
      db1.file hw1 (inv.seqRoot.keep (x1.keep inv.wf)) (sorted_seqKVs inv.seqSorted inv.seqOk) hbatch
      (by
        intro a ha
        rcases hacts a ha with ⟨s, -, rfl⟩ | ⟨e, he, rfl⟩
        · exact ⟨by simp [rmAct], fun h => by rcases h with h | h <;> simp [rmAct] at h⟩
        · exact ⟨by simp [insAct], fun _ => ⟨e.info, hes1 e he, rfl⟩⟩)
    refine Sp.bind' (liftF_spec hmod2) ?_ ?_
    · rintro ⟨st2, seqRoot⟩ db2 ⟨hdb2, y1, u2, out2, y2, y3, y4, -⟩
      rw [q1] at y2
      obtain rfl : seqKVs seqs' = out2 := by cases y2; rfl
      have hbody' : Ext db.file db2.file := x1.trans y1
      refine ⟨?_, hbody', s5, ids', seqs', x4.keep (y1.keep hw1), y4, s2, q2, ?_, ⟨?_⟩⟩
      · rw [hdb2, hdb1]
      · -- same documents in both indexes
        rw [List.perm_ext_iff_of_nodup q2.nodup s2.nodup]
        intro x
        rw [q3 x, s3 x]
        have hmap : x ∈ (byIdOrder es).map (·.1) ↔ x ∈ es.map (·.1) := by
          simp only [List.mem_map, hmem]
        have hin : x ∈ es.map (·.1) → insAct x ∈ sortBy seqActionLe
            (olds.map (fun o => rmAct o.info.dbSeq) ++ (es.map (·.1)).map insAct) := fun h =>
          mem_sortBy.mpr (List.mem_append_right _ (List.mem_map_of_mem h))
        rw [hmap]
        constructor
        · rintro (⟨h, -⟩ | ⟨h, h'⟩)
          · exact Or.inl h
          · refine Or.inr ⟨inv.perm.mem_iff.mp h, ?_⟩
            intro e he h0
            have hx := inv.perm.mem_iff.mp h
            have ho : x ∈ olds := (r3 x).mpr ⟨e, (hmem e).mp he, by
              rw [h0]; exact entFind_of_mem inv.idSorted hx⟩
            exact h' (rmAct x.info.dbSeq) (mem_sortBy.mpr (List.mem_append_left _
              (List.mem_map_of_mem (f := fun o : Entry => rmAct o.info.dbSeq) ho))) rfl
        · rintro (h | ⟨h, h'⟩)
          · exact Or.inl ⟨h, hin h⟩
          · refine Or.inr ⟨inv.perm.mem_iff.mpr h, ?_⟩
            intro a ha h0
            rcases List.mem_append.mp (mem_sortBy.mp ha) with h1 | h1
            · obtain ⟨o, ho, rfl⟩ := List.mem_map.mp h1
              obtain ⟨ho1, e, he, ho2⟩ := hold o ho
              have hs0 : o.info.dbSeq = x.info.dbSeq :=
                enc48_inj (inv.ok o ho1).fits.dbSeq (inv.ok x h).fits.dbSeq h0
              have := inv.seqSorted.inj (inv.perm.mem_iff.mpr ho1) (inv.perm.mem_iff.mpr h) hs0
              subst this
              exact h' e ((hmem e).mpr he) ho2
            · obtain ⟨e, he, rfl⟩ := List.mem_map.mp h1
              obtain ⟨e0, he0, rfl⟩ := List.mem_map.mp he
              have hs0 : e0.1.info.dbSeq = x.info.dbSeq :=
                enc48_inj (heok e0 he0).fits.dbSeq (inv.ok x h).fits.dbSeq h0
              obtain ⟨e', he', hid'⟩ := hclash e0 he0 x h hs0.symm
              exact h' e' ((hmem e').mpr he') hid'
      · intro x
        rw [s3 x]
        simp only [List.mem_map, hmem]
        constructor
        · rintro (h | ⟨h, h'⟩)
          · exact Or.inl h
          · refine Or.inr ⟨h, ?_⟩
            rintro e ⟨e0, he0, rfl⟩
            exact h' e0 he0
        · rintro (h | ⟨h, h'⟩)
          · exact Or.inl h
          · exact Or.inr ⟨h, fun e he => h' e.1 ⟨e, he, rfl⟩⟩
    · rintro e db2 ⟨hdb2, y1, y2⟩
      refine ⟨by rw [hdb2, hdb1], x1.trans y1, ?_⟩
      rcases y2 with h | h | h
      · exact Or.inl (x1.faults_ne h)
      · exact Or.inr h
      · rw [q1] at h; cases h
  · rintro e db1 ⟨hdb1, x1, x2⟩
    refine ⟨hdb1, x1, ?_⟩
    rcases x2 with h | h | h
    · exact Or.inl h
    · exact Or.inr h
    · rw [s1] at h; cases h

/-! ### Saving -/

theorem length_assignAll (opts : SaveOpts) (its : List SaveItem) (seq : Nat) :
    (assignAll opts seq its).1.length = its.length := by
  induction its generalizing seq with
  | nil => rfl
  | cons it its ih => simp [assignAll, ih]

/-- Ids of a batch as stored. -/
theorem AllSaved.ids {E c opts its ds es} (h : AllSaved E c opts its ds es) :
    es.map (fun e : Entry => (e.info.id, e.info.dbSeq)) = ds.map fun d => (d.id, d.dbSeq) := by
  induction h with
  | nil => rfl
  | cons h1 _ ih =>
    simp only [List.map_cons, ih]
    congr 1
    unfold SavedAs at h1
    split at h1
    · rw [h1]
    · obtain ⟨_, _, rfl⟩ := h1; rfl

theorem assignAll_ids (opts : SaveOpts) (its : List SaveItem) (seq : Nat) :
    (assignAll opts seq its).1.map (·.id) = its.map (·.info.id) := by
  induction its generalizing seq with
  | nil => rfl
  | cons it its ih =>
    simp only [assignAll, List.map_cons, ih]
    congr 1
    unfold assignSeq; split <;> rfl

theorem assignAll_le (opts : SaveOpts) (its : List SaveItem) (seq : Nat) :
    seq ≤ (assignAll opts seq its).2 ∧ ∀ d ∈ (assignAll opts seq its).1, d.dbSeq ≤ (assignAll opts seq its).2 := by
  induction its generalizing seq with
  | nil => exact ⟨Nat.le_refl _, by simp [assignAll]⟩
  | cons it its ih =>
    obtain ⟨h1, h2⟩ := ih (assignSeq opts seq it.info).1
    have h3 : seq ≤ (assignSeq opts seq it.info).1 ∧
        (assignSeq opts seq it.info).2.dbSeq ≤ (assignSeq opts seq it.info).1 := by
      unfold assignSeq; split <;> simp <;> omega
    refine ⟨Nat.le_trans h3.1 h1, ?_⟩
    intro d hd
    rcases List.mem_cons.mp hd with rfl | hd
    · exact Nat.le_trans h3.2 h1
    · exact h2 d hd

/-- The requirements on a batch of documents, in terms of the documents stored. -/
structure BatchFits (E : Env) (db : Db) (opts : SaveOpts) (its : List SaveItem) (ids : List Entry) :
    Prop where
  item : ∀ it ∈ its, ItemOk E db.file.cfg opts it
  idsNodup : (its.map (·.info.id)).Nodup
  seqsNodup : ((assignAll opts db.header.updateSeq its).1.map (·.dbSeq)).Nodup
  last : (assignAll opts db.header.updateSeq its).2 < 2 ^ 48
  clash : ∀ d ∈ (assignAll opts db.header.updateSeq its).1, ∀ x ∈ ids, x.info.dbSeq = d.dbSeq →
    x.info.id ∈ its.map (·.info.id)
  few : ids.length + its.length < 2 ^ 40

theorem saveDocuments_spec (E : Env) (L : E.Laws) (opts : SaveOpts) (cb : Option (SaveCb σ))
    (its : List SaveItem) (u : σ) (db : Db) {ids seqs locs} (inv : Inv E db ids seqs locs)
    (hd : db.dropped = false) (fit : BatchFits E db opts its ids) :
    Sp (saveDocuments E opts cb its u) db
      (fun r db' => Ext db.file db'.file ∧
        db'.header = { db.header with
          byIdRoot := db'.header.byIdRoot
          bySeqRoot := db'.header.bySeqRoot
          updateSeq := (assignAll opts db.header.updateSeq its).2 } ∧
        db'.dropped = false ∧ db'.readOnly = db.readOnly ∧
        r.1 = (assignAll opts db.header.updateSeq its).1 ∧
        ∃ es ids' seqs', AllSaved E db.file.cfg opts its r.1 es ∧
          r.2 = (byIdOrder (es.zip (its.map (·.userReq)))).foldl (cbStep cb ids) u ∧
          SavedInto es ids ids' ∧ Inv E db' ids' seqs' locs)
      (FailDb db) := by
  unfold saveDocuments
  apply Sp.get_bind
  dsimp only
  rw [hd, if_neg (by simp)]
  rw [fatbufGet_ok (by unfold sizeofSizedBuf; omega)]
  apply Sp.ofExceptD_ok
  have hlast := assignAll_le opts its db.header.updateSeq
  have hadd := addDocs_spec E L opts its db.header.updateSeq
    (termMetaSize its + its.length * (sizeofSizedBuf * 4) - 4 * (its.length * sizeofSizedBuf))
    db.file inv.wf inv.pos fit.item (fun d h => Nat.lt_of_le_of_lt (hlast.2 d h) fit.last) (by unfold sizeofSizedBuf; omega)
  refine Sp.bind' (liftF_spec hadd) ?_ ?_
  · rintro ⟨infos, ts, seq, fb⟩ db1 ⟨hdb1, x1, x2, x3, es, x4, x5, x6, x7⟩
    dsimp only at x2 x3 x4 ⊢
    have hinv1 : Inv E db1 ids seqs locs := inv.ext (by rw [hdb1]) x1
    have hzip : ts.zip (its.map (·.userReq)) =
        (es.zip (its.map (·.userReq))).map fun e => (termsOf e.1, e.2) := by
      rw [x4]
      have : ∀ (l : List Entry) (m : List Nat), (l.map termsOf).zip m =
          (l.zip m).map fun e => (termsOf e.1, e.2) := by
        intro l
        induction l with
        | nil => simp
        | cons a l ih => intro m; cases m <;> simp [ih]
      exact this es _
    have hfst : (es.zip (its.map (·.userReq))).map (·.1) = es := by
      rw [List.map_fst_zip]; simp [x5]
    have hpair := x6.ids
    have hidsE : es.map (fun e => e.info.id) = its.map (·.info.id) := by
      rw [← assignAll_ids opts its db.header.updateSeq]
      have := congrArg (List.map Prod.fst) hpair
      simpa [Function.comp_def] using this
    have hseqE : es.map (fun e => e.info.dbSeq) =
        (assignAll opts db.header.updateSeq its).1.map (·.dbSeq) := by
      have := congrArg (List.map Prod.snd) hpair
      simpa [Function.comp_def] using this
    have hmemz : ∀ e ∈ es.zip (its.map (·.userReq)), e.1 ∈ es := fun e he => (List.of_mem_zip he).1
    have hmemz' : ∀ e ∈ es, ∃ z ∈ es.zip (its.map (·.userReq)), z.1 = e := by
      intro e he
      rw [← hfst] at he
      obtain ⟨z, hz, h⟩ := List.mem_map.mp he
      exact ⟨z, hz, h⟩
    rw [hzip]
    have hup := updateIndexes_spec E L cb (es.zip (its.map (·.userReq))) u db1 hinv1
      (fun e he => (x7 e.1 (hmemz e he)).1)
      (by
        have := fit.idsNodup
        rw [← hidsE, ← hfst] at this
        unfold List.Nodup at this
        rw [List.map_map, List.pairwise_map] at this
        exact this)
      (by
        have := fit.seqsNodup
        rw [← hseqE, ← hfst] at this
        unfold List.Nodup at this
        rw [List.map_map, List.pairwise_map] at this
        exact this)
      (by
        intro e he x hx h0
        have h1 : e.1.info.dbSeq ∈ es.map (fun e => e.info.dbSeq) :=
          List.mem_map_of_mem (f := fun e : Entry => e.info.dbSeq) (hmemz e he)
        rw [hseqE] at h1
        obtain ⟨d, hd, h2⟩ := List.mem_map.mp h1
        have h3 := fit.clash d hd x hx (by rw [h0, h2])
        rw [← hidsE] at h3
        obtain ⟨e', he', h4⟩ := List.mem_map.mp h3
        obtain ⟨z, hz, rfl⟩ := hmemz' e' he'
        exact ⟨z, hz, h4⟩)
    refine Sp.bind' hup ?_ ?_
    · rintro u' db2 ⟨hdb2, y1, y2, ids', seqs', y3, y4, y5, y6, y7, y8⟩
      rw [hfst] at y8
      have hx := x1.trans y1
      refine ⟨hx, ?_, ?_, ?_, x2, es, ids', seqs', ?_, y2, y8, ?_⟩
      · show ({ db2.header with updateSeq := seq } : Header) = _
        rw [hdb2, hdb1, x3]
      · show db2.dropped = false; rw [hdb2, hdb1]; exact hd
      · show db2.readOnly = db.readOnly; rw [hdb2, hdb1]
      · show AllSaved _ _ _ _ infos _; rw [x2]; exact x6
      · have hcase : ∀ x ∈ ids', x ∈ es ∨ x ∈ ids := fun x h => ((y8.mem x).mp h).imp id And.left
        refine ⟨hx.wf inv.wf, by have := hx.pos; have := inv.pos; show 0 < db2.file.pos; omega,
          by show 2 ≤ db2.file.cfg.kvThr; rw [hx.frame.cfg]; exact inv.thr, y3, y4,
          ?_, y5, y6, inv.locSorted, y7, ?_, ?_, ?_, ?_, ?_⟩
        · have : db2.header.localRoot = db.header.localRoot := by rw [hdb2, hdb1]
          show RootAt E Idx.loc db2.file db2.header.localRoot locs
          rw [this]
          exact inv.locRoot.keep (hx.keep inv.wf)
        · intro x hx'
          rcases hcase x hx' with h | h
          · exact (x7 x h).1
          · exact inv.ok x h
        · intro x hx'
          show x.info.dbSeq ≤ seq
          rw [x3]
          rcases hcase x hx' with h | h
          · have h1 : x.info.dbSeq ∈ es.map (fun e => e.info.dbSeq) :=
              List.mem_map_of_mem (f := fun e : Entry => e.info.dbSeq) h
            rw [hseqE] at h1
            obtain ⟨d, hd, h2⟩ := List.mem_map.mp h1
            rw [← h2]; exact hlast.2 d hd
          · exact Nat.le_trans (inv.upd x h) hlast.1
        · show seq < _; rw [x3]; exact fit.last
        · intro x hx'
          rcases hcase x hx' with h | h
          · exact (x7 x h).2.keep (y1.keep (x1.wf inv.wf))
          · exact (inv.body x h).keep (hx.keep inv.wf)
        · have h1 := nodup_length_le (m := es ++ ids) y5.nodup (by
            intro x h; rw [List.mem_append]; exact hcase x h)
          have h2 := fit.few
          rw [List.length_append, x5] at h1
          omega
    · rintro e db2 ⟨y1, y2⟩
      refine ⟨by rw [y1, hdb1], FailT.trans x1 y2⟩
  · exact fun _ _ h => h

end Couchstore
