import Verif.Lemmas.Count
import Verif.Lemmas.Map

/-! Helper lemmas: local documents, statistics and multi-key lookups. -/

namespace Couchstore

variable {σ : Type}

/-! ### Local documents -/

/-- The result of opening a local document. -/
def localOr (id : Bytes) (o : Option Bytes) : Except Err LocalDoc :=
  match o with
  | some v => .ok ⟨id, v, false⟩
  | none => .error .docNotFound

theorem openLocalDocument_spec (E : Env) (L : E.Laws) (db : Db) {ids seqs locs}
    (inv : Inv E db ids seqs locs) (hd : db.dropped = false) (id : Bytes) :
    Answers (openLocalDocument E id) db (localOr id (kvFind id locs)) := by
  unfold openLocalDocument Answers
  apply Sp.get_bind
  rw [hd, if_neg (by simp)]
  cases hr : db.header.localRoot with
  | none =>
    have h0 := inv.locRoot.none_iff.mp hr
    subst h0
    exact ⟨RD.refl _, Or.inr rfl⟩
  | some p =>
    dsimp only
    have hlook : LookOk (⟨ebinCmp, false, localDocFetch, none⟩ : LookRq (Option LocalDoc)) (fun _ => True) :=
      ⟨ebin_look, by simp, rfl⟩
    refine Sp.bind' (liftF_spec (btreeLookup_find E L hlook (fun kv h => ⟨trivial, h.1⟩) p locs db.file inv.wf
      (X := Idx.loc) (by have := inv.locRoot; rw [hr] at this; exact this)
      (by show SortedKV (lookupCompare ebinCmp) _; rw [lookupCompare_ebin]; exact inv.locSorted)
      (by simp) [id] (by simp) (by simp) none)) ?_ (fun _ _ h => h.2.elim)
    rintro ⟨r1, r2⟩ db1 ⟨h1, h2, h3⟩
    have hrd : RD db db1 := ⟨h1, h2⟩
    rcases h3 with h3 | ⟨h3, h4, -⟩
    · cases hk : kvFind id locs with
      | none =>
        simp only [findEvents, List.map_cons, List.map_nil, hk, visit, localDocFetch, Prod.mk.injEq] at h3
        obtain ⟨rfl, rfl⟩ := h3
        exact ⟨hrd, Or.inr rfl⟩
      | some v =>
        simp only [findEvents, List.map_cons, List.map_nil, hk, visit, localDocFetch, Prod.mk.injEq] at h3
        obtain ⟨rfl, rfl⟩ := h3
        exact ⟨hrd, rfl⟩
    · cases r2 with
      | none => exact absurd rfl h4
      | some e => exact ⟨hrd, Or.inl h3⟩

theorem localAction_acts {d : LocalDoc} (h : (d.deleted = false → d.id.length < 4096 ∧ d.json.length < 2 ^ 28)) :
    (localAction d).inserts → Idx.loc.V ((localAction d).key, (localAction d).data) := by
  intro hi
  cases hd : d.deleted with
  | true => simp [localAction, hd, Action.inserts] at hi
  | false => exact h hd

theorem localFold (cfg : Cfg) (ds : List LocalDoc) (hn : ds.Pairwise fun a b => a.id ≠ b.id) (m : KMap) :
    mapFold (localRq cfg) (ds.map localAction) () m = .ok ((), localSet m ds) := by
  induction ds generalizing m with
  | nil => rfl
  | cons d ds ih =>
    obtain ⟨p1, p2⟩ := List.pairwise_cons.mp hn
    have hstep : mapStep (localRq cfg) (localAction d) () m =
        .ok ((), m.set d.id (if d.deleted then none else some d.json)) := by
      unfold mapStep localAction
      cases d.deleted <;> rfl
    simp only [List.map_cons, mapFold, hstep]
    rw [ih p2]
    congr 2
    funext k
    unfold localSet
    rw [List.find?_cons]
    by_cases hk : d.id = k
    · subst hk
      have : ds.find? (fun x => decide (x.id = d.id)) = none := by
        rw [List.find?_eq_none]
        intro x hx
        simpa using (fun h => p1 x hx h.symm)
      simp [this, KMap.set]
    · have : ¬ k = d.id := fun h => hk h.symm
      simp [hk, KMap.set, this]

/-- The order of local documents by id. -/
theorem localLe_ok : LeOk (fun a b : LocalDoc => ebinCmp a.id b.id != .gt) (fun _ => True) where
  total a b _ _ := by
    simp only [bne_iff_ne, ne_eq, ebinCmp_gt_iff]
    by_cases h : b.id < a.id
    · right; exact fun h' => absurd (bytes_lt_trans h h') (List.lt_irrefl _)
    · left; exact h
  trans a b c _ _ _ := by
    simp only [bne_iff_ne, ne_eq, ebinCmp_gt_iff, List.not_lt]
    exact fun h1 h2 => List.le_trans h1 h2

theorem localSet_perm {m : KMap} {ds ds' : List LocalDoc} (hp : ds'.Perm ds)
    (hn : ds.Pairwise fun a b => a.id ≠ b.id) : localSet m ds' = localSet m ds := by
  funext k
  unfold localSet
  have hn' : ds'.Pairwise fun a b => a.id ≠ b.id :=
    (List.Perm.pairwise_iff (fun h h0 => h h0.symm) hp).mpr hn
  have huniq : ∀ l : List LocalDoc, (l.Pairwise fun a b => a.id ≠ b.id) → ∀ a ∈ l, ∀ b ∈ l, a.id = b.id → a = b := by
    intro l hl
    induction l with
    | nil => intro a ha; simp at ha
    | cons x xs ih =>
      obtain ⟨p1, p2⟩ := List.pairwise_cons.mp hl
      intro a ha b hb h
      rcases List.mem_cons.mp ha with ha' | ha' <;> rcases List.mem_cons.mp hb with hb' | hb'
      · rw [ha', hb']
      · subst ha'; exact absurd h (p1 b hb')
      · subst hb'; exact absurd h.symm (p1 a ha')
      · exact ih p2 a ha' b hb' h
  have hfind : ds'.find? (fun d => decide (d.id = k)) = ds.find? (fun d => decide (d.id = k)) := by
    cases h1 : ds.find? (fun d => decide (d.id = k)) with
    | none =>
      rw [List.find?_eq_none] at h1 ⊢
      exact fun x hx => h1 x (hp.mem_iff.mp hx)
    | some d =>
      cases h2 : ds'.find? (fun d => decide (d.id = k)) with
      | none =>
        rw [List.find?_eq_none] at h2
        exact absurd (List.find?_some h1) (h2 d (hp.mem_iff.mpr (List.mem_of_find?_eq_some h1)))
      | some d' =>
        congr 1
        refine huniq ds hn _ (hp.mem_iff.mp (List.mem_of_find?_eq_some h2)) _ (List.mem_of_find?_eq_some h1) ?_
        have e1 := List.find?_some h1
        have e2 := List.find?_some h2
        simp only [decide_eq_true_eq] at e1 e2
        rw [e1, e2]
  rw [hfind]

/-- What a save of local documents leaves in the handle. -/
def LocalSaved (E : Env) (db : Db) (ids seqs : List Entry) (locs : List KV) (ds : List LocalDoc) (db' : Db) :
    Prop :=
  Ext db.file db'.file ∧
    db' = { db with
      file := db'.file
      header := { db.header with localRoot := db'.header.localRoot } } ∧
    ∃ locs', Inv E db' ids seqs locs' ∧ ∀ k, kvFind k locs' = localSet (fun k => kvFind k locs) ds k

theorem localModify_gen (E : Env) (L : E.Laws) (db : Db) {ids seqs locs}
    (inv : Inv E db ids seqs locs) (ds : List LocalDoc) {rq : Rq σ} (ok : RqOk rq (fun _ => True) Idx.loc)
    (hc : rq.cmp = ebinCmp) (acts : List Action) (u u' : σ) (ha : ActsOk (fun _ => True) Idx.loc acts)
    (hb : BatchOk rq acts) (hf : mapFold rq acts u (toMap locs) = .ok (u', localSet (fun k => kvFind k locs) ds)) :
    Sp (do
        let (_, root) ← liftF (modifyBtree E rq db.header.localRoot acts ⟨u, false⟩)
        setHeader fun h => { h with localRoot := root }) db
      (fun _ db' => LocalSaved E db ids seqs locs ds db') (FailDb db) := by
  have hs := inv.locSorted
  rw [← hc] at hs
  have hfold := mapFold_eq ok (as := acts) (u := u) (kvs := locs)
    (fun _ _ => trivial) (fun _ _ => trivial) hs
  rw [hf] at hfold
  have hmod := modifyBtree_spec E L ok db.header.localRoot locs acts u db.file inv.wf inv.locRoot hs hb ha
  refine Sp.bind' (liftF_spec hmod) ?_ ?_
  · rintro ⟨st, root⟩ db1 ⟨hdb1, x1, u', out, x2, x3, x4, -⟩
    dsimp only at x4 ⊢
    have hsorted := specFold_sorted ok (fun _ _ => trivial) (fun _ _ => trivial) hs x2
    rw [hc] at hsorted
    rw [x2] at hfold
    have hout : ∀ k, kvFind k out = localSet (fun k => kvFind k locs) ds k := by
      intro k
      simp only [mapR, Except.ok.injEq, Prod.mk.injEq] at hfold
      exact (congrFun hfold.2 k).symm
    refine ⟨x1, ?_, out, ?_, hout⟩
    · show ({ db1 with header := _ } : Db) = _
      rw [hdb1]
    · have hx : Ext db.file db1.file := x1
      have h2 : Inv E db1 ids seqs locs := inv.ext (by rw [hdb1]) x1
      exact ⟨h2.wf, h2.pos, h2.thr, h2.idRoot, h2.seqRoot, x4, h2.idSorted, h2.seqSorted, hsorted, h2.perm,
        h2.ok, h2.upd, h2.updLt, h2.body, h2.few⟩
  · rintro e db1 ⟨hdb1, x1, x2⟩
    refine ⟨hdb1, x1, ?_⟩
    rcases x2 with h | h | h
    · exact Or.inl h
    · exact Or.inr h
    · rw [h] at hfold; cases hfold

theorem localModify_spec (E : Env) (L : E.Laws) (db : Db) {ids seqs locs}
    (inv : Inv E db ids seqs locs) (ds : List LocalDoc) (hok : ∀ d ∈ ds, (d.deleted = false → d.id.length < 4096 ∧ d.json.length < 2 ^ 28))
    (hs : ds.Pairwise fun a b => ebinCmp a.id b.id = .lt) :
    Sp (do
        let (_, root) ← liftF (modifyBtree E (localRq db.file.cfg) db.header.localRoot (ds.map localAction)
          ⟨(), false⟩)
        setHeader fun h => { h with localRoot := root }) db
      (fun _ db' => LocalSaved E db ids seqs locs ds db') (FailDb db) := by
  refine localModify_gen E L db inv ds (localRq_ok db.file.cfg inv.thr) rfl _ () () ?_ ?_
    (localFold _ ds (hs.imp fun h => ebin_lt_ne h) _)
  · intro a ha
    obtain ⟨d, hd, rfl⟩ := List.mem_map.mp ha
    exact ⟨trivial, localAction_acts (hok d hd)⟩
  · unfold BatchOk
    rw [List.pairwise_map]
    exact hs.imp fun h => Or.inl h

theorem updateLocalFold (cfg : Cfg) (ds : List LocalDoc) (hn : ds.Pairwise fun a b => a.id ≠ b.id)
    (hd : ∀ d ∈ ds, d.deleted = false) (m : KMap) :
    mapFold (updateLocalRq cfg) (ds.map updateLocalAction) (ds.map updateLocalAction) m = .ok ([], localSet m ds) := by
  induction ds generalizing m with
  | nil => rfl
  | cons d ds ih =>
    obtain ⟨p1, p2⟩ := List.pairwise_cons.mp hn
    have hstep : mapStep (updateLocalRq cfg) (updateLocalAction d) ((d :: ds).map updateLocalAction) m =
        .ok (ds.map updateLocalAction, m.set d.id (some d.json)) := by
      by_cases hm : m d.id = some d.json
      · have : m.set d.id (some d.json) = m := by
          funext k
          unfold KMap.set
          by_cases hk : k = d.id
          · rw [if_pos hk, hk, hm]
          · rw [if_neg hk]
        simp [mapStep, updateLocalAction, updateLocalRq, updateLocalFetch, hm, this]
      · simp [mapStep, updateLocalAction, updateLocalRq, updateLocalFetch, hm, mapInsert]
    simp only [List.map_cons, mapFold] at hstep ⊢
    rw [hstep]
    dsimp only
    rw [ih p2 (fun x hx => hd x (by simp [hx]))]
    congr 2
    funext k
    unfold localSet
    rw [List.find?_cons]
    by_cases hk : d.id = k
    · subst hk
      have : ds.find? (fun x => decide (x.id = d.id)) = none := by
        rw [List.find?_eq_none]
        intro x hx
        simpa using (fun h => p1 x hx h.symm)
      simp [this, KMap.set, hd d (by simp)]
    · have : ¬ k = d.id := fun h => hk h.symm
      simp [hk, KMap.set, this]

theorem saveLocalDocument_spec (E : Env) (L : E.Laws) (db : Db) {ids seqs locs}
    (inv : Inv E db ids seqs locs) (hd : db.dropped = false) (d : LocalDoc) (hok : (d.deleted = false → d.id.length < 4096 ∧ d.json.length < 2 ^ 28)) :
    Sp (saveLocalDocument E d) db (fun _ db' => LocalSaved E db ids seqs locs [d] db') (FailDb db) := by
  unfold saveLocalDocument
  apply Sp.get_bind
  rw [hd, if_neg (by simp)]
  exact localModify_spec E L db inv [d] (by simpa using hok) (by simp)

theorem sortLocals {ds : List LocalDoc} (hn : ds.Pairwise fun a b => a.id ≠ b.id) :
    (sortBy (fun a b : LocalDoc => ebinCmp a.id b.id != .gt) ds).Pairwise fun a b => ebinCmp a.id b.id = .lt := by
  have hp := sortBy_perm (fun a b : LocalDoc => ebinCmp a.id b.id != .gt) ds
  have h1 := sortBy_sorted localLe_ok ds fun _ _ => trivial
  have h2 := (List.Perm.pairwise_iff (R := fun a b : LocalDoc => a.id ≠ b.id) (fun h h0 => h h0.symm) hp).mpr hn
  refine (h1.and h2).imp ?_
  rintro a b ⟨h3, h4⟩
  simp only [bne_iff_ne, ne_eq] at h3
  cases h : ebinCmp a.id b.id with
  | lt => rfl
  | eq => exact absurd ((ebinCmp_eq_iff _ _).mp h) h4
  | gt => exact absurd h h3

theorem saveLocalDocuments_spec (E : Env) (L : E.Laws) (db : Db) {ids seqs locs}
    (inv : Inv E db ids seqs locs) (hd : db.dropped = false) (ds : List LocalDoc) (hok : ∀ d ∈ ds, (d.deleted = false → d.id.length < 4096 ∧ d.json.length < 2 ^ 28))
    (hn : ds.Pairwise fun a b => a.id ≠ b.id) :
    Sp (saveLocalDocuments E ds) db (fun _ db' => LocalSaved E db ids seqs locs ds db') (FailDb db) := by
  unfold saveLocalDocuments
  apply Sp.get_bind
  rw [hd, if_neg (by simp)]
  have hp := sortBy_perm (fun a b : LocalDoc => ebinCmp a.id b.id != .gt) ds
  refine (localModify_spec E L db inv _ (fun d hd => hok d (mem_sortBy.mp hd)) (sortLocals hn)).mono ?_ fun _ _ h => h
  rintro r d ⟨h1, h2, locs', h3, h4⟩
  exact ⟨h1, h2, locs', h3, fun k => by rw [h4, localSet_perm hp hn]⟩

theorem updateLocalDocuments_spec (E : Env) (L : E.Laws) (db : Db) {ids seqs locs}
    (inv : Inv E db ids seqs locs) (hd : db.dropped = false) (ds : List LocalDoc) (hok : ∀ d ∈ ds, (d.deleted = false → d.id.length < 4096 ∧ d.json.length < 2 ^ 28))
    (hn : ds.Pairwise fun a b => a.id ≠ b.id) (hdel : ∀ d ∈ ds, d.deleted = false) :
    Sp (updateLocalDocuments E ds) db (fun _ db' => LocalSaved E db ids seqs locs ds db') (FailDb db) := by
  unfold updateLocalDocuments
  apply Sp.get_bind
  rw [hd, if_neg (by simp)]
  have hp := sortBy_perm (fun a b : LocalDoc => ebinCmp a.id b.id != .gt) ds
  have hsort := sortLocals hn
  refine (localModify_gen E L db inv _ (updateLocalRq_ok db.file.cfg inv.thr) rfl _ _ _ ?_ ?_
    (updateLocalFold _ _ (hsort.imp fun h => ebin_lt_ne h) (fun d h => hdel d (mem_sortBy.mp h)) _)).mono ?_
    fun _ _ h => h
  · intro a ha
    obtain ⟨d, hd, rfl⟩ := List.mem_map.mp ha
    exact ⟨trivial, fun _ => hok d (mem_sortBy.mp hd) (hdel d (mem_sortBy.mp hd))⟩
  · unfold BatchOk
    rw [List.pairwise_map]
    exact hsort.imp fun h => Or.inl h
  · rintro r d ⟨h1, h2, locs', h3, h4⟩
    exact ⟨h1, h2, locs', h3, fun k => by rw [h4, localSet_perm hp hn]⟩

/-! ### Statistics -/

theorem idKV_inj {a b : List DocInfo} (ha : ∀ d ∈ a, DocOk d) (hb : ∀ d ∈ b, DocOk d)
    (h : a.map idKV = b.map idKV) : a = b := by
  have key : ∀ l : List DocInfo, (∀ d ∈ l, DocOk d) →
      (l.map idKV).filterMap (fun kv => byIdReadDocInfo kv.1 kv.2) = l := by
    intro l hl
    induction l with
    | nil => rfl
    | cons d l ih =>
      have : byIdReadDocInfo (idKV d).1 (idKV d).2 = some d := byId_roundtrip _ (hl d (by simp)).fits
      rw [List.map_cons, List.filterMap_cons, this, ih fun d hd => hl d (by simp [hd])]
  rw [← key a ha, ← key b hb, h]

/-- The statistics of the documents of a handle. -/
theorem dbInfo_spec (E : Env) (db : Db) {ids seqs locs} (inv : Inv E db ids seqs locs) :
    Sp dbInfo db
      (fun r d => d = db ∧ r.lastSequence = db.header.updateSeq ∧
        r.docCount = (docStats (ids.map (·.info))).notDeleted % 2 ^ 40 ∧
        r.deletedCount = (docStats (ids.map (·.info))).deleted % 2 ^ 40 ∧
        r.spaceUsed = (docStats (ids.map (·.info))).size % 2 ^ 48 + rootSize db.header.byIdRoot +
          rootSize db.header.bySeqRoot + rootSize db.header.localRoot ∧
        r.fileSize = db.file.pos ∧ r.headerPosition = db.header.position ∧ r.purgeSeq = db.header.purgeSeq)
      (fun _ _ => False) := by
  unfold dbInfo
  apply Sp.get_bind
  dsimp only
  cases hr : db.header.byIdRoot with
  | none =>
    have := inv.roots_none.1.mp hr
    subst this
    refine ⟨rfl, rfl, rfl, rfl, ?_, rfl, rfl, rfl⟩
    simp [docStats, rootSize]
  | some p =>
    have hroot := inv.idRoot
    rw [hr] at hroot
    obtain ⟨l, ht⟩ := hroot
    obtain ⟨ds, h1, h2, h3⟩ : Idx.byId.R (idKVs ids) p.reduceValue := by
      cases l with
      | zero => obtain ⟨_, _, _, _, _, hR, _⟩ := id ht; exact hR
      | succ l => obtain ⟨_, _, _, _, _, hR, _⟩ := id ht; exact hR
    have h4 : ds = ids.map (·.info) := by
      apply idKV_inj h1
      · intro d hd
        obtain ⟨e, he, rfl⟩ := List.mem_map.mp hd
        exact inv.ok e he
      · rw [← h2]; unfold idKVs; rw [List.map_map]; rfl
    subst h4
    dsimp only
    rw [h3, if_neg (by rw [length_encodeByIdReduce]; omega)]
    have e1 : ∀ n d s : Nat, slice (enc40 n ++ enc40 d ++ enc48 s) 0 5 = enc40 n := by
      intro n d s
      unfold slice
      rw [List.drop_zero, List.append_assoc]
      exact List.take_left' (by simp)
    have e2 : ∀ n d s : Nat, slice (enc40 n ++ enc40 d ++ enc48 s) 5 5 = enc40 d := by
      intro n d s
      unfold slice
      rw [List.append_assoc, List.drop_left' (by simp)]
      exact List.take_left' (by simp)
    have e3 : ∀ n d s : Nat, slice (enc40 n ++ enc40 d ++ enc48 s) 10 6 = enc48 s := by
      intro n d s
      unfold slice
      rw [List.drop_left' (by simp)]
      exact List.take_of_length_le (by simp)
    unfold encodeByIdReduce
    rw [e1, e2, e3]
    refine ⟨rfl, rfl, beDec_beEnc_mod .., beDec_beEnc_mod .., ?_, rfl, rfl, rfl⟩
    show beDec (enc48 _) + _ + _ + _ = _
    rw [show ∀ n, beDec (enc48 n) = n % 2 ^ 48 from fun n => beDec_beEnc_mod ..]
    rfl

end Couchstore
