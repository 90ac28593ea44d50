import Verif.Lemmas.CompactAsk
import Verif.Lemmas.Saved
import Verif.Spec.Replay

/-! The replay of changes: what the target holds. -/

namespace Couchstore

variable {υ : Type}

def toLocal (kv : KV) : LocalDoc := ⟨kv.1, kv.2, false⟩
def toItem (e : Entry) : SaveItem := ⟨e.raw, e.info, 0⟩

/-- The last sequence number after saving `l`. -/
def maxSeq (n : Nat) (l : List Entry) : Nat := l.foldl (fun s e => max s e.info.dbSeq) n

/-- The target after `done` and the local documents `ldone` were copied. -/
structure TI (E : Env) (t0 : Db) (tids : List Entry) (tlocs : List KV) (done : List Entry) (ldone : List KV) (tgt : Db) : Prop where
  steps : Steps E t0 tgt
  opened : tgt.dropped = false
  ext : Ext t0.file tgt.file
  head : tgt.header = { t0.header with
    byIdRoot := tgt.header.byIdRoot
    bySeqRoot := tgt.header.bySeqRoot
    localRoot := tgt.header.localRoot
    updateSeq := maxSeq t0.header.updateSeq done }
  holds : ∃ ids seqs locs, Inv E tgt ids seqs locs ∧
    (∀ id, (entFind id ids).map (Entry.plain false) = ((entFind id done).or (entFind id tids)).map (Entry.plain false)) ∧
    ∀ k, kvFind k locs = (kvFind k ldone).or (kvFind k tlocs)

/-- Documents that can be copied to the target. -/
structure New (E : Env) (t0 : Db) (tids l : List Entry) : Prop where
  item : ∀ e ∈ l, ItemOk E t0.file.cfg replayOpts (toItem e)
  ids : (l.map (·.info.id)).Nodup
  seqs : (l.map (·.info.dbSeq)).Nodup
  above : ∀ e ∈ l, t0.header.updateSeq < e.info.dbSeq
  lt : ∀ e ∈ l, e.info.dbSeq < 2 ^ 48
  bp : ∀ e ∈ l, (e.raw = none → e.info.bp = 0) ∧ (e.raw ≠ none → e.info.bp ≠ 0)
  few : tids.length + l.length < 2 ^ 40

theorem New.of_sublist {E : Env} {t0 : Db} {tids l m : List Entry} (h : New E t0 tids l) (s : m.Sublist l) : New E t0 tids m :=
  ⟨fun e he => h.item e (s.subset he), h.ids.sublist (s.map _), h.seqs.sublist (s.map _), fun e he => h.above e (s.subset he),
    fun e he => h.lt e (s.subset he), fun e he => h.bp e (s.subset he), by have := s.length_le; have := h.few; omega⟩

theorem storedBody_replay (E : Env) (d : DocInfo) (b : Bytes) : storedBody E replayOpts d b = b := by
  unfold storedBody replayOpts
  simp

theorem plain_saved {E : Env} {c : Cfg} {pend es : List Entry}
    (h : AllSaved E c replayOpts (pend.map toItem) (pend.map (·.info)) es)
    (hb : ∀ e ∈ pend, (e.raw = none → e.info.bp = 0) ∧ (e.raw ≠ none → e.info.bp ≠ 0))
    (hd : ∀ e ∈ pend, e.raw = none → e.info.deleted = true) :
    es.map (Entry.plain false) = pend.map (Entry.plain false) := by
  induction pend generalizing es with
  | nil => cases h; rfl
  | cons e pend ih =>
    cases h with
    | @cons _ _ _ e' _ es h1 h2 =>
      rw [List.map_cons, List.map_cons, ih h2 (fun x hx => hb x (by simp [hx])) fun x hx => hd x (by simp [hx])]
      congr 1
      have b1 := hb e (by simp)
      have d1 := hd e (by simp)
      obtain ⟨info, raw⟩ := e
      unfold toItem SavedAs at h1
      cases raw with
      | none =>
        dsimp only at h1 b1 d1
        rw [h1]
        have := b1.1 rfl
        have := d1 rfl
        simp_all [Entry.plain, DocInfo.plain]
      | some b =>
        dsimp only at h1 b1
        obtain ⟨bp, h3, rfl⟩ := h1
        rw [storedBody_replay]
        have := b1.2 (by simp)
        simp only [Entry.plain, DocInfo.plain, Bool.false_eq_true, if_false]
        rw [show min bp 1 = 1 by omega, show min info.bp 1 = 1 by omega]

theorem entFind_append (id : Bytes) (a b : List Entry) : entFind id (a ++ b) = (entFind id a).or (entFind id b) := by
  unfold entFind; rw [List.find?_append]

/-- Saving more documents. -/
theorem find_more {ids ids' tids done pend es : List Entry}
    (h : ∀ id, (entFind id ids).map (Entry.plain false) = ((entFind id done).or (entFind id tids)).map (Entry.plain false))
    (hs : SavedInto es ids ids') (h' : IdSorted ids') (hp : es.map (Entry.plain false) = pend.map (Entry.plain false))
    (hn : ((done ++ pend).map (·.info.id)).Nodup) (id : Bytes) :
    (entFind id ids').map (Entry.plain false) =
      ((entFind id (done ++ pend)).or (entFind id tids)).map (Entry.plain false) := by
  obtain ⟨s1, s2⟩ := entFind_saved hs h'
  rw [entFind_append]
  have hpl : ∀ x y : Entry, x.plain false = y.plain false → x.info.id = y.info.id := by
    intro x y hxy
    exact congrArg (fun p : DocInfo × Option Bytes => p.1.id) hxy
  cases hf : entFind id pend with
  | none =>
    rw [entFind_none] at hf
    rw [s2 id ?_, h, Option.or_none]
    intro e he heq
    have : e.plain false ∈ pend.map (Entry.plain false) := by rw [← hp]; exact List.mem_map.mpr ⟨e, he, rfl⟩
    obtain ⟨y, hy, hxy⟩ := List.mem_map.mp this
    exact hf y hy ((hpl _ _ hxy).trans heq)
  | some e =>
    obtain ⟨he, rfl⟩ := mem_of_entFind hf
    have hd : entFind e.info.id done = none := by
      rw [entFind_none]
      intro x hx heq
      rw [List.map_append, List.nodup_append] at hn
      exact hn.2.2 _ (List.mem_map.mpr ⟨x, hx, rfl⟩) _ (List.mem_map.mpr ⟨e, he, rfl⟩) heq
    have : e.plain false ∈ es.map (Entry.plain false) := by rw [hp]; exact List.mem_map.mpr ⟨e, he, rfl⟩
    obtain ⟨y, hy, hxy⟩ := List.mem_map.mp this
    rw [← hpl _ _ hxy, s1 y hy, hpl _ _ hxy, hd]
    simp [hxy]

/-- Where the documents of the target come from. -/
theorem find_source {ids tids done : List Entry} (hs : IdSorted ids)
    (h : ∀ id, (entFind id ids).map (Entry.plain false) = ((entFind id done).or (entFind id tids)).map (Entry.plain false))
    {x : Entry} (hx : x ∈ ids) :
    ∃ y, (y ∈ done ∨ y ∈ tids) ∧ y.info.id = x.info.id ∧ y.info.dbSeq = x.info.dbSeq := by
  have h1 := h x.info.id
  rw [entFind_of_mem hs hx] at h1
  cases hy : (entFind x.info.id done).or (entFind x.info.id tids) with
  | none => rw [hy] at h1; cases h1
  | some y =>
    rw [hy] at h1
    have h1 : x.plain false = y.plain false := Option.some.inj h1
    refine ⟨y, ?_, (congrArg (fun p : DocInfo × Option Bytes => p.1.id) h1).symm,
      (congrArg (fun p : DocInfo × Option Bytes => p.1.dbSeq) h1).symm⟩
    rcases Option.or_eq_some_iff.mp hy with h2 | ⟨-, h2⟩
    · exact Or.inl (mem_of_entFind h2).1
    · exact Or.inr (mem_of_entFind h2).1

theorem replay_count {ids tids done : List Entry} (hs : IdSorted ids)
    (h : ∀ id, (entFind id ids).map (Entry.plain false) = ((entFind id done).or (entFind id tids)).map (Entry.plain false)) :
    ids.length ≤ tids.length + done.length := by
  have hn : (ids.map (·.info.id)).Nodup := by
    rw [List.nodup_iff_pairwise_ne, List.pairwise_map]
    exact hs.imp fun h => ebin_lt_ne h
  have := nodup_length_le hn (m := (tids ++ done).map (·.info.id)) (by
    intro k hk
    obtain ⟨x, hx, rfl⟩ := List.mem_map.mp hk
    obtain ⟨y, hy, h1, -⟩ := find_source hs h hx
    exact List.mem_map.mpr ⟨y, by rcases hy with hy | hy <;> simp [hy], h1⟩)
  simpa using this

/-- The documents may be saved in the target. -/
theorem New.args {E : Env} (L : E.Laws) {t0 tgt : Db} {tids done pend : List Entry} {tlocs ldone : List KV}
    (N : New E t0 tids (done ++ pend)) (T : TI E t0 tids tlocs done ldone tgt)
    (hu : ∀ e ∈ tids, e.info.dbSeq ≤ t0.header.updateSeq) : SaveArgs E tgt replayOpts (pend.map toItem) := by
  obtain ⟨ids, seqs, locs, inv, hf, -⟩ := T.holds
  have hin : ∀ e ∈ pend, e ∈ done ++ pend := fun e he => by simp [he]
  have hnid := N.ids
  have hnseq := N.seqs
  rw [List.map_append, List.nodup_append] at hnid hnseq
  refine ⟨?_, ?_, ?_, (fun h => nomatch h), ?_, ?_, ?_⟩
  · intro it hit
    obtain ⟨e, he, rfl⟩ := List.mem_map.mp hit
    rw [T.ext.frame.cfg]
    exact N.item e (hin e he)
  · rw [List.map_map]
    exact hnid.2.1
  · intro r hr
    obtain ⟨r', h1, h2, -, -⟩ := info_answer E inv
    rw [hr] at h1
    cases h1
    have h4 := stats_total (ids.map (·.info))
    have h5 := replay_count inv.idSorted hf
    have h6 := N.few
    unfold statsOf at h2
    simp only [Prod.mk.injEq] at h2
    rw [List.length_map] at h4 ⊢
    rw [List.length_append] at h6
    omega
  · intro _ it hit
    obtain ⟨e, he, rfl⟩ := List.mem_map.mp hit
    exact N.lt e (hin e he)
  · intro _
    rw [List.map_map]
    exact hnseq.2.1
  · intro _ it hit d hd
    obtain ⟨e, he, rfl⟩ := List.mem_map.mp hit
    exfalso
    rw [docinfoBySequence_answer E L inv T.opened] at hd
    cases hx : seqFind ((toItem e).info.dbSeq % 2 ^ 48) seqs with
    | none => rw [hx] at hd; cases hd
    | some x =>
      have h1 := mem_of_seqFind hx
      have hlt := N.lt e (hin e he)
      have h2 : x.info.dbSeq = e.info.dbSeq := by
        rw [h1.2]
        exact Nat.mod_eq_of_lt hlt
      obtain ⟨y, hy, -, h3⟩ := find_source inv.idSorted hf (inv.perm.mem_iff.mp h1.1)
      rcases hy with hy | hy
      · exact hnseq.2.2 _ (List.mem_map.mpr ⟨y, hy, rfl⟩) _ (List.mem_map.mpr ⟨e, he, rfl⟩) (h3.trans h2)
      · have := hu y hy
        have := N.above e (hin e he)
        omega

/-! ### Writing out what was collected -/

theorem onTarget_spec {α : Type} {m : DbM α} {st : ReplaySt υ} {Q : α → Db → Prop} {R : Err → Db → Prop}
    (h : Sp m st.tgt Q R) :
    Sp (onTarget m) st (fun a s => s = { st with tgt := s.tgt } ∧ Q a s.tgt) (fun e s => s = { st with tgt := s.tgt } ∧ R e s.tgt) := by
  unfold Sp at h ⊢
  unfold onTarget
  cases hm : m st.tgt with
  | ok a d => rw [hm] at h; exact ⟨rfl, h⟩
  | error e d => rw [hm] at h; exact ⟨rfl, h⟩

theorem Sp.withAfter {S α : Type} {m : EStateM Err S α} {s : S} {Q : α → S → Prop} {R : Err → S → Prop} (h : Sp m s Q R) :
    Sp m s (fun a s' => Q a s' ∧ s' = Couchstore.after m s) (fun e s' => R e s' ∧ s' = Couchstore.after m s) := by
  unfold Sp at h ⊢
  unfold Couchstore.after
  cases hm : m s with
  | ok a d => rw [hm] at h; exact ⟨h, rfl⟩
  | error e d => rw [hm] at h; exact ⟨h, rfl⟩

theorem maxSeq_append (n : Nat) (a b : List Entry) : maxSeq n (a ++ b) = maxSeq (maxSeq n a) b := by
  unfold maxSeq; rw [List.foldl_append]

theorem foldl_items (n : Nat) (l : List Entry) :
    (l.map toItem).foldl (fun s it => max s it.info.dbSeq) n = maxSeq n l := by
  unfold maxSeq; rw [List.foldl_map]; rfl

/-- The reasons for which writing to the target fails. -/
def FlushFails (E : Env) (t0 : Db) (e : Err) (st : ReplaySt υ) : Prop :=
  Steps E t0 st.tgt ∧ (t0.file.faults ≠ [] ∨ e = .formatLimit)

theorem flushDocs_spec (E : Env) (L : E.Laws) {t0 : Db} {tids : List Entry} {tlocs ldone : List KV} {done pend : List Entry}
    (hu : ∀ e ∈ tids, e.info.dbSeq ≤ t0.header.updateSeq) (N : New E t0 tids (done ++ pend))
    (hd : ∀ e ∈ pend, e.raw = none → e.info.deleted = true) (st : ReplaySt υ) (T : TI E t0 tids tlocs done ldone st.tgt)
    (hi : st.items = pend.map toItem) (hl : st.localDocs = []) :
    Sp (replayFlush E) st
      (fun _ st' => TI E t0 tids tlocs (done ++ pend) ldone st'.tgt ∧ st'.items = [] ∧ st'.localDocs = [] ∧ st'.src = st.src)
      (FlushFails E t0) := by
  unfold replayFlush
  apply Sp.get_bind
  rw [if_neg (by rw [hl]; simp)]
  by_cases hp : pend = []
  · subst hp
    rw [if_pos (by rw [hi]; rfl)]
    exact ⟨by rw [List.append_nil]; exact T, hi, hl, rfl⟩
  · rw [if_neg (by rw [hi]; simpa using hp), hi]
    obtain ⟨ids, seqs, locs, inv, hf, hloc⟩ := T.holds
    have A := N.args L T hu
    have hsp := (saveDocuments_spec E L replayOpts (none : Option (SaveCb Unit)) (pend.map toItem) () st.tgt inv T.opened
      (A.fits L inv T.opened)).withAfter
    refine Sp.bind' (onTarget_spec hsp) ?_ ?_
    · rintro r s ⟨hs, ⟨h1, h2, h3, -, h5, es, ids', seqs', h6, -, h8, h9⟩, h10⟩
      obtain ⟨a1, a2⟩ := assignAll_true (opts := replayOpts) rfl (pend.map toItem) st.tgt.header.updateSeq
      rw [h5, a1] at h6
      have h6 : AllSaved E st.tgt.file.cfg replayOpts (pend.map toItem) (pend.map (·.info)) es := by
        rw [List.map_map] at h6
        exact h6
      have hpl := plain_saved h6 (fun e he => N.bp e (by simp [he])) hd
      have hupd := T.head
      have hsaved : TI E t0 tids tlocs (done ++ pend) ldone s.tgt := by
        refine ⟨.step T.steps ?_, h3, T.ext.trans h1, ?_, ids', seqs', locs, h9, ?_, hloc⟩
        · rw [h10]
          exact Step.save _ _ _ _ A
        · rw [h2, a2, foldl_items, maxSeq_append, hupd]
        · exact find_more hf h8 h9.idSorted hpl N.ids
      have : s.localDocs = [] := by rw [hs]; exact hl
      have : s.src = st.src := by rw [hs]
      exact ⟨hsaved, rfl, ‹s.localDocs = []›, ‹s.src = st.src›⟩
    · rintro e s ⟨hs, ⟨-, -, h1⟩, h2⟩
      refine ⟨.step T.steps ?_, h1.imp T.ext.faults_ne id⟩
      rw [h2]
      exact Step.save _ _ _ _ A

theorem kvFind_append (k : Bytes) (a b : List KV) : kvFind k (a ++ b) = (kvFind k a).or (kvFind k b) := by
  induction a with
  | nil => simp [kvFind]
  | cons x a ih =>
    obtain ⟨k', v⟩ := x
    simp only [List.cons_append, kvFind]
    by_cases h : k' = k
    · rw [if_pos h, if_pos h]; rfl
    · rw [if_neg h, if_neg h, ih]

theorem localSet_toLocal (m : KMap) (l : List KV) (k : Bytes) : localSet m (l.map toLocal) k = (kvFind k l).or (m k) := by
  unfold localSet
  induction l with
  | nil => rfl
  | cons x l ih =>
    obtain ⟨k', v⟩ := x
    simp only [List.map_cons, kvFind]
    by_cases h : k' = k
    · rw [List.find?_cons_of_pos (by exact decide_eq_true h), if_pos h]
      rfl
    · rw [List.find?_cons_of_neg (by exact fun h' => h (of_decide_eq_true h')), if_neg h]
      exact ih

theorem kvFind_mem {k v : Bytes} {l : List KV} (h : kvFind k l = some v) : (k, v) ∈ l := by
  induction l with
  | nil => cases h
  | cons x l ih =>
    obtain ⟨k', v'⟩ := x
    simp only [kvFind] at h
    by_cases hk : k' = k
    · rw [if_pos hk] at h
      cases h
      simp [hk]
    · rw [if_neg hk] at h
      exact List.mem_cons_of_mem _ (ih h)

/-- The local documents can be saved. -/
structure LNew (l : List KV) : Prop where
  keys : (l.map (·.1)).Nodup
  size : ∀ kv ∈ l, kv.1.length < 4096 ∧ kv.2.length < 2 ^ 28

theorem LNew.args {a b : List KV} (h : LNew (a ++ b)) : LocalArgs (b.map toLocal) := by
  refine ⟨?_, ?_⟩
  · intro d hd _
    obtain ⟨kv, hk, rfl⟩ := List.mem_map.mp hd
    exact h.size kv (by simp [hk])
  · rw [List.map_map]
    have := h.keys
    rw [List.map_append, List.nodup_append] at this
    exact this.2.1

theorem flushLocals_spec (E : Env) (L : E.Laws) {t0 : Db} {tids : List Entry} {tlocs ldone lpend : List KV}
    (N : LNew (ldone ++ lpend)) (st : ReplaySt υ) (T : TI E t0 tids tlocs [] ldone st.tgt)
    (hi : st.items = []) (hl : st.localDocs = lpend.map toLocal) :
    Sp (replayFlush E) st
      (fun _ st' => TI E t0 tids tlocs [] (ldone ++ lpend) st'.tgt ∧ st'.items = [] ∧ st'.localDocs = [] ∧ st'.src = st.src)
      (FlushFails E t0) := by
  unfold replayFlush
  apply Sp.get_bind
  by_cases hp : lpend = []
  · subst hp
    rw [if_neg (by rw [hl]; simp), if_pos hi]
    exact ⟨by rw [List.append_nil]; exact T, hi, hl, rfl⟩
  · rw [if_pos (by rw [hl]; simpa using hp), hl]
    obtain ⟨ids, seqs, locs, inv, hf, hloc⟩ := T.holds
    have A := N.args
    have hdel : ∀ d ∈ lpend.map toLocal, d.deleted = false := by
      intro d hd
      obtain ⟨kv, hk, rfl⟩ := List.mem_map.mp hd
      rfl
    have hsp := (updateLocalDocuments_spec E L st.tgt inv T.opened (lpend.map toLocal) A.item A.pairwise hdel).withAfter
    refine Sp.bind' (onTarget_spec hsp) ?_ ?_
    · rintro r s ⟨hs, ⟨h1, h2, locs', h3, h4⟩, h5⟩
      have hsaved : TI E t0 tids tlocs [] (ldone ++ lpend) s.tgt := by
        refine ⟨.step T.steps ?_, by rw [h2]; exact T.opened, T.ext.trans h1, ?_, ids, seqs, locs', h3, hf, ?_⟩
        · rw [h5]
          exact Step.updateLocals _ A hdel
        · rw [h2]
          dsimp only
          rw [T.head]
        · intro k
          rw [h4, localSet_toLocal, hloc, kvFind_append]
          have hn := N.keys
          rw [List.map_append, List.nodup_append] at hn
          cases h6 : kvFind k ldone with
          | none => simp
          | some v =>
            cases h7 : kvFind k lpend with
            | none => simp
            | some w =>
              exact absurd rfl (hn.2.2 k (List.mem_map.mpr ⟨(k, v), kvFind_mem h6, rfl⟩) k (List.mem_map.mpr ⟨(k, w), kvFind_mem h7, rfl⟩))
      have a1 : s.items = [] := by rw [hs]; exact hi
      have a2 : s.src = st.src := by rw [hs]
      exact ⟨hsaved, a1, rfl, a2⟩
    · rintro e s ⟨hs, ⟨-, -, h1⟩, h2⟩
      refine ⟨.step T.steps ?_, h1.imp T.ext.faults_ne id⟩
      rw [h2]
      exact Step.updateLocals _ A hdel

/-! ### One document after the other -/

/-- Only a raw operation that fails with a certain number makes a read fail with it. -/
def Tells (c : Int) {α : Type} (m : M α) : Prop :=
  ∀ f, Sp m f (fun _ g => g.faults <:+ f.faults) (fun e _ => e.code = some c → Fault.err c ∈ f.faults)

theorem Tells.bind {c : Int} {α β : Type} {m : M α} {k : α → M β} (h : Tells c m) (hk : ∀ a, Tells c (k a)) : Tells c (m >>= k) := by
  intro f
  refine Sp.bind' (h f) ?_ fun _ _ h => h
  intro a g hg
  exact (hk a g).mono (fun _ _ h => h.trans hg) fun e g h he => hg.subset (h he)

theorem Tells.pure {c : Int} {α : Type} (a : α) : Tells c (Pure.pure a : M α) := fun _ => List.suffix_refl _
theorem Tells.get {c : Int} : Tells c (get : M File) := fun _ => List.suffix_refl _
theorem Tells.throw {c : Int} {α : Type} {e : Err} (h : e.code ≠ some c) : Tells c (throw e : M α) := fun _ he => absurd he h

theorem pread_tells (c : Int) (off n : Nat) : Tells c (pread off n) := by
  intro f
  unfold pread
  have hp : Sp popFault f (fun a g => g.faults <:+ f.faults ∧ ∀ x, a = .err x → Fault.err x ∈ f.faults) (fun _ _ => False) := by
    unfold Sp popFault
    cases hf : f.faults with
    | nil => simp [hf]
    | cons x l =>
      simp only
      exact ⟨List.suffix_cons _ _, fun y hy => by simp [hy]⟩
  refine Sp.bind' hp ?_ fun _ _ h => h.elim
  rintro a g ⟨hg, ha⟩
  cases a with
  | none => exact hg
  | short k => exact hg
  | err x =>
    intro he
    cases he
    exact ha _ rfl

theorem readSkipLoop_tells (fuel pos len : Nat) (acc : Bytes) : Tells (-5) (readSkipLoop fuel pos len acc) := by
  induction fuel generalizing pos len acc with
  | zero =>
    cases len with
    | zero => exact Tells.pure _
    | succ len => exact Tells.throw (by simp [Err.code])
  | succ fuel ih =>
    cases len with
    | zero => exact Tells.pure _
    | succ len =>
      unfold readSkipLoop
      refine (pread_tells _ _ _).bind fun got => ?_
      split
      · exact Tells.throw (by simp [Err.code])
      · exact ih _ _ _

theorem preadBin_tells (E : Env) (pos : Nat) : Tells (-5) (preadBin E pos) := by
  unfold preadBin
  refine Tells.get.bind fun f => ?_
  split
  · unfold preadEncrypted
    refine (readSkipLoop_tells _ _ _ _).bind fun r => ?_
    dsimp only
    split
    · exact Tells.throw (by simp [Err.code])
    · refine (readSkipLoop_tells _ _ _ _).bind fun r => ?_
      split
      · exact Tells.pure _
      · exact Tells.throw (by simp [Err.code])
  · unfold preadPlain
    refine Tells.get.bind fun f => ?_
    refine (readSkipLoop_tells _ _ _ _).bind fun r => ?_
    dsimp only
    split
    · exact Tells.throw (by simp [Err.code])
    · refine (readSkipLoop_tells _ _ _ _).bind fun r => ?_
      split
      · exact Tells.pure _
      · exact Tells.throw (by simp [Err.code])

theorem openDoc_tells (E : Env) (d : DocInfo) (db : Db) (h : d.bp ≠ 0) (hd : db.dropped = false) :
    Sp (openDocWithDocinfo E d false) db (fun _ _ => True)
      (fun e _ => e.code = some (-5) → Fault.err (-5) ∈ db.file.faults) := by
  unfold openDocWithDocinfo
  rw [if_neg h]
  unfold bpToDoc
  apply Sp.get_bind
  rw [hd, if_neg (by simp)]
  simp only [Bool.false_and, Bool.false_eq_true, if_false]
  exact (liftF_spec (preadBin_tells E d.bp db.file)).mono (fun _ _ _ => trivial) fun _ _ h => h.2

/-- The source while it is scanned. -/
structure SrcOk (E : Env) (r : Replay υ) (bids bseqs : List Entry) (blocs : List KV) (src : Db) : Prop where
  inv : Inv E src bids bseqs blocs
  opened : src.dropped = false
  faults : src.file.faults <:+ r.bodyFaults

/-- The reasons for which replay fails while it copies. -/
def CopyFails (E : Env) (r : Replay υ) (src t0 : Db) (e : Err) (st : ReplaySt υ) : Prop :=
  Steps E t0 st.tgt ∧ ((∃ u d, (r.hook u d).2 ≠ none) ∨ r.bodyFaults ≠ [] ∨ src.file.faults ≠ [] ∨ t0.file.faults ≠ [] ∨
    e = .formatLimit)

theorem FlushFails.copy {E : Env} {r : Replay υ} {src t0 : Db} {e : Err} {st : ReplaySt υ}
    (h : FlushFails E t0 e st) : CopyFails E r src t0 e st :=
  ⟨h.1, by rcases h.2 with h | h; exact .inr (.inr (.inr (.inl h))); exact .inr (.inr (.inr (.inr h)))⟩

/-- The state after the documents `pre` were read. -/
structure DI (E : Env) (r : Replay υ) (t0 : Db) (tids : List Entry) (tlocs : List KV) (bids bseqs : List Entry) (blocs : List KV)
    (pre : List Entry) (st : ReplaySt υ) : Prop where
  src : SrcOk E r bids bseqs blocs st.src
  tgt : ∃ done pend, pre = done ++ pend ∧ TI E t0 tids tlocs done blocs st.tgt ∧ st.items = pend.map toItem ∧
    ∀ e ∈ pend, e.raw = none → e.info.deleted = true
  noLocals : st.localDocs = []

theorem callHook_spec (r : Replay υ) (d : DocInfo ⊕ LocalDoc) (st : ReplaySt υ) :
    Sp (callHook r d) st (fun _ s => s = { st with user := s.user })
      (fun _ s => s = { st with user := s.user } ∧ ∃ u d, (r.hook u d).2 ≠ none) := by
  unfold Sp callHook
  split
  · next h =>
    split at h
    · cases h
      rfl
    · cases h
  · next h =>
    split at h
    · cases h
    · next u e hh =>
      cases h
      exact ⟨rfl, st.user, d, by rw [hh]; simp⟩

theorem replayBody_spec (E : Env) (L : E.Laws) {r : Replay υ} (hq : Fault.err (-5) ∉ r.bodyFaults) {bids bseqs : List Entry}
    {blocs : List KV} (e : Entry) (he : e ∈ bids) (st : ReplaySt υ) (S : SrcOk E r bids bseqs blocs st.src) :
    Sp (replayBody E e.info) st
      (fun b s => s = { st with src := s.src } ∧ SrcOk E r bids bseqs blocs s.src ∧
        b = e.raw ∧ (e.raw = none → e.info.deleted = true))
      (fun _ s => s = { st with src := s.src } ∧ r.bodyFaults ≠ []) := by
  have h := openDocWithDocinfo_spec E L st.src S.inv S.opened e he false
  have hb := S.inv.body e he
  have hS : ∀ d, RD st.src d → SrcOk E r bids bseqs blocs d := fun d hd =>
    ⟨S.inv.rd hd, by rw [hd.1]; exact S.opened, hd.2.1.trans S.faults⟩
  have hne : ∀ {f : List Fault}, f <:+ r.bodyFaults → f ≠ [] → r.bodyFaults ≠ [] := by
    rintro f h1 h2 h3
    rw [h3] at h1
    exact h2 (List.suffix_nil.mp h1)
  unfold Answers Sp at h
  unfold Sp replayBody
  cases ho : openDocWithDocinfo E e.info false st.src with
  | ok b d =>
    rw [ho] at h
    obtain ⟨h1, h2⟩ := h
    refine ⟨rfl, hS d h1, ?_⟩
    unfold openAns at h2
    cases hr : e.raw with
    | none => rw [hr] at h2; cases h2
    | some b' =>
      rw [hr] at h2
      simp only [Bool.false_and, Bool.false_eq_true, if_false, Except.ok.injEq] at h2
      exact ⟨by rw [h2], fun h => nomatch h⟩
  | error x d =>
    rw [ho] at h
    obtain ⟨h1, h2⟩ := h
    dsimp only
    cases hr : e.raw with
    | none =>
      have hbp : e.info.bp = 0 := by
        unfold BodyAt at hb
        rw [hr] at hb
        exact hb.1
      have hdl : e.info.deleted = true := by
        unfold BodyAt at hb
        rw [hr] at hb
        exact hb.2
      have hx : x = .docNotFound := by
        unfold openDocWithDocinfo at ho
        rw [if_pos hbp] at ho
        cases ho
        rfl
      subst hx
      rw [if_pos ⟨hdl, rfl⟩]
      exact ⟨rfl, hS d h1, rfl, fun _ => hdl⟩
    | some b =>
      have hbp : e.info.bp ≠ 0 := by
        unfold BodyAt at hb
        rw [hr] at hb
        exact hb.1
      have h3 : r.bodyFaults ≠ [] := by
        rcases h2 with h2 | h2
        · exact hne S.faults h2
        · unfold openAns at h2
          rw [hr] at h2
          simp at h2
      rw [if_neg]
      · exact ⟨rfl, h3⟩
      · rintro ⟨-, hc⟩
        exact hq (S.faults.subset ((openDoc_tells E e.info st.src hbp S.opened).error ho hc))

/-- What is left to do when a document or local document has been read. -/
theorem flushIfMuch_spec (E : Env) (r : Replay υ) (st : ReplaySt υ) {Q : Unit → ReplaySt υ → Prop} {R : Err → ReplaySt υ → Prop}
    (h : Sp (replayFlush E) st Q R) (h0 : Q () st) : Sp (flushIfMuch E r) st Q R := by
  unfold flushIfMuch
  apply Sp.get_bind
  split
  · exact h
  · exact h0

theorem replayDoc_spec (E : Env) (L : E.Laws) (r : Replay υ) (hq : Fault.err (-5) ∉ r.bodyFaults) {src t0 : Db}
    {tids bids bseqs : List Entry} {tlocs blocs : List KV} (hu : ∀ e ∈ tids, e.info.dbSeq ≤ t0.header.updateSeq)
    {pre : List Entry} (e : Entry) (he : e ∈ bids) (N : New E t0 tids (pre ++ [e])) (st : ReplaySt υ)
    (D : DI E r t0 tids tlocs bids bseqs blocs pre st) :
    Sp (replayDoc E r e.info) st (fun _ st' => DI E r t0 tids tlocs bids bseqs blocs (pre ++ [e]) st') (CopyFails E r src t0) := by
  obtain ⟨S, ⟨done, pend, hpre, T, hi, hdel⟩, hl⟩ := D
  unfold replayDoc
  refine Sp.bind' (callHook_spec r (.inl e.info) st) ?_ ?_
  · rintro - s hs
    have S1 : SrcOk E r bids bseqs blocs s.src := by rw [hs]; exact S
    refine Sp.bind' (replayBody_spec E L hq e he s S1) ?_ ?_
    · rintro b s2 ⟨hs2, S2, rfl, hd⟩
      unfold spoolDoc
      have hT : TI E t0 tids tlocs done blocs s2.tgt := by rw [hs2, hs]; exact T
      have hi2 : s2.items = pend.map toItem := by rw [hs2, hs]; exact hi
      have hl2 : s2.localDocs = [] := by rw [hs2, hs]; exact hl
      have hdel' : ∀ x ∈ pend ++ [e], x.raw = none → x.info.deleted = true := by
        intro x hx
        rcases List.mem_append.mp hx with hx | hx
        · exact hdel x hx
        · rw [List.mem_singleton] at hx
          subst hx
          exact hd
      have hi3 : s2.items ++ [⟨e.raw, e.info, 0⟩] = (pend ++ [e]).map toItem := by rw [hi2]; simp [toItem]
      have hN : New E t0 tids (done ++ (pend ++ [e])) := by rw [← List.append_assoc, ← hpre]; exact N
      generalize hs3 : ({ s2 with items := s2.items ++ [⟨e.raw, e.info, 0⟩], size := s2.size + e.info.physicalSize } : ReplaySt υ) = s3
      have S3 : SrcOk E r bids bseqs blocs s3.src := by rw [← hs3]; exact S2
      have hT3 : TI E t0 tids tlocs done blocs s3.tgt := by rw [← hs3]; exact hT
      have hi4 : s3.items = (pend ++ [e]).map toItem := by rw [← hs3]; exact hi3
      have hl3 : s3.localDocs = [] := by rw [← hs3]; exact hl2
      have key : Sp (flushIfMuch E r) s3 (fun _ st' => DI E r t0 tids tlocs bids bseqs blocs (pre ++ [e]) st')
          (CopyFails E r src t0) := by
        refine flushIfMuch_spec E r s3 ((flushDocs_spec E L hu hN hdel' s3 hT3 hi4 hl3).mono ?_ fun _ _ h => h.copy) ?_
        · rintro - s4 ⟨h1, h2, h3, h4⟩
          refine ⟨by rw [h4]; exact S3, ⟨_, [], by rw [List.append_nil, ← List.append_assoc, ← hpre], h1, by rw [h2]; rfl, by simp⟩, h3⟩
        · exact ⟨S3, ⟨done, pend ++ [e], by rw [← List.append_assoc, ← hpre], hT3, hi4, hdel'⟩, hl3⟩
      rw [← hs3] at key
      exact key
    · rintro x s2 ⟨hs2, h⟩
      refine ⟨by rw [hs2, hs]; exact T.steps, ?_⟩
      exact .inr (.inl h)
  · rintro x s ⟨hs, h⟩
    exact ⟨by rw [hs]; exact T.steps, Or.inl h⟩

theorem feed_replay (E : Env) (L : E.Laws) (r : Replay υ) (hq : Fault.err (-5) ∉ r.bodyFaults) {src t0 : Db}
    {tids bids bseqs : List Entry} {tlocs blocs : List KV} (hu : ∀ e ∈ tids, e.info.dbSeq ≤ t0.header.updateSeq)
    {pre rest : List Entry} (hin : ∀ e ∈ rest, e ∈ bids) (N : New E t0 tids (pre ++ rest)) (st st' : ReplaySt υ) (er : Option Err)
    (D : DI E r t0 tids tlocs bids bseqs blocs pre st)
    (h : feed (replayChanges E r) (rest.map (·.info)) st = (st', er)) :
    (er = none → DI E r t0 tids tlocs bids bseqs blocs (pre ++ rest) st') ∧
      ∀ x, er = some x → CopyFails E r src t0 x st' := by
  induction rest generalizing pre st with
  | nil =>
    cases h
    exact ⟨fun _ => by rw [List.append_nil]; exact D, fun _ h => nomatch h⟩
  | cons e rest ih =>
    have N1 : New E t0 tids (pre ++ [e]) := N.of_sublist (by
      rw [show pre ++ e :: rest = (pre ++ [e]) ++ rest by simp]
      exact List.sublist_append_left _ _)
    have S := replayDoc_spec E L r hq (src := src) hu e (hin e (by simp)) N1 st D
    unfold Sp at S
    simp only [List.map_cons, feed, replayChanges] at h
    cases hf : replayDoc E r e.info st with
    | ok a s =>
      rw [hf] at h S
      dsimp only at h S
      rw [List.append_cons]
      refine ih (fun x hx => hin x (by simp [hx])) (by rw [← List.append_cons]; exact N) s S h
    | error x s =>
      rw [hf] at h S
      cases h
      exact ⟨(fun h => nomatch h), fun _ h => (Option.some.inj h) ▸ S⟩

/-- The target when the documents and local documents have been copied. -/
structure Ready (E : Env) (t0 : Db) (tids : List Entry) (tlocs : List KV) (src : Db) (done : List Entry) (ldone : List KV)
    (st : ReplaySt υ) : Prop where
  tgt : TI E t0 tids tlocs done ldone st.tgt
  items : st.items = []
  noLocals : st.localDocs = []
  src : RD src st.src

theorem replayDocs_spec (E : Env) (L : E.Laws) (r : Replay υ) (hq : Fault.err (-5) ∉ r.bodyFaults) {src t0 : Db}
    {tids bids bseqs : List Entry} {tlocs blocs : List KV} (hu : ∀ e ∈ tids, e.info.dbSeq ≤ t0.header.updateSeq)
    (inv : Inv E src bids bseqs blocs) (hd : src.dropped = false) (start : Nat) (hst : start < 2 ^ 48)
    (N : New E t0 tids (bseqs.filter fun e => decide (start ≤ e.info.dbSeq))) (st : ReplaySt υ)
    (Y : Ready E t0 tids tlocs src [] blocs st) :
    Sp (replayDocs E r start) st
      (fun _ st' => Ready E t0 tids tlocs src (bseqs.filter fun e => decide (start ≤ e.info.dbSeq)) blocs st')
      (CopyFails E r src t0) := by
  have inv1 : Inv E st.src bids bseqs blocs := inv.rd Y.src
  have hd1 : st.src.dropped = false := by rw [Y.src.1]; exact hd
  have hscan := changesSince_spec E L st.src inv1 hd1 start hst ⟨false, false, false⟩ (replayChanges E r) (fun h => nomatch h)
    { st with src := { st.src with file := { st.src.file with faults := r.bodyFaults } } }
  have hlist : ((bseqs.map (·.info)).filter fun d => decide (start ≤ d.dbSeq) && (⟨false, false, false⟩ : ScanOpts).selects d) =
      (bseqs.filter fun e => decide (start ≤ e.info.dbSeq)).map (·.info) := by
    rw [List.filter_map]
    congr 1
    refine List.filter_congr fun e _ => ?_
    simp [ScanOpts.selects]
  rw [hlist] at hscan
  have D0 : DI E r t0 tids tlocs bids bseqs blocs [] { st with src := { st.src with file := { st.src.file with faults := r.bodyFaults } } } :=
    ⟨⟨inv1.setFaults _, hd1, List.suffix_refl _⟩, ⟨[], [], rfl, Y.tgt, Y.items, by simp⟩, Y.noLocals⟩
  have hin : ∀ e ∈ bseqs.filter fun e => decide (start ≤ e.info.dbSeq), e ∈ bids :=
    fun e he => inv.perm.mem_iff.mp (List.mem_filter.mp he).1
  unfold replayDocs
  have hs : Sp (scanSource r (changesSince E start ⟨false, false, false⟩ (replayChanges E r))) st
      (fun _ s => RD src s.src ∧ ∃ s0, s = { s0 with src := s.src } ∧
        DI E r t0 tids tlocs bids bseqs blocs (bseqs.filter fun e => decide (start ≤ e.info.dbSeq)) s0)
      (CopyFails E r src t0) := by
    unfold Sp scanSource
    unfold Sp at hscan
    cases hc : changesSince E start ⟨false, false, false⟩ (replayChanges E r)
        { st with src := { st.src with file := { st.src.file with faults := r.bodyFaults } } } st.src with
    | error e d => rw [hc] at hscan; exact hscan.elim
    | ok p d =>
      rw [hc] at hscan
      obtain ⟨s1, er⟩ := p
      obtain ⟨h1, h2⟩ := hscan
      have hfed : ∀ n s er, feed (replayChanges E r) (((bseqs.filter fun e => decide (start ≤ e.info.dbSeq)).map (·.info)).take n)
          { st with src := { st.src with file := { st.src.file with faults := r.bodyFaults } } } = (s, er) →
          (er = none → DI E r t0 tids tlocs bids bseqs blocs ((bseqs.filter fun e => decide (start ≤ e.info.dbSeq)).take n) s) ∧
            ∀ x, er = some x → CopyFails E r src t0 x s := by
        intro n s er h
        rw [← List.map_take] at h
        refine feed_replay E L r hq hu (pre := []) (fun e he => hin e (List.mem_of_mem_take he)) (N.of_sublist (List.take_sublist _ _)) _ s er D0 h
      cases er with
      | none =>
        dsimp only
        rcases h2 with h2 | ⟨-, h2, -⟩
        · refine ⟨Y.src.trans h1, s1, rfl, ?_⟩
          have := (hfed (bseqs.filter fun e => decide (start ≤ e.info.dbSeq)).length s1 none (by
            rw [List.take_of_length_le (by rw [List.length_map]; exact Nat.le_refl _)]; exact h2)).1 rfl
          rw [List.take_length] at this
          exact this
        · exact absurd rfl h2
      | some x =>
        dsimp only
        rcases h2 with h2 | ⟨hf, -, n, h2⟩
        · exact (hfed (bseqs.filter fun e => decide (start ≤ e.info.dbSeq)).length s1 (some x) (by
            rw [List.take_of_length_le (by rw [List.length_map]; exact Nat.le_refl _)]; exact h2)).2 x rfl
        · obtain ⟨-, ⟨done, pend, -, T, -, -⟩, -⟩ := (hfed n s1 none h2).1 rfl
          exact ⟨T.steps, .inr (.inr (.inl (Y.src.faults hf)))⟩
  refine Sp.bind' hs ?_ fun _ _ h => h
  rintro - s ⟨hsrc, s0, hs0, -, ⟨done, pend, hpre, T, hi, hdel⟩, hl⟩
  refine (flushDocs_spec E L hu (by rw [← hpre]; exact N) hdel s (by rw [hs0]; exact T) (by rw [hs0]; exact hi)
    (by rw [hs0]; exact hl)).mono ?_ fun _ _ h => h.copy
  rintro - s2 ⟨h1, h2, h3, h4⟩
  exact ⟨by rw [hpre]; exact h1, h2, h3, by rw [h4]; exact hsrc⟩

/-! ### One local document after the other -/

/-- The state after the local documents `pre` were read. -/
structure LI (E : Env) (t0 : Db) (tids : List Entry) (tlocs : List KV) (pre : List KV) (st : ReplaySt υ) : Prop where
  tgt : ∃ done pend, pre = done ++ pend ∧ TI E t0 tids tlocs [] done st.tgt ∧ st.localDocs = pend.map toLocal
  items : st.items = []

theorem LNew.of_sublist {l m : List KV} (h : LNew l) (s : m.Sublist l) : LNew m :=
  ⟨h.keys.sublist (s.map _), fun kv hk => h.size kv (s.subset hk)⟩

theorem replayLocal_spec (E : Env) (L : E.Laws) (r : Replay υ) {src t0 : Db} {tids : List Entry} {tlocs pre : List KV}
    (kv : KV) (N : LNew (pre ++ [kv])) (st : ReplaySt υ) (D : LI E t0 tids tlocs pre st) :
    Sp (replayLocal E r kv.1 kv.2) st (fun _ st' => LI E t0 tids tlocs (pre ++ [kv]) st') (CopyFails E r src t0) := by
  obtain ⟨⟨done, pend, hpre, T, hl⟩, hi⟩ := D
  unfold replayLocal
  refine Sp.bind' (callHook_spec r (.inr (toLocal kv)) st) ?_ ?_
  · rintro - s hs
    unfold spoolLocal
    generalize hs3 : ({ s with localDocs := s.localDocs ++ [toLocal kv], size := s.size + (kv.1.length + kv.2.length) } : ReplaySt υ) = s3
    have hT3 : TI E t0 tids tlocs [] done s3.tgt := by rw [← hs3, hs]; exact T
    have hi3 : s3.items = [] := by rw [← hs3, hs]; exact hi
    have hl3 : s3.localDocs = (pend ++ [kv]).map toLocal := by rw [← hs3, hs]; simp [hl]
    have hN : LNew (done ++ (pend ++ [kv])) := by rw [← List.append_assoc, ← hpre]; exact N
    have key : Sp (flushIfMuch E r) s3 (fun _ st' => LI E t0 tids tlocs (pre ++ [kv]) st') (CopyFails E r src t0) := by
      refine flushIfMuch_spec E r s3 ((flushLocals_spec E L hN s3 hT3 hi3 hl3).mono ?_ fun _ _ h => h.copy) ?_
      · rintro - s4 ⟨h1, h2, h3, h4⟩
        exact ⟨⟨_, [], by rw [List.append_nil, ← List.append_assoc, ← hpre], h1, by rw [h3]; rfl⟩, h2⟩
      · exact ⟨⟨done, pend ++ [kv], by rw [← List.append_assoc, ← hpre], hT3, hl3⟩, hi3⟩
    rw [← hs3] at key
    exact key
  · rintro x s ⟨hs, h⟩
    exact ⟨by rw [hs]; exact T.steps, Or.inl h⟩

theorem visit_replay (E : Env) (L : E.Laws) (r : Replay υ) {src t0 : Db} {tids : List Entry} {tlocs pre rest : List KV}
    (N : LNew (pre ++ rest)) (st st' : ReplaySt υ) (er : Option Err) (D : LI E t0 tids tlocs pre st)
    (h : visit (runFetch (replayLocal E r)) (rest.map fun kv => (kv.1, some kv.2)) st = (st', er)) :
    (er = none → LI E t0 tids tlocs (pre ++ rest) st') ∧ ∀ x, er = some x → CopyFails E r src t0 x st' := by
  induction rest generalizing pre st with
  | nil =>
    cases h
    exact ⟨fun _ => by rw [List.append_nil]; exact D, fun _ h => nomatch h⟩
  | cons kv rest ih =>
    have N1 : LNew (pre ++ [kv]) := N.of_sublist (by
      rw [show pre ++ kv :: rest = (pre ++ [kv]) ++ rest by simp]
      exact List.sublist_append_left _ _)
    have S := replayLocal_spec E L r (src := src) kv N1 st D
    unfold Sp at S
    simp only [List.map_cons, visit, runFetch] at h
    cases hf : replayLocal E r kv.1 kv.2 st with
    | ok a s =>
      rw [hf] at h S
      dsimp only at h S
      rw [List.append_cons]
      exact ih (by rw [← List.append_cons]; exact N) s S h
    | error x s =>
      rw [hf] at h S
      cases h
      exact ⟨(fun h => nomatch h), fun _ h => (Option.some.inj h) ▸ S⟩

theorem lnew_of {E : Env} {db : Db} {ids seqs locs} (inv : Inv E db ids seqs locs) : LNew locs := by
  refine ⟨?_, fun kv hk => inv.locRoot.valid kv hk⟩
  rw [List.nodup_iff_pairwise_ne, List.pairwise_map]
  exact inv.locSorted.imp fun h => ebin_lt_ne h

theorem replayLocals_spec (E : Env) (L : E.Laws) (r : Replay υ) {src t0 : Db} {tids bids bseqs : List Entry} {tlocs blocs : List KV}
    (inv : Inv E src bids bseqs blocs) (hd : src.dropped = false) (st : ReplaySt υ)
    (Y : Ready E t0 tids tlocs src [] [] st) :
    Sp (replayLocals E r) st (fun _ st' => Ready E t0 tids tlocs src [] blocs st') (CopyFails E r src t0) := by
  have inv1 : Inv E st.src bids bseqs blocs := inv.rd Y.src
  have hd1 : st.src.dropped = false := by rw [Y.src.1]; exact hd
  have N : LNew blocs := lnew_of inv
  have D0 : LI E t0 tids tlocs [] { st with src := { st.src with file := { st.src.file with faults := r.bodyFaults } } } :=
    ⟨⟨[], [], rfl, Y.tgt, Y.noLocals⟩, Y.items⟩
  unfold replayLocals
  have hscan : Sp (scanLocalDocs E (runFetch (replayLocal E r))
      { st with src := { st.src with file := { st.src.file with faults := r.bodyFaults } } }) st.src
      (fun p d => RD st.src d ∧ (p.2 = none → LI E t0 tids tlocs blocs p.1) ∧
        ∀ x, p.2 = some x → CopyFails E r src t0 x p.1)
      (fun _ _ => False) := by
    unfold scanLocalDocs
    apply Sp.get_bind
    rw [hd1, if_neg (by simp)]
    cases hr : st.src.header.localRoot with
    | none =>
      have h0 := inv1.locRoot.none_iff.mp hr
      subst h0
      exact ⟨RD.refl _, fun _ => D0, fun _ h => nomatch h⟩
    | some p =>
      have hlook : LookOk (σ := ReplaySt υ) ⟨ebinCmp, false, runFetch (replayLocal E r), none⟩ (fun _ => True) :=
        ⟨ebin_look, (fun h => nomatch h), rfl⟩
      have hroot := inv1.locRoot
      rw [hr] at hroot
      have hfold := btreeLookup_fold (X := Idx.loc) E L hlook (fun kv h => ⟨trivial, h.1⟩) p blocs st.src.file inv1.wf
        hroot (by rw [lookupCompare_ebin]; exact inv.locSorted) (fun h => nomatch h) [] none trivial (by simp)
        { st with src := { st.src with file := { st.src.file with faults := r.bodyFaults } } }
      refine (liftF_spec hfold).mono ?_ fun _ _ h => h.2
      rintro ⟨s1, er⟩ d ⟨h1, h2, h3⟩
      rw [loc_all] at h3
      refine ⟨⟨h1, h2⟩, ?_⟩
      have hv : ∀ n s er, visit (runFetch (replayLocal E r)) ((blocs.map fun kv => (kv.1, some kv.2)).take n)
          { st with src := { st.src with file := { st.src.file with faults := r.bodyFaults } } } = (s, er) →
          (er = none → LI E t0 tids tlocs (blocs.take n) s) ∧ ∀ x, er = some x → CopyFails E r src t0 x s := by
        intro n s er h
        rw [← List.map_take] at h
        exact visit_replay E L r (pre := []) (N.of_sublist (List.take_sublist _ _)) _ s er D0 h
      rcases h3 with h3 | ⟨hf, hne, n, h3⟩
      · have := hv blocs.length s1 er (by
          rw [List.take_of_length_le (by rw [List.length_map]; exact Nat.le_refl _)]; exact h3)
        rw [List.take_length] at this
        exact this
      · refine ⟨fun h => absurd h hne, fun x _ => ?_⟩
        obtain ⟨⟨done, pend, -, T, -⟩, -⟩ := (hv n s1 none h3).1 rfl
        exact ⟨T.steps, .inr (.inr (.inl (Y.src.faults hf)))⟩
  have hs : Sp (scanSource r (scanLocalDocs E (runFetch (replayLocal E r)))) st
      (fun _ s => RD src s.src ∧ ∃ s0, s = { s0 with src := s.src } ∧ LI E t0 tids tlocs blocs s0)
      (CopyFails E r src t0) := by
    unfold Sp scanSource
    unfold Sp at hscan
    cases hc : scanLocalDocs E (runFetch (replayLocal E r))
        { st with src := { st.src with file := { st.src.file with faults := r.bodyFaults } } } st.src with
    | error e d => rw [hc] at hscan; exact hscan.elim
    | ok p d =>
      rw [hc] at hscan
      obtain ⟨s1, er⟩ := p
      obtain ⟨h1, h2, h3⟩ := hscan
      cases er with
      | none => exact ⟨Y.src.trans h1, s1, rfl, h2 rfl⟩
      | some x => exact h3 x rfl
  refine Sp.bind' hs ?_ fun _ _ h => h
  rintro - s ⟨hsrc, s0, hs0, ⟨done, pend, hpre, T, hl⟩, hi⟩
  refine (flushLocals_spec E L (by rw [← hpre]; exact N) s (by rw [hs0]; exact T) (by rw [hs0]; exact hi)
    (by rw [hs0]; exact hl)).mono ?_ fun _ _ h => h.copy
  rintro - s2 ⟨h1, h2, h3, h4⟩
  exact ⟨by rw [hpre]; exact h1, h2, h3, by rw [h4]; exact hsrc⟩

end Couchstore
