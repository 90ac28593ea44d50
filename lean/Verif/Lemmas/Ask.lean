import Verif.Lemmas.Inv
import Verif.Lemmas.Read
import Verif.Spec.Store

/-! Helper lemmas: what the read functions answer on a handle satisfying the invariant. -/

namespace Couchstore

variable {σ : Type}

/-- Only pending faults were used up. -/
def RD (db db' : Db) : Prop := db' = { db with file := db'.file } ∧ RFrame db.file db'.file

theorem RD.refl (db : Db) : RD db db := ⟨rfl, RFrame.refl _⟩

/-- `m` answers `ans`; if raw operations misbehave it may fail otherwise. -/
def Answers {α : Type} (m : DbM α) (db : Db) (ans : Except Err α) : Prop :=
  Sp m db (fun r d => RD db d ∧ ans = .ok r)
    (fun e d => RD db d ∧ (db.file.faults ≠ [] ∨ ans = .error e))

theorem Answers.answer_eq {α : Type} {m : DbM α} {db : Db} {ans : Except Err α}
    (h : Answers m db.calm ans) : answer m db = ans := by
  unfold answer
  unfold Answers Sp at h
  cases hm : m db.calm with
  | ok a d => rw [hm] at h; exact h.2.symm
  | error e d => rw [hm] at h; exact (h.2.resolve_left (by simp [Db.calm, File.calm])).symm

theorem Keep.calm (f : File) : Keep f f.calm := ⟨fun _ _ _ => rfl, rfl, rfl, Nat.le_refl _⟩

/-- The same handle up to pending faults. -/
theorem Inv.calm {E : Env} {db : Db} {ids seqs locs} (h : Inv E db ids seqs locs) :
    Inv E db.calm ids seqs locs where
  wf := ⟨h.wf.pos_le, h.wf.crc⟩
  pos := h.pos
  thr := h.thr
  idRoot := h.idRoot.keep (Keep.calm _)
  seqRoot := h.seqRoot.keep (Keep.calm _)
  locRoot := h.locRoot.keep (Keep.calm _)
  idSorted := h.idSorted
  seqSorted := h.seqSorted
  locSorted := h.locSorted
  perm := h.perm
  ok := h.ok
  upd := h.upd
  updLt := h.updLt
  body e he := (h.body e he).keep (Keep.calm _)
  few := h.few

theorem docinfoRq_look (cmp) (read) (K : Bytes → Prop) (h : CmpLaws (lookupCompare cmp) K) :
    LookOk (docinfoRq cmp read) K where
  cmp := h
  tol h := by simp [docinfoRq] at h
  node := rfl

/-- The result of looking for one document. -/
def foundOr (o : Option Entry) : Except Err DocInfo :=
  match o with
  | some e => .ok e.info
  | none => .error .docNotFound

theorem docinfoResult_spec {db : Db} {o : Option Entry} {db1 : Db} {r : Option DocInfo × Option Err}
    {read : Bytes → Bytes → Option DocInfo} {k : Bytes} {val : Entry → Bytes} {f0 : File}
    (hrd : RD db db1) (hf0 : f0 = db.file) (hread : ∀ e, o = some e → read k (val e) = some e.info)
    (h : visit (docinfoFetch read) [(k, o.map val)] none = r ∨
      (f0.faults ≠ [] ∧ r.2 ≠ none ∧
        ∃ n, visit (docinfoFetch read) ([(k, o.map val)].take n) none = (r.1, none))) :
    Sp (docinfoResult r) db1 (fun r d => RD db d ∧ foundOr o = .ok r)
      (fun e d => RD db d ∧ (db.file.faults ≠ [] ∨ foundOr o = .error e)) := by
  rcases h with h | ⟨h1, h2, -⟩
  · cases o with
    | none =>
      simp only [visit, docinfoFetch, Option.map_none] at h
      subst h
      exact ⟨hrd, Or.inr rfl⟩
    | some e =>
      simp only [visit, docinfoFetch, Option.map_some, hread e rfl] at h
      subst h
      exact ⟨hrd, rfl⟩
  · obtain ⟨r1, r2⟩ := r
    cases r2 with
    | none => exact absurd rfl h2
    | some e => exact ⟨hrd, Or.inl (hf0 ▸ h1)⟩

theorem byId_hV : ∀ kv, Idx.byId.V kv → True ∧ kv.1.length < 4096 := by
  rintro kv ⟨d, hd, rfl⟩; exact ⟨trivial, hd.fits.id⟩

theorem ebin_look : CmpLaws (lookupCompare ebinCmp) (fun _ => True) := by
  rw [lookupCompare_ebin]; exact ebinCmp_laws

theorem docinfoById_spec (E : Env) (L : E.Laws) (db : Db) {ids seqs locs}
    (inv : Inv E db ids seqs locs) (hd : db.dropped = false) (id : Bytes) :
    Answers (docinfoById E id) db (foundOr (entFind id ids)) := by
  unfold docinfoById Answers
  apply Sp.get_bind
  rw [hd, if_neg (by simp)]
  cases hr : db.header.byIdRoot with
  | none =>
    have h0 : idKVs ids = [] := by have := inv.idRoot; rw [hr] at this; exact this
    have : ids = [] := by unfold idKVs at h0; simpa using h0
    subst this
    exact ⟨RD.refl _, Or.inr rfl⟩
  | some p =>
    dsimp only
    refine Sp.bind' (liftF_spec (btreeLookup_find E L (docinfoRq_look ebinCmp byIdReadDocInfo _ ebin_look)
      byId_hV p (idKVs ids) db.file inv.wf (by have := inv.idRoot; rw [hr] at this; exact this)
      (by show SortedKV (lookupCompare ebinCmp) _; rw [lookupCompare_ebin]; exact sorted_idKVs.mpr inv.idSorted)
      (by simp [docinfoRq]) [id] (by simp) (by simp) none)) ?_ (fun _ _ h => h.2.elim)
    rintro r db1 ⟨h1, h2, h3⟩
    refine docinfoResult_spec (o := entFind id ids) (read := byIdReadDocInfo) (k := id)
      (val := fun e => assembleIdIndexValue e.info) ⟨h1, h2⟩ rfl ?_ ?_
    · intro e he
      obtain ⟨he1, rfl⟩ := mem_of_entFind he
      exact byId_roundtrip _ (inv.ok e he1).fits
    · have : findEvents (idKVs ids) [id] = [(id, (entFind id ids).map fun e => assembleIdIndexValue e.info)] := by
        simp [findEvents, kvFind_idKVs]
      rw [this] at h3
      exact h3

/-- The document with a sequence number. -/
def seqFind (s : Nat) (l : List Entry) : Option Entry := l.find? fun e => e.info.dbSeq = s

theorem mem_of_seqFind {s : Nat} {l : List Entry} {e : Entry} (h : seqFind s l = some e) :
    e ∈ l ∧ e.info.dbSeq = s := by
  unfold seqFind at h
  exact ⟨List.mem_of_find?_eq_some h, by simpa using List.find?_some h⟩

theorem seqFind_none {s : Nat} {l : List Entry} : seqFind s l = none ↔ ∀ e ∈ l, e.info.dbSeq ≠ s := by
  unfold seqFind
  rw [List.find?_eq_none]
  simp

theorem seqFind_of_mem {l : List Entry} (hs : SeqSorted l) {e : Entry} (h : e ∈ l) :
    seqFind e.info.dbSeq l = some e := by
  cases hf : seqFind e.info.dbSeq l with
  | none => rw [seqFind_none] at hf; exact absurd rfl (hf e h)
  | some x =>
    obtain ⟨h1, h2⟩ := mem_of_seqFind hf
    rw [hs.inj h1 h h2]

theorem kvFind_seqKVs {s : Nat} (hs : s < 2 ^ 48) (l : List Entry)
    (hl : ∀ x ∈ l, x.info.dbSeq < 2 ^ 48) :
    kvFind (enc48 s) (seqKVs l) = (seqFind s l).map fun e => assembleSeqIndexValue e.info := by
  induction l with
  | nil => rfl
  | cons x xs ih =>
    unfold seqFind at *
    rw [List.find?_cons]
    simp only [seqKVs, List.map_cons] at *
    show (if enc48 x.info.dbSeq = enc48 s then _ else _) = _
    by_cases h : x.info.dbSeq = s
    · simp [h]
    · rw [if_neg fun h0 => h (enc48_inj (hl x (by simp)) hs h0)]
      simp only [h, decide_false]
      exact ih fun x hx => hl x (by simp [hx])

theorem enc48_mod (s : Nat) : enc48 s = enc48 (s % 2 ^ 48) := beEnc_congr (by simp)

theorem seq_look : CmpLaws (lookupCompare seqCmp) (fun k => k.length = 6 ∨ k = []) :=
  lookupCompare_laws seqCmp_laws (by intro k h h0; rw [h0] at h; simp at h)

theorem bySeq_hV : ∀ kv, Idx.bySeq.V kv → (kv.1.length = 6 ∨ kv.1 = []) ∧ kv.1.length < 4096 := by
  rintro kv ⟨d, hd, rfl⟩; exact ⟨Or.inl (by simp [seqKV]), by simp [seqKV]⟩

theorem sorted_seqKVs_look {l : List Entry} (hs : SeqSorted l) (hok : ∀ x ∈ l, DocOk x.info) :
    SortedKV (lookupCompare seqCmp) (seqKVs l) := by
  refine (sorted_seqKVs hs hok).imp_of_mem ?_
  intro a b ha hb h
  unfold seqKVs at ha hb
  obtain ⟨x, -, rfl⟩ := List.mem_map.mp ha
  obtain ⟨y, -, rfl⟩ := List.mem_map.mp hb
  rw [lookupCompare_nonempty]
  · exact h
  · intro h0; have := congrArg List.length h0; simp [seqKV] at this
  · intro h0; have := congrArg List.length h0; simp [seqKV] at this

theorem RootAt.none_iff {E : Env} {X : Idx} {f : File} {r : Option NodePointer} {kvs : List KV}
    (h : RootAt E X f r kvs) : r = none ↔ kvs = [] := by
  cases r with
  | none => exact ⟨fun _ => h, fun _ => rfl⟩
  | some p =>
    obtain ⟨l, ht⟩ := h
    exact ⟨fun h => by simp at h, fun h => absurd h ht.ne_nil⟩

theorem Inv.roots_none {E : Env} {db : Db} {ids seqs locs} (inv : Inv E db ids seqs locs) :
    (db.header.byIdRoot = none ↔ ids = []) ∧ (db.header.bySeqRoot = none ↔ ids = []) := by
  constructor
  · rw [inv.idRoot.none_iff]; simp [idKVs]
  · rw [inv.seqRoot.none_iff]
    simp only [seqKVs, List.map_eq_nil_iff]
    constructor
    · intro h; have := inv.perm; rw [h] at this; exact List.nil_perm.mp this
    · intro h; have := inv.perm; rw [h] at this; exact List.perm_nil.mp this

theorem docinfoBySequence_spec (E : Env) (L : E.Laws) (db : Db) {ids seqs locs}
    (inv : Inv E db ids seqs locs) (hd : db.dropped = false) (s : Nat) :
    Answers (docinfoBySequence E s) db (foundOr (seqFind (s % 2 ^ 48) seqs)) := by
  unfold docinfoBySequence Answers
  apply Sp.get_bind
  rw [hd, if_neg (by simp)]
  obtain ⟨hn1, hn2⟩ := inv.roots_none
  cases hr : db.header.byIdRoot with
  | none =>
    have := hn1.mp hr
    subst this
    have : seqs = [] := List.perm_nil.mp inv.perm
    subst this
    exact ⟨RD.refl _, Or.inr rfl⟩
  | some q =>
    cases hr2 : db.header.bySeqRoot with
    | none => have := hn1.mpr (hn2.mp hr2); rw [hr] at this; simp at this
    | some p =>
      dsimp only
      refine Sp.bind' (liftF_spec (btreeLookup_find E L (docinfoRq_look seqCmp bySeqReadDocInfo _ seq_look)
        bySeq_hV p (seqKVs seqs) db.file inv.wf (by have := inv.seqRoot; rw [hr2] at this; exact this)
        (sorted_seqKVs_look inv.seqSorted inv.seqOk)
        (by simp [docinfoRq]) [enc48 s] (by simp) (by simp) none)) ?_ (fun _ _ h => h.2.elim)
      rintro r db1 ⟨h1, h2, h3⟩
      refine docinfoResult_spec (o := seqFind (s % 2 ^ 48) seqs) (read := bySeqReadDocInfo) (k := enc48 s)
        (val := fun e => assembleSeqIndexValue e.info) ⟨h1, h2⟩ rfl ?_ ?_
      · intro e he
        obtain ⟨he1, he2⟩ := mem_of_seqFind he
        rw [enc48_mod, ← he2]
        exact bySeq_roundtrip _ (inv.seqOk e he1).fits
      · have : findEvents (seqKVs seqs) [enc48 s] =
            [(enc48 s, (seqFind (s % 2 ^ 48) seqs).map fun e => assembleSeqIndexValue e.info)] := by
          simp only [findEvents, List.map_cons, List.map_nil]
          rw [← kvFind_seqKVs (Nat.mod_lt _ (by decide)) seqs (fun x hx => (inv.seqOk x hx).fits.dbSeq),
            ← enc48_mod]
        rw [this] at h3
        exact h3

/-! ### Bodies -/

/-- What opening a stored document gives. -/
def openAns (E : Env) (dec : Bool) (e : Entry) : Except Err Bytes :=
  match e.raw with
  | none => .error .docNotFound
  | some b =>
    if dec && isCompressed e.info.contentMeta then
      match E.inflate b with
      | some x => .ok x
      | none => .error .corrupt
    else .ok b

theorem RD.trans {a b c : Db} (h : RD a b) (h' : RD b c) : RD a c :=
  ⟨by rw [h'.1, h.1], h.2.trans h'.2⟩

theorem RD.faults {a b : Db} (h : RD a b) (hf : b.file.faults ≠ []) : a.file.faults ≠ [] :=
  h.2.faults_ne hf

theorem openDocWithDocinfo_spec (E : Env) (L : E.Laws) (db : Db) {ids seqs locs}
    (inv : Inv E db ids seqs locs) (hd : db.dropped = false) (e : Entry) (he : e ∈ ids) (dec : Bool) :
    Answers (openDocWithDocinfo E e.info dec) db (openAns E dec e) := by
  unfold openDocWithDocinfo Answers
  have hb := inv.body e he
  obtain ⟨info, raw⟩ := e
  cases raw with
  | none =>
    have hb : info.bp = 0 := hb.1
    rw [if_pos hb]
    exact ⟨RD.refl _, Or.inr rfl⟩
  | some b =>
    obtain ⟨h1, h2⟩ : info.bp ≠ 0 ∧ ChunkAt E db.file info.bp b := hb
    rw [if_neg h1]
    unfold bpToDoc
    apply Sp.get_bind
    dsimp only
    rw [hd, if_neg (by simp)]
    have hbin := preadBin_spec E L info.bp b db.file inv.wf.crc h2
    by_cases hc : (dec && isCompressed info.contentMeta) = true
    · simp only [hc, if_true]
      refine (liftF_spec (Q := fun r g => RFrame db.file g ∧ E.inflate b = some r)
        (R := fun e g => RFrame db.file g ∧ (db.file.faults ≠ [] ∨ (E.inflate b = none ∧ e = .corrupt)))
        ?_).mono ?_ ?_
      · unfold preadCompressed
        refine Sp.bind' hbin ?_ fun _ _ h => ⟨h.1, Or.inl h.2⟩
        rintro r g ⟨rfl, hg⟩
        cases hi : E.inflate r with
        | none => exact ⟨hg, Or.inr ⟨rfl, rfl⟩⟩
        | some x => exact ⟨hg, rfl⟩
      · rintro r d ⟨hd1, hd2, hd3⟩
        exact ⟨⟨hd1, hd2⟩, by simp [openAns, hc, hd3]⟩
      · rintro r d ⟨hd1, hd2, hd3⟩
        refine ⟨⟨hd1, hd2⟩, hd3.imp id ?_⟩
        rintro ⟨h3, rfl⟩
        simp [openAns, hc, h3]
    · simp only [Bool.not_eq_true] at hc
      simp only [hc]
      refine (liftF_spec hbin).mono ?_ ?_
      · rintro r d ⟨hd1, rfl, hd3⟩
        exact ⟨⟨hd1, hd3⟩, by simp [openAns, hc]⟩
      · rintro r d ⟨hd1, hd2, hd3⟩
        exact ⟨⟨hd1, hd2⟩, Or.inl hd3⟩

/-- The handle after a read still satisfies the invariant. -/
theorem Inv.rd {E : Env} {db db' : Db} {ids seqs locs} (h : Inv E db ids seqs locs) (r : RD db db') :
    Inv E db' ids seqs locs := h.ext (by rw [r.1]) r.2.ext

/-- What opening a document by id gives. -/
def openIdAns (E : Env) (dec : Bool) : Option Entry → Except Err Bytes
  | none => .error .docNotFound
  | some e => openAns E dec e

theorem openDocument_spec (E : Env) (L : E.Laws) (db : Db) {ids seqs locs}
    (inv : Inv E db ids seqs locs) (hd : db.dropped = false) (id : Bytes) (dec : Bool) :
    Answers (openDocument E id dec) db (openIdAns E dec (entFind id ids)) := by
  unfold openDocument Answers
  apply Sp.get_bind
  rw [hd, if_neg (by simp)]
  refine Sp.bind' (docinfoById_spec E L db inv hd id) ?_ ?_
  · rintro r d ⟨h1, h2⟩
    cases hf : entFind id ids with
    | none => rw [hf] at h2; cases h2
    | some e =>
      rw [hf] at h2
      obtain rfl : e.info = r := by cases h2; rfl
      refine (openDocWithDocinfo_spec E L d (inv.rd h1) (by rw [h1.1]; exact hd) e
        (mem_of_entFind hf).1 dec).mono ?_ ?_
      · rintro r d' ⟨k1, k2⟩; exact ⟨h1.trans k1, k2⟩
      · rintro r d' ⟨k1, k2⟩; exact ⟨h1.trans k1, k2.imp h1.faults fun x => x⟩
  · rintro e d ⟨h1, h2⟩
    refine ⟨h1, h2.imp (fun x => x) ?_⟩
    intro h
    cases hf : entFind id ids with
    | none => rw [hf] at h; cases h; rfl
    | some x => rw [hf] at h; cases h

end Couchstore
