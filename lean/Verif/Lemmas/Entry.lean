import Verif.Lemmas.Reduces
import Verif.Lemmas.Sort
import Verif.Lemmas.Map
import Verif.Lemmas.Modify

/-! Helper lemmas: what the batches of a save do to the two indexes, in terms of documents. -/

namespace Couchstore

/-- A document as stored: its metadata and its stored (possibly compressed) body. -/
structure Entry where
  info : DocInfo
  raw : Option Bytes

/-- The entries of the by-id index. -/
def idKVs (l : List Entry) : List KV := l.map fun e => idKV e.info
/-- The entries of the by-sequence index. -/
def seqKVs (l : List Entry) : List KV := l.map fun e => seqKV e.info

def IdSorted (l : List Entry) : Prop := l.Pairwise fun a b => ebinCmp a.info.id b.info.id = .lt
def SeqSorted (l : List Entry) : Prop := l.Pairwise fun a b => a.info.dbSeq < b.info.dbSeq

/-- The document with an id. -/
def entFind (id : Bytes) (l : List Entry) : Option Entry := l.find? fun e => e.info.id = id

theorem mem_of_entFind {id : Bytes} {l : List Entry} {e : Entry} (h : entFind id l = some e) :
    e ∈ l ∧ e.info.id = id := by
  unfold entFind at h
  exact ⟨List.mem_of_find?_eq_some h, by simpa using List.find?_some h⟩

theorem ebin_lt_ne {a b : Bytes} (h : ebinCmp a b = .lt) : a ≠ b := by
  intro h0; rw [h0, (ebinCmp_eq_iff b b).mpr rfl] at h; simp at h

theorem IdSorted.inj {l : List Entry} (hs : IdSorted l) {a b : Entry} (ha : a ∈ l) (hb : b ∈ l)
    (h : a.info.id = b.info.id) : a = b := by
  induction l with
  | nil => simp at ha
  | cons x xs ih =>
    obtain ⟨h1, h2⟩ := List.pairwise_cons.mp hs
    rcases List.mem_cons.mp ha with ha' | ha' <;> rcases List.mem_cons.mp hb with hb' | hb'
    · rw [ha', hb']
    · subst ha'; exact absurd h (ebin_lt_ne (h1 b hb'))
    · subst hb'; exact absurd h.symm (ebin_lt_ne (h1 a ha'))
    · exact ih h2 ha' hb'

theorem entFind_of_mem {l : List Entry} (hs : IdSorted l) {e : Entry} (h : e ∈ l) :
    entFind e.info.id l = some e := by
  cases hf : entFind e.info.id l with
  | none =>
    unfold entFind at hf
    rw [List.find?_eq_none] at hf
    exact absurd (decide_eq_true rfl) (hf e h)
  | some x =>
    obtain ⟨h1, h2⟩ := mem_of_entFind hf
    rw [hs.inj h1 h h2]

theorem entFind_none {id : Bytes} {l : List Entry} : entFind id l = none ↔ ∀ e ∈ l, e.info.id ≠ id := by
  unfold entFind
  rw [List.find?_eq_none]
  simp

theorem kvFind_idKVs (id : Bytes) (l : List Entry) :
    kvFind id (idKVs l) = (entFind id l).map fun e => assembleIdIndexValue e.info := by
  induction l with
  | nil => rfl
  | cons x xs ih =>
    unfold entFind at *
    rw [List.find?_cons]
    simp only [idKVs, List.map_cons] at *
    show (if x.info.id = id then _ else _) = _
    by_cases h : x.info.id = id
    · simp [h]
    · simp only [h, decide_false]
      exact ih

theorem sorted_idKVs {l : List Entry} : SortedKV ebinCmp (idKVs l) ↔ IdSorted l := by
  unfold SortedKV idKVs IdSorted
  rw [List.pairwise_map]; rfl

/-- Sorted insertion of a document by id. -/
def entInsert (e : Entry) : List Entry → List Entry
  | [] => [e]
  | x :: xs =>
    match ebinCmp x.info.id e.info.id with
    | .lt => x :: entInsert e xs
    | .eq => e :: xs
    | .gt => e :: x :: xs

theorem kvInsert_idKVs (e : Entry) (l : List Entry) :
    kvInsert ebinCmp e.info.id (assembleIdIndexValue e.info) (idKVs l) = idKVs (entInsert e l) := by
  induction l with
  | nil => rfl
  | cons x xs ih =>
    unfold idKVs at *
    simp only [List.map_cons, entInsert, idKV, kvInsert] at *
    split <;> simp_all

theorem mem_entInsert {e : Entry} {l : List Entry} (hs : IdSorted l) (x : Entry) :
    x ∈ entInsert e l ↔ x = e ∨ (x ∈ l ∧ x.info.id ≠ e.info.id) := by
  induction l with
  | nil => simp [entInsert]
  | cons y ys ih =>
    obtain ⟨h1, h2⟩ := List.pairwise_cons.mp hs
    have hy : ∀ z ∈ ys, y.info.id < z.info.id := fun z hz => (ebinCmp_lt_iff _ _).mp (h1 z hz)
    unfold entInsert
    split
    · rename_i hc
      have := ebin_lt_ne hc
      simp only [List.mem_cons, ih h2]
      constructor
      · rintro (rfl | rfl | ⟨h3, h4⟩)
        · exact Or.inr ⟨Or.inl rfl, this⟩
        · exact Or.inl rfl
        · exact Or.inr ⟨Or.inr h3, h4⟩
      · rintro (rfl | ⟨rfl | h3, h4⟩)
        · exact Or.inr (Or.inl rfl)
        · exact Or.inl rfl
        · exact Or.inr (Or.inr ⟨h3, h4⟩)
    · rename_i hc
      have he := (ebinCmp_eq_iff _ _).mp hc
      simp only [List.mem_cons]
      constructor
      · rintro (rfl | h3)
        · exact Or.inl rfl
        · exact Or.inr ⟨Or.inr h3, fun h0 => ebin_lt_ne (h1 x h3) (by rw [he, h0])⟩
      · rintro (rfl | ⟨rfl | h3, h4⟩)
        · exact Or.inl rfl
        · exact absurd he h4
        · exact Or.inr h3
    · rename_i hc
      have hlt := (ebinCmp_gt_iff _ _).mp hc
      simp only [List.mem_cons]
      constructor
      · rintro (rfl | rfl | h3)
        · exact Or.inl rfl
        · exact Or.inr ⟨Or.inl rfl, fun h0 => absurd (h0 ▸ hlt) (List.lt_irrefl _)⟩
        · refine Or.inr ⟨Or.inr h3, fun h0 => ?_⟩
          have := bytes_lt_trans hlt (hy x h3)
          rw [h0] at this
          exact absurd this (List.lt_irrefl _)
      · rintro (rfl | ⟨rfl | h3, h4⟩)
        · exact Or.inl rfl
        · exact Or.inr (Or.inl rfl)
        · exact Or.inr (Or.inr h3)

theorem entInsert_sorted {e : Entry} {l : List Entry} (hs : IdSorted l) : IdSorted (entInsert e l) := by
  rw [← sorted_idKVs, ← kvInsert_idKVs]
  exact kvInsert_sorted ebinCmp_laws trivial (fun _ _ => trivial) (sorted_idKVs.mpr hs)

theorem entFind_entInsert {e : Entry} {l : List Entry} (hs : IdSorted l) {id : Bytes}
    (h : id ≠ e.info.id) : entFind id (entInsert e l) = entFind id l := by
  cases hf : entFind id l with
  | none =>
    rw [entFind_none] at *
    intro x hx
    rcases (mem_entInsert hs x).mp hx with rfl | ⟨h1, _⟩
    · exact fun h0 => h h0.symm
    · exact hf x h1
  | some x =>
    obtain ⟨h1, rfl⟩ := mem_of_entFind hf
    exact entFind_of_mem (entInsert_sorted hs) ((mem_entInsert hs x).mpr (Or.inr ⟨h1, h⟩))

/-- The by-id action for a document of a batch. -/
def idAct (e : Entry × Nat) : Action := ⟨.fetchInsert, e.1.info.id, assembleIdIndexValue e.1.info, e.2⟩

/-- The removal of a sequence number. -/
def rmAct (seq : Nat) : Action := ⟨.remove, enc48 seq, [], 0⟩

/-- The by-sequence action for a document of a batch. -/
def insAct (e : Entry) : Action := ⟨.insert, enc48 e.info.dbSeq, assembleSeqIndexValue e.info, 0⟩

/-- What the save callback is told about one document. -/
def cbStep {σ} (cb : Option (SaveCb σ)) (ids : List Entry) (u : σ) (e : Entry × Nat) : σ :=
  match cb with
  | none => u
  | some cb => cb u ((entFind e.1.info.id ids).map (·.info)) e.1.info e.2

theorem doSaveCallback_spec {σ} (cb : SaveCb σ) (ctx : IdCtx σ) (d : DocInfo) (hd : DocOk d)
    (old : Option Entry) (ho : ∀ x, old = some x → DocOk x.info ∧ x.info.id = d.id) (r : Nat) :
    doSaveCallback cb ctx d.id (old.map fun e => assembleIdIndexValue e.info)
      (assembleIdIndexValue d) r =
      .ok { ctx with user := cb ctx.user (old.map (·.info)) d r } := by
  unfold doSaveCallback
  rw [byId_roundtrip d hd.fits]
  cases old with
  | none => rfl
  | some x =>
    obtain ⟨h1, h2⟩ := ho x rfl
    simp only [Option.map_some]
    rw [← h2, byId_roundtrip x.info h1.fits]

theorem idFetchUpdate_spec {σ} (n : Nat) (ctx : IdCtx σ) (a : Action) (old : Option Entry)
    (ho : ∀ x, old = some x → DocOk x.info) (hfb : 22 ≤ ctx.fb) (hr : ctx.removes.length < n) :
    ∃ fb, ctx.fb ≤ fb + 22 ∧ fb ≤ ctx.fb ∧
      idFetchUpdate n ctx a (old.map fun e => assembleIdIndexValue e.info) =
        .ok ({ ctx with fb := fb, removes := ctx.removes ++ (old.map fun o => rmAct o.info.dbSeq).toList },
          a.type) := by
  cases old with
  | none => exact ⟨ctx.fb, by omega, Nat.le_refl _, by simp [idFetchUpdate]⟩
  | some x =>
    obtain ⟨h1, -, -⟩ := byId_fields x.info (ho x rfl).fits
    refine ⟨ctx.fb - 22, by omega, by omega, ?_⟩
    simp only [Option.map_some, idFetchUpdate]
    rw [if_neg (by rw [length_assembleId]; omega), h1]
    have e1 : fatbufGet ctx.fb sizeofSizedBuf = .ok (ctx.fb - 16) := by
      unfold fatbufGet sizeofSizedBuf; rw [if_neg (by omega)]
    have e2 : fatbufGet (ctx.fb - 16) 6 = .ok (ctx.fb - 22) := by
      unfold fatbufGet; rw [if_neg (by omega)]; congr 1
    simp only [e1, e2, bind, Except.bind]
    rw [if_neg (by omega)]
    rfl

theorem specStep_fetchInsert {σ} (rq : Rq σ) (a : Action) (ht : a.type = .fetchInsert)
    (cbf : σ → Action → Option Bytes → Except Err (σ × ActType)) (hf : rq.fetchCb = some cbf)
    (u : σ) (kvs : List KV) (u' : σ) (h : cbf u a (kvFind a.key kvs) = .ok (u', a.type)) :
    specStep rq a u kvs = specInsert rq a u' kvs := by
  unfold specStep
  simp [ht, hf, h]

theorem specInsert_none {σ} (rq : Rq σ) (a : Action) (hf : rq.saveCb = none) (u : σ) (kvs : List KV) :
    specInsert rq a u kvs = .ok (u, kvInsert rq.cmp a.key a.data kvs) := by
  unfold specInsert; rw [hf]

theorem specInsert_some {σ} (rq : Rq σ) (a : Action)
    (cb : σ → Bytes → Option Bytes → Bytes → Nat → Except Err σ) (hf : rq.saveCb = some cb)
    (u : σ) (kvs : List KV) (u' : σ) (h : cb u a.key (kvFind a.key kvs) a.data a.userReq = .ok u') :
    specInsert rq a u kvs = .ok (u', kvInsert rq.cmp a.key a.data kvs) := by
  unfold specInsert; rw [hf]; simp only [h]

theorem filterMap_congr' {α β : Type} {f g : α → Option β} {l : List α} (h : ∀ x ∈ l, f x = g x) :
    l.filterMap f = l.filterMap g := by
  induction l with
  | nil => rfl
  | cons x xs ih =>
    rw [List.filterMap_cons, List.filterMap_cons, h x (by simp), ih fun y hy => h y (by simp [hy])]

theorem idFold_spec {σ} (cfg : Cfg) (n : Nat) (cb : Option (SaveCb σ)) (es : List (Entry × Nat))
    (ids : List Entry) (ctx : IdCtx σ) (hs : IdSorted ids) (hok : ∀ x ∈ ids, DocOk x.info)
    (heok : ∀ e ∈ es, DocOk e.1.info)
    (hes : es.Pairwise fun a b => ebinCmp a.1.info.id b.1.info.id = .lt)
    (hfb : 22 * es.length ≤ ctx.fb) (hr : ctx.removes.length + es.length ≤ n) :
    ∃ ctx' ids', specFold (idRq cfg n cb) (es.map idAct) ctx (idKVs ids) = .ok (ctx', idKVs ids') ∧
      IdSorted ids' ∧
      (∀ x, x ∈ ids' ↔ x ∈ es.map (·.1) ∨ (x ∈ ids ∧ ∀ e ∈ es, e.1.info.id ≠ x.info.id)) ∧
      ctx'.removes = ctx.removes ++
        es.filterMap (fun e => (entFind e.1.info.id ids).map fun o => rmAct o.info.dbSeq) ∧
      ctx'.user = es.foldl (cbStep cb ids) ctx.user := by
  induction es generalizing ids ctx with
  | nil => exact ⟨ctx, ids, rfl, hs, by simp, by simp, rfl⟩
  | cons e es ih =>
    obtain ⟨p1, p2⟩ := List.pairwise_cons.mp hes
    simp only [List.length_cons] at hfb hr
    have hold : ∀ x, entFind e.1.info.id ids = some x → DocOk x.info ∧ x.info.id = e.1.info.id :=
      fun x hx => ⟨hok x (mem_of_entFind hx).1, (mem_of_entFind hx).2⟩
    obtain ⟨fb, hf1, hf2, hf3⟩ := idFetchUpdate_spec n ctx (idAct e) (entFind e.1.info.id ids)
      (fun x hx => (hold x hx).1) (by omega) (by omega)
    have hstep : ∃ ctx1, specStep (idRq cfg n cb) (idAct e) ctx (idKVs ids) =
        .ok (ctx1, idKVs (entInsert e.1 ids)) ∧ ctx1.fb = fb ∧
        ctx1.removes = ctx.removes ++ ((entFind e.1.info.id ids).map fun o => rmAct o.info.dbSeq).toList ∧
        ctx1.user = cbStep cb ids ctx.user e := by
      rw [specStep_fetchInsert (idRq cfg n cb) (idAct e) rfl (idFetchUpdate n) rfl ctx (idKVs ids) _
        (by rw [show (idAct e).key = e.1.info.id from rfl, kvFind_idKVs]; exact hf3)]
      cases cb with
      | none =>
        refine ⟨{ ctx with fb := fb, removes := ctx.removes ++
          ((entFind e.1.info.id ids).map fun o => rmAct o.info.dbSeq).toList }, ?_, rfl, rfl, rfl⟩
        rw [specInsert_none _ _ rfl]
        congr 2
        exact kvInsert_idKVs e.1 ids
      | some cb =>
        refine ⟨⟨ctx.removes ++ ((entFind e.1.info.id ids).map fun o => rmAct o.info.dbSeq).toList,
          fb, cbStep (some cb) ids ctx.user e⟩, ?_, rfl, rfl, rfl⟩
        rw [specInsert_some (idRq cfg n (some cb)) (idAct e) (doSaveCallback cb) rfl _ _ _ (by
          rw [show (idAct e).key = e.1.info.id from rfl, kvFind_idKVs]
          exact doSaveCallback_spec cb _ _ (heok e (by simp)) _ hold _)]
        congr 2
        exact kvInsert_idKVs e.1 ids
    obtain ⟨ctx1, h1, h2, h3, h4⟩ := hstep
    have hlen : ctx1.removes.length ≤ ctx.removes.length + 1 := by
      rw [h3]
      cases entFind e.1.info.id ids <;> simp
    obtain ⟨ctx', ids', k1, k2, k3, k4, k5⟩ := ih (entInsert e.1 ids) ctx1 (entInsert_sorted hs)
      (by
        intro x hx
        rcases (mem_entInsert hs x).mp hx with rfl | ⟨hx, _⟩
        · exact heok e (by simp)
        · exact hok x hx)
      (fun e he => heok e (by simp [he])) p2 (by omega) (by omega)
    have hfind : ∀ e' ∈ es, entFind e'.1.info.id (entInsert e.1 ids) = entFind e'.1.info.id ids :=
      fun e' he' => entFind_entInsert hs (fun h0 => ebin_lt_ne (p1 e' he') h0.symm)
    refine ⟨ctx', ids', ?_, k2, ?_, ?_, ?_⟩
    · rw [List.map_cons, specFold_cons, h1]
      exact k1
    · intro x
      rw [k3 x, mem_entInsert hs x]
      simp only [List.map_cons, List.mem_cons]
      constructor
      · rintro (h | ⟨rfl | ⟨h, h'⟩, h''⟩)
        · exact Or.inl (Or.inr h)
        · exact Or.inl (Or.inl rfl)
        · refine Or.inr ⟨h, ?_⟩
          rintro e' (rfl | he')
          · exact fun h0 => h' h0.symm
          · exact h'' e' he'
      · rintro ((rfl | h) | ⟨h, h'⟩)
        · exact Or.inr ⟨Or.inl rfl, fun e' he' => fun h0 => ebin_lt_ne (p1 e' he') h0.symm⟩
        · exact Or.inl h
        · exact Or.inr ⟨Or.inr ⟨h, fun h0 => h' e (Or.inl rfl) h0.symm⟩, fun e' he' => h' e' (Or.inr he')⟩
    · rw [k4, h3, List.filterMap_cons]
      rw [filterMap_congr' (fun e' he' => by rw [hfind e' he'])]
      cases entFind e.1.info.id ids <;> simp
    · rw [k5, h4, List.foldl_cons]
      generalize cbStep cb ids ctx.user e = u
      clear ih k1 k3 k4 k5 h1 h2 h3 h4 hfb hr heok hes p1 p2
      induction es generalizing u with
      | nil => rfl
      | cons e' es ih =>
        rw [List.foldl_cons, List.foldl_cons]
        have : cbStep cb (entInsert e.1 ids) u e' = cbStep cb ids u e' := by
          unfold cbStep; rw [hfind e' (by simp)]
        rw [this]
        exact ih (fun e'' h => hfind e'' (by simp [h])) _

end Couchstore
