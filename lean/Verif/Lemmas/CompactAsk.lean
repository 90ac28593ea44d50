import Verif.Lemmas.History
import Verif.Spec.Compact

/-! Helper lemmas: what a compacted file answers. -/

namespace Couchstore

variable {υ : Type} {z : Bool}

/-- What is the same in a document and its copy. -/
def Entry.plain (z : Bool) (e : Entry) : DocInfo × Option Bytes := (e.info.plain z, e.raw)

theorem find_filter_key {α κ : Type} [DecidableEq κ] (key : α → κ) (g : α → Bool) (k : κ) {l : List α}
    (hn : (l.map key).Nodup) :
    (l.filter g).find? (fun x => key x = k) = (l.find? fun x => key x = k).filter g := by
  induction l with
  | nil => rfl
  | cons x l ih =>
    rw [List.map_cons, List.nodup_cons] at hn
    have ih := ih hn.2
    by_cases hx : key x = k
    · have hnone : l.find? (fun x => key x = k) = none := by
        rw [List.find?_eq_none]
        intro y hy he
        apply hn.1
        rw [hx, ← of_decide_eq_true he]
        exact List.mem_map.mpr ⟨y, hy, rfl⟩
      rw [List.find?_cons_of_pos (by simp [hx])]
      by_cases hg : g x = true
      · rw [List.filter_cons_of_pos hg, List.find?_cons_of_pos (by simp [hx])]
        simp [Option.filter, hg]
      · rw [List.filter_cons_of_neg hg, ih, hnone]
        simp [Option.filter, hg]
    · rw [List.find?_cons_of_neg (by simp [hx])]
      by_cases hg : g x = true
      · rw [List.filter_cons_of_pos hg, List.find?_cons_of_neg (by simp [hx])]
        exact ih
      · rw [List.filter_cons_of_neg hg]
        exact ih

theorem find_plain {l m : List Entry} (p : DocInfo → Bool) (hp : ∀ d : DocInfo, p (d.plain z) = p d)
    (h : m.map (Entry.plain z) = l.map (Entry.plain z)) :
    (m.find? fun e => p e.info).map (Entry.plain z) = (l.find? fun e => p e.info).map (Entry.plain z) := by
  have key : ∀ l : List Entry, (l.find? fun e => p e.info).map (Entry.plain z) = (l.map (Entry.plain z)).find? fun x => p x.1 := by
    intro l
    rw [List.find?_map]
    congr 2
    funext e
    exact (hp e.info).symm
  rw [key, key, h]

theorem filter_plain {l m : List Entry} (p : DocInfo → Bool) (hp : ∀ d : DocInfo, p (d.plain z) = p d)
    (h : m.map (Entry.plain z) = l.map (Entry.plain z)) :
    ((m.map (·.info)).filter p).map (DocInfo.plain z) = ((l.map (·.info)).filter p).map (DocInfo.plain z) := by
  have key : ∀ l : List Entry, ((l.map (·.info)).filter p).map (DocInfo.plain z) =
      ((l.map (Entry.plain z)).map (·.1)).filter p := by
    intro l
    induction l with
    | nil => rfl
    | cons e l ih =>
      simp only [List.map_cons]
      by_cases hq : p e.info = true
      · rw [List.filter_cons_of_pos hq, List.filter_cons_of_pos (by rw [← hq]; exact hp e.info), List.map_cons, ih]
        rfl
      · rw [List.filter_cons_of_neg hq, List.filter_cons_of_neg (by rw [show Entry.plain z e = (e.info.plain z, e.raw) from rfl, hp]; exact hq), ih]
  rw [key, key, h]

theorem count_plain {l m : List Entry} (p : DocInfo → Bool) (hp : ∀ d : DocInfo, p (d.plain z) = p d)
    (h : m.map (Entry.plain z) = l.map (Entry.plain z)) :
    (m.map (·.info)).countP p = (l.map (·.info)).countP p := by
  have := congrArg List.length (filter_plain p hp h)
  rw [List.length_map, List.length_map] at this
  rw [List.countP_eq_length_filter, List.countP_eq_length_filter, this]

/-- What the new file holds. -/
structure Copy (z : Bool) (ids seqs ids' seqs' : List Entry) (gone : DocInfo → Bool) : Prop where
  ids : ids'.map (Entry.plain z) = (ids.filter fun e => !gone e.info).map (Entry.plain z)
  seqs : seqs'.map (Entry.plain z) = (seqs.filter fun e => !gone e.info).map (Entry.plain z)

theorem moved_plain {E : Env} {f g : File} {e e' : Entry} (h : Moved e e') (b : BodyAt E f e) (b' : BodyAt E g e') :
    e'.plain z = e.plain z := by
  unfold Entry.plain
  rw [h.raw]
  congr 1
  rw [h.info]
  unfold DocInfo.plain
  unfold BodyAt at b b'
  rw [h.raw] at b'
  dsimp only
  cases hr : e.raw with
  | none => rw [hr] at b b'; dsimp only at b b'; rw [b.1, b'.1]
  | some x =>
    rw [hr] at b b'
    have h1 := b.1
    have h2 := b'.1
    rw [show min e'.info.bp 1 = min e.info.bp 1 by omega]

theorem sorted_ids_nodup {l : List Entry} (h : IdSorted l) : (l.map (·.info.id)).Nodup := by
  unfold List.Nodup
  rw [List.pairwise_map]
  refine List.Pairwise.imp ?_ h
  intro a b h he
  rw [he] at h
  exact absurd h (by rw [ebinCmp_lt_iff]; exact List.lt_irrefl _)

theorem copy_of_lists {E : Env} {db : Db} {f : File} {ids seqs locs ids' moved} (inv : Inv E db ids seqs locs)
    (hperm : moved.Perm ids') (hsorted : IdSorted ids') (hbody : ∀ e ∈ moved, BodyAt E f e) {gone : DocInfo → Bool}
    (hm : List.Forall₂ Moved (seqs.filter fun e => !gone e.info) moved) : Copy z ids seqs ids' moved gone := by
  have hs : moved.map (Entry.plain z) = (seqs.filter fun e => !gone e.info).map (Entry.plain z) := by
    have h1 : ∀ e ∈ seqs.filter (fun e => !gone e.info), BodyAt E db.file e := fun e he =>
      inv.body e (inv.perm.mem_iff.mp (List.mem_of_mem_filter he))
    have h2 : ∀ e ∈ moved, BodyAt E f e := hbody
    generalize seqs.filter (fun e => !gone e.info) = k at hm h1
    clear inv hperm hbody
    induction hm with
    | nil => rfl
    | @cons a b _ _ h _ ih =>
      rw [List.map_cons, List.map_cons, moved_plain h (h1 a (by simp)) (h2 b (by simp)),
        ih (fun e he => h2 e (by simp [he])) (fun e he => h1 e (by simp [he]))]
  refine ⟨?_, hs⟩
  have hp : (ids'.map (Entry.plain z)).Perm ((ids.filter fun e => !gone e.info).map (Entry.plain z)) := by
    refine (hperm.symm.map _).trans ?_
    rw [hs]
    exact (inv.perm.filter _).map _
  have hsort : ∀ {l : List Entry}, IdSorted l → (l.map (Entry.plain z)).Pairwise fun a b => ebinCmp a.1.id b.1.id = .lt := by
    intro l h
    rw [List.pairwise_map]
    exact h
  refine hp.eq_of_pairwise ?_ (hsort hsorted) (hsort (inv.idSorted.filter _))
  intro a b _ _ h1 h2
  rw [ebinCmp_lt_iff] at h1 h2
  exact absurd (List.lt_trans h1 h2) (List.lt_irrefl _)

theorem copy_of {E : Env} {db t : Db} {ids seqs locs ids' moved locs'} (inv : Inv E db ids seqs locs)
    (inv' : Inv E t ids' moved locs') {gone : DocInfo → Bool} (hm : List.Forall₂ Moved (seqs.filter fun e => !gone e.info) moved) :
    Copy z ids seqs ids' moved gone :=
  copy_of_lists (f := t.file) inv inv'.perm inv'.idSorted (fun e he => inv'.body e (inv'.perm.mem_iff.mp he)) hm

theorem Copy.entFind {ids seqs ids' seqs' : List Entry} {gone : DocInfo → Bool} (C : Copy z ids seqs ids' seqs' gone)
    (hs : IdSorted ids) (id : Bytes) :
    (Couchstore.entFind id ids').map (Entry.plain z) =
      ((Couchstore.entFind id ids).filter fun e => !gone e.info).map (Entry.plain z) := by
  unfold Couchstore.entFind
  rw [find_plain (fun d => decide (d.id = id)) (fun _ => rfl) C.ids,
    find_filter_key (fun e : Entry => e.info.id) (fun e => !gone e.info) id (sorted_ids_nodup hs)]

theorem Copy.seqFind {ids seqs ids' seqs' : List Entry} {gone : DocInfo → Bool} (C : Copy z ids seqs ids' seqs' gone)
    (hs : SeqSorted seqs) (s : Nat) :
    (Couchstore.seqFind s seqs').map (Entry.plain z) =
      ((Couchstore.seqFind s seqs).filter fun e => !gone e.info).map (Entry.plain z) := by
  unfold Couchstore.seqFind
  rw [find_plain (fun d => decide (d.dbSeq = s)) (fun _ => rfl) C.seqs,
    find_filter_key (fun e : Entry => e.info.dbSeq) (fun e => !gone e.info) s (sorted_seqs_nodup hs)]

theorem foundOr_plain {a b : Option Entry} {gone : DocInfo → Bool}
    (h : a.map (Entry.plain z) = (b.filter fun e => !gone e.info).map (Entry.plain z)) :
    (Reply.doc (foundOr a)).plain z = (askWithout.without gone (.doc (foundOr b))).plain z := by
  cases b with
  | none =>
    have : a = none := by simpa using h
    rw [this]
    rfl
  | some e =>
    by_cases hg : gone e.info = true
    · have : a = none := by simpa [Option.filter, hg] using h
      rw [this]
      simp [foundOr, askWithout.without, hg, Reply.plain]
    · obtain ⟨e', rfl, h1⟩ : ∃ e', a = some e' ∧ e'.plain z = e.plain z := by simpa [Option.filter, hg] using h
      simp only [foundOr, askWithout.without, hg, Bool.false_eq_true, if_false, Reply.plain]
      rw [show e'.info.plain z = e.info.plain z from congrArg Prod.fst h1]

theorem specAsk_without {E : Env} {h h' : Header} {ids seqs ids' seqs' : List Entry} {locs locs' : List KV} {gone : DocInfo → Bool}
    (C : Copy z ids seqs ids' seqs' gone) (hl : ∀ k, kvFind k locs' = kvFind k locs) (hi : IdSorted ids) (hs : SeqSorted seqs) (hp : seqs.Perm ids)
    (hu : h'.updateSeq = h.updateSeq) {db : Db} (ha : ∀ q : Query, q.Ok → ask E db q = specAsk E h ids seqs locs q)
    (q : Query) (hq : q.Ok) :
    (specAsk E h' ids' seqs' locs' q).plain z = (askWithout E db gone h'.purgeSeq q).plain z := by
  have hdocs : documents E db = seqs.map (·.info) := by
    unfold documents
    rw [ha _ (by show 0 < 2 ^ 48; omega)]
    simp only [specAsk]
    rw [List.filter_eq_self.mpr]
    intro d _
    simp [ScanOpts.selects]
  have hscan : ∀ {m l : List Entry} (p : DocInfo → Bool), (∀ d : DocInfo, p (d.plain z) = p d) →
      m.map (Entry.plain z) = (l.filter fun e => !gone e.info).map (Entry.plain z) →
      (Reply.docs (.ok ((m.map (·.info)).filter p, none))).plain z =
        (askWithout.without gone (.docs (.ok ((l.map (·.info)).filter p, none)))).plain z := by
    intro m l p hp hm
    simp only [askWithout.without, Reply.plain]
    rw [filter_plain p hp hm, List.filter_filter, List.filter_map, List.filter_map, List.filter_filter]
    congr 6
    funext e
    exact Bool.and_comm _ _
  have hcount : ∀ {m l : List Entry} (p : DocInfo → Bool), (∀ d : DocInfo, p (d.plain z) = p d) →
      m.map (Entry.plain z) = (l.filter fun e => !gone e.info).map (Entry.plain z) →
      (m.map (·.info)).countP p = (l.map (·.info)).countP fun d => !gone d && p d := by
    intro m l p hp hm
    rw [count_plain p hp hm, List.countP_map, List.countP_map, List.countP_filter]
    congr 1
    funext e
    exact Bool.and_comm _ _
  have hmulti : ∀ {κ : Type} (ks : List κ) (a b : κ → Option Entry),
      (∀ k, (a k).map (Entry.plain z) = ((b k).filter fun e => !gone e.info).map (Entry.plain z)) →
      (Reply.docs (.ok (ks.filterMap fun k => (a k).map (·.info), none))).plain z =
        (askWithout.without gone (.docs (.ok (ks.filterMap fun k => (b k).map (·.info), none)))).plain z := by
    intro κ ks a b hab
    simp only [askWithout.without, Reply.plain]
    rw [List.filter_filterMap, List.map_filterMap, List.map_filterMap]
    congr 4
    funext k
    have := hab k
    cases hb : b k with
    | none =>
      rw [hb] at this
      have : a k = none := by simpa using this
      rw [this]
      rfl
    | some e =>
      rw [hb] at this
      by_cases hg : gone e.info = true
      · have : a k = none := by simpa [Option.filter, hg] using this
        rw [this]
        simp [Option.filter, hg]
      · obtain ⟨e', h0, h1⟩ : ∃ e', a k = some e' ∧ e'.plain z = e.plain z := by simpa [Option.filter, hg] using this
        rw [h0]
        simp only [Option.map_some, Option.filter, hg, Bool.not_false, if_true]
        rw [show e'.info.plain z = e.info.plain z from congrArg Prod.fst h1]
  cases q with
  | docinfo id =>
    dsimp only [askWithout]
    rw [ha _ hq]
    exact foundOr_plain (C.entFind hi id)
  | docinfoSeq s =>
    dsimp only [askWithout]
    rw [ha _ hq]
    exact foundOr_plain (C.seqFind hs _)
  | «open» id dec =>
    dsimp only [askWithout]
    rw [ha (.docinfo id) trivial, ha (.open id dec) hq]
    have hc := C.entFind hi id
    simp only [specAsk]
    cases hb : entFind id ids with
    | none =>
      rw [hb] at hc
      have : entFind id ids' = none := by simpa using hc
      rw [this]
      rfl
    | some e =>
      rw [hb] at hc
      by_cases hg : gone e.info = true
      · have : entFind id ids' = none := by simpa [Option.filter, hg] using hc
        rw [this]
        simp [foundOr, hg, openIdAns]
      · obtain ⟨e', h0, h1⟩ : ∃ e', entFind id ids' = some e' ∧ e'.plain z = e.plain z := by
          simpa [Option.filter, hg] using hc
        rw [h0]
        simp only [foundOr, hg, Bool.false_eq_true, if_false, openIdAns, openAns]
        have h2 : e'.raw = e.raw := congrArg Prod.snd h1
        have h3 : e'.info.contentMeta = e.info.contentMeta := congrArg (fun p => p.1.contentMeta) h1
        rw [h2, h3]
  | changes s opts =>
    dsimp only [askWithout]
    rw [ha _ hq]
    exact hscan _ (fun _ => rfl) C.seqs
  | allDocs st opts =>
    dsimp only [askWithout]
    rw [ha _ hq]
    exact hscan _ (fun _ => rfl) C.ids
  | docinfos ks =>
    dsimp only [askWithout]
    rw [ha _ hq]
    exact hmulti _ _ _ fun k => C.entFind hi k
  | docinfosSeq ss =>
    dsimp only [askWithout]
    rw [ha _ hq]
    exact hmulti _ _ _ fun k => C.seqFind hs k
  | range lo hi' =>
    dsimp only [askWithout]
    rw [ha _ hq]
    exact hscan _ (fun _ => rfl) C.ids
  | rangeSeq lo hi' =>
    dsimp only [askWithout]
    rw [ha _ hq]
    exact hscan _ (fun _ => rfl) C.seqs
  | count lo hi' =>
    dsimp only [askWithout]
    simp only [specAsk]
    rw [hdocs, hcount _ (fun _ => rfl) C.seqs]
    simp only [Bool.and_assoc]
  | localDoc id =>
    dsimp only [askWithout]
    rw [ha _ hq]
    simp only [specAsk, hl]
  | info =>
    dsimp only [askWithout]
    rw [ha _ hq]
    simp only [specAsk, statsOf, Reply.plain, docStats]
    rw [hcount (fun d => !d.deleted) (fun _ => rfl) C.ids, hcount (fun d => d.deleted) (fun _ => rfl) C.ids, hdocs, hu,
      (hp.map (·.info)).countP_eq, (hp.map (·.info)).countP_eq]

/-- The answers of a compacted file. -/
theorem holds_of_copy {E : Env} (L : E.Laws) {db t : Db} {ids seqs locs ids' moved} (inv : Inv E db ids seqs locs)
    (hd : db.dropped = false) (inv' : Inv E t ids' moved locs) (ht : t.dropped = false) {gone : DocInfo → Bool}
    (hm : List.Forall₂ Moved (seqs.filter fun e => !gone e.info) moved)
    (hu : t.header.updateSeq = db.header.updateSeq) : HoldsWithout E db t gone t.header.purgeSeq := by
  intro q hq
  rw [ask_eq E L inv' ht q hq]
  exact specAsk_without (copy_of inv inv' hm) (fun _ => rfl) inv.idSorted inv.seqSorted inv.perm hu (fun q hq => ask_eq E L inv hd q hq) q hq

/-! ### Which documents are kept -/

theorem Kept.noFilter {drop : Bool} {u u' : υ} {l k : List Entry} (h : Kept drop none none u l u' k) :
    u' = u ∧ k = l.filter fun e => !(drop && e.info.deleted) := by
  generalize hf : (none : Option (CompactFilter υ)) = flt at h
  induction h with
  | nil => exact ⟨rfl, rfl⟩
  | keep h _ ih =>
    subst hf
    obtain ⟨h1, h2⟩ := h
    obtain ⟨h3, h4⟩ := ih
    rw [rewriteEntry_none] at h3 ⊢
    refine ⟨h3.trans h1, ?_⟩
    rw [List.filter_cons_of_pos (by rw [Bool.and_comm]; exact h2.symm), ← h4]
  | drop h _ ih =>
    subst hf
    obtain ⟨h1, h2⟩ := h
    obtain ⟨h3, h4⟩ := ih
    refine ⟨h3.trans h1, ?_⟩
    rw [List.filter_cons_of_neg (by rw [Bool.and_comm, ← h2]; simp), ← h4]

theorem Kept.filter {drop : Bool} {g : CompactFilter υ} {u u' : υ} {l k : List Entry} (h : Kept drop (some g) none u l u' k)
    (ha : AsksForBodies g) {body : DocInfo → Option Bytes} (hb : ∀ e ∈ l, body e.info = e.raw)
    (hr : ∀ e ∈ l, e.raw = none → e.info.bp = 0) :
    applyFilter g body u (l.map (·.info)) = some (u', k.map (·.info)) := by
  generalize hf : (some g : Option (CompactFilter υ)) = flt at h
  have key : ∀ {u u1 : υ} {e : Entry} {keep : Bool}, Decides drop (some g) u e u1 keep → body e.info = e.raw →
      (e.raw = none → e.info.bp = 0) →
      filterVerdict g (body e.info) u e.info = (u1, verdict keep) := by
    intro u u1 e keep hd hb hr
    unfold filterVerdict
    rcases hd with hd | ⟨u2, b, h1, h2, h3⟩
    · rw [hd]
      cases keep <;> rfl
    · rw [h1]
      dsimp only
      rw [hb]
      cases hraw : e.raw with
      | none => exact absurd (hr hraw) (ha u e.info (by rw [h1]))
      | some b' => rw [← h2 b' hraw, h3]
  induction h with
  | nil => rfl
  | @keep u u1 u2 e l k h _ ih =>
    subst hf
    have ih := ih (fun e he => hb e (by simp [he])) (fun e he => hr e (by simp [he]))
    rw [List.map_cons]
    unfold applyFilter
    dsimp only
    rw [key h (hb e (by simp)) (hr e (by simp))]
    rw [rewriteEntry_none] at ih ⊢
    simp only [verdict, if_true, ih, Option.map_some, List.map_cons]
  | @drop u u1 u2 e l k h _ ih =>
    subst hf
    have ih := ih (fun e he => hb e (by simp [he])) (fun e he => hr e (by simp [he]))
    rw [List.map_cons]
    unfold applyFilter
    dsimp only
    rw [key h (hb e (by simp)) (hr e (by simp))]
    simp only [verdict, Bool.false_eq_true, if_false, ih]

theorem storedBodyOf_eq {E : Env} (L : E.Laws) {db : Db} {ids seqs locs} (inv : Inv E db ids seqs locs)
    (hd : db.dropped = false) {e : Entry} (he : e ∈ ids) : storedBodyOf E db e.info.id = e.raw := by
  unfold storedBodyOf
  rw [ask_eq E L inv hd (.open e.info.id false) trivial]
  simp only [specAsk, entFind_of_mem inv.idSorted he, openIdAns, openAns, Bool.false_and, Bool.false_eq_true, if_false]
  cases e.raw <;> rfl

theorem documents_eq {E : Env} (L : E.Laws) {db : Db} {ids seqs locs} (inv : Inv E db ids seqs locs)
    (hd : db.dropped = false) : documents E db = seqs.map (·.info) := by
  unfold documents
  rw [ask_eq E L inv hd _ (by show 0 < 2 ^ 48; omega)]
  simp only [specAsk]
  rw [List.filter_eq_self.mpr]
  intro d _
  simp [ScanOpts.selects]

/-! ### The whole compaction -/

/-- There is no callback for the metadata without a filter. -/
theorem compact_rewrite {E : Env} {c : Compaction υ} {t' : Db} (hc : compact E c = .ok t') (hf : c.filter = none) :
    c.rewrite = none := by
  unfold compact at hc
  cases hw : c.rewrite with
  | none => rfl
  | some w => rw [hf, hw] at hc; cases hc

theorem rewritesFit_none {rw : Option (DocInfoRewrite υ)} (h : rw = none) : RewritesFit rw := by
  intro w hw
  rw [h] at hw
  cases hw

/-- The steps of a successful compaction. -/
theorem compact_ok {E : Env} {getKey : KeyGetter} {s : Sys} (h : History E getKey s) {c : Compaction υ} (hs : c.source = s.db)
    (K : KeysOk c.getKey (compactFlags c.source c.upgrade).legacyCrc) (hw : RewritesFit c.rewrite) {t' : Db}
    (hc : compact E c = .ok t') :
    ∃ t f' t1, openDb E (compactFlags c.source c.upgrade) c.getKey c.ctx (crashedFile [] c.faults) = .ok t f' ∧
      compactFill E c t = .ok () t1 ∧ commit E c.source.header.timestamp (fun _ => false) t1 = .ok () t' ∧
      History E c.getKey { Sys.created t true with db := t1 } := by
  unfold compact at hc
  by_cases hw0 : (c.filter.isNone && c.rewrite.isSome) = true
  · rw [if_pos hw0] at hc; cases hc
  rw [if_neg hw0] at hc
  by_cases hd : c.source.dropped = true
  · rw [if_pos hd] at hc; cases hc
  rw [if_neg hd] at hc
  have hnew : newFile c.faults = crashedFile [] c.faults := rfl
  rw [hnew] at hc
  cases ho : openDb E (compactFlags c.source c.upgrade) c.getKey c.ctx (crashedFile [] c.faults) with
  | error e f => rw [ho] at hc; cases hc
  | ok t f' =>
    rw [ho] at hc
    dsimp only at hc
    cases hf : compactFill E c t with
    | error e d =>
      rw [show (compactFill E c >>= fun _ => commit E c.source.header.timestamp fun _ => false) t = .error e d from
        bind_error hf] at hc
      cases hc
    | ok a t1 =>
      rw [show (compactFill E c >>= fun _ => commit E c.source.header.timestamp fun _ => false) t =
        commit E c.source.header.timestamp (fun _ => false) t1 from bind_ok hf] at hc
      cases hm : commit E c.source.header.timestamp (fun _ => false) t1 with
      | error e d => rw [hm] at hc; cases hc
      | ok a t2 =>
        rw [hm] at hc
        cases hc
        exact ⟨t, f', t1, rfl, hf, hm, .compact c h hs K ho hw hf⟩

/-- Why a compaction fails. -/
theorem compact_error {E : Env} (L : E.Laws) {getKey : KeyGetter} {s : Sys} (h : History E getKey s) {c : Compaction υ}
    (hs : c.source = s.db) (K : KeysOk c.getKey (compactFlags c.source c.upgrade).legacyCrc)
    (hw : RewritesFit c.rewrite) (hw0 : c.filter = none → c.rewrite = none) {e : Err} (hc : compact E c = .error e) :
    (∃ f', openDb E (compactFlags c.source c.upgrade) c.getKey c.ctx (crashedFile [] c.faults) = .error e f') ∨
      ∃ t f', openDb E (compactFlags c.source c.upgrade) c.getKey c.ctx (crashedFile [] c.faults) = .ok t f' ∧
        CompactFails c t e := by
  obtain ⟨ids, seqs, locs, S⟩ := (h.hist L).handle
  rw [← hs] at S
  unfold compact at hc
  rw [if_neg (by
    cases hf : c.filter with
    | none => rw [hw0 hf]; simp
    | some g => simp)] at hc
  rw [if_neg (by rw [S.opened]; simp)] at hc
  have hnew : newFile c.faults = crashedFile [] c.faults := rfl
  rw [hnew] at hc
  cases ho : openDb E (compactFlags c.source c.upgrade) c.getKey c.ctx (crashedFile [] c.faults) with
  | error e f => rw [ho] at hc; cases hc; exact Or.inl ⟨f, rfl⟩
  | ok t f' =>
    rw [ho] at hc
    dsimp only at hc
    obtain ⟨H, T, _⟩ := created_hist (compactFlags_thr _ _) K ho
    have sp := compactFill_spec E L c hw S t T
    refine Or.inr ⟨t, f', rfl, ?_⟩
    cases hf : compactFill E c t with
    | error e d =>
      rw [show (compactFill E c >>= fun _ => commit E c.source.header.timestamp fun _ => false) t = .error e d from
        bind_error hf] at hc
      cases hc
      exact sp.error hf
    | ok a t1 =>
      rw [show (compactFill E c >>= fun _ => commit E c.source.header.timestamp fun _ => false) t =
        commit E c.source.header.timestamp (fun _ => false) t1 from bind_ok hf] at hc
      cases hm : commit E c.source.header.timestamp (fun _ => false) t1 with
      | ok a d => rw [hm] at hc; cases hc
      | error e d =>
        rw [hm] at hc
        cases hc
        obtain ⟨u, kept, moved, ids', _, _, _, F, hh⟩ := sp.ok hf
        rcases ((commit_spec E _ _ t1 hh).error hm).2 with h | h
        · exact Or.inr (Or.inr (Or.inr (Or.inl (F.ext.faults_ne h))))
        · exact Or.inr (Or.inr (Or.inr (Or.inr (Or.inl h))))

/-- Creating the new file without encryption. -/
theorem compact_creates {E : Env} {c : Compaction υ} (hf : c.faults = []) (hk : ∀ f, c.getKey = some f → f [] = none) :
    ∃ t, openDb E (compactFlags c.source c.upgrade) c.getKey c.ctx (crashedFile [] c.faults) = .ok t t.file ∧
      t.file.faults = [] := by
  rw [hf]
  unfold openDb
  rw [if_neg (by simp [compactFlags]), if_neg (by simp [compactFlags])]
  have hm : ∀ db, createMetadataHeader E c.getKey c.ctx db =
      .ok () { db with header := { db.header with haveMeta := false } } := by
    intro db
    unfold createMetadataHeader
    cases hg : c.getKey with
    | none => rfl
    | some f =>
      have := hk f hg
      dsimp only
      rw [this]
      rfl
  have hb : ∃ db, openBody E (compactFlags c.source c.upgrade) c.getKey c.ctx
      (newHandle (compactFlags c.source c.upgrade) (crashedFile [] [])) = .ok () db ∧ db.file.faults = [] := by
    unfold openBody
    simp only [bind, EStateM.bind, liftF, gotoEof, popFault, newHandle, crashedFile, MonadState.get, getThe,
      MonadStateOf.get, EStateM.get, pure, EStateM.pure, setPos, modify, modifyGet, MonadStateOf.modifyGet,
      EStateM.modifyGet, List.length_nil, if_true, setCrcMode, createHeader, setHeader]
    simp [compactFlags]
    simp only [EStateM.bind, EStateM.modifyGet, hm, EStateM.get, EStateM.pure, if_true]
    exact ⟨_, rfl, rfl⟩
  obtain ⟨db, h1, h2⟩ := hb
  rw [h1]
  exact ⟨db, rfl, h2⟩

/-! ### Recovery -/

theorem recover_ok {E : Env} {getKey : KeyGetter} {s : Sys} (h : History E getKey s) {c : Compaction υ}
    (hs : c.source = { s.db with file := c.source.file }) (D : DamagedFile E s.db.file c.source.file)
    (h1 : c.bodyFaults = []) (h2 : c.localFaults = []) (h3 : c.faults = []) (hk : KeepsAll c.filter) (hrw : c.rewrite = none)
    (K : KeysOk c.getKey (compactFlags c.source c.upgrade).legacyCrc) {t' : Db} {er : Option Err}
    (hc : recover E c = .ok (t', er)) :
    ∃ t f' t1, openDb E (compactFlags c.source c.upgrade) c.getKey c.ctx (crashedFile [] c.faults) = .ok t f' ∧
      recoverFill E c t = .ok er t1 ∧ commit E c.source.header.timestamp (fun _ => false) t1 = .ok () t' ∧
      History E c.getKey { Sys.created t true with db := t1 } := by
  unfold recover at hc
  rw [if_neg (by rw [hrw]; simp)] at hc
  by_cases hd : c.source.dropped = true
  · rw [if_pos hd] at hc; cases hc
  rw [if_neg hd] at hc
  have hnew : newFile c.faults = crashedFile [] c.faults := rfl
  rw [hnew] at hc
  cases ho : openDb E (compactFlags c.source c.upgrade) c.getKey c.ctx (crashedFile [] c.faults) with
  | error e f => rw [ho] at hc; cases hc
  | ok t f' =>
    rw [ho] at hc
    dsimp only at hc
    cases hf : recoverFill E c t with
    | error e d => rw [bind_error hf] at hc; cases hc
    | ok a t1 =>
      rw [bind_ok hf] at hc
      cases hm : commit E c.source.header.timestamp (fun _ => false) t1 with
      | error e d => rw [bind_error hm] at hc; cases hc
      | ok u t2 =>
        rw [bind_ok hm] at hc
        cases hc
        exact ⟨t, f', t1, rfl, hf, hm, .recover c h hs D h1 h2 h3 hk hrw K ho hf⟩

/-- Why recovery may fail. -/
theorem recover_error {E : Env} (L : E.Laws) {getKey : KeyGetter} {s : Sys} (h : History E getKey s) {c : Compaction υ}
    (hs : c.source = { s.db with file := c.source.file }) (D : DamagedFile E s.db.file c.source.file)
    (h1 : c.bodyFaults = []) (h2 : c.localFaults = []) (h3 : c.faults = []) (hk : KeepsAll c.filter) (hrw : c.rewrite = none)
    (K : KeysOk c.getKey (compactFlags c.source c.upgrade).legacyCrc) {e : Err} (hc : recover E c = .error e)
    {ids seqs locs} (S : Handle E s.db ids seqs locs) :
    (∃ f', openDb E (compactFlags c.source c.upgrade) c.getKey c.ctx (crashedFile [] c.faults) = .error e f') ∨
      e = .formatLimit ∨ LocalLost E c.source locs := by
  unfold recover at hc
  rw [if_neg (by rw [hrw]; simp)] at hc
  rw [if_neg (by rw [hs]; show ¬ s.db.dropped = true; rw [S.opened]; simp)] at hc
  have hnew : newFile c.faults = crashedFile [] c.faults := rfl
  rw [hnew] at hc
  cases ho : openDb E (compactFlags c.source c.upgrade) c.getKey c.ctx (crashedFile [] c.faults) with
  | error e f => rw [ho] at hc; cases hc; exact Or.inl ⟨f, rfl⟩
  | ok t f' =>
    rw [ho] at hc
    dsimp only at hc
    obtain ⟨H, T, _⟩ := created_hist (compactFlags_thr _ _) K ho
    have ht := compact_calm h3 ho
    have sp := recoverFill_spec E L c S D hs h1 h2 hk hrw t T ht
    right
    cases hf : recoverFill E c t with
    | error e d =>
      rw [bind_error hf] at hc
      cases hc
      exact sp.error hf
    | ok a t1 =>
      obtain ⟨moved, ids', _, _, F, hh, _⟩ := sp.ok hf
      rw [bind_ok hf] at hc
      cases hm : commit E c.source.header.timestamp (fun _ => false) t1 with
      | ok u t2 => rw [bind_ok hm] at hc; cases hc
      | error e d =>
        rw [bind_error hm] at hc
        cases hc
        rcases ((commit_spec E _ _ t1 hh).error hm).2 with h | h
        · exact absurd ht (F.ext.faults_ne h)
        · exact Or.inl h

end Couchstore
