import Verif.Lemmas.CompactAsk

/-! Helper lemmas: compaction with other metadata. -/

namespace Couchstore

variable {υ : Type}

/-- The entry with metadata from a list. -/
def Entry.metaFrom (kept : List DocInfo) (e : Entry) : Entry := { e with info := e.info.metaFrom kept }

/-! ### Answers -/

theorem find_metaFrom (kept : List DocInfo) (p : DocInfo → Bool) (hp : ∀ d, p (d.metaFrom kept) = p d) (l : List Entry) :
    (l.map (Entry.metaFrom kept)).find? (fun e => p e.info) = (l.find? fun e => p e.info).map (Entry.metaFrom kept) := by
  rw [List.find?_map]
  congr 2
  funext e
  exact hp e.info

theorem infos_metaFrom (kept : List DocInfo) (l : List Entry) :
    (l.map (Entry.metaFrom kept)).map (·.info) = (l.map (·.info)).map (DocInfo.metaFrom kept) := by
  rw [List.map_map, List.map_map]
  rfl

theorem filter_metaFrom (kept : List DocInfo) (p : DocInfo → Bool) (hp : ∀ d, p (d.metaFrom kept) = p d) (l : List DocInfo) :
    (l.map (DocInfo.metaFrom kept)).filter p = (l.filter p).map (DocInfo.metaFrom kept) := by
  rw [List.filter_map]
  congr 2
  funext d
  exact hp d

theorem count_metaFrom (kept : List DocInfo) (p : DocInfo → Bool) (hp : ∀ d, p (d.metaFrom kept) = p d) (l : List DocInfo) :
    (l.map (DocInfo.metaFrom kept)).countP p = l.countP p := by
  rw [List.countP_map]
  congr 1
  funext d
  exact hp d

theorem specAsk_metaFrom (E : Env) (h : Header) (ids seqs : List Entry) (locs : List KV) (kept : List DocInfo) (q : Query) :
    specAsk E h (ids.map (Entry.metaFrom kept)) (seqs.map (Entry.metaFrom kept)) locs q =
      (specAsk E h ids seqs locs q).metaFrom kept := by
  have hid : ∀ id, entFind id (ids.map (Entry.metaFrom kept)) = (entFind id ids).map (Entry.metaFrom kept) := fun id =>
    find_metaFrom kept (fun d => decide (d.id = id)) (fun _ => rfl) ids
  have hseq : ∀ s, seqFind s (seqs.map (Entry.metaFrom kept)) = (seqFind s seqs).map (Entry.metaFrom kept) := fun s =>
    find_metaFrom kept (fun d => decide (d.dbSeq = s)) (fun _ => rfl) seqs
  have hmulti : ∀ {κ : Type} (ks : List κ) (a b : κ → Option Entry), (∀ k, a k = (b k).map (Entry.metaFrom kept)) →
      (ks.filterMap fun k => (a k).map (·.info)) = (ks.filterMap fun k => (b k).map (·.info)).map (DocInfo.metaFrom kept) := by
    intro κ ks a b hab
    rw [List.map_filterMap]
    congr 1
    funext k
    rw [hab, Option.map_map, Option.map_map]
    rfl
  cases q with
  | docinfo id =>
    simp only [specAsk, hid]
    cases entFind id ids <;> rfl
  | docinfoSeq s =>
    simp only [specAsk, hseq]
    cases seqFind (s % 2 ^ 48) seqs <;> rfl
  | «open» id dec =>
    simp only [specAsk, hid]
    cases entFind id ids <;> rfl
  | changes s opts =>
    simp only [specAsk, infos_metaFrom, Reply.metaFrom]
    rw [filter_metaFrom kept _ (fun _ => rfl)]
  | allDocs st opts =>
    simp only [specAsk, infos_metaFrom, Reply.metaFrom]
    rw [filter_metaFrom kept _ (fun _ => rfl)]
  | docinfos ks =>
    simp only [specAsk, Reply.metaFrom]
    rw [hmulti _ _ _ hid]
  | docinfosSeq ss =>
    simp only [specAsk, Reply.metaFrom]
    rw [hmulti _ _ _ hseq]
  | range lo hi =>
    simp only [specAsk, infos_metaFrom, Reply.metaFrom]
    rw [filter_metaFrom kept _ (fun _ => rfl)]
  | rangeSeq lo hi =>
    simp only [specAsk, infos_metaFrom, Reply.metaFrom]
    rw [filter_metaFrom kept _ (fun _ => rfl)]
  | count lo hi =>
    simp only [specAsk, infos_metaFrom, Reply.metaFrom]
    rw [count_metaFrom kept _ (fun _ => rfl)]
  | localDoc id => rfl
  | info =>
    simp only [specAsk, Reply.metaFrom, statsOf, docStats, infos_metaFrom]
    rw [count_metaFrom kept _ (fun _ => rfl), count_metaFrom kept _ (fun _ => rfl), List.map_map]
    rfl

theorem metaFrom_plain (z : Bool) (kept : List DocInfo) (r : Reply) :
    (r.plain z).metaFrom kept = (r.metaFrom kept).plain z := by
  match r with
  | .doc (.ok _) => rfl
  | .doc (.error _) => rfl
  | .docs (.ok (ds, e)) =>
    simp only [Reply.plain, Reply.metaFrom, List.map_map]
    rfl
  | .docs (.error _) => rfl
  | .stats (.ok (_, _, _, _, _)) => rfl
  | .stats (.error _) => rfl
  | .body _ => rfl
  | .num _ => rfl
  | .loc _ => rfl

/-! ### The documents that are kept, before and after -/

/-- The same document with other metadata. -/
def OtherMeta (e e' : Entry) : Prop := ∃ m, e' = { e with info := { e.info with revMeta := m } }

theorem rewriteEntry_other (rw : Option (DocInfoRewrite υ)) (u : υ) (e : Entry) : OtherMeta e (rewriteEntry rw u e).2 := by
  obtain ⟨m, h⟩ := rewriteEntry_info rw u e
  have hr := rewriteEntry_raw rw u e
  refine ⟨m, ?_⟩
  cases he : (rewriteEntry rw u e).2 with
  | mk info raw =>
    rw [he] at h hr
    simp only at h hr
    rw [h, hr]

theorem Kept.before {drop : Bool} {flt : Option (CompactFilter υ)} {rw : Option (DocInfoRewrite υ)} {u u' : υ}
    {l k : List Entry} (h : Kept drop flt rw u l u' k) : ∃ pre, pre.Sublist l ∧ List.Forall₂ OtherMeta pre k := by
  induction h with
  | nil => exact ⟨[], List.Sublist.refl _, .nil⟩
  | @keep u u1 u2 e l k _ _ ih =>
    obtain ⟨pre, h1, h2⟩ := ih
    exact ⟨e :: pre, h1.cons_cons _, .cons (rewriteEntry_other rw u1 e) h2⟩
  | drop _ _ ih =>
    obtain ⟨pre, h1, h2⟩ := ih
    exact ⟨pre, h1.cons _, h2⟩

theorem other_ids {pre k : List Entry} (h : List.Forall₂ OtherMeta pre k) : k.map (·.info.id) = pre.map (·.info.id) := by
  induction h with
  | nil => rfl
  | @cons a b _ _ h _ ih =>
    obtain ⟨m, rfl⟩ := h
    rw [List.map_cons, List.map_cons, ih]

/-- A sublist of a list with distinct ids is made of those whose ids it has. -/
theorem sublist_filter_ids {k l : List Entry} (h : k.Sublist l) (hn : (l.map (·.info.id)).Nodup) :
    k = l.filter fun e => decide (e.info.id ∈ k.map (·.info.id)) := by
  have key : ∀ (K : List Bytes) {k l : List Entry}, k.Sublist l → (l.map (·.info.id)).Nodup →
      (∀ e ∈ l, e.info.id ∈ K ↔ e.info.id ∈ k.map (·.info.id)) → k = l.filter fun e => decide (e.info.id ∈ K) := by
    intro K k l h
    induction h with
    | slnil => intro _ _; rfl
    | @cons k l a h ih =>
      intro hn hK
      rw [List.map_cons, List.nodup_cons] at hn
      have hna : a.info.id ∉ K := by
        rw [hK a (by simp)]
        exact fun hx => hn.1 ((h.map _).subset hx)
      rw [List.filter_cons_of_neg (by simpa using hna)]
      exact ih hn.2 fun e he => hK e (by simp [he])
    | @cons_cons k l a h ih =>
      intro hn hK
      rw [List.map_cons, List.nodup_cons] at hn
      have hna : a.info.id ∈ K := by
        rw [hK a (by simp)]
        simp
      rw [List.filter_cons_of_pos (by simpa using hna)]
      rw [← ih hn.2 fun e he => by
        rw [hK e (by simp [he]), List.map_cons, List.mem_cons]
        exact ⟨fun hx => hx.resolve_left fun hx => hn.1 (List.mem_map.mpr ⟨e, he, hx⟩), Or.inr⟩]
  exact key _ h hn fun _ _ => Iff.rfl

theorem find_id {l : List DocInfo} (hn : (l.map (·.id)).Nodup) {d : DocInfo} (hd : d ∈ l) :
    l.find? (fun k => decide (k.id = d.id)) = some d := by
  induction l with
  | nil => cases hd
  | cons a l ih =>
    rw [List.map_cons, List.nodup_cons] at hn
    rcases List.mem_cons.mp hd with rfl | hd
    · rw [List.find?_cons_of_pos (by simp)]
    · rw [List.find?_cons_of_neg, ih hn.2 hd]
      simp only [decide_eq_true_eq]
      exact fun h => hn.1 (h ▸ List.mem_map.mpr ⟨d, hd, rfl⟩)

/-- The answers of a file in which documents have got other metadata. -/
theorem holds_with_meta {E : Env} (L : E.Laws) {db t : Db} {ids seqs locs ids' moved kept pre} (inv : Inv E db ids seqs locs)
    (hd : db.dropped = false) (inv' : Inv E t ids' moved locs) (ht : t.dropped = false)
    (hpre : pre.Sublist seqs) (hk : List.Forall₂ OtherMeta pre kept) (hm : List.Forall₂ Moved kept moved)
    (hu : t.header.updateSeq = db.header.updateSeq) : HoldsWithMeta E db t (kept.map (·.info)) t.header.purgeSeq := by
  have hnod := nodup_ids inv
  have hnpre : (pre.map (·.info.id)).Nodup := (hpre.map _).nodup hnod
  have hnk : ((kept.map (·.info)).map (·.id)).Nodup := by
    rw [List.map_map]
    show (kept.map (·.info.id)).Nodup
    rw [other_ids hk]; exact hnpre
  -- the copies, with the metadata that the documents had
  have horig : List.Forall₂ Moved pre (moved.map (Entry.metaFrom (seqs.map (·.info)))) := by
    have hns : ((seqs.map (·.info)).map (·.id)).Nodup := by rw [List.map_map]; exact hnod
    have hsub : ∀ e ∈ pre, e ∈ seqs := fun e he => hpre.subset he
    clear hpre hnpre hnk inv' hu
    induction hk generalizing moved with
    | nil => cases hm; exact .nil
    | @cons a b l k hab _ ih =>
      cases hm with
      | @cons _ c _ m hbc hm =>
        refine .cons ?_ (ih hm fun e he => hsub e (by simp [he]))
        obtain ⟨x, rfl⟩ := hab
        refine ⟨?_, hbc.raw⟩
        have hid : c.info.id = a.info.id := by rw [hbc.info]
        have hf := find_id hns (List.mem_map.mpr ⟨a, hsub a (by simp), rfl⟩)
        rw [← hid] at hf
        show c.info.metaFrom _ = _
        unfold DocInfo.metaFrom
        rw [hf, hbc.info]
        rfl
  have hback : ∀ e ∈ moved, (e.metaFrom (seqs.map (·.info))).metaFrom (kept.map (·.info)) = e := by
    intro e he
    obtain ⟨b, hb, hbe⟩ : ∃ b ∈ kept, Moved b e := by
      clear horig hk hnk inv'
      induction hm with
      | nil => cases he
      | cons h _ ih =>
        rcases List.mem_cons.mp he with rfl | he
        · exact ⟨_, by simp, h⟩
        · obtain ⟨b, hb, h⟩ := ih he
          exact ⟨b, by simp [hb], h⟩
    have hf := find_id hnk (List.mem_map.mpr ⟨b, hb, rfl⟩)
    have hid : e.info.id = b.info.id := by rw [hbe.info]
    rw [← hid] at hf
    unfold Entry.metaFrom DocInfo.metaFrom
    dsimp only
    rw [hf]
    have : e.info.revMeta = b.info.revMeta := by rw [hbe.info]
    dsimp only [Option.map_some, Option.getD_some]
    rw [← this]
  have hgone : ∀ e : Entry, (!(!((kept.map (·.info)).any fun k => decide (k.id = e.info.id)))) =
      decide (e.info.id ∈ pre.map (·.info.id)) := by
    intro e
    rw [Bool.not_not, ← other_ids hk]
    apply Bool.eq_iff_iff.mpr
    simp
  have hpre' : pre = seqs.filter fun e => !(!((kept.map (·.info)).any fun k => decide (k.id = e.info.id))) := by
    simp only [hgone]
    exact sublist_filter_ids hpre hnod
  rw [hpre'] at horig
  have hC := copy_of_lists (z := true) (f := t.file) (ids' := ids'.map (Entry.metaFrom (seqs.map (·.info)))) inv
    (gone := fun d => !((kept.map (·.info)).any fun k => decide (k.id = d.id))) (inv'.perm.map _) (by
      show List.Pairwise _ _
      rw [List.pairwise_map]
      exact inv'.idSorted) (by
      intro e he
      obtain ⟨x, hx, rfl⟩ := List.mem_map.mp he
      have := inv'.body x (inv'.perm.mem_iff.mp hx)
      unfold BodyAt at this ⊢
      exact this) horig
  intro q hq
  rw [ask_eq E L inv' ht q hq]
  have h1 : moved = (moved.map (Entry.metaFrom (seqs.map (·.info)))).map (Entry.metaFrom (kept.map (·.info))) := by
    rw [List.map_map]
    exact ((List.map_congr_left hback).trans (List.map_id _)).symm
  have h2 : ids' = (ids'.map (Entry.metaFrom (seqs.map (·.info)))).map (Entry.metaFrom (kept.map (·.info))) := by
    rw [List.map_map]
    exact ((List.map_congr_left fun e he => hback e (inv'.perm.mem_iff.mpr he)).trans (List.map_id _)).symm
  rw [h1, h2, specAsk_metaFrom, ← metaFrom_plain]
  rw [specAsk_without hC (fun _ => rfl) inv.idSorted inv.seqSorted inv.perm hu (fun q hq => ask_eq E L inv hd q hq) q hq,
    metaFrom_plain]

/-! ### What the callbacks say -/

theorem Kept.callbacks {drop : Bool} {g : CompactFilter υ} {w : DocInfoRewrite υ} {u u' : υ} {l k : List Entry}
    (h : Kept drop (some g) (some w) u l u' k)
    (ha : AsksForBodies g) {body : DocInfo → Option Bytes} (hb : ∀ e ∈ l, body e.info = e.raw)
    (hr : ∀ e ∈ l, e.raw = none → e.info.bp = 0) :
    applyCallbacks g w body u (l.map (·.info)) = some (u', k.map (·.info)) := by
  generalize hf : (some g : Option (CompactFilter υ)) = flt at h
  generalize hw : (some w : Option (DocInfoRewrite υ)) = rw at h
  have key : ∀ {u u1 : υ} {e : Entry} {keep : Bool}, Decides drop (some g) u e u1 keep → body e.info = e.raw →
      (e.raw = none → e.info.bp = 0) →
      filterVerdict g (body e.info) u e.info = (u1, verdict keep) := by
    intro u u1 e keep hd hb hr
    unfold filterVerdict
    rcases hd with hd | ⟨u2, b, h1, h2, h3⟩
    · rw [hd]
      cases keep <;> rfl
    · rw [h1]
      dsimp only
      rw [hb]
      cases hraw : e.raw with
      | none => exact absurd (hr hraw) (ha u e.info (by rw [h1]))
      | some b' => rw [← h2 b' hraw, h3]
  have hrw : ∀ (u1 : υ) (e : Entry), body e.info = e.raw →
      rewritten w (body e.info) u1 e.info = ((rewriteEntry (some w) u1 e).1, (rewriteEntry (some w) u1 e).2.info) := by
    intro u1 e hbe
    rw [hbe]
    unfold rewritten rewriteEntry
    cases hraw : e.raw with
    | none => rfl
    | some b =>
      dsimp only
      rcases hwx : w u1 e.info b with ⟨x, y⟩
      cases y <;> rfl
  induction h with
  | nil => rfl
  | @keep u u1 u2 e l k h _ ih =>
    subst hf hw
    have ih := ih (fun e he => hb e (by simp [he])) (fun e he => hr e (by simp [he]))
    rw [List.map_cons]
    unfold applyCallbacks
    dsimp only
    rw [key h (hb e (by simp)) (hr e (by simp))]
    simp only [verdict, if_true, hrw u1 e (hb e (by simp)), ih, Option.map_some, List.map_cons]
  | @drop u u1 u2 e l k h _ ih =>
    subst hf hw
    have ih := ih (fun e he => hb e (by simp [he])) (fun e he => hr e (by simp [he]))
    rw [List.map_cons]
    unfold applyCallbacks
    dsimp only
    rw [key h (hb e (by simp)) (hr e (by simp))]
    simp only [verdict, Bool.false_eq_true, if_false, ih]

end Couchstore
