import Verif.Lemmas.Replay

/-! The replay of changes: the answers of the target. -/

namespace Couchstore

variable {υ : Type} {z : Bool}

/-! ### From lookups to lists -/

theorem IdSorted.filterP {l : List Entry} (h : IdSorted l) (p : Entry → Bool) : IdSorted (l.filter p) := List.Pairwise.filter p h

theorem find_ext {l m : List Entry} (hl : IdSorted l) (hm : IdSorted m)
    (h : ∀ id, (entFind id l).map (Entry.plain z) = (entFind id m).map (Entry.plain z)) :
    l.map (Entry.plain z) = m.map (Entry.plain z) := by
  have hsort : ∀ {l : List Entry}, IdSorted l → (l.map (Entry.plain z)).Pairwise fun a b => ebinCmp a.1.id b.1.id = .lt := by
    intro l h
    rw [List.pairwise_map]
    exact h
  have hnd : ∀ {l : List Entry}, IdSorted l → (l.map (Entry.plain z)).Nodup := by
    intro l h
    refine (hsort h).imp ?_
    intro a b h he
    rw [he] at h
    exact ebin_lt_ne h rfl
  have hsub : ∀ {l m : List Entry}, IdSorted l →
      (∀ id, (entFind id l).map (Entry.plain z) = (entFind id m).map (Entry.plain z)) →
      ∀ x ∈ l.map (Entry.plain z), x ∈ m.map (Entry.plain z) := by
    intro l m hl h x hx
    obtain ⟨e, he, rfl⟩ := List.mem_map.mp hx
    have := h e.info.id
    rw [entFind_of_mem hl he] at this
    cases hf : entFind e.info.id m with
    | none => rw [hf] at this; cases this
    | some e' =>
      rw [hf] at this
      refine List.mem_map.mpr ⟨e', List.mem_of_find?_eq_some hf, ?_⟩
      exact (Option.some.inj this).symm
  have hp : (l.map (Entry.plain z)).Perm (m.map (Entry.plain z)) :=
    (List.perm_ext_iff_of_nodup (hnd hl) (hnd hm)).mpr fun x => ⟨hsub hl h x, hsub hm (fun id => (h id).symm) x⟩
  refine hp.eq_of_pairwise ?_ (hsort hl) (hsort hm)
  intro a b _ _ h1 h2
  rw [ebinCmp_lt_iff] at h1 h2
  exact absurd (List.lt_trans h1 h2) (List.lt_irrefl _)

theorem copy_of_finds {E : Env} {db t : Db} {ids seqs locs ids' seqs' locs'} (inv : Inv E db ids seqs locs)
    (inv' : Inv E t ids' seqs' locs') {gone : DocInfo → Bool}
    (h : ∀ id, (entFind id ids').map (Entry.plain z) = ((entFind id ids).filter fun e => !gone e.info).map (Entry.plain z)) :
    Copy z ids seqs ids' seqs' gone := by
  have h1 : ids'.map (Entry.plain z) = (ids.filter fun e => !gone e.info).map (Entry.plain z) := by
    refine find_ext inv'.idSorted (inv.idSorted.filterP _) fun id => ?_
    rw [h id]
    unfold entFind
    rw [find_filter_key (fun e : Entry => e.info.id) (fun e => !gone e.info) id (sorted_ids_nodup inv.idSorted)]
  refine ⟨h1, ?_⟩
  have hp : (seqs'.map (Entry.plain z)).Perm ((seqs.filter fun e => !gone e.info).map (Entry.plain z)) := by
    refine (inv'.perm.map _).trans ?_
    rw [h1]
    exact ((inv.perm.filter _).map _).symm
  have hsort : ∀ {l : List Entry}, SeqSorted l → (l.map (Entry.plain z)).Pairwise fun a b => a.1.dbSeq < b.1.dbSeq := by
    intro l h
    rw [List.pairwise_map]
    exact h
  refine hp.eq_of_pairwise ?_ (hsort inv'.seqSorted) (hsort (List.Pairwise.filter _ inv.seqSorted))
  intro a b _ _ h1 h2
  omega

/-! ### From answers to lookups -/

theorem DocInfo.plain_false {d d' : DocInfo} (h : d.plain z = d'.plain z) : d.plain false = d'.plain false := by
  cases z with
  | false => exact h
  | true =>
    have := congrArg (DocInfo.plain false) h
    have idem : ∀ d : DocInfo, (d.plain true).plain false = d.plain false := by
      intro d
      unfold DocInfo.plain
      simp [Nat.min_assoc]
    rwa [idem, idem] at this

theorem found_of_holds {E : Env} (L : E.Laws) {a t : Db} {aids aseqs alocs tids tseqs tlocs}
    (ia : Inv E a aids aseqs alocs) (ha : a.dropped = false) (it : Inv E t tids tseqs tlocs) (ht : t.dropped = false)
    {gone : DocInfo → Bool} {p : Nat} (h : HoldsWithout E a t gone p z) (id : Bytes) :
    (entFind id tids).map (Entry.plain false) = ((entFind id aids).filter fun e => !gone e.info).map (Entry.plain false) := by
  have h1 := h (.docinfo id) trivial
  have h2 := h (.open id false) trivial
  dsimp only [askWithout] at h1 h2
  rw [ask_eq E L ia ha (.docinfo id) trivial] at h1 h2
  rw [ask_eq E L it ht (.docinfo id) trivial] at h1
  rw [ask_eq E L it ht (.open id false) trivial, ask_eq E L ia ha (.open id false) trivial] at h2
  simp only [specAsk] at h1 h2
  cases hA : entFind id aids with
  | none =>
    rw [hA] at h1
    cases hT : entFind id tids with
    | none => rfl
    | some e => rw [hT] at h1; simp [foundOr, askWithout.without, Reply.plain] at h1
  | some e =>
    rw [hA] at h1 h2
    by_cases hg : gone e.info = true
    · cases hT : entFind id tids with
      | none => simp [Option.filter, hg]
      | some e' => rw [hT] at h1; simp [foundOr, askWithout.without, Reply.plain, hg] at h1
    · cases hT : entFind id tids with
      | none => rw [hT] at h1; simp [foundOr, askWithout.without, Reply.plain, hg] at h1
      | some e' =>
        rw [hT] at h1 h2
        simp only [foundOr, askWithout.without, Reply.plain, hg, Bool.false_eq_true, if_false, Reply.doc.injEq, Except.ok.injEq] at h1
        simp only [foundOr, hg, Bool.false_eq_true, if_false, openIdAns, openAns, Bool.false_and, Reply.plain] at h2
        have hr : e'.raw = e.raw := by
          cases h3 : e.raw <;> cases h4 : e'.raw <;> rw [h3, h4] at h2 <;> simp_all
        simp only [Option.filter, hg, Bool.not_false, if_true, Option.map_some]
        unfold Entry.plain
        rw [hr, DocInfo.plain_false h1]

theorem lastSeq_eq {E : Env} (L : E.Laws) {db : Db} {ids seqs locs} (inv : Inv E db ids seqs locs)
    (hd : db.dropped = false) : lastSeqOf E db = db.header.updateSeq := by
  unfold lastSeqOf
  rw [ask_eq E L inv hd .info trivial]
  rfl

theorem localOr_eq (id : Bytes) {a b : Option Bytes} (h : localOr id a = localOr id b) : a = b := by
  unfold localOr at h
  cases a <;> cases b <;> simp_all

theorem entFind_of_nodup {l : List Entry} (hn : (l.map (·.info.id)).Nodup) {e : Entry} (he : e ∈ l) :
    entFind e.info.id l = some e := by
  unfold entFind
  induction l with
  | nil => cases he
  | cons x l ih =>
    rw [List.map_cons, List.nodup_cons] at hn
    rcases List.mem_cons.mp he with rfl | he
    · rw [List.find?_cons_of_pos (by simp)]
    · rw [List.find?_cons_of_neg, ih hn.2 he]
      intro hx
      exact hn.1 (List.mem_map.mpr ⟨e, he, (of_decide_eq_true hx).symm⟩)

/-- What the target holds after replay, as a copy of the source. -/
theorem replay_finds {E : Env} (L : E.Laws) {a b t : Db} {aids aseqs alocs bids bseqs blocs tids tseqs tlocs}
    (ia : Inv E a aids aseqs alocs) (ha : a.dropped = false) (it : Inv E t tids tseqs tlocs) (ht : t.dropped = false)
    (ib : Inv E b bids bseqs blocs) (hb : b.dropped = false)
    {gone : DocInfo → Bool} {p : Nat} (h : HoldsWithout E a t gone p z) (G : Grown E a b) (id : Bytes) :
    ((entFind id (bseqs.filter fun e => decide (a.header.updateSeq + 1 ≤ e.info.dbSeq))).or (entFind id tids)).map (Entry.plain false) =
      ((entFind id bids).filter fun e => !(decide (e.info.dbSeq ≤ a.header.updateSeq) && gone e.info)).map (Entry.plain false) := by
  have hT := found_of_holds L ia ha it ht h id
  have hnd : (bseqs.map (·.info.id)).Nodup := (ib.perm.map _).nodup_iff.mpr (sorted_ids_nodup ib.idSorted)
  have hfb : entFind id bseqs = entFind id bids := by
    cases hB : entFind id bids with
    | none =>
      rw [entFind_none] at hB ⊢
      exact fun e he => hB e (ib.perm.mem_iff.mp he)
    | some e =>
      have he := List.mem_of_find?_eq_some hB
      have hid : e.info.id = id := by simpa using List.find?_some hB
      rw [← hid]
      exact entFind_of_nodup hnd (ib.perm.mem_iff.mpr he)
  have hnew : entFind id (bseqs.filter fun e => decide (a.header.updateSeq + 1 ≤ e.info.dbSeq)) =
      (entFind id bids).filter fun e => decide (a.header.updateSeq + 1 ≤ e.info.dbSeq) := by
    rw [← hfb]
    unfold entFind
    exact find_filter_key (fun e : Entry => e.info.id) _ id hnd
  rw [hnew]
  cases hB : entFind id bids with
  | none =>
    rw [Option.filter_none, Option.filter_none, Option.none_or, hT]
    cases hA : entFind id aids with
    | none => rfl
    | some e =>
      exfalso
      have he := List.mem_of_find?_eq_some hA
      have hid : e.info.id = id := by simpa using List.find?_some hA
      obtain ⟨d', hd', hid'⟩ := G.kept e.info (by
        rw [documents_eq L ia ha]
        exact List.mem_map.mpr ⟨e, ia.perm.mem_iff.mpr he, rfl⟩)
      rw [documents_eq L ib hb] at hd'
      obtain ⟨e', he', rfl⟩ := List.mem_map.mp hd'
      exact (entFind_none.mp hB) e' (ib.perm.mem_iff.mp he') (hid'.trans hid)
  | some e =>
    have he := List.mem_of_find?_eq_some hB
    have hid : e.info.id = id := by simpa using List.find?_some hB
    by_cases hn : a.header.updateSeq + 1 ≤ e.info.dbSeq
    · have h1 : ¬ e.info.dbSeq ≤ a.header.updateSeq := by omega
      simp [Option.filter, hn, h1]
    · have h1 : e.info.dbSeq ≤ a.header.updateSeq := by omega
      have hA : (entFind id aids).map (fun e => (e.info, e.raw)) = some (e.info, e.raw) := by
        rcases G.docs e.info (by
          rw [documents_eq L ib hb]
          exact List.mem_map.mpr ⟨e, ib.perm.mem_iff.mpr he, rfl⟩) with hx | ⟨hx, hy⟩
        · rw [lastSeq_eq L ia ha] at hx; omega
        · rw [documents_eq L ia ha] at hx
          obtain ⟨e', he', hi⟩ := List.mem_map.mp hx
          have he' := ia.perm.mem_iff.mp he'
          rw [storedBodyOf_eq L ib hb he, ← hi, storedBodyOf_eq L ia ha he'] at hy
          rw [← hid, ← hi, entFind_of_mem ia.idSorted he']
          simp [hi, hy]
      simp only [Option.filter, hn, decide_false, Bool.false_eq_true, if_false, Option.none_or, h1, decide_true, Bool.true_and]
      rw [hT]
      cases hA' : entFind id aids with
      | none => rw [hA'] at hA; cases hA
      | some e' =>
        rw [hA'] at hA
        have h2 : e'.info = e.info ∧ e'.raw = e.raw := by simpa using hA
        by_cases hg : gone e.info = true
        · simp [Option.filter, h2.1, hg]
        · simp [Option.filter, h2.1, hg, Entry.plain, h2.2]

theorem replay_locals {E : Env} (L : E.Laws) {a b t : Db} {aids aseqs alocs bids bseqs blocs tids tseqs tlocs}
    (ia : Inv E a aids aseqs alocs) (ha : a.dropped = false) (it : Inv E t tids tseqs tlocs) (ht : t.dropped = false)
    (ib : Inv E b bids bseqs blocs) (hb : b.dropped = false)
    {gone : DocInfo → Bool} {p : Nat} (h : HoldsWithout E a t gone p z) (G : Grown E a b) (k : Bytes) :
    (kvFind k blocs).or (kvFind k tlocs) = kvFind k blocs := by
  cases hB : kvFind k blocs with
  | some v => rfl
  | none =>
    rw [Option.none_or]
    have h1 := h (.localDoc k) trivial
    dsimp only [askWithout] at h1
    rw [ask_eq E L ia ha (.localDoc k) trivial, ask_eq E L it ht (.localDoc k) trivial] at h1
    simp only [specAsk, Reply.plain, Reply.loc.injEq] at h1
    rw [localOr_eq k h1]
    cases hA : kvFind k alocs with
    | none => rfl
    | some v =>
      exfalso
      obtain ⟨v', hv⟩ := G.locals k ⟨k, v, false⟩ (by
        rw [ask_eq E L ia ha (.localDoc k) trivial]
        simp [specAsk, hA, localOr])
      rw [ask_eq E L ib hb (.localDoc k) trivial] at hv
      simp [specAsk, hB, localOr] at hv

theorem maxSeq_le {n m : Nat} {l : List Entry} (hn : n ≤ m) (h : ∀ e ∈ l, e.info.dbSeq ≤ m) : maxSeq n l ≤ m := by
  unfold maxSeq
  induction l generalizing n with
  | nil => exact hn
  | cons e l ih =>
    have := h e (by simp)
    exact ih (Nat.max_le.mpr ⟨hn, this⟩) fun e he => h e (by simp [he])

theorem le_maxSeq (n : Nat) (l : List Entry) : n ≤ maxSeq n l := by
  unfold maxSeq
  induction l generalizing n with
  | nil => exact Nat.le_refl _
  | cons e l ih => exact Nat.le_trans (Nat.le_max_left _ _) (ih _)

theorem mem_le_maxSeq {n : Nat} {l : List Entry} {e : Entry} (he : e ∈ l) : e.info.dbSeq ≤ maxSeq n l := by
  induction l generalizing n with
  | nil => cases he
  | cons x l ih =>
    rcases List.mem_cons.mp he with rfl | he
    · exact Nat.le_trans (Nat.le_max_right _ _) (le_maxSeq _ _)
    · exact ih he

theorem replay_last {E : Env} (L : E.Laws) {a b : Db} {aids aseqs alocs bids bseqs blocs}
    (ia : Inv E a aids aseqs alocs) (ha : a.dropped = false)
    (ib : Inv E b bids bseqs blocs) (hb : b.dropped = false) (G : Grown E a b) :
    maxSeq a.header.updateSeq (bseqs.filter fun e => decide (a.header.updateSeq + 1 ≤ e.info.dbSeq)) = b.header.updateSeq := by
  have hl := G.last
  rw [lastSeq_eq L ia ha, lastSeq_eq L ib hb, documents_eq L ib hb] at hl
  apply Nat.le_antisymm
  · refine maxSeq_le (by rcases hl with h | ⟨h, -⟩ <;> omega) fun e he => ?_
    exact ib.upd e (ib.perm.mem_iff.mp (List.mem_of_mem_filter he))
  · rcases hl with h | ⟨h, d, hd, h'⟩
    · rw [h]; exact le_maxSeq _ _
    · obtain ⟨e, he, rfl⟩ := List.mem_map.mp hd
      rw [← h']
      exact mem_le_maxSeq (List.mem_filter.mpr ⟨he, by rw [h']; exact decide_eq_true h⟩)

/-! ### The whole run -/

theorem new_of {E : Env} (L : E.Laws) {b t : Db} {bids bseqs blocs tids tseqs tlocs} (ib : Inv E b bids bseqs blocs)
    (hb : b.dropped = false) (it : Inv E t tids tseqs tlocs) (ht : t.dropped = false) {n : Nat}
    (hn : t.header.updateSeq ≤ n) (C : CanCopy E b t) :
    New E t tids (bseqs.filter fun e => decide (n + 1 ≤ e.info.dbSeq)) := by
  have hin : ∀ e ∈ bseqs.filter (fun e => decide (n + 1 ≤ e.info.dbSeq)), e ∈ bids ∧ n + 1 ≤ e.info.dbSeq := by
    intro e he
    obtain ⟨h1, h2⟩ := List.mem_filter.mp he
    exact ⟨ib.perm.mem_iff.mp h1, of_decide_eq_true h2⟩
  have hsub := List.filter_sublist (p := fun e : Entry => decide (n + 1 ≤ e.info.dbSeq)) (l := bseqs)
  refine ⟨fun e he => ?_, ?_, ?_, fun e he => ?_, fun e he => ?_, fun e he => ?_, ?_⟩
  · have h1 := ib.ok e (hin e he).1
    refine ⟨h1.fits.id, h1.fits.revSeq, h1.fits.contentMeta, h1.size, fun x hx => ?_⟩
    rw [storedBody_replay]
    refine C.bodies e.info ?_ x ?_
    · rw [documents_eq L ib hb]
      exact List.mem_map.mpr ⟨e, ib.perm.mem_iff.mpr (hin e he).1, rfl⟩
    · rw [storedBodyOf_eq L ib hb (hin e he).1]
      exact hx
  · exact ((ib.perm.map _).nodup_iff.mpr (sorted_ids_nodup ib.idSorted)).sublist (hsub.map _)
  · exact (sorted_seqs_nodup ib.seqSorted).sublist (hsub.map _)
  · have := (hin e he).2
    omega
  · have := ib.upd e (hin e he).1
    have := ib.updLt
    omega
  · have := ib.body e (hin e he).1
    unfold BodyAt at this
    cases hr : e.raw with
    | none => rw [hr] at this; exact ⟨fun _ => this.1, fun h => absurd rfl h⟩
    | some x => rw [hr] at this; exact ⟨(fun h => nomatch h), fun _ => this.1⟩
  · have h1 := C.few
    rw [documents_eq L ib hb, documents_eq L it ht, List.length_map, List.length_map, it.perm.length_eq] at h1
    have := hsub.length_le
    omega

/-- The reasons for which replay fails. -/
def ReplayCause (r : Replay υ) (src t0 : Db) (e : Err) : Prop :=
  (∃ u d, (r.hook u d).2 ≠ none) ∨ (∃ u, r.precommit u ≠ none) ∨ r.bodyFaults ≠ [] ∨ src.file.faults ≠ [] ∨
    t0.file.faults ≠ [] ∨ e = .formatLimit ∨
    ¬ (r.offset % blockSize = 0 ∧ r.offset < src.file.pos ∧ src.file.disk[r.offset]? = some btHeader)

theorem CopyFails.cause {E : Env} {r : Replay υ} {b src t0 : Db} {e : Err} {st : ReplaySt υ}
    (h : CopyFails E r b t0 e st) (hf : b.file.faults <:+ src.file.faults) : ReplayCause r src t0 e := by
  rcases h.2 with h | h | h | h | h
  · exact .inl h
  · exact .inr (.inr (.inl h))
  · exact .inr (.inr (.inr (.inl fun h0 => h (by rw [h0] at hf; exact List.suffix_nil.mp hf))))
  · exact .inr (.inr (.inr (.inr (.inl h))))
  · exact .inr (.inr (.inr (.inr (.inr (.inl h)))))

/-- What a replay that fails has done to the target. -/
def ReplayFails (E : Env) (r : Replay υ) (src t0 : Db) (e : Err) (st : ReplaySt υ) : Prop :=
  (∃ t1, Steps E t0 t1 ∧ (st.tgt = t1 ∨ (∃ n, st.tgt = after (setPurgeSeq n) t1) ∨
    ∃ n ts, commit E ts (fun _ => false) (after (setPurgeSeq n) t1) = .error e st.tgt)) ∧ ReplayCause r src t0 e

theorem replayRun_spec (E : Env) (L : E.Laws) (r : Replay υ) (hq : Fault.err (-5) ∉ r.bodyFaults) {keyS keyT : KeyGetter}
    {ss tt : Sys} (Hs : Hist E keyS ss) (Ht : Hist E keyT tt) {tids tseqs : List Entry} {tlocs : List KV}
    (T : Handle E tt.db tids tseqs tlocs) (hn : ss.db.header.updateSeq + 1 < 2 ^ 48)
    (hle : tt.db.header.updateSeq ≤ ss.db.header.updateSeq)
    (hc : ∀ c, ss.commitAt r.offset = some c → CanCopy E c.db tt.db) (u : υ) :
    Sp (replayRun E r) ⟨ss.db, tt.db, [], [], 0, u⟩
      (fun _ st => ∃ c b bids bseqs blocs t1, ss.commitAt r.offset = some c ∧ Shows E b c ∧ Inv E b bids bseqs blocs ∧
        b.dropped = false ∧ RD b st.src ∧
        TI E tt.db tids tlocs (bseqs.filter fun e => decide (ss.db.header.updateSeq + 1 ≤ e.info.dbSeq)) blocs t1 ∧
        commit E b.header.timestamp (fun _ => false) (after (setPurgeSeq b.header.purgeSeq) t1) = .ok () st.tgt)
      (ReplayFails E r ss.db tt.db) := by
  unfold replayRun
  apply Sp.get_bind
  dsimp only
  have hseek : Sp (replaySeek E r) (⟨ss.db, tt.db, [], [], 0, u⟩ : ReplaySt υ)
      (fun _ st => ∃ c, Landed E ss.commits ss.db st.src r.offset c ∧ st = ⟨st.src, tt.db, [], [], 0, u⟩)
      (ReplayFails E r ss.db tt.db) := by
    have h := seekOffset_spec Hs.movable r.offset
    unfold Sp at h ⊢
    unfold replaySeek onSource
    dsimp only
    cases hx : seekOffset E r.offset ss.db with
    | ok a d =>
      rw [hx] at h
      obtain ⟨c, h⟩ := h
      exact ⟨c, h, rfl⟩
    | error e d =>
      rw [hx] at h
      refine ⟨⟨tt.db, .refl, .inl rfl⟩, ?_⟩
      by_cases hf : ss.db.file.faults = []
      · exact .inr (.inr (.inr (.inr (.inr (.inr (h.2 hf))))))
      · exact .inr (.inr (.inr (.inl hf)))
  refine Sp.bind' hseek ?_ fun _ _ h => h
  rintro - st ⟨c, hl, hst⟩
  have hsh := hl.shows L Hs
  obtain ⟨bids, bseqs, blocs, B⟩ := (hl.hist L Hs).1.handle
  have B : Handle E st.src bids bseqs blocs := B
  generalize hb : st.src = b at hl hsh B hst
  subst hst
  have hcan : CanCopy E b tt.db := by
    have h := hc c hl.found
    have h1 : documents E b = documents E c.db := by
      unfold documents
      rw [hsh.answers _ (by show 0 < 2 ^ 48; omega)]
    have h2 : ∀ id, storedBodyOf E b id = storedBodyOf E c.db id := by
      intro id
      unfold storedBodyOf
      rw [hsh.answers (.open id false) trivial]
    exact ⟨by rw [h1]; intro d hd x hx; rw [h2] at hx; exact h.bodies d hd x hx, by rw [h1]; exact h.few⟩
  have N := new_of L B.inv B.opened T.inv T.opened hle hcan
  have T0 : TI E tt.db tids tlocs [] [] tt.db :=
    ⟨.refl, T.opened, Ext.refl _, rfl, tids, tseqs, tlocs, T.inv, fun id => by simp [entFind], fun k => by simp [kvFind]⟩
  have Y0 : Ready E tt.db tids tlocs b [] [] (⟨b, tt.db, [], [], 0, u⟩ : ReplaySt υ) := ⟨T0, rfl, rfl, RD.refl _⟩
  refine Sp.bind' (replayLocals_spec E L r B.inv B.opened _ Y0) ?_ fun e st h =>
    ⟨⟨_, h.1, .inl rfl⟩, h.cause hl.faults⟩
  rintro - st1 Y1
  refine Sp.bind' (replayDocs_spec E L r hq T.inv.upd B.inv B.opened (ss.db.header.updateSeq + 1) hn N _ Y1) ?_ fun e st h =>
    ⟨⟨_, h.1, .inl rfl⟩, h.cause hl.faults⟩
  rintro - st2 Y2
  have hhead : st2.src.header = b.header := by rw [Y2.src.1]
  unfold replayCommit
  apply Sp.get_bind
  have hset : onTarget (υ := υ) (setPurgeSeq st2.src.header.purgeSeq) st2 =
      .ok () { st2 with tgt := after (setPurgeSeq b.header.purgeSeq) st2.tgt } := by
    rw [hhead]
    rfl
  have hset' : Sp (onTarget (υ := υ) (setPurgeSeq st2.src.header.purgeSeq)) st2
      (fun _ s => s = { st2 with tgt := after (setPurgeSeq b.header.purgeSeq) st2.tgt }) (fun _ _ => False) := by
    unfold Sp; rw [hset]
  refine Sp.bind' hset' ?_ fun _ _ h => h.elim
  rintro - s3 rfl
  have hpre : Sp (callPrecommit r) { st2 with tgt := after (setPurgeSeq b.header.purgeSeq) st2.tgt }
      (fun _ s => s = { st2 with tgt := after (setPurgeSeq b.header.purgeSeq) st2.tgt }) (ReplayFails E r ss.db tt.db) := by
    unfold Sp callPrecommit
    dsimp only
    cases hp : r.precommit st2.user with
    | none => rfl
    | some e => exact ⟨⟨_, Y2.tgt.steps, .inr (.inl ⟨_, rfl⟩)⟩, .inr (.inl ⟨_, by rw [hp]; simp⟩)⟩
  refine Sp.bind' hpre ?_ fun _ _ h => h
  rintro - s3 rfl
  obtain ⟨i1, i2, i3, hT1⟩ := ((Ht.steps L Y2.tgt.steps).setPurgeSeq b.header.purgeSeq).handle
  have hcs := commit_spec E st2.src.header.timestamp (fun _ => false) _ hT1
  unfold Sp onTarget
  unfold Sp at hcs
  dsimp only at hcs ⊢
  rw [hhead] at hcs ⊢
  cases hcm : commit E b.header.timestamp (fun _ => false) (after (setPurgeSeq b.header.purgeSeq) st2.tgt) with
  | ok a d =>
    exact ⟨c, b, bids, bseqs, blocs, st2.tgt, hl.found, hsh, B.inv, B.opened, Y2.src, Y2.tgt, hcm⟩
  | error e d =>
    rw [hcm] at hcs
    refine ⟨⟨st2.tgt, Y2.tgt.steps, .inr (.inr ⟨_, _, hcm⟩)⟩, ?_⟩
    rcases hcs.2 with h | h
    · exact .inr (.inr (.inr (.inr (.inl (Y2.tgt.ext.faults_ne h)))))
    · exact .inr (.inr (.inr (.inr (.inr (.inl h)))))

end Couchstore
