import Verif.Lemmas.Grown
import Verif.Props.Compact

/-! Property theorem C37: the replay of changes on a compacted file. -/

namespace Couchstore.Props

open Couchstore

variable {υ : Type}

/-! ## C37 Catch-up replay -/

theorem shows_rd {E : Env} (L : E.Laws) {b b' : Db} {ids seqs locs} (inv : Inv E b ids seqs locs) (hd : b.dropped = false)
    (h : RD b b') {c : Commit} (S : Shows E b c) : Shows E b' c := by
  have hh : b'.header = b.header := by rw [h.1]
  refine ⟨fun q hq => ?_, by rw [hh]; exact S.position, by rw [hh]; exact S.timestamp⟩
  rw [← S.answers q hq, ask_eq E L inv hd q hq, ask_eq E L (inv.rd h) (by rw [h.1]; exact hd) q hq, hh]

/-- What a successful replay does: the handle of the source is moved to the commit `c` at the given offset.
Every document of `c` with a sequence number after the last one that the handle of the source had before is in the
target, with the same metadata and the same body; every other document of the target is as before.  The local
documents of `c` are in the target, and its other local documents are as before.  It has the purge sequence
number of the source. -/
theorem C37_replay_overlay (E : Env) (L : E.Laws) (keyS keyT : KeyGetter) (ss tt : Sys) (hs : History E keyS ss)
    (ht : History E keyT tt) (r : Replay υ) (hq : Fault.err (-5) ∉ r.bodyFaults)
    (hn : lastSeqOf E ss.db + 1 < 2 ^ 48) (hle : lastSeqOf E tt.db ≤ lastSeqOf E ss.db)
    (hc : ∀ c, ss.commitAt r.offset = some c → CanCopy E c.db tt.db)
    (s' t' : Db) (hr : replayChangesOn E r ss.db tt.db = (.ok (), s', t')) :
    ∃ c, ss.commitAt r.offset = some c ∧ Shows E s' c ∧
      (∀ d ∈ documents E c.db, lastSeqOf E ss.db < d.dbSeq →
        (∃ d', ask E t' (.docinfo d.id) = .doc (.ok d') ∧ d'.plain false = d.plain false) ∧
        ∀ dec, ask E t' (.open d.id dec) = ask E c.db (.open d.id dec)) ∧
      (∀ id, (∀ d ∈ documents E c.db, lastSeqOf E ss.db < d.dbSeq → d.id ≠ id) →
        (ask E t' (.docinfo id)).plain false = (ask E tt.db (.docinfo id)).plain false ∧
        ∀ dec, ask E t' (.open id dec) = ask E tt.db (.open id dec)) ∧
      (∀ id, ask E t' (.localDoc id) =
        match ask E c.db (.localDoc id) with
        | .loc (.ok v) => .loc (.ok v)
        | _ => ask E tt.db (.localDoc id)) ∧
      t'.header.purgeSeq = s'.header.purgeSeq := by
  have Hs := hs.hist L
  have Ht := ht.hist L
  obtain ⟨aids, aseqs, alocs, A⟩ := Hs.handle
  obtain ⟨tids, tseqs, tlocs, T⟩ := Ht.handle
  rw [lastSeq_eq L A.inv A.opened] at hn
  rw [lastSeq_eq L A.inv A.opened, lastSeq_eq L T.inv T.opened] at hle
  have hsp := replayRun_spec E L r hq Hs Ht T hn hle hc r.user
  unfold Sp at hsp
  unfold replayChangesOn at hr
  cases hx : replayRun E r ⟨ss.db, tt.db, [], [], 0, r.user⟩ with
  | error e st => rw [hx] at hr; cases hr
  | ok a st =>
    rw [hx] at hr hsp
    cases hr
    obtain ⟨c, b, bids, bseqs, blocs, t1, h1, h2, h3, h4, h5, T1, h6⟩ := hsp
    obtain ⟨ids, seqs, locs, inv, hfind, hloc⟩ := T1.holds
    have H1 := (Ht.steps L T1.steps).setPurgeSeq b.header.purgeSeq
    obtain ⟨i1, i2, i3, hh⟩ := H1.handle
    have hsame := commit_same L H1 b.header.timestamp (fun _ => false)
    have haft : after (commit E b.header.timestamp fun _ => false) (after (setPurgeSeq b.header.purgeSeq) t1) = st.tgt := by
      rw [after, h6]
    dsimp only at hsame
    rw [haft] at hsame
    have inv2 : Inv E (after (setPurgeSeq b.header.purgeSeq) t1) ids seqs locs :=
      ⟨inv.wf, inv.pos, inv.thr, inv.idRoot, inv.seqRoot, inv.locRoot, inv.idSorted, inv.seqSorted, inv.locSorted, inv.perm,
        inv.ok, inv.upd, inv.updLt, inv.body, inv.few⟩
    have hask : ∀ q : Query, q.Ok → ask E st.tgt q = specAsk E (after (setPurgeSeq b.header.purgeSeq) t1).header ids seqs locs q := by
      intro q hq
      rw [hsame q hq]
      exact ask_eq E L inv2 T1.opened q hq
    have hbc : ∀ q : Query, q.Ok → ask E c.db q = specAsk E b.header bids bseqs blocs q := by
      intro q hq
      rw [← ask_eq E L h3 h4 q hq]
      exact (h2.answers q hq).symm
    have hdocs : documents E c.db = bseqs.map (·.info) := by
      rw [← documents_eq L h3 h4]
      exact documents_same h2.answers
    have hnew : ∀ e ∈ bids, ss.db.header.updateSeq < e.info.dbSeq →
        entFind e.info.id (bseqs.filter fun e => decide (ss.db.header.updateSeq + 1 ≤ e.info.dbSeq)) = some e := by
      intro e he hlt
      refine entFind_of_nodup ?_ (List.mem_filter.mpr ⟨h3.perm.mem_iff.mpr he, decide_eq_true hlt⟩)
      exact ((h3.perm.map _).nodup_iff.mpr (sorted_ids_nodup h3.idSorted)).sublist (List.filter_sublist.map _)
    have hopen : ∀ id dec (x : Option Entry), (entFind id ids).map (Entry.plain false) = x.map (Entry.plain false) →
        ask E st.tgt (.open id dec) = .body (openIdAns E dec x) := by
      intro id dec x hx
      rw [hask (.open id dec) trivial]
      simp only [specAsk]
      congr 1
      cases he : entFind id ids with
      | none =>
        rw [he] at hx
        have : x = none := by simpa using hx.symm
        rw [this]
      | some e =>
        rw [he] at hx
        obtain ⟨e', rfl, h'⟩ : ∃ e', x = some e' ∧ e'.plain false = e.plain false := by simpa using hx.symm
        simp only [openIdAns, openAns]
        have k2 : e'.raw = e.raw := congrArg Prod.snd h'
        have k3 : e'.info.contentMeta = e.info.contentMeta := congrArg (fun p => p.1.contentMeta) h'
        rw [k2, k3]
    refine ⟨c, h1, shows_rd L h3 h4 h5 h2, ?_, ?_, ?_, ?_⟩
    · intro d hd hlt
      rw [lastSeq_eq L A.inv A.opened] at hlt
      rw [hdocs] at hd
      obtain ⟨e, he, rfl⟩ := List.mem_map.mp hd
      have he := h3.perm.mem_iff.mp he
      have hf := hfind e.info.id
      rw [hnew e he hlt, Option.some_or] at hf
      constructor
      · cases hg : entFind e.info.id ids with
        | none => rw [hg] at hf; cases hf
        | some e' =>
          rw [hg] at hf
          refine ⟨e'.info, ?_, congrArg Prod.fst (Option.some.inj hf)⟩
          rw [hask (.docinfo e.info.id) trivial]
          simp only [specAsk, hg, foundOr]
      · intro dec
        rw [hopen _ _ _ hf, hbc (.open e.info.id dec) trivial]
        simp only [specAsk, entFind_of_mem h3.idSorted he]
    · intro id hid
      have hf := hfind id
      have hnone : entFind id (bseqs.filter fun e => decide (ss.db.header.updateSeq + 1 ≤ e.info.dbSeq)) = none := by
        rw [entFind_none]
        intro e he
        obtain ⟨k1, k2⟩ := List.mem_filter.mp he
        refine hid e.info ?_ ?_
        · rw [hdocs]; exact List.mem_map.mpr ⟨e, k1, rfl⟩
        · rw [lastSeq_eq L A.inv A.opened]; exact of_decide_eq_true k2
      rw [hnone, Option.none_or] at hf
      constructor
      · rw [hask (.docinfo id) trivial, ask_eq E L T.inv T.opened (.docinfo id) trivial]
        simp only [specAsk]
        cases hg : entFind id tids with
        | none =>
          rw [hg] at hf
          have : entFind id ids = none := by simpa using hf
          rw [this]
        | some e =>
          rw [hg] at hf
          obtain ⟨e', he', h'⟩ : ∃ e', entFind id ids = some e' ∧ e'.plain false = e.plain false := by simpa using hf
          rw [he']
          simp only [foundOr, Reply.plain]
          rw [show e'.info.plain false = e.info.plain false from congrArg Prod.fst h']
      · intro dec
        rw [hopen _ _ _ hf, ask_eq E L T.inv T.opened (.open id dec) trivial]
        rfl
    · intro id
      rw [hask (.localDoc id) trivial, hbc (.localDoc id) trivial, ask_eq E L T.inv T.opened (.localDoc id) trivial]
      simp only [specAsk, hloc]
      cases kvFind id blocs <;> rfl
    · obtain ⟨e1, m, C⟩ := (commit_spec E b.header.timestamp (fun _ => false) _ hh).ok h6
      rw [C.eq, h5.1]
      rfl

/-- The documents that are missing after replay: of those that were missing before, the ones that did not
change. -/
def stillGone (E : Env) (a : Db) (gone : DocInfo → Bool) (d : DocInfo) : Bool := decide (d.dbSeq ≤ lastSeqOf E a) && gone d

/-- A target that holds what the source held (except for documents that compaction has dropped) holds, after
a successful replay, what the source holds at the commit at the given offset: all answers are the same, up to the
positions and sizes of the bodies in the file, whatever the flush threshold is.  In between, documents may
have been saved in the source with new sequence numbers, and local documents may have been saved (`Grown`, see
`C37_writes_grow`).
What is missing: changes that reuse sequence numbers and deletions of local documents, for which it is false
(`C37_deleted_local_document_stays`). -/
theorem C37_replay_partial (E : Env) (L : E.Laws) (keyS keyT : KeyGetter) (ss tt : Sys) (hs : History E keyS ss)
    (ht : History E keyT tt) (gone : DocInfo → Bool) (p : Nat) (z : Bool) (hw : HoldsWithout E ss.db tt.db gone p z)
    (r : Replay υ) (hq : Fault.err (-5) ∉ r.bodyFaults) (hn : lastSeqOf E ss.db + 1 < 2 ^ 48)
    (hc : ∀ c, ss.commitAt r.offset = some c → CanCopy E c.db tt.db ∧ Grown E ss.db c.db)
    (s' t' : Db) (hr : replayChangesOn E r ss.db tt.db = (.ok (), s', t')) :
    ∃ c, ss.commitAt r.offset = some c ∧ Shows E s' c ∧
      HoldsWithout E c.db t' (stillGone E ss.db gone) s'.header.purgeSeq (sizes := false) ∧
      (13 ≤ tt.db.header.diskVersion → t'.header.timestamp = s'.header.timestamp) := by
  have Hs := hs.hist L
  have Ht := ht.hist L
  obtain ⟨aids, aseqs, alocs, A⟩ := Hs.handle
  obtain ⟨tids, tseqs, tlocs, T⟩ := Ht.handle
  have hla := lastSeq_eq L A.inv A.opened
  rw [hla] at hn
  have hle : tt.db.header.updateSeq = ss.db.header.updateSeq := by
    have := hw .info trivial
    dsimp only [askWithout] at this
    rw [ask_eq E L A.inv A.opened .info trivial, ask_eq E L T.inv T.opened .info trivial] at this
    simp only [specAsk, statsOf, Reply.plain, Reply.stats.injEq, Except.ok.injEq, Prod.mk.injEq] at this
    exact this.1
  have hsp := replayRun_spec E L r hq Hs Ht T hn (Nat.le_of_eq hle) (fun c h => (hc c h).1) r.user
  unfold Sp at hsp
  unfold replayChangesOn at hr
  cases hx : replayRun E r ⟨ss.db, tt.db, [], [], 0, r.user⟩ with
  | error e st => rw [hx] at hr; cases hr
  | ok a st =>
    rw [hx] at hr hsp
    cases hr
    obtain ⟨c, b, bids, bseqs, blocs, t1, h1, h2, h3, h4, h5, T1, h6⟩ := hsp
    obtain ⟨ids, seqs, locs, inv, hfind, hloc⟩ := T1.holds
    have H1 := (Ht.steps L T1.steps).setPurgeSeq b.header.purgeSeq
    obtain ⟨i1, i2, i3, hh⟩ := H1.handle
    have hsame := commit_same L H1 b.header.timestamp (fun _ => false)
    have haft : after (commit E b.header.timestamp fun _ => false) (after (setPurgeSeq b.header.purgeSeq) t1) = st.tgt := by
      rw [after, h6]
    dsimp only at hsame
    rw [haft] at hsame
    have inv2 : Inv E (after (setPurgeSeq b.header.purgeSeq) t1) ids seqs locs :=
      ⟨inv.wf, inv.pos, inv.thr, inv.idRoot, inv.seqRoot, inv.locRoot, inv.idSorted, inv.seqSorted, inv.locSorted, inv.perm,
        inv.ok, inv.upd, inv.updLt, inv.body, inv.few⟩
    have G : Grown E ss.db b := (hc c h1).2.congr (fun _ _ => rfl) h2.answers
    have hcp : Copy false bids bseqs ids seqs (stillGone E ss.db gone) := by
      refine copy_of_finds h3 inv fun id => ?_
      rw [hfind id, replay_finds L A.inv A.opened T.inv T.opened h3 h4 hw G id]
      unfold stillGone
      rw [hla]
    have hhead : st.src.header = b.header := by rw [h5.1]
    refine ⟨c, h1, shows_rd L h3 h4 h5 h2, ?_, ?_⟩
    · intro q hq
      rw [hsame q hq, ask_eq E L inv2 T1.opened q hq]
      have hp : (after (setPurgeSeq b.header.purgeSeq) t1).header.purgeSeq = st.src.header.purgeSeq := by rw [hhead]; rfl
      rw [← hp]
      refine specAsk_without hcp (fun k => ?_) h3.idSorted h3.seqSorted h3.perm (h := b.header) (locs := blocs) ?_ ?_ q hq
      · rw [hloc k]
        exact replay_locals L A.inv A.opened T.inv T.opened h3 h4 hw G k
      · show t1.header.updateSeq = _
        rw [T1.head]
        show maxSeq tt.db.header.updateSeq _ = _
        rw [hle]
        exact replay_last L A.inv A.opened h3 h4 G
      · intro q hq
        rw [← ask_eq E L h3 h4 q hq]
        exact (h2.answers q hq).symm
    · intro hv
      obtain ⟨e1, m, C⟩ := (commit_spec E b.header.timestamp (fun _ => false) _ hh).ok h6
      have hver : t1.header.diskVersion = tt.db.header.diskVersion := by rw [T1.head]
      rw [C.eq, hhead]
      show (if 13 ≤ t1.header.diskVersion then b.header.timestamp else 0) = _
      rw [hver, if_pos hv]

/-- Saves of documents (unless they keep given sequence numbers), saves of local documents and commits are
changes of this kind, in every history. -/
theorem C37_writes_grow (E : Env) (L : E.Laws) (getKey : KeyGetter) (s s' : Sys) (hs : History E getKey s)
    (h : Writes E getKey s s') : Grown E s.db s'.db ∧ History E getKey s' := by
  have next : ∀ {a b c : Sys}, History E getKey b → History E getKey c → Grown E a.db b.db → Grown E b.db c.db →
      Grown E a.db c.db := by
    intro a b c hb hc G G'
    obtain ⟨_, _, _, B⟩ := (hb.hist L).handle
    obtain ⟨_, _, _, C⟩ := (hc.hist L).handle
    exact G.trans L B.inv B.opened C.inv C.opened G'
  induction h with
  | refl => exact ⟨Grown.refl _ _, hs⟩
  | @save s1 σ opts cb items u _ ha args ih =>
    obtain ⟨_, _, _, B⟩ := (ih.2.hist L).handle
    have h2 : History E getKey { s1 with db := after (saveDocuments E opts cb items u) s1.db } :=
      .op ih.2 (.step (.save opts cb items u args))
    exact ⟨next ih.2 h2 ih.1 (save_grown E L opts ha cb items u s1.db B.inv B.opened args), h2⟩
  | @saveLocals s1 ds _ args hdel ih =>
    obtain ⟨_, _, _, B⟩ := (ih.2.hist L).handle
    have h2 : History E getKey { s1 with db := after (saveLocalDocuments E ds) s1.db } :=
      .op ih.2 (.step (.saveLocals ds args))
    exact ⟨next ih.2 h2 ih.1 (saveLocals_grown E L ds s1.db B.inv B.opened args hdel), h2⟩
  | @setPurgeSeq s1 n _ ih =>
    have h2 : History E getKey { s1 with db := after (setPurgeSeq n) s1.db } := .op ih.2 (.setPurgeSeq n)
    obtain ⟨ids, seqs, locs, B⟩ := (ih.2.hist L).handle
    have i := B.inv
    have i2 : Inv E (after (setPurgeSeq n) s1.db) ids seqs locs :=
      ⟨i.wf, i.pos, i.thr, i.idRoot, i.seqRoot, i.locRoot, i.idSorted, i.seqSorted, i.locSorted, i.perm, i.ok, i.upd,
        i.updLt, i.body, i.few⟩
    have hd2 : (after (setPurgeSeq n) s1.db).dropped = false := B.opened
    refine ⟨next ih.2 h2 ih.1 ?_, h2⟩
    have e1 : documents E (after (setPurgeSeq n) s1.db) = documents E s1.db := by
      rw [documents_eq L i2 hd2, documents_eq L i B.opened]
    have e2 : lastSeqOf E (after (setPurgeSeq n) s1.db) = lastSeqOf E s1.db := by
      rw [lastSeq_eq L i2 hd2, lastSeq_eq L i B.opened]
      rfl
    have e3 : ∀ id, storedBodyOf E s1.db id = storedBodyOf E (after (setPurgeSeq n) s1.db) id := by
      intro id
      unfold storedBodyOf
      rw [ask_eq E L i B.opened (.open id false) trivial, ask_eq E L i2 hd2 (.open id false) trivial]
      rfl
    refine ⟨fun d hd => .inr ⟨by rw [← e1]; exact hd, e3 _⟩, fun d hd => ⟨d, by rw [e1]; exact hd, rfl⟩, .inl e2, ?_⟩
    intro id v h
    rw [ask_eq E L i B.opened (.localDoc id) trivial] at h
    refine ⟨v, ?_⟩
    rw [ask_eq E L i2 hd2 (.localDoc id) trivial]
    exact h
  | @commit s1 db' ts cb _ hc ih =>
    refine ⟨?_, .op ih.2 (.commitOk ts cb hc)⟩
    have := commit_same L (ih.2.hist L) ts cb
    rw [after, hc] at this
    exact ih.1.congr (fun _ _ => rfl) fun q hq => this q hq

/-- The question whether changes of this kind happened only depends on the answers of the two states, so that
it can be asked of handles that show them. -/
theorem C37_grown_congr (E : Env) (a a' b b' : Db) (G : Grown E a b) (ha : SameAnswers E a a') (hb : SameAnswers E b b') :
    Grown E a' b' := G.congr ha hb

/-- The target of a successful replay is like any other file, with one successful commit more; if replay fails,
nothing that was committed in the target is lost, and it can be used further. -/
theorem C37_replayed_file_has_history (E : Env) (L : E.Laws) (keyS keyT : KeyGetter) (ss tt : Sys) (hs : History E keyS ss)
    (ht : History E keyT tt) (r : Replay υ) (hq : Fault.err (-5) ∉ r.bodyFaults)
    (hn : lastSeqOf E ss.db + 1 < 2 ^ 48) (hle : lastSeqOf E tt.db ≤ lastSeqOf E ss.db)
    (hc : ∀ c, ss.commitAt r.offset = some c → CanCopy E c.db tt.db) :
    ∃ tt', History E keyT tt' ∧ tt'.db = (replayChangesOn E r ss.db tt.db).2.2 ∧
      ((replayChangesOn E r ss.db tt.db).1 = .ok () → ∃ cm, tt'.done = cm :: tt.done ∧ tt'.cands = [cm] ∧
        cm.timestamp = (replayChangesOn E r ss.db tt.db).2.1.header.timestamp) ∧
      ∀ e, (replayChangesOn E r ss.db tt.db).1 = .error e → tt'.done = tt.done ∧ ∀ c ∈ tt.cands, c ∈ tt'.cands := by
  have Hs := hs.hist L
  have Ht := ht.hist L
  obtain ⟨aids, aseqs, alocs, A⟩ := Hs.handle
  obtain ⟨tids, tseqs, tlocs, T⟩ := Ht.handle
  rw [lastSeq_eq L A.inv A.opened] at hn
  rw [lastSeq_eq L A.inv A.opened, lastSeq_eq L T.inv T.opened] at hle
  have hsp := replayRun_spec E L r hq Hs Ht T hn hle hc r.user
  unfold Sp at hsp
  unfold replayChangesOn
  cases hx : replayRun E r ⟨ss.db, tt.db, [], [], 0, r.user⟩ with
  | ok a st =>
    rw [hx] at hsp
    obtain ⟨c, b, bids, bseqs, blocs, t1, h1, h2, h3, h4, h5, T1, h6⟩ := hsp
    have H : History E keyT _ := .op (.op (ht.steps T1.steps) (.setPurgeSeq b.header.purgeSeq)) (.commitOk _ _ h6)
    refine ⟨_, H, rfl, fun _ => ⟨_, rfl, rfl, ?_⟩, (fun _ h => nomatch h)⟩
    show b.header.timestamp = st.src.header.timestamp
    rw [h5.1]
  | error e st =>
    rw [hx] at hsp
    obtain ⟨⟨t1, hst, h⟩, -⟩ := hsp
    rcases h with h | ⟨n, h⟩ | ⟨n, ts, h⟩
    · have H : History E keyT _ := ht.steps hst
      exact ⟨_, H, h.symm, (fun h => nomatch h), fun _ _ => ⟨rfl, fun _ h => h⟩⟩
    · have H : History E keyT _ := .op (ht.steps hst) (.setPurgeSeq n)
      exact ⟨_, H, h.symm, (fun h => nomatch h), fun _ _ => ⟨rfl, fun _ h => h⟩⟩
    · have H : History E keyT _ := .op (.op (ht.steps hst) (.setPurgeSeq n)) (.commitFail ts _ h)
      refine ⟨_, H, rfl, (fun h => nomatch h), fun _ _ => ⟨rfl, fun c hc => ?_⟩⟩
      dsimp only
      split
      · next h0 => rw [h0] at hc; exact hc
      · exact List.mem_cons_of_mem _ hc

/-- Replay to a successful commit only fails if a hook says so, a raw file operation misbehaves or a limit of the
format is hit. -/
theorem C37_replay_succeeds (E : Env) (L : E.Laws) (keyS keyT : KeyGetter) (ss tt : Sys) (hs : History E keyS ss)
    (ht : History E keyT tt) (r : Replay υ) (h1 : r.bodyFaults = []) (h2 : ss.db.file.faults = []) (h3 : tt.db.file.faults = [])
    (h4 : ∀ u d, (r.hook u d).2 = none) (h5 : ∀ u, r.precommit u = none)
    (hn : lastSeqOf E ss.db + 1 < 2 ^ 48) (hle : lastSeqOf E tt.db ≤ lastSeqOf E ss.db)
    (c : Commit) (hd : c ∈ ss.done) (ho : r.offset = c.pos) (hc : CanCopy E c.db tt.db) :
    (replayChangesOn E r ss.db tt.db).1 = .ok () ∨ (replayChangesOn E r ss.db tt.db).1 = .error .formatLimit := by
  have Hs := hs.hist L
  have Ht := ht.hist L
  obtain ⟨aids, aseqs, alocs, A⟩ := Hs.handle
  obtain ⟨tids, tseqs, tlocs, T⟩ := Ht.handle
  rw [lastSeq_eq L A.inv A.opened] at hn
  rw [lastSeq_eq L A.inv A.opened, lastSeq_eq L T.inv T.opened] at hle
  obtain ⟨o1, o2, o3, o4⟩ := Hs.live.oks c hd
  obtain ⟨c', h, q, g1, g2, g3, _⟩ := Hs.live.headers c.pos o2 (Or.inl o4)
  have hlt := g2.hdr.lt
  have hsp := replayRun_spec E L r (by rw [h1]; simp) Hs Ht T hn hle (by
    intro c2 hc2
    unfold Sys.commitAt at hc2
    rw [ho, o1] at hc2
    cases hc2
    exact hc) r.user
  unfold Sp at hsp
  unfold replayChangesOn
  cases hx : replayRun E r ⟨ss.db, tt.db, [], [], 0, r.user⟩ with
  | ok a st => exact .inl rfl
  | error e st =>
    rw [hx] at hsp
    rcases hsp.2 with ⟨u, d, h⟩ | ⟨u, h⟩ | h | h | h | h | h
    · exact absurd (h4 u d) h
    · exact absurd (h5 u) h
    · exact absurd h1 h
    · exact absurd h2 h
    · exact absurd h3 h
    · exact .inr (by rw [h])
    · rw [ho] at h
      exact absurd ⟨o2, by omega, o4⟩ h

/-! ### A replay -/

/-- In the database of the compaction, a document is updated, and this is committed. -/
def replayItems : List SaveItem := [sampleItem [98] (some [9, 9]) 0]
def rdb2 : Db := after (saveDocuments Env.toy sampleOpts (some sampleCb) replayItems []) kdb3
def rdb3 : Db := after (commit Env.toy 2000 (fun _ => false)) rdb2
/-- The handle of the source is on the commit that was compacted. -/
def rdb4 : Db := after (seekOffset Env.toy (Commit.of kdb2 1000).pos) rdb3
/-- The compacted file, without the tombstone, is opened. -/
def tdb : Db := openedDb Env.toy sampleFlags none (cdb2.file.reset [])
/-- The hook counts. -/
def sampleReplay (offset : Nat) : Replay Nat :=
  { offset := offset, hook := fun u _ => (u + 1, none), precommit := fun _ => none, user := 0, flushThreshold := 10, bodyFaults := [] }
def replayed : Except Err Unit × Db × Db := replayChangesOn Env.toy (sampleReplay (Commit.of rdb2 2000).pos) rdb4 tdb

/-- A database with a local document only, committed; then the local document is deleted and this is committed;
the handle goes back to the first of the two commits. -/
def ndb1 : Db := after (saveLocalDocument Env.toy ⟨[95], [1, 2], false⟩) kdb0
def ndb2 : Db := after (commit Env.toy 1000 (fun _ => false)) ndb1
def ndb3 : Db := after (saveLocalDocument Env.toy ⟨[95], [], true⟩) ndb2
def ndb4 : Db := after (commit Env.toy 2000 (fun _ => false)) ndb3
def ndb5 : Db := after (seekOffset Env.toy (Commit.of ndb1 1000).pos) ndb4
/-- The changes are replayed on a copy of the file made after the first commit. -/
def nreplayed : Except Err Unit × Db × Db := replayChangesOn Env.toy (sampleReplay (Commit.of ndb3 2000).pos) ndb5 ndb2

/-- Checks that the documents of a database can be copied to another one. -/
def canCopyB (E : Env) (b t : Db) : Bool :=
  ((documents E b).all fun d => (storedBodyOf E b d.id).all fun x => decide (chunkLen E t.file.cfg x < 2 ^ 28)) &&
    decide ((documents E t).length + (documents E b).length < 2 ^ 40)

theorem canCopy_of {E : Env} {b t : Db} (h : canCopyB E b t = true) : CanCopy E b t := by
  simp only [canCopyB, Bool.and_eq_true, List.all_eq_true, decide_eq_true_eq] at h
  exact ⟨fun d hd x hx => by have := h.1 d hd; rw [hx] at this; simpa using this, h.2⟩

/-- The contents of a local document. -/
def localOf (E : Env) (db : Db) (id : Bytes) : Option Bytes :=
  match ask E db (.localDoc id) with
  | .loc (.ok v) => some v.json
  | _ => none

/-- All that is needed about these handles, evaluated at once. -/
theorem replay_all :
    (argsB Env.toy kdb3 sampleOpts replayItems = true ∧ isOk (commit Env.toy 2000 (fun _ => false) rdb2) = true ∧
      rdb3.file.faults = [] ∧
      isOk (openBody Env.toy sampleFlags none [7, 7] (newHandle sampleFlags (cdb2.file.reset []))) = true) ∧
    (replayed.1.toOption.isSome = true ∧ rdb4.dropped = false ∧
      (Commit.of kdb2 1000).pos ≠ (Commit.of rdb2 2000).pos ∧
      lastSeqOf Env.toy rdb4 + 1 < 2 ^ 48 ∧ lastSeqOf Env.toy tdb ≤ lastSeqOf Env.toy rdb4 ∧
      canCopyB Env.toy rdb2 tdb = true) ∧
    (rdb4.file.faults = [] ∧ tdb.file.faults = []) ∧
    ((documents Env.toy tdb).map (fun d => (d.id, d.dbSeq)) = [([98], 1), ([99], 3)] ∧
      (documents Env.toy replayed.2.2).map (fun d => (d.id, d.dbSeq)) = [([99], 3), ([98], 4)] ∧
      (answer (openDocument Env.toy [98] true) replayed.2.2).toOption = some [9, 9]) := by
  decide +kernel

theorem nreplay_all :
    isOk (commit Env.toy 1000 (fun _ => false) ndb1) = true ∧ isOk (commit Env.toy 2000 (fun _ => false) ndb3) = true ∧
      ndb4.file.faults = [] ∧
    nreplayed.1.toOption.isSome = true ∧ ndb5.dropped = false ∧
      (Commit.of ndb1 1000).pos ≠ (Commit.of ndb3 2000).pos ∧
    lastSeqOf Env.toy ndb5 + 1 < 2 ^ 48 ∧ canCopyB Env.toy ndb3 ndb2 = true ∧
    localOf Env.toy ndb3 [95] = none ∧ localOf Env.toy nreplayed.2.2 [95] = some [1, 2] := by
  decide +kernel

/-- The history of the source, with handles of any kind: a second commit, and back to the first one. -/
def twoCommits (d0 d2 d3 e2 e4 : Db) : Sys :=
  { oneCommit d0 d2 d3 with
    db := e4, commits := Commit.of e2 2000 :: (oneCommit d0 d2 d3).commits
    done := Commit.of e2 2000 :: (oneCommit d0 d2 d3).done, cands := [Commit.of e2 2000] }

theorem twoCommits_at (d0 d2 d3 e2 e4 : Db) :
    (twoCommits d0 d2 d3 e2 e4).commitAt (Commit.of e2 2000).pos = some (Commit.of e2 2000) := by
  simp [twoCommits, Sys.commitAt]

theorem oneCommit_same {E : Env} (L : E.Laws) {flags : OpenFlags} {ctx : Bytes} {d0 d2 d3 : Db} (ht : 2 ≤ flags.kvThr)
    (hn : flags.noCommitAtCreate = true)
    (h0 : openDb E flags none ctx (crashedFile [] []) = .ok d0 d0.file) (h1 : Steps E d0 d2)
    (h3 : commit E 1000 (fun _ => false) d2 = .ok () d3) : History E none (oneCommit d0 d2 d3) ∧ SameAnswers E d2 d3 := by
  have h := History.create flags ctx [] ht (keyless _) h0
  rw [hn] at h
  have h : History E none { Sys.created d0 true with db := d2 } := h.steps h1
  have := C20_commit_keeps_answers E L none _ h 1000 (fun _ => false)
  exact ⟨.op h (.commitOk 1000 _ h3), by simpa [after, h3] using this⟩

theorem twoCommits_hist {E : Env} (L : E.Laws) {d0 d2 d3 e2 e3 : Db} (h : History E none (oneCommit d0 d2 d3))
    (k4 : SameAnswers E d2 d3)
    (hs : Step E d3 e2) (h2 : commit E 2000 (fun _ => false) e2 = .ok () e3) (hf : e3.file.faults = [])
    (hd : (after (seekOffset E (Commit.of d2 1000).pos) e3).dropped = false) :
    History E none (twoCommits d0 d2 d3 e2 (after (seekOffset E (Commit.of d2 1000).pos) e3)) ∧
      SameAnswers E d3 (after (seekOffset E (Commit.of d2 1000).pos) e3) := by
  have h3 : History E none (twoCommits d0 d2 d3 e2 e3) := .op (.op h (.step hs)) (.commitOk 2000 _ h2)
  obtain ⟨db', k1, k2⟩ := C24_seek_commit E L none _ h3 hf (Commit.of d2 1000) (by simp [twoCommits, oneCommit])
  have k1 : seekOffset E (Commit.of d2 1000).pos e3 = .ok () db' := k1
  have hdb : after (seekOffset E (Commit.of d2 1000).pos) e3 = db' := by simp [after, k1]
  rw [hdb] at hd ⊢
  refine ⟨.op h3 (.move _ (.inr (.inr (.inl ⟨_, rfl⟩))) hdb hd (fun e d he => ?_)), ?_⟩
  · have he : seekOffset E (Commit.of d2 1000).pos e3 = .error e d := he
    rw [k1] at he; cases he
  · intro q hq
    exact (k2.answers q hq).trans (k4 q hq).symm

theorem holds_congr {E : Env} {a a' t : Db} {gone : DocInfo → Bool} {p : Nat} {z : Bool} (h : HoldsWithout E a t gone p z)
    (ha : SameAnswers E a a') : HoldsWithout E a' t gone p z := by
  intro q hq
  rw [h q hq]
  congr 1
  cases q <;> dsimp only [askWithout] <;> first | rw [ha _ hq] | skip
  · rename_i id dec
    rw [ha (.docinfo id) trivial]
  · rw [documents_same ha]
  · rw [documents_same ha]

theorem holds_same {E : Env} (L : E.Laws) {getKey : KeyGetter} {s : Sys} (hs : History E getKey s) {t : Db}
    (ht : SameAnswers E s.db t) : HoldsWithout E s.db t (fun _ => false) s.db.header.purgeSeq := by
  obtain ⟨ids, seqs, locs, H⟩ := (hs.hist L).handle
  intro q hq
  rw [ht q hq, ask_eq E L H.inv H.opened q hq]
  exact specAsk_without ⟨by simp, by simp⟩ (fun _ => rfl) H.inv.idSorted H.inv.seqSorted H.inv.perm rfl
    (fun q hq => ask_eq E L H.inv H.opened q hq) q hq

theorem sourceSame : SameAnswers Env.toy kdb2 kdb3 :=
  (oneCommit_same Env.toy_laws (flags := sourceFlags) (by decide) rfl kdb0_eq
    ((Steps.refl.step (.save sampleOpts (some sampleCb) sourceItems [] kdb1_eq)).step (.saveLocal _ kdb2_eq)) kdb3_eq).2

theorem rdb3_eq : commit Env.toy 2000 (fun _ => false) rdb2 = .ok () rdb3 := commit_after replay_all.1.2.1
theorem ndb2_eq : commit Env.toy 1000 (fun _ => false) ndb1 = .ok () ndb2 := commit_after nreplay_all.1
theorem ndb4_eq : commit Env.toy 2000 (fun _ => false) ndb3 = .ok () ndb4 := commit_after nreplay_all.2.1
theorem tdb_eq : openDb Env.toy sampleFlags none [7, 7] (cdb2.file.reset []) = .ok tdb tdb.file :=
  openDb_opened (by decide) replay_all.1.2.2.2

theorem replaySourceHist : History Env.toy none (twoCommits kdb0 kdb2 kdb3 rdb2 rdb4) ∧ SameAnswers Env.toy kdb3 rdb4 :=
  twoCommits_hist Env.toy_laws sourceHist sourceSame
    (.save sampleOpts (some sampleCb) replayItems [] (args_of replay_all.1.1)) rdb3_eq replay_all.1.2.2.1 replay_all.2.1.2.1

theorem localHist : History Env.toy none (oneCommit kdb0 ndb1 ndb2) ∧ SameAnswers Env.toy ndb1 ndb2 :=
  oneCommit_same Env.toy_laws (flags := sourceFlags) (by decide) rfl kdb0_eq
    (Steps.refl.step (.saveLocal _ kdb2_eq)) ndb2_eq

theorem localSourceHist : History Env.toy none (twoCommits kdb0 ndb1 ndb2 ndb3 ndb5) ∧ SameAnswers Env.toy ndb2 ndb5 :=
  twoCommits_hist Env.toy_laws localHist.1 localHist.2 (.saveLocal _ ⟨by decide, by decide⟩) ndb4_eq nreplay_all.2.2.1
    nreplay_all.2.2.2.2.1

theorem oneCommit_writes {E : Env} {d0 d2 d3 e2 : Db} {σ : Type} (opts : SaveOpts) (cb : Option (SaveCb σ)) (items : List SaveItem)
    (u : σ) (h1 : opts.asIs = false) (h2 : SaveArgs E d3 opts items) (h3 : e2 = after (saveDocuments E opts cb items u) d3) :
    Writes E none (oneCommit d0 d2 d3) { oneCommit d0 d2 d3 with db := e2 } := by
  subst h3
  exact .save opts cb items u .refl h1 h2

/-- What the user does after the compaction. -/
theorem replayWrites : Writes Env.toy none (oneCommit kdb0 kdb2 kdb3) { oneCommit kdb0 kdb2 kdb3 with db := rdb2 } :=
  oneCommit_writes sampleOpts (some sampleCb) replayItems [] rfl (args_of replay_all.1.1) rfl

theorem replayed_ok {x : Except Err Unit × Db × Db} (h : x.1.toOption.isSome = true) : x = (.ok (), x.2.1, x.2.2) := by
  obtain ⟨a, b, c⟩ := x
  cases a with
  | ok u => rfl
  | error e => cases h

attribute [local irreducible] kdb0 kdb1 kdb2 kdb3 cdb2 rdb2 rdb3 rdb4 tdb ndb1 ndb2 ndb3 ndb4 ndb5

theorem openDb_unique {E : Env} {flags : OpenFlags} {getKey : KeyGetter} {ctx : Bytes} {f : File} {a b : Db}
    (h1 : openDb E flags getKey ctx f = .ok a a.file) (h2 : openDb E flags getKey ctx f = .ok b b.file) : a = b := by
  rw [h1] at h2
  injection h2

theorem target_hist {E : Env} (L : E.Laws) {s : Sys} (hs : History E none s) (c : Compaction υ) (hk : c.getKey = none)
    (hsrc : c.source = s.db) (hf : c.filter = none) (hd : c.dropDeletes = true) {t t2 a : Db} (hc : compact E c = .ok t)
    (ho : openDb E sampleFlags none [7, 7] (t.file.reset []) = .ok t2 t2.file) (ha : SameAnswers E s.db a) :
    ∃ tt, History E none tt ∧ tt.db = t2 ∧ HoldsWithout E a t2 (dropped true) (s.db.header.purgeSeq + 1) := by
  have K : KeysOk c.getKey (compactFlags c.source c.upgrade).legacyCrc := by rw [hk]; exact keyless _
  obtain ⟨s', _, h1, h2, _⟩ := C26_compacted_file_has_history E none _ hs c hsrc K (rewritesFit_none (compact_rewrite hc hf)) t hc
  obtain ⟨t3, k1, k2, -⟩ := C26_compaction_keeps_contents E L none _ hs c hsrc K hf t hc sampleFlags (sampleFlags_ok _) [7, 7]
  rw [hk] at h1 k1
  have e := openDb_unique ho k1
  subst e
  rw [hsrc, hd] at k2
  exact ⟨{ s' with db := t2 }, .op h1 (.reopen sampleFlags [7, 7] [] (by decide) (by rw [h2]; exact ho)), rfl, holds_congr k2 ha⟩

theorem replayTarget : ∃ tt, History Env.toy none tt ∧ tt.db = tdb ∧
    HoldsWithout Env.toy rdb4 tdb (dropped true) (kdb3.header.purgeSeq + 1) :=
  target_hist Env.toy_laws sourceHist (sampleCompaction true none) rfl (sampleSource _ _) rfl rfl cdb2_eq tdb_eq replaySourceHist.2

theorem replayGrown : Grown Env.toy rdb4 rdb2 :=
  C37_grown_congr Env.toy kdb3 rdb4 rdb2 rdb2
    (C37_writes_grow Env.toy Env.toy_laws none _ _ sourceHist replayWrites).1 replaySourceHist.2 (fun _ _ => rfl)

theorem replayed_eq : replayed = (.ok (), replayed.2.1, replayed.2.2) := replayed_ok replay_all.2.1.1
theorem nreplayed_eq : nreplayed = (.ok (), nreplayed.2.1, nreplayed.2.2) := replayed_ok nreplay_all.2.2.2.1

theorem canCopy_at {d0 d2 d3 e2 e4 t : Db} (h : CanCopy Env.toy e2 t) (c : Commit)
    (hc : (twoCommits d0 d2 d3 e2 e4).commitAt (sampleReplay (Commit.of e2 2000).pos).offset = some c) :
    CanCopy Env.toy c.db t ∧ c = Commit.of e2 2000 := by
  have := (twoCommits_at d0 d2 d3 e2 e4).symm.trans hc
  cases this
  exact ⟨h, rfl⟩

/-- The theorems for the sample, with handles of any kind. -/
theorem sample_replay {d0 d2 d3 e2 e4 t s' t' : Db} {p : Nat} (hs : History Env.toy none (twoCommits d0 d2 d3 e2 e4))
    (ht : ∃ tt, History Env.toy none tt ∧ tt.db = t ∧ HoldsWithout Env.toy e4 t (dropped true) p) (hg : Grown Env.toy e4 e2)
    (hn : lastSeqOf Env.toy e4 + 1 < 2 ^ 48) (hle : lastSeqOf Env.toy t ≤ lastSeqOf Env.toy e4)
    (hc : CanCopy Env.toy e2 t) (hf : e4.file.faults = [] ∧ t.file.faults = [])
    (hr : replayChangesOn Env.toy (sampleReplay (Commit.of e2 2000).pos) e4 t = (.ok (), s', t')) :
    HoldsWithout Env.toy e2 t' (stillGone Env.toy e4 (dropped true)) s'.header.purgeSeq (sizes := false) ∧
    (∀ d ∈ documents Env.toy e2, lastSeqOf Env.toy e4 < d.dbSeq →
      ∀ dec, ask Env.toy t' (.open d.id dec) = ask Env.toy e2 (.open d.id dec)) ∧
    (∃ tt', History Env.toy none tt' ∧ tt'.db = t') ∧
    ((replayChangesOn Env.toy (sampleReplay (Commit.of e2 2000).pos) e4 t).1 = .ok () ∨
      (replayChangesOn Env.toy (sampleReplay (Commit.of e2 2000).pos) e4 t).1 = .error .formatLimit) := by
  obtain ⟨tt, h1, rfl, h3⟩ := ht
  have hq : Fault.err (-5) ∉ (sampleReplay (Commit.of e2 2000).pos).bodyFaults := by simp [sampleReplay]
  refine ⟨?_, ?_, ?_, ?_⟩
  · obtain ⟨c, k1, -, k2, -⟩ := C37_replay_partial Env.toy Env.toy_laws none none _ tt hs h1 (dropped true) _ true h3
      (sampleReplay (Commit.of e2 2000).pos) hq hn
      (fun c hx => by obtain ⟨g1, rfl⟩ := canCopy_at hc c hx; exact ⟨g1, hg⟩) s' t' hr
    obtain ⟨-, rfl⟩ := canCopy_at hc c k1
    exact k2
  · obtain ⟨c, k1, -, k2, -⟩ := C37_replay_overlay Env.toy Env.toy_laws none none _ tt hs h1
      (sampleReplay (Commit.of e2 2000).pos) hq hn hle (fun c hx => (canCopy_at hc c hx).1) s' t' hr
    obtain ⟨-, rfl⟩ := canCopy_at hc c k1
    exact fun d hd hl => (k2 d hd hl).2
  · obtain ⟨tt', k1, k2, -⟩ := C37_replayed_file_has_history Env.toy Env.toy_laws none none _ tt hs h1
      (sampleReplay (Commit.of e2 2000).pos) hq hn hle (fun c hx => (canCopy_at hc c hx).1)
    refine ⟨tt', k1, k2.trans ?_⟩
    exact congrArg (fun x => x.2.2) hr
  · exact C37_replay_succeeds Env.toy Env.toy_laws none none _ tt hs h1
      (sampleReplay (Commit.of e2 2000).pos) rfl hf.1 hf.2 (fun _ _ => rfl) (fun _ => rfl) hn hle
      (Commit.of e2 2000) (by simp [twoCommits]) rfl hc

/-- The file without the tombstone is brought up to date: it holds what the second commit holds, except for
the tombstone.  It has a document of before, and the one that was updated. -/
example : HoldsWithout Env.toy rdb2 replayed.2.2 (stillGone Env.toy rdb4 (dropped true)) replayed.2.1.header.purgeSeq
      (sizes := false) ∧
    (documents Env.toy tdb).map (fun d => (d.id, d.dbSeq)) = [([98], 1), ([99], 3)] ∧
    (documents Env.toy replayed.2.2).map (fun d => (d.id, d.dbSeq)) = [([99], 3), ([98], 4)] ∧
    (answer (openDocument Env.toy [98] true) replayed.2.2).toOption = some [9, 9] :=
  ⟨(sample_replay replaySourceHist.1 replayTarget replayGrown replay_all.2.1.2.2.2.1 replay_all.2.1.2.2.2.2.1
    (canCopy_of replay_all.2.1.2.2.2.2.2) replay_all.2.2.1 replayed_eq).1, replay_all.2.2.2⟩

/-- C37 does not hold without the condition that no local document was deleted: the target holds exactly what the
source holds where the replay starts; the local document is deleted in the commit up to which changes are
replayed, and the replay succeeds; the local document is still in the target. -/
theorem C37_deleted_local_document_stays : ∃ (E : Env) (ss tt : Sys) (r : Replay Nat) (s' t' : Db) (c : Commit) (id : Bytes),
    E.Laws ∧ History E none ss ∧ History E none tt ∧
      HoldsWithout E ss.db tt.db (fun _ => false) ss.db.header.purgeSeq ∧
      Fault.err (-5) ∉ r.bodyFaults ∧ lastSeqOf E ss.db + 1 < 2 ^ 48 ∧
      ss.commitAt r.offset = some c ∧ CanCopy E c.db tt.db ∧ replayChangesOn E r ss.db tt.db = (.ok (), s', t') ∧
      localOf E c.db id = none ∧ localOf E t' id = some [1, 2] := by
  have k1 := localSourceHist.1
  have k2 := localSourceHist.2
  have k3 := localHist.1
  have k4 := nreplay_all.2.2.2.2.2.2.1
  have k5 := canCopy_of nreplay_all.2.2.2.2.2.2.2.1
  have k6 : replayChangesOn Env.toy (sampleReplay (Commit.of ndb3 2000).pos) ndb5 ndb2 =
    (.ok (), nreplayed.2.1, nreplayed.2.2) := nreplayed_eq
  have k7 := nreplay_all.2.2.2.2.2.2.2.2
  revert k1 k2 k3 k4 k5 k6 k7
  generalize nreplayed.2.1 = s', nreplayed.2.2 = t', kdb0 = d0, ndb1 = d2, ndb2 = d3, ndb3 = e2, ndb5 = e4
  intro k1 k2 k3 k4 k5 k6 k7
  exact ⟨Env.toy, twoCommits d0 d2 d3 e2 e4, oneCommit d0 d2 d3, sampleReplay (Commit.of e2 2000).pos,
    s', t', Commit.of e2 2000, [95], Env.toy_laws, k1, k3, holds_same Env.toy_laws k1 (fun q hq => (k2 q hq).symm),
    by simp [sampleReplay], k4, twoCommits_at _ _ _ _ _, k5, k6, k7⟩

end Couchstore.Props
