import Verif.Lemmas.Dbck
import Verif.Props.DbckSample

/-! Property theorem C65: recovery of documents from stale commits of a damaged file. -/

namespace Couchstore.Props

open Couchstore

variable {υ : Type}

/-! ## C65 Stale commits give back what the last commit has lost -/

/-- What is assumed about the damaged file and the way it is recovered: the file is the intact file of a history
after some bytes of it have changed, in a way that the checksums notice; the raw operations do not fail;
nothing is filtered. -/
structure Damaged (E : Env) (getKey : KeyGetter) (s : Sys) (c : Compaction υ) : Prop where
  history : History E getKey s
  source : c.source = { s.db with file := c.source.file }
  chunks : DamagedFile E s.db.file c.source.file
  headers : DamagedHeaders E s.db.file c.source.file
  bodyFaults : c.bodyFaults = []
  localFaults : c.localFaults = []
  faults : c.faults = []
  keepsAll : KeepsAll c.filter
  rewrite : c.rewrite = none
  keys : KeysOk c.getKey (compactFlags c.source c.upgrade).legacyCrc
  deletes : c.dropDeletes = false
  fits : StaleFits E s

/-- What the tool has done if it succeeds. -/
structure Recovered (E : Env) (s : Sys) (c : Compaction υ) (stale : Bool) (db : Db) (n : Nat) where
  /-- the recovered file, before stale commits are looked at -/
  dst0 : Db
  dst1 : Db
  ids0 : List Entry
  ids : List Entry
  locs : List KV
  opened : dst0.dropped = false
  inv0 : ∃ seqs, Inv E dst0 ids0 seqs locs
  holds : HoldsWithout E s.db dst0 (lost E c.source) s.db.header.purgeSeq
  restored : Restored E s dst0 ids0 locs ids dst1
  same : SameAnswers E dst1 db
  found : stale = true → (∃ d ∈ documents E s.db, lost E c.source d = true) → ∀ d, Rewound E c.source d → ∀ id,
    Found E s c.source d id → ∃ e ∈ ids, e.info.id = id
  fresh : ∀ e ∈ ids, e ∈ ids0 ∨ Newest E s c.source c.source e
  len : ids.length = ids0.length + n
  none : n = 0 → dst1 = dst0
  last : ∃ s', History E c.getKey s' ∧ s'.db = db ∧ ∃ cm, s'.cands = [cm] ∧ SameAnswers E cm.db db

theorem flags_any {flags : OpenFlags} (ok : flags.Ok false) (b : Bool) : flags.Ok b :=
  ⟨ok.rdonly, ok.excl, fun h => absurd (ok.crc h) (by simp), ok.thr⟩

theorem dbck_ok (E : Env) (L : E.Laws) (getKey : KeyGetter) (s : Sys) (c : Compaction υ) (X : Damaged E getKey s c)
    (flags : OpenFlags) (ok : flags.Ok false) (stale : Bool) (ts : Nat) (db : Db) (n : Nat)
    (h : dbck E c flags stale ts = .ok (db, n)) : Nonempty (Recovered E s c stale db n) := by
  unfold dbck at h
  cases hc : recover E c with
  | error e => rw [hc] at h; cases h
  | ok r =>
    obtain ⟨t, er⟩ := r
    rw [hc] at h
    dsimp only at h
    obtain ⟨dst0, r1, r2, -⟩ := C59_recovery_keeps_readable E L getKey s X.history c X.source X.chunks X.bodyFaults X.localFaults
      X.faults X.keepsAll X.rewrite X.keys t er hc flags (flags_any ok _) c.ctx
    obtain ⟨s1, cm, k1, k2, k3, k4, k5⟩ := C59_recovered_file_has_history E getKey s X.history c X.source X.chunks X.bodyFaults
      X.localFaults X.faults X.keepsAll X.rewrite X.keys t er hc
    obtain ⟨e1, e2⟩ := C59_error_tells_of_loss E L getKey s X.history c X.source X.chunks X.bodyFaults X.localFaults
      X.faults X.keepsAll X.rewrite X.keys t er hc
    have r1' : openDb E flags c.getKey c.ctx { t.file with faults := [] } = .ok dst0 dst0.file := r1
    rw [r1'] at h
    dsimp only at h
    have hs2 : History E c.getKey { s1 with db := dst0 } := .op k1 (.reopen flags c.ctx [] ok.thr (by rw [k2]; exact r1))
    have H2 := hs2.hist L
    obtain ⟨ids0, seqs0, locs, I0⟩ := H2.handle
    have I0 : Handle E dst0 ids0 seqs0 locs := I0
    obtain ⟨ids, seqs, slocs, I⟩ := (X.history.hist L).handle
    have hgone : omitted E c = lost E c.source := by
      funext d
      unfold omitted
      rw [X.deletes]
      rfl
    rw [hgone, X.deletes, if_neg (by simp)] at r2
    obtain ⟨o1, o2⟩ := recovered_old L I.inv I.opened r2 I0.inv I0.opened
    have F0 : Restored E s dst0 ids0 locs ids0 dst0 :=
      ⟨.refl, I0.opened, Ext.refl _, rfl, Nat.le_refl _, ⟨seqs0, I0.inv⟩, fun _ h => h, fun e he => (o1 e he).1⟩
    have hans0 : SameAnswers E cm.db dst0 := by
      obtain ⟨db2, g1, -, c2, g3, g4⟩ := openDb_of (mode := s1.db.file.cfg.crcMode)
        (((k1.hist L).reopen_ok L (by rw [k4]; simp) flags c.ctx ok.thr)) (flags_any ok _)
      rw [k2, r1] at g1
      injection g1 with g1
      rw [k4, List.mem_singleton] at g3
      subst g3
      rw [← g1] at g4
      exact g4.answers
    cases hcond : er.isSome && stale with
    | false =>
      rw [hcond, if_neg (by simp)] at h
      injection h with h
      injection h with h1 h2
      subst h1 h2
      refine ⟨⟨dst0, dst0, ids0, ids0, locs, I0.opened, ⟨seqs0, I0.inv⟩, r2, F0, fun _ _ => rfl, ?_, fun _ h => Or.inl h, rfl, fun _ => rfl,
        ⟨_, hs2, rfl, cm, k4, hans0⟩⟩⟩
      intro hst hl
      rw [hst, Bool.and_true] at hcond
      cases er with
      | some e => cases hcond
      | none =>
        obtain ⟨d, hd, hl⟩ := hl
        have := (e1 rfl d hd hl).1
        rw [X.deletes] at this
        cases this
    | true =>
      rw [hcond, if_pos rfl] at h
      unfold addStale rewindAndGetStaleData at h
      have hcalm : dst0.file.faults = [] := by
        have H1 := k1.hist L
        obtain ⟨_, _, _, hh⟩ := H1.handle
        obtain ⟨P, hd, q, cm', O⟩ := (openBody_spec E flags c.getKey c.ctx (s1.db.file.reset []) (by
          show 0 < s1.db.file.disk.length
          have := hh.inv.wf.pos_le
          have := hh.inv.pos
          omega) (cfg := s1.db.file.cfg) H1.live).ok (openDb_ok (by rw [k2]; exact r1)).1
        exact List.suffix_nil.mp O.faults
      have S0 : Stale E getKey s c.source.file c.source := by
        have := Stale.start (X.history.hist L) c.source.file
        rw [← X.source] at this
        exact this
      have G := staleLoop_spec L X.chunks X.headers (alt := c.source) rfl hcalm X.fits (c.source.header.position + 1) c.source S0
        (Nat.lt_succ_self _) ids0 ⟨dst0, 0, false⟩ F0
      generalize staleLoop E c.source (c.source.header.position + 1) c.source ⟨dst0, 0, false⟩ = st at G h
      dsimp only at h
      split at h
      · cases h
      rename_i hlim
      obtain ⟨ids1, F, Gr, -, hnew, hsrc⟩ := G.resolve_left hlim
      have hlen : ids1.length = ids0.length + st.count := Gr.len
      have hfound : stale = true → (∃ d ∈ documents E s.db, lost E c.source d = true) → ∀ d, Rewound E c.source d → ∀ id,
          Found E s c.source d id → ∃ e ∈ ids1, e.info.id = id := fun _ _ d hd id hf => hnew id ⟨d, hd, hf⟩
      split at h
      · rename_i h0
        injection h with h
        injection h with h1 h2
        have hsame : st.dst = dst0 := Gr.same h0
        subst h1 h2
        exact ⟨⟨dst0, st.dst, ids0, ids1, locs, I0.opened, ⟨seqs0, I0.inv⟩, r2, F, fun _ _ => rfl, hfound, hsrc, by rw [hlen, h0], fun _ => hsame,
          ⟨_, hs2, hsame.symm, cm, k4, by rw [hsame]; exact hans0⟩⟩⟩
      · rename_i h0
        cases hcm : commit E ts (fun _ => false) st.dst with
        | error e d => rw [hcm] at h; cases h
        | ok a d =>
          rw [hcm] at h
          injection h with h
          injection h with h1 h2
          subst h1 h2
          have hs3 : History E c.getKey { s1 with db := st.dst } := hs2.steps F.steps
          have hcs := (C20_commit_reopen E L c.getKey _ hs3 ts _ d hcm flags (flags_any ok _) []).choose_spec.2.1
          exact ⟨⟨dst0, st.dst, ids0, ids1, locs, I0.opened, ⟨seqs0, I0.inv⟩, r2, F, hcs, hfound, hsrc, hlen, fun hn => absurd hn h0,
            ⟨_, .op hs3 (.commitOk ts _ hcm), rfl, _, rfl, hcs⟩⟩⟩

/-- What can be recovered from the last commit is not affected by stale commits: the documents that recovery
finds (C59) are in the result with their metadata, sequence numbers and bodies; so are the local documents; and
a body or document is never made up. -/
theorem C65_keeps_the_last_commit (E : Env) (L : E.Laws) (getKey : KeyGetter) (s : Sys) (c : Compaction υ)
    (X : Damaged E getKey s c) (flags : OpenFlags) (ok : flags.Ok false) (stale : Bool) (ts : Nat) (db : Db) (n : Nat)
    (h : dbck E c flags stale ts = .ok (db, n)) :
    (∀ d ∈ documents E s.db, lost E c.source d = false →
      ∃ d' ∈ documents E db, SameVersion d' d ∧ storedBodyOf E db d.id = storedBodyOf E s.db d.id) ∧
    ∀ id, ask E db (.localDoc id) = ask E s.db (.localDoc id) := by
  obtain ⟨R⟩ := dbck_ok E L getKey s c X flags ok stale ts db n h
  obtain ⟨ids, seqs, locs, I⟩ := (X.history.hist L).handle
  obtain ⟨seqs0, I0⟩ := R.inv0
  obtain ⟨seqs1, I1⟩ := R.restored.inv
  obtain ⟨-, o2⟩ := recovered_old L I.inv I.opened R.holds I0 R.opened
  constructor
  · intro d hd hl
    rw [documents_eq L I.inv I.opened] at hd
    obtain ⟨x, hx, rfl⟩ := List.mem_map.mp hd
    have hx := I.inv.perm.mem_iff.mp hx
    obtain ⟨e, he, h1, h2⟩ := o2 x hx hl
    have he := R.restored.kept e he
    refine ⟨e.info, ?_, h1, ?_⟩
    · rw [documents_sameAnswers R.same, documents_eq L I1 R.restored.opened]
      exact List.mem_map.mpr ⟨e, I1.perm.mem_iff.mpr he, rfl⟩
    · rw [storedBodyOf_sameAnswers R.same, storedBodyOf_eq L I.inv I.opened hx, ← h1.id_eq,
        storedBodyOf_eq L I1 R.restored.opened he, h2]
  · intro id
    have h1 := R.holds (.localDoc id) trivial
    have e1 : ask E R.dst0 (.localDoc id) = .loc (localOr id (kvFind id R.locs)) := ask_eq E L I0 R.opened (.localDoc id) trivial
    have e2 : ask E R.dst1 (.localDoc id) = .loc (localOr id (kvFind id R.locs)) :=
      ask_eq E L I1 R.restored.opened (.localDoc id) trivial
    have e3 : ask E s.db (.localDoc id) = .loc (localOr id (kvFind id locs)) := ask_eq E L I.inv I.opened (.localDoc id) trivial
    rw [R.same (.localDoc id) trivial, e2, e3]
    simp only [askWithout] at h1
    rw [e1, e3] at h1
    exact h1

/-- Every document of the result is one that was in the database, now or at a commit, with the same metadata,
sequence number and body. -/
theorem C65_documents_were_there (E : Env) (L : E.Laws) (getKey : KeyGetter) (s : Sys) (c : Compaction υ)
    (X : Damaged E getKey s c) (flags : OpenFlags) (ok : flags.Ok false) (stale : Bool) (ts : Nat) (db : Db) (n : Nat)
    (h : dbck E c flags stale ts = .ok (db, n)) :
    ∀ d ∈ documents E db, WasThere E s d (storedBodyOf E db d.id) := by
  obtain ⟨R⟩ := dbck_ok E L getKey s c X flags ok stale ts db n h
  obtain ⟨seqs1, I1⟩ := R.restored.inv
  intro d hd
  rw [documents_sameAnswers R.same, documents_eq L I1 R.restored.opened] at hd
  obtain ⟨e, he, rfl⟩ := List.mem_map.mp hd
  have he := I1.perm.mem_iff.mp he
  obtain ⟨x, ⟨o, ho, h1, h2⟩, h3, h4⟩ := R.restored.old e he
  refine ⟨o, ho, x.info, h1, h4, ?_⟩
  rw [storedBodyOf_sameAnswers R.same, storedBodyOf_eq L I1 R.restored.opened he, h2, h3]

/-- If a document of the last commit is lost, the stale commits are looked through: a document of any of them
that can still be found by its id, and whose body can still be read, is not missing from the result (this version
of it, or one from a later commit). -/
theorem C65_stale_documents_are_found (E : Env) (L : E.Laws) (getKey : KeyGetter) (s : Sys) (c : Compaction υ)
    (X : Damaged E getKey s c) (flags : OpenFlags) (ok : flags.Ok false) (ts : Nat) (db : Db) (n : Nat)
    (h : dbck E c flags true ts = .ok (db, n)) (hl : ∃ d ∈ documents E s.db, lost E c.source d = true)
    (old : Db) (ho : Rewound E c.source old) :
    ∀ d ∈ documents E { old with file := s.db.file }, (answer (docinfoById E d.id) old).toOption.isSome = true →
      (answer (openDocWithDocinfo E d false) c.source).toOption.isSome = true → ∃ d' ∈ documents E db, d'.id = d.id := by
  obtain ⟨R⟩ := dbck_ok E L getKey s c X flags ok true ts db n h
  obtain ⟨seqs1, I1⟩ := R.restored.inv
  intro d hd h1 h2
  obtain ⟨e, he, hid⟩ := R.found rfl hl old ho d.id ⟨d, hd, rfl, h1, h2⟩
  refine ⟨e.info, ?_, hid⟩
  rw [documents_sameAnswers R.same, documents_eq L I1 R.restored.opened]
  exact List.mem_map.mpr ⟨e, I1.perm.mem_iff.mpr he, rfl⟩

/-- A document that the last commit has lost is in the result in its newest version: the result has, for each id,
what the last commit has, if that can be recovered; otherwise what the newest stale commit has in which the document
can be found by its id and its body read. -/
theorem C65_newest_readable_version (E : Env) (L : E.Laws) (getKey : KeyGetter) (s : Sys) (c : Compaction υ)
    (X : Damaged E getKey s c) (flags : OpenFlags) (ok : flags.Ok false) (stale : Bool) (ts : Nat) (db : Db) (n : Nat)
    (h : dbck E c flags stale ts = .ok (db, n)) :
    ∀ d' ∈ documents E db,
      (∃ d ∈ documents E s.db, lost E c.source d = false ∧ SameVersion d' d) ∨
      ((∀ d ∈ documents E s.db, lost E c.source d = false → d.id ≠ d'.id) ∧
        ∃ old, Rewound E c.source old ∧
          (∃ d ∈ documents E { old with file := s.db.file }, SameVersion d' d ∧
            storedBodyOf E { old with file := s.db.file } d.id = storedBodyOf E db d'.id) ∧
          ∀ newer, Rewound E c.source newer → old.header.position < newer.header.position →
            ∀ d ∈ documents E { newer with file := s.db.file }, d.id = d'.id →
              (answer (docinfoById E d.id) newer).toOption.isSome = true →
              (answer (openDocWithDocinfo E d false) c.source).toOption.isSome = true → False) := by
  obtain ⟨R⟩ := dbck_ok E L getKey s c X flags ok stale ts db n h
  obtain ⟨ids, seqs, locs, I⟩ := (X.history.hist L).handle
  obtain ⟨seqs0, I0⟩ := R.inv0
  obtain ⟨seqs1, I1⟩ := R.restored.inv
  obtain ⟨o1, o2⟩ := recovered_old L I.inv I.opened R.holds I0 R.opened
  intro d' hd'
  rw [documents_sameAnswers R.same, documents_eq L I1 R.restored.opened] at hd'
  obtain ⟨e, he, rfl⟩ := List.mem_map.mp hd'
  have he := I1.perm.mem_iff.mp he
  by_cases h0 : e ∈ R.ids0
  · left
    obtain ⟨-, x, hx, h1, h2⟩ := o1 e h0
    refine ⟨x.info, ?_, h1, h2⟩
    rw [documents_eq L I.inv I.opened]
    exact List.mem_map.mpr ⟨x, I.inv.perm.mem_iff.mpr hx, rfl⟩
  · right
    constructor
    · intro d hd hl hid
      rw [documents_eq L I.inv I.opened] at hd
      obtain ⟨x, hx, rfl⟩ := List.mem_map.mp hd
      obtain ⟨y, hy, h1, -⟩ := o2 x (I.inv.perm.mem_iff.mp hx) hl
      have := I1.idSorted.inj (R.restored.kept y hy) he (by rw [h1.id_eq, hid])
      exact h0 (this ▸ hy)
    · obtain ⟨old, h1, ⟨d, h2, h3, h4⟩, h5⟩ := (R.fresh e he).resolve_left h0
      refine ⟨old, h1, ⟨d, h2, h3, ?_⟩, ?_⟩
      · rw [h4, storedBodyOf_sameAnswers R.same, storedBodyOf_eq L I1 R.restored.opened he]
      · intro newer k1 k2 d k3 k4 k5 k6
        exact h5 newer k1 k2 ⟨d, k3, k4, k5, k6⟩

/-- The number that the tool prints is right: the result has that many documents more than recovery of the last
commit alone gives. -/
theorem C65_count_is_right (E : Env) (L : E.Laws) (getKey : KeyGetter) (s : Sys) (c : Compaction υ)
    (X : Damaged E getKey s c) (flags : OpenFlags) (ok : flags.Ok false) (stale : Bool) (ts : Nat) (db : Db) (n : Nat)
    (h : dbck E c flags stale ts = .ok (db, n)) :
    (documents E db).length = ((documents E s.db).filter fun d => !lost E c.source d).length + n := by
  obtain ⟨R⟩ := dbck_ok E L getKey s c X flags ok stale ts db n h
  obtain ⟨ids, seqs, locs, I⟩ := (X.history.hist L).handle
  obtain ⟨seqs0, I0⟩ := R.inv0
  obtain ⟨seqs1, I1⟩ := R.restored.inv
  obtain ⟨o1, o2⟩ := recovered_old L I.inv I.opened R.holds I0 R.opened
  have hnd : ∀ {l : List Entry}, IdSorted l → (l.map fun e => e.info.id).Nodup := by
    intro l hl
    rw [List.nodup_iff_pairwise_ne, List.pairwise_map]
    exact List.Pairwise.imp (fun h => ebin_lt_ne h) hl
  have hp : ((ids.filter fun e => !lost E c.source e.info).map fun e => e.info.id).Perm (R.ids0.map fun e => e.info.id) := by
    refine (List.perm_ext_iff_of_nodup ?_ (hnd I0.idSorted)).mpr ?_
    · exact hnd (List.Pairwise.filter _ I.inv.idSorted)
    · intro id
      simp only [List.mem_map, List.mem_filter, Bool.not_eq_true']
      constructor
      · rintro ⟨x, ⟨hx, hl⟩, rfl⟩
        obtain ⟨e, he, h1, -⟩ := o2 x hx hl
        exact ⟨e, he, h1.id_eq⟩
      · rintro ⟨e, he, rfl⟩
        obtain ⟨-, x, hx, h1, h2⟩ := o1 e he
        exact ⟨x, ⟨hx, h1⟩, h2.id_eq.symm⟩
  have h1 : ((documents E s.db).filter fun d => !lost E c.source d).length = R.ids0.length := by
    rw [documents_eq L I.inv I.opened, List.filter_map, List.length_map]
    have h2 := hp.length_eq
    rw [List.length_map, List.length_map] at h2
    rw [← h2]
    exact (I.inv.perm.filter _).length_eq
  rw [h1, documents_sameAnswers R.same, documents_eq L I1 R.restored.opened, List.length_map, I1.perm.length_eq, R.len]

/-- The handles that the tool moves back to show commits: what the stale commits contain in the intact file is what
was committed. -/
theorem C65_stale_handles_show_commits (E : Env) (L : E.Laws) (getKey : KeyGetter) (s : Sys) (c : Compaction υ)
    (X : Damaged E getKey s c) (old : Db) (ho : Rewound E c.source old) :
    old.header.position < c.source.header.position ∧ ∃ cm ∈ s.commits, Shows E { old with file := s.db.file } cm := by
  have S0 : Stale E getKey s c.source.file c.source := by
    have := Stale.start (X.history.hist L) c.source.file
    rw [← X.source] at this
    exact this
  obtain ⟨h1, h2, cm, h3, -, h4⟩ := S0.rewound L X.chunks X.headers ho
  refine ⟨h2, cm, h3, ?_⟩
  have heq : ({ old with file := s.db.file } : Db) = { s.db with header := old.header } := by rw [h1.eq]
  rw [heq]
  exact h4

/-- The result is in the file for good: whoever opens it finds the same documents. -/
theorem C65_result_is_committed (E : Env) (L : E.Laws) (getKey : KeyGetter) (s : Sys) (c : Compaction υ)
    (X : Damaged E getKey s c) (flags : OpenFlags) (ok : flags.Ok false) (stale : Bool) (ts : Nat) (db : Db) (n : Nat)
    (h : dbck E c flags stale ts = .ok (db, n)) (flags' : OpenFlags) (ok' : flags'.Ok false) (ctx : Bytes) :
    ∃ db2, openDb E flags' c.getKey ctx (db.file.reset []) = .ok db2 db2.file ∧ SameAnswers E db db2 := by
  obtain ⟨R⟩ := dbck_ok E L getKey s c X flags ok stale ts db n h
  obtain ⟨s', h1, h2, cm, h3, h4⟩ := R.last
  obtain ⟨db2, g1, -, c2, g3, g4⟩ := openDb_of (mode := s'.db.file.cfg.crcMode)
    (((h1.hist L).reopen_ok L (by rw [h3]; simp) flags' ctx ok'.thr)) (flags_any ok' _)
  rw [h3, List.mem_singleton] at g3
  subst g3
  rw [h2] at g1
  exact ⟨db2, g1, fun q hq => (g4.answers q hq).trans (h4 q hq).symm⟩

/-- If the tool says that nothing was recovered from stale commits (or was not asked to), the result is what
recovery alone gives. -/
theorem C65_nothing_stale (E : Env) (L : E.Laws) (getKey : KeyGetter) (s : Sys) (c : Compaction υ)
    (X : Damaged E getKey s c) (flags : OpenFlags) (ok : flags.Ok false) (stale : Bool) (ts : Nat) (db : Db)
    (h : dbck E c flags stale ts = .ok (db, 0)) : HoldsWithout E s.db db (lost E c.source) s.db.header.purgeSeq := by
  obtain ⟨R⟩ := dbck_ok E L getKey s c X flags ok stale ts db 0 h
  intro q hq
  rw [R.same q hq, R.none rfl]
  exact R.holds q hq

/-! ### A damaged file -/

theorem sampleStale_damaged {s : Sys} {db : Db} {is : List Nat} (hs : History Env.toy none s) (he : sameDb (harmed s.db is) db = true)
    (h1 : s.db.file.faults = []) (h2 : s.db.file.cfg.cipher = none) (h3 : noticedAt s.db.file db.file (starts s.db.file) = true)
    {n : Nat} (hn : s.db.file.disk.length ≤ n * blockSize) (h4 : headersAt s.db.file db.file (List.range n) = true)
    (hf : fitsIn s.states [[97], [98], [99]] = true) : Damaged Env.toy none s (sampleStale db) := by
  have he := sameDb_eq he
  subst he
  refine ⟨hs, rfl, damagedFile_of rfl (harmed_length _ _) h1 h1 h2 h3, damagedHeaders_of h1 ?_ h4, rfl, rfl, rfl, noFilter_keeps, rfl,
    keyless _, rfl, fits_of (by decide) hf⟩
  show (harmed s.db is).file.disk.length ≤ _
  rw [harmed_length]
  exact hn

/-- All that is needed about the intact file. -/
theorem bdb_ok : (bdb4.file.faults = [] ∧ bdb4.file.cfg.cipher = none ∧ bdb4.file.disk.length ≤ 3 * blockSize) ∧
    fitsIn [bdb4, bdb3, bdb1] [[97], [98], [99]] = true ∧
    ((documents Env.toy bdb4).map fun d => (d.id, d.dbSeq, d.deleted, storedBodyOf Env.toy bdb4 d.id)) =
      [([97], 3, true, none), ([98], 4, false, some [5, 6, 7]), ([99], 5, false, some [9])] := by
  decide +kernel

/-- The commits of the file, seen from the damaged file. -/
theorem bdbA_ok : ((documents Env.toy bdb4).map fun d => (d.id, lost Env.toy bdbA d)) =
      [([97], false), ([98], true), ([99], false)] ∧
    ((documents Env.toy lastA).map fun d => (d.id, d.dbSeq, d.deleted, storedBodyOf Env.toy lastA d.id)) =
      [([98], 2, false, some [2, 3]), ([97], 3, true, none), ([99], 5, false, some [9])] := by
  decide +kernel

theorem bdbB_ok : ((documents Env.toy bdb4).map fun d => (d.id, lost Env.toy bdbB d)) =
      [([97], true), ([98], true), ([99], true)] ∧
    ((documents Env.toy lastB).map fun d => (d.id, d.dbSeq, d.deleted, storedBodyOf Env.toy lastB d.id)) =
      [([97], 1, false, some [1]), ([98], 2, false, some [2, 3])] ∧
    ((answer (docinfoById Env.toy [97]) bdbB).toOption.map fun d => d.deleted) = some true ∧
    (answer (openDocument Env.toy [99] false) bdbB).toOption = some [9] := by
  decide +kernel

theorem bdb_position : bdb4.header.position = 8192 := by decide +kernel

theorem bdbA_stale : isOk (rewindDbHeader Env.toy bdbA) = true ∧
    (answer (docinfoById Env.toy [98]) (after (rewindDbHeader Env.toy) bdbA)).toOption.isSome = true ∧
    ((documents Env.toy { after (rewindDbHeader Env.toy) bdbA with file := bdb4.file }).map fun d => (d.id, d.dbSeq,
      (answer (openDocWithDocinfo Env.toy d false) bdbA).toOption)) = [([97], 1, some [1]), ([98], 2, some [2, 3])] := by
  decide +kernel

attribute [local irreducible] kdb0 bdb1 bdb2 bdb3 bdb4 bdbA bdbB recA recB openA openB staleA staleB lastA lastB

def bdbSys : Sys := twoCommits kdb0 bdb1 bdb2 bdb3 bdb4

theorem bdbHist' : History Env.toy none bdbSys := bdbHist

theorem twoCommits_states (d0 d1 d2 d3 d4 : Db) : (twoCommits d0 d1 d2 d3 d4).states = [d4, d3, d1] := rfl

theorem bdbA_damaged : Damaged Env.toy none bdbSys (sampleStale bdbA) :=
  sampleStale_damaged bdbHist' bdbA_eq bdb_ok.1.1 bdb_ok.1.2.1 bdbA_noticed bdb_ok.1.2.2 bdbA_headers
    ((congrArg (fitsIn · _) (twoCommits_states ..)).trans bdb_ok.2.1)

theorem bdbB_damaged : Damaged Env.toy none bdbSys (sampleStale bdbB) :=
  sampleStale_damaged bdbHist' bdbB_eq bdb_ok.1.1 bdb_ok.1.2.1 bdbB_noticed bdb_ok.1.2.2 bdbB_headers
    ((congrArg (fitsIn · _) (twoCommits_states ..)).trans bdb_ok.2.1)

theorem harmed_position {a b : Db} {is : List Nat} {n : Nat} (h : sameDb (harmed a is) b = true) (hn : a.header.position = n) :
    b.header.position = n := by
  rw [← sameDb_eq h]
  exact hn

theorem sampleStale_run {a t o d f : Db} {n p : Nat} (h1 : recovers (recover Env.toy (sampleStale a)) t = true)
    (h2 : opens (openDb Env.toy sampleFlags none [] { t.file with faults := [] }) o = true) (hp : a.header.position = p)
    (h3 : finds (staleLoop Env.toy a (p + 1) a ⟨o, 0, false⟩) d n = true) (hn : n ≠ 0)
    (h4 : leaves (commit Env.toy 5 (fun _ => false) d) f = true) : dbck Env.toy (sampleStale a) sampleFlags true 5 = .ok (f, n) := by
  obtain ⟨f', h2⟩ := opens_eq h2
  subst hp
  exact dbck_steps (recovers_eq h1) h2 (finds_eq h3) hn (leaves_commit h4)

theorem dbckA : dbck Env.toy (sampleStale bdbA) sampleFlags true 5 = .ok (lastA, 1) :=
  sampleStale_run recA_eq openA_eq (harmed_position bdbA_eq bdb_position) staleA_eq (by decide) lastA_eq

theorem dbckB : dbck Env.toy (sampleStale bdbB) sampleFlags true 5 = .ok (lastB, 2) :=
  sampleStale_run recB_eq openB_eq (harmed_position bdbB_eq bdb_position) staleB_eq (by decide) lastB_eq

/-- Looking something up in a list of descriptions that was computed. -/
theorem of_map {α β : Type} {f : α → β} {l : List α} {r : List β} (h : l.map f = r) {y : β} (hy : y ∈ r) : ∃ x ∈ l, f x = y := by
  rw [← h] at hy
  obtain ⟨x, h1, h2⟩ := List.mem_map.mp hy
  exact ⟨x, h1, h2⟩

theorem of_mem {α β : Type} {f : α → β} {l : List α} {r : List β} (h : l.map f = r) {x : α} (hx : x ∈ l) : f x ∈ r := by
  rw [← h]
  exact List.mem_map.mpr ⟨x, hx, rfl⟩

/-- The changed document is lost; the other ones are kept. -/
example : ∃ d ∈ documents Env.toy bdb4, d.id = [99] ∧ ∃ d' ∈ documents Env.toy lastA, SameVersion d' d ∧
    storedBodyOf Env.toy lastA d.id = storedBodyOf Env.toy bdb4 d.id := by
  obtain ⟨d, h1, h2⟩ := of_map bdbA_ok.1 (y := ([99], false)) (by simp)
  simp only [Prod.mk.injEq] at h2
  exact ⟨d, h1, h2.1, (C65_keeps_the_last_commit Env.toy Env.toy_laws none bdbSys _ bdbA_damaged sampleFlags (sampleFlags_ok _)
    true 5 lastA 1 dbckA).1 d h1 h2.2⟩

example : ∀ d ∈ documents Env.toy lastA, WasThere Env.toy bdbSys d (storedBodyOf Env.toy lastA d.id) :=
  C65_documents_were_there Env.toy Env.toy_laws none bdbSys _ bdbA_damaged sampleFlags (sampleFlags_ok _) true 5 lastA 1 dbckA

/-- The older version of the lost document is found. -/
theorem bdbA_lost : ∃ d ∈ documents Env.toy bdbSys.db, lost Env.toy (sampleStale bdbA).source d = true := by
  obtain ⟨d, h1, h2⟩ := of_map bdbA_ok.1 (y := ([98], true)) (by simp)
  simp only [Prod.mk.injEq] at h2
  exact ⟨d, h1, h2.2⟩

theorem rewound_one {E : Env} {db : Db} (h : isOk (rewindDbHeader E db) = true) : Rewound E db (after (rewindDbHeader E) db) := by
  refine .one ?_
  unfold after
  cases hr : rewindDbHeader E db with
  | ok a d => rfl
  | error e d => rw [hr] at h; cases h

example : ∃ d' ∈ documents Env.toy lastA, d'.id = [98] := by
  obtain ⟨d, h1, h2⟩ := of_map bdbA_stale.2.2 (y := ([98], 2, some [2, 3])) (by simp)
  simp only [Prod.mk.injEq] at h2
  obtain ⟨d', h3, h4⟩ := C65_stale_documents_are_found Env.toy Env.toy_laws none bdbSys _ bdbA_damaged sampleFlags
    (sampleFlags_ok _) 5 lastA 1 dbckA bdbA_lost _ (rewound_one bdbA_stale.1) d h1 (by rw [h2.1]; exact bdbA_stale.2.1)
    (by have h := h2.2.2; show (answer (openDocWithDocinfo Env.toy d false) bdbA).toOption.isSome = true; rw [h]; rfl)
  exact ⟨d', h3, h4.trans h2.1⟩

/-- It has the sequence number and the body that it had then. -/
example : ((documents Env.toy lastA).map fun d => (d.id, d.dbSeq, d.deleted, storedBodyOf Env.toy lastA d.id)) =
      [([98], 2, false, some [2, 3]), ([97], 3, true, none), ([99], 5, false, some [9])] ∧
    ∃ d' ∈ documents Env.toy lastA, d'.id = [98] ∧ ∃ old, Rewound Env.toy bdbA old ∧
      ∃ d ∈ documents Env.toy { old with file := bdb4.file }, SameVersion d' d := by
  refine ⟨bdbA_ok.2, ?_⟩
  obtain ⟨d', h1, h2⟩ := of_map bdbA_ok.2 (y := ([98], 2, false, some [2, 3])) (by simp)
  simp only [Prod.mk.injEq] at h2
  refine ⟨d', h1, h2.1, ?_⟩
  rcases C65_newest_readable_version Env.toy Env.toy_laws none bdbSys _ bdbA_damaged sampleFlags (sampleFlags_ok _) true 5 lastA 1
    dbckA d' h1 with ⟨d, h3, h4, h5⟩ | ⟨-, old, h3, ⟨d, h4, h5, -⟩, -⟩
  · have h6 := of_mem bdbA_ok.1 h3
    have h7 : d.id = [98] := by rw [← h5.id_eq, h2.1]
    have h4 : lost Env.toy bdbA d = false := h4
    simp [h7, h4] at h6
  · exact ⟨old, h3, d, h4, h5⟩

example : (documents Env.toy lastA).length = ((documents Env.toy bdb4).filter fun d => !lost Env.toy bdbA d).length + 1 :=
  C65_count_is_right Env.toy Env.toy_laws none bdbSys _ bdbA_damaged sampleFlags (sampleFlags_ok _) true 5 lastA 1 dbckA

example : ∃ cm ∈ bdbSys.commits, Shows Env.toy { after (rewindDbHeader Env.toy) bdbA with file := bdb4.file } cm :=
  (C65_stale_handles_show_commits Env.toy Env.toy_laws none bdbSys _ bdbA_damaged _ (rewound_one bdbA_stale.1)).2

example : ∃ db2, openDb Env.toy sampleFlags none [] (lastA.file.reset []) = .ok db2 db2.file ∧ SameAnswers Env.toy lastA db2 :=
  C65_result_is_committed Env.toy Env.toy_laws none bdbSys _ bdbA_damaged sampleFlags (sampleFlags_ok _) true 5 lastA 1 dbckA
    sampleFlags (sampleFlags_ok _) []

/-- Without looking at stale commits. -/
theorem dbckA0 : dbck Env.toy (sampleStale bdbA) sampleFlags false 5 = .ok (openA, 0) := by
  obtain ⟨f', h2⟩ := opens_eq openA_eq
  have h2 : openDb Env.toy sampleFlags (sampleStale bdbA).getKey (sampleStale bdbA).ctx { recA.file with faults := [] } = .ok openA f' := h2
  unfold dbck
  rw [recovers_eq recA_eq]
  dsimp only
  rw [h2]
  rfl

example : HoldsWithout Env.toy bdb4 openA (lost Env.toy bdbA) bdb4.header.purgeSeq :=
  C65_nothing_stale Env.toy Env.toy_laws none bdbSys _ bdbA_damaged sampleFlags (sampleFlags_ok _) false 5 openA dbckA0

/-! ### What the tool does not do -/

/-- The tool does not look at the last commit's index by id: when the index by sequence number is damaged, a
document that anybody can still read by its id is not in the result. -/
theorem C65_readable_document_is_missing :
    ∃ (s : Sys) (c : Compaction Nat) (db : Db) (n : Nat) (id body : Bytes), Damaged Env.toy none s c ∧
      dbck Env.toy c sampleFlags true 5 = .ok (db, n) ∧ storedBodyOf Env.toy s.db id = some body ∧
      (answer (openDocument Env.toy id false) c.source).toOption = some body ∧ ∀ d ∈ documents Env.toy db, d.id ≠ id := by
  refine ⟨bdbSys, sampleStale bdbB, lastB, 2, [99], [9], bdbB_damaged, dbckB, ?_, bdbB_ok.2.2.2, ?_⟩
  · obtain ⟨d, -, h⟩ := of_map bdb_ok.2.2 (y := ([99], 5, false, some [9])) (by simp)
    simp only [Prod.mk.injEq] at h
    rw [← h.1]
    exact h.2.2.2
  · intro d hd hid
    have := of_mem bdbB_ok.2.1 hd
    simp [hid] at this

/-- And it brings deleted documents back: the last commit has a tombstone, which can be read by its id, and the
result has the document as it was before it was deleted. -/
theorem C65_deleted_document_comes_back :
    ∃ (s : Sys) (c : Compaction Nat) (db : Db) (n : Nat) (id : Bytes), Damaged Env.toy none s c ∧
      dbck Env.toy c sampleFlags true 5 = .ok (db, n) ∧ (∃ d ∈ documents Env.toy s.db, d.id = id ∧ d.deleted = true) ∧
      ((answer (docinfoById Env.toy id) c.source).toOption.map fun d => d.deleted) = some true ∧
      ∃ d ∈ documents Env.toy db, d.id = id ∧ d.deleted = false := by
  refine ⟨bdbSys, sampleStale bdbB, lastB, 2, [97], bdbB_damaged, dbckB, ?_, bdbB_ok.2.2.1, ?_⟩
  · obtain ⟨d, h1, h⟩ := of_map bdb_ok.2.2 (y := ([97], 3, true, none)) (by simp)
    simp only [Prod.mk.injEq] at h
    exact ⟨d, h1, h.1, h.2.2.1⟩
  · obtain ⟨d, h1, h⟩ := of_map bdbB_ok.2.1 (y := ([97], 1, false, some [1])) (by simp)
    simp only [Prod.mk.injEq] at h
    exact ⟨d, h1, h.1, h.2.2.1⟩

/-- When compaction fails, which damage to a local document is enough for, and stale commits are to be looked at, the
tool goes on with a handle that is null; every document could be copied. -/
theorem C65_failed_recovery_uses_null_handle :
    ∃ (s : Sys) (c : Compaction Nat), History Env.toy none s ∧ c.source = { s.db with file := c.source.file } ∧
      DamagedFile Env.toy s.db.file c.source.file ∧ c.bodyFaults = [] ∧ c.localFaults = [] ∧ c.faults = [] ∧
      (∀ d ∈ documents Env.toy s.db, lost Env.toy c.source d = false) ∧
      ∀ flags ts, dbck Env.toy c flags true ts = .error .assertFail := by
  obtain ⟨s, c, h1, h2, h3, h4, h5, h6, -, -, -, h7, h8⟩ := C59_local_documents_block_recovery
  refine ⟨s, c, h1, h2, h3, h4, h5, h6, h7, ?_⟩
  intro flags ts
  unfold dbck
  rw [h8]
  rfl

end Couchstore.Props
