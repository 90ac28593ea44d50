import Verif.Props.Compact

/-! Property theorem C59: recovery from a damaged file. -/

namespace Couchstore.Props

open Couchstore

variable {υ : Type}

/-! ## C59 Recovery copies what can still be read -/

/-- The documents that recovery omits: the tombstones, if they are to be dropped (a filter switches this off),
and those that are beyond recovery. -/
def omitted (E : Env) (c : Compaction υ) (d : DocInfo) : Bool :=
  (c.dropDeletes && c.filter.isNone) && d.deleted || lost E c.source d

/-- Bytes of a file have changed anywhere, in a way that the checksums notice, and the file is compacted in
recovery mode.  If a target is made, it can be opened, and it holds exactly the documents that a handle of the
damaged file still finds by their sequence numbers and can read, with the metadata, bodies and sequence numbers
that they had before the damage, and all local documents, whatever the state of the by-id index; it has the
last sequence number and the timestamp of the damaged database. -/
theorem C59_recovery_keeps_readable (E : Env) (L : E.Laws) (getKey : KeyGetter) (s : Sys) (hs : History E getKey s)
    (c : Compaction υ) (hsrc : c.source = { s.db with file := c.source.file }) (D : DamagedFile E s.db.file c.source.file)
    (h1 : c.bodyFaults = []) (h2 : c.localFaults = []) (h3 : c.faults = []) (hk : KeepsAll c.filter) (hrw : c.rewrite = none)
    (K : KeysOk c.getKey (compactFlags c.source c.upgrade).legacyCrc) (t : Db) (er : Option Err)
    (hc : recover E c = .ok (t, er)) (flags : OpenFlags) (ok : flags.Ok (t.file.cfg.crcMode == .crc32)) (ctx : Bytes) :
    ∃ t2, openDb E flags c.getKey ctx (t.file.reset []) = .ok t2 t2.file ∧
      HoldsWithout E s.db t2 (omitted E c)
        (if c.dropDeletes then s.db.header.purgeSeq + 1 else s.db.header.purgeSeq) ∧
      (11 < s.db.header.diskVersion ∨ c.upgrade = true → t2.header.timestamp = s.db.header.timestamp) := by
  obtain ⟨t0, f', t1, g1, g2, g3, g4⟩ := recover_ok hs hsrc D h1 h2 h3 hk hrw K hc
  obtain ⟨ids, seqs, locs, S⟩ := (hs.hist L).handle
  obtain ⟨_, T, hv⟩ := created_hist (compactFlags_thr _ _) K g1
  obtain ⟨moved, ids', k2, k3, F, hh, -, -⟩ :=
    (recoverFill_spec E L c S D hsrc h1 h2 hk hrw t0 T (compact_calm h3 g1)).ok g2
  have hhd : c.source.header = s.db.header := by rw [hsrc]
  have hcfg : t.file.cfg = t1.file.cfg := by
    obtain ⟨e1, m, C⟩ := (commit_spec E _ _ t1 hh).ok g3
    exact C.cfg
  obtain ⟨t2, r1, r2, r3, r4, r5, -, -⟩ := C20_commit_reopen E L c.getKey _ g4 _ _ t g3 flags (by rw [← hcfg]; exact ok) ctx
  refine ⟨t2, r1, ?_, ?_⟩
  · have hu : t1.header.updateSeq = s.db.header.updateSeq := by rw [F.same, ← hhd]
    have hp : t1.header.purgeSeq = if c.dropDeletes then s.db.header.purgeSeq + 1 else s.db.header.purgeSeq := by
      rw [F.same, ← hhd]
    rw [← hp]
    intro q hq
    rw [r3 q hq, r2 q hq]
    exact holds_of_copy L S.inv S.opened hh.inv hh.opened k2 hu q hq
  · intro hver
    have hd : t1.header.diskVersion = t0.header.diskVersion := by rw [F.same]
    have hleg : (compactFlags c.source c.upgrade).legacyCrc = false := by
      show (decide (c.source.header.diskVersion ≤ 11) && !c.upgrade) = false
      rcases hver with h | h
      · rw [hhd, decide_eq_false (by omega)]; rfl
      · rw [h]; simp
    rw [r5, r4]
    show (if 13 ≤ t1.header.diskVersion then _ else _) = _
    rw [hd, hv rfl, hleg, hhd]
    rfl

/-- Beside the target, recovery returns an error only if a document is beyond recovery; and if it returns none,
nothing is, except for tombstones that are dropped anyway. -/
theorem C59_error_tells_of_loss (E : Env) (L : E.Laws) (getKey : KeyGetter) (s : Sys) (hs : History E getKey s)
    (c : Compaction υ) (hsrc : c.source = { s.db with file := c.source.file }) (D : DamagedFile E s.db.file c.source.file)
    (h1 : c.bodyFaults = []) (h2 : c.localFaults = []) (h3 : c.faults = []) (hk : KeepsAll c.filter) (hrw : c.rewrite = none)
    (K : KeysOk c.getKey (compactFlags c.source c.upgrade).legacyCrc) (t : Db) (er : Option Err)
    (hc : recover E c = .ok (t, er)) :
    (er = none → ∀ d ∈ documents E s.db, lost E c.source d = true →
      c.dropDeletes = true ∧ c.filter = none ∧ d.deleted = true) ∧
    (er ≠ none → ∃ d ∈ documents E s.db, lost E c.source d = true) := by
  obtain ⟨t0, f', t1, g1, g2, g3, g4⟩ := recover_ok hs hsrc D h1 h2 h3 hk hrw K hc
  obtain ⟨ids, seqs, locs, S⟩ := (hs.hist L).handle
  obtain ⟨_, T, hv⟩ := created_hist (compactFlags_thr _ _) K g1
  obtain ⟨moved, ids', k2, k3, F, hh, k4, k5⟩ :=
    (recoverFill_spec E L c S D hsrc h1 h2 hk hrw t0 T (compact_calm h3 g1)).ok g2
  rw [documents_eq L S.inv S.opened]
  refine ⟨fun he d hd hl => ?_, fun he => ?_⟩
  · obtain ⟨e, h, rfl⟩ := List.mem_map.mp hd
    have := k4 he e h hl
    unfold dropNow at this
    simpa [and_assoc] using this
  · obtain ⟨e, h, hl⟩ := k5 he
    exact ⟨e.info, List.mem_map.mpr ⟨e, h, rfl⟩, hl⟩

/-- Recovery succeeds, whatever the damage to the documents and their indexes, if the local documents can still
be read (and no limit of the format is hit). -/
theorem C59_recovery_succeeds (E : Env) (L : E.Laws) (getKey : KeyGetter) (s : Sys) (hs : History E getKey s)
    (c : Compaction υ) (hsrc : c.source = { s.db with file := c.source.file }) (D : DamagedFile E s.db.file c.source.file)
    (h1 : c.bodyFaults = []) (h2 : c.localFaults = []) (h3 : c.faults = []) (hk : KeepsAll c.filter) (hrw : c.rewrite = none)
    (hkey : ∀ f, c.getKey = some f → f [] = none)
    (hloc : ∀ id, (answer (openLocalDocument E id) s.db).toOption.isSome = true →
      (answer (openLocalDocument E id) c.source).toOption.isSome = true) :
    (∃ t er, recover E c = .ok (t, er)) ∨ recover E c = .error .formatLimit := by
  have K : KeysOk c.getKey (compactFlags c.source c.upgrade).legacyCrc :=
    ⟨fun f hf k hk' => by rw [hkey f hf] at hk'; exact (nomatch hk'), fun _ f hf => hkey f hf⟩
  obtain ⟨ids, seqs, locs, S⟩ := (hs.hist L).handle
  cases hc : recover E c with
  | ok r => exact Or.inl ⟨r.1, r.2, rfl⟩
  | error e =>
    right
    obtain ⟨t, ht, htf⟩ := compact_creates (E := E) h3 hkey
    rcases recover_error L hs hsrc D h1 h2 h3 hk hrw K hc S with ⟨f', h⟩ | h | ⟨k, v, hv, hl⟩
    · rw [ht] at h; cases h
    · rw [h]
    · exfalso
      have hq := ask_eq E L S.inv S.opened (.localDoc k) trivial
      have hq : Reply.loc (answer (openLocalDocument E k) s.db) = .loc (localOr k (kvFind k locs)) := hq
      rw [hv] at hq
      injection hq with hq
      have := hloc k (by rw [hq]; rfl)
      rw [hl] at this
      cases this

/-- The recovered file is like any other one: its final commit is part of a history. -/
theorem C59_recovered_file_has_history (E : Env) (getKey : KeyGetter) (s : Sys) (hs : History E getKey s)
    (c : Compaction υ) (hsrc : c.source = { s.db with file := c.source.file }) (D : DamagedFile E s.db.file c.source.file)
    (h1 : c.bodyFaults = []) (h2 : c.localFaults = []) (h3 : c.faults = []) (hk : KeepsAll c.filter) (hrw : c.rewrite = none)
    (K : KeysOk c.getKey (compactFlags c.source c.upgrade).legacyCrc) (t : Db) (er : Option Err)
    (hc : recover E c = .ok (t, er)) :
    ∃ s' cm, History E c.getKey s' ∧ s'.db = t ∧ s'.done = [cm] ∧ s'.cands = [cm] ∧
      cm.timestamp = s.db.header.timestamp := by
  obtain ⟨t0, f', t1, g1, g2, g3, g4⟩ := recover_ok hs hsrc D h1 h2 h3 hk hrw K hc
  exact ⟨_, _, .op g4 (.commitOk _ _ g3), rfl, rfl, rfl, by rw [hsrc]; rfl⟩

/-- In a file that is not damaged nothing is beyond recovery. -/
theorem C59_undamaged_nothing_lost (E : Env) (L : E.Laws) (getKey : KeyGetter) (s : Sys) (hs : History E getKey s)
    (d : DocInfo) (hd : d ∈ documents E s.db) : lost E s.db d = false := by
  obtain ⟨ids, seqs, locs, S⟩ := (hs.hist L).handle
  rw [documents_eq L S.inv S.opened] at hd
  obtain ⟨e, he, rfl⟩ := List.mem_map.mp hd
  have hi := S.inv.perm.mem_iff.mp he
  have hq : answer (docinfoBySequence E e.info.dbSeq) s.db = _ :=
    (docinfoBySequence_spec E L s.db.calm S.inv.calm S.opened e.info.dbSeq).answer_eq
  have hf : seqFind (e.info.dbSeq % 2 ^ 48) seqs = some e := by
    rw [Nat.mod_eq_of_lt (S.inv.seqOk e he).fits.dbSeq]
    exact seqFind_of_mem S.inv.seqSorted he
  have hb : answer (openDocWithDocinfo E e.info false) s.db = _ :=
    (openDocWithDocinfo_spec E L s.db.calm S.inv.calm S.opened e hi false).answer_eq
  unfold lost
  rw [hq, hf, hb]
  have hbody := S.inv.body e hi
  unfold BodyAt at hbody
  unfold openAns
  cases hr : e.raw with
  | none =>
    rw [hr] at hbody
    simp [foundOr, hbody.1]
  | some b => simp [foundOr, Except.toOption]

/-! ### A recovery -/

/-- Beyond the end of a file nothing can be read. -/
theorem preadBin_beyond (E : Env) (p : Nat) (f : File) (hf : f.faults = []) (hp : f.disk.length ≤ p) (b : Bytes) (g : File) :
    preadBin E p f ≠ .ok b g := by
  have hr : ∀ n, readSkip p (n + 1) f = .error .read f := by
    intro n
    have hq : f.disk.length ≤ (if p % blockSize = 0 then p + 1 else p) := by split <;> omega
    unfold readSkip
    generalize (if p % blockSize = 0 then p + 1 else p) = q at hq
    have hpr : ∀ n, pread q n f = .ok [] f := by
      intro n
      have hs : slice f.disk q n = [] := by
        unfold slice
        rw [List.drop_eq_nil_of_le hq, List.take_nil]
      obtain ⟨disk, pos, cfg, faults, log⟩ := f
      cases hf
      show EStateM.Result.ok (slice disk q n) _ = _
      rw [hs]
    show (pread q (min (blockSize - q % blockSize) (n + 1)) >>= _) f = _
    rw [bind_ok (hpr _)]
    rfl
  unfold preadBin
  show (match f.cfg.cipher with | some k => preadEncrypted E k p | none => preadPlain E p) f ≠ _
  cases f.cfg.cipher with
  | some k =>
    show (readSkip p 4 >>= _) f ≠ _
    rw [bind_error (hr 3)]
    exact fun h => nomatch h
  | none =>
    show (readSkip p 8 >>= _) f ≠ _
    rw [bind_error (hr 7)]
    exact fun h => nomatch h

/-- The sample database of compaction before its commit (the first bytes of the file, so that they can all be
looked at), with some bytes changed. -/
def damage (is : List Nat) : Db :=
  { kdb2 with file := { kdb2.file with disk := is.foldl (fun d i => d.modify i (· + 1)) kdb2.file.disk } }

def sampleRecovery (is : List Nat) : Compaction Nat := { sampleCompaction false none with source := damage is }

/-- Whether every chunk reads as before or not at all. -/
def noticedIn (a b : File) (n : Nat) : Bool :=
  (List.range n).all fun p =>
    match preadBin Env.toy p a, preadBin Env.toy p b with
    | .ok x _, .ok y _ => y == x
    | _, _ => true

def recovered (r : Except Err (Db × Option Err)) : Db :=
  match r with
  | .ok t => t.1
  | .error _ => kdb2

/-- A byte of the first body and one of the by-id index. -/
def rdb1 : Db := recovered (recover Env.toy (sampleRecovery [10, 40]))

theorem rdb_ok : (noticedIn kdb2.file (damage [10, 40]).file kdb2.file.disk.length = true ∧
      noticedIn kdb2.file (damage [234]).file kdb2.file.disk.length = true) ∧
    kdb2.file.faults = [] ∧ (damage [10, 40]).file.disk.length = kdb2.file.disk.length ∧
    (damage [234]).file.disk.length = kdb2.file.disk.length ∧
    (match recover Env.toy (sampleRecovery [10, 40]) with | .ok (_, some .checksumFail) => true | _ => false) = true ∧
    ((documents Env.toy kdb2).map fun d => (d.id, lost Env.toy (damage [10, 40]) d)) =
      [([98], true), ([97], false), ([99], false)] ∧
    ((documents Env.toy rdb1).map fun d => (d.id, d.deleted)) = [([97], true), ([99], false)] ∧
    (answer (docinfoById Env.toy [99]) (damage [10, 40])).toOption = none ∧
    (answer (docinfoById Env.toy [99]) rdb1).toOption.isSome = true ∧
    (match recover Env.toy (sampleRecovery [234]) with | .error .checksumFail => true | _ => false) = true ∧
    ((documents Env.toy kdb2).map fun d => (d.id, lost Env.toy (damage [234]) d)) =
      [([98], false), ([97], false), ([99], false)] := by
  decide +kernel

theorem damaged_of {a b : File} (hc : b.cfg = a.cfg) (hl : b.disk.length = a.disk.length) (ha : a.faults = [])
    (hb : b.faults = []) (h : noticedIn a b a.disk.length = true) : DamagedFile Env.toy a b := by
  refine ⟨hc, hl, hb, ?_⟩
  intro p x y g g' h1 h2
  have ha' : ({ a with faults := [] } : File) = a := by rw [← ha]
  rw [ha'] at h1
  by_cases hp : p < a.disk.length
  · unfold noticedIn at h
    have := List.all_eq_true.mp h p (List.mem_range.mpr hp)
    rw [h1, h2] at this
    simpa using this
  · exact absurd h1 (preadBin_beyond _ p a ha (by omega) x g)

theorem uncommitted_hist {E : Env} {flags : OpenFlags} {ctx : Bytes} {d0 d1 d2 : Db} (ht : 2 ≤ flags.kvThr)
    (hn : flags.noCommitAtCreate = true) (h0 : openDb E flags none ctx (crashedFile [] []) = .ok d0 d0.file)
    (h1 : Step E d0 d1) (h2 : Step E d1 d2) : History E none { Sys.created d0 true with db := d2 } := by
  have h := History.create flags ctx [] ht (keyless _) h0
  rw [hn] at h
  exact .op (.op h (.step h1)) (.step h2)

theorem recoveryHist : History Env.toy none { Sys.created kdb0 true with db := kdb2 } :=
  uncommitted_hist (flags := sourceFlags) (by decide) rfl kdb0_eq
    (.save sampleOpts (some sampleCb) sourceItems [] kdb1_eq) (.saveLocal _ kdb2_eq)

theorem rdb1_eq : recover Env.toy (sampleRecovery [10, 40]) = .ok (rdb1, some .checksumFail) := by
  have h := rdb_ok.2.2.2.2.1
  unfold rdb1
  generalize recover Env.toy (sampleRecovery [10, 40]) = r at h
  rcases r with e | ⟨t, _ | e⟩
  · cases h
  · cases h
  · cases e <;> first | rfl | cases h

attribute [local irreducible] kdb0 kdb1 kdb2 rdb1

theorem sampleDamaged : DamagedFile Env.toy kdb2.file (damage [10, 40]).file ∧ DamagedFile Env.toy kdb2.file (damage [234]).file :=
  ⟨damaged_of rfl rdb_ok.2.2.1 rdb_ok.2.1 rdb_ok.2.1 rdb_ok.1.1,
    damaged_of rfl rdb_ok.2.2.2.1 rdb_ok.2.1 rdb_ok.2.1 rdb_ok.1.2⟩

theorem noFilter_keeps : KeepsAll (none : Option (CompactFilter Nat)) := fun _ h => nomatch h

/-- One of the three documents is lost; the by-id index, which cannot be read any more either, is made anew. -/
example : (∃ t2, openDb Env.toy sampleFlags none [] (rdb1.file.reset []) = .ok t2 t2.file ∧
      HoldsWithout Env.toy kdb2 t2 (omitted Env.toy (sampleRecovery [10, 40])) kdb2.header.purgeSeq) ∧
    ((documents Env.toy kdb2).map fun d => (d.id, lost Env.toy (damage [10, 40]) d)) =
      [([98], true), ([97], false), ([99], false)] ∧
    ((documents Env.toy rdb1).map fun d => (d.id, d.deleted)) = [([97], true), ([99], false)] ∧
    (answer (docinfoById Env.toy [99]) (damage [10, 40])).toOption = none ∧
    (answer (docinfoById Env.toy [99]) rdb1).toOption.isSome = true := by
  obtain ⟨t2, h1, h2, -⟩ := C59_recovery_keeps_readable Env.toy Env.toy_laws none _ recoveryHist (sampleRecovery [10, 40]) rfl
    sampleDamaged.1 rfl rfl rfl noFilter_keeps rfl (keyless _) rdb1 _ rdb1_eq sampleFlags (sampleFlags_ok _) []
  have h := rdb_ok.2.2.2.2.2
  exact ⟨⟨t2, h1, h2⟩, h.1, h.2.1, h.2.2.1, h.2.2.2.1⟩

example : ∃ d ∈ documents Env.toy kdb2, lost Env.toy (damage [10, 40]) d = true :=
  (C59_error_tells_of_loss Env.toy Env.toy_laws none _ recoveryHist (sampleRecovery [10, 40]) rfl
    sampleDamaged.1 rfl rfl rfl noFilter_keeps rfl (keyless _) rdb1 _ rdb1_eq).2 (fun h => nomatch h)

example : ∃ s' cm, History Env.toy none s' ∧ s'.db = rdb1 ∧ s'.done = [cm] ∧ s'.cands = [cm] ∧
    cm.timestamp = kdb2.header.timestamp :=
  C59_recovered_file_has_history Env.toy none _ recoveryHist (sampleRecovery [10, 40]) rfl
    sampleDamaged.1 rfl rfl rfl noFilter_keeps rfl (keyless _) rdb1 _ rdb1_eq

/-- Before the local document is saved (`kdb1`), damage to documents and indexes cannot prevent recovery. -/
def damage1 (is : List Nat) : Db :=
  { kdb1 with file := { kdb1.file with disk := is.foldl (fun d i => d.modify i (· + 1)) kdb1.file.disk } }

unseal kdb0 kdb1 in
theorem rdb_ok1 : (noticedIn kdb1.file (damage1 [10, 40, 130]).file kdb1.file.disk.length = true ∧
    kdb1.file.faults = [] ∧ (damage1 [10, 40, 130]).file.disk.length = kdb1.file.disk.length) ∧
    kdb1.header.localRoot = none ∧ kdb1.dropped = false ∧
    ((documents Env.toy kdb1).map fun d => (d.id, lost Env.toy (damage1 [10, 40, 130]) d)) =
      [([98], true), ([97], true), ([99], true)] := by
  decide +kernel

theorem noLocals {E : Env} {db : Db} (h : db.header.localRoot = none) (hd : db.dropped = false) (id : Bytes) :
    (answer (openLocalDocument E id) db).toOption = none := by
  have : openLocalDocument E id db.calm = .error .docNotFound db.calm := by
    unfold openLocalDocument
    show (if db.dropped = true then throw Err.fileClosed else
      match db.header.localRoot with | none => throw .docNotFound | some p => _ : DbM LocalDoc) db.calm = _
    rw [hd, h]
    rfl
  unfold answer
  rw [this]
  rfl

unseal kdb1 in
theorem recoveryHist1 : History Env.toy none { Sys.created kdb0 true with db := kdb1 } :=
  .op (History.create sourceFlags [7, 7] [] (by decide) (keyless _) kdb0_eq)
    (.step (.save sampleOpts (some sampleCb) sourceItems [] kdb1_eq))

example : (∃ t er, recover Env.toy { sampleCompaction false none with source := damage1 [10, 40, 130] } = .ok (t, er)) ∨
    recover Env.toy { sampleCompaction false none with source := damage1 [10, 40, 130] } = .error .formatLimit :=
  C59_recovery_succeeds Env.toy Env.toy_laws none _ recoveryHist1
    { sampleCompaction false none with source := damage1 [10, 40, 130] } rfl
    (damaged_of rfl rdb_ok1.1.2.2 rdb_ok1.1.2.1 rdb_ok1.1.2.1 rdb_ok1.1.1) rfl rfl rfl noFilter_keeps rfl (fun _ h => nomatch h)
    (fun id h => by
      have := noLocals (E := Env.toy) rdb_ok1.2.1 rdb_ok1.2.2.1 id
      rw [show (answer (openLocalDocument Env.toy id) kdb1).toOption = none from this] at h
      cases h)

example : ∀ d ∈ documents Env.toy kdb2, lost Env.toy kdb2 d = false :=
  C59_undamaged_nothing_lost Env.toy Env.toy_laws none _ recoveryHist

/-- The exception that `C59_recovery_succeeds` makes is needed: when the local documents cannot be read, recovery
makes no target, although every document could be copied. -/
theorem C59_local_documents_block_recovery :
    ∃ (s : Sys) (c : Compaction Nat), History Env.toy none s ∧ c.source = { s.db with file := c.source.file } ∧
      DamagedFile Env.toy s.db.file c.source.file ∧ c.bodyFaults = [] ∧ c.localFaults = [] ∧ c.faults = [] ∧
      c.filter = none ∧ c.getKey = none ∧ (∃ d, d ∈ documents Env.toy s.db) ∧
      (∀ d ∈ documents Env.toy s.db, lost Env.toy c.source d = false) ∧ recover Env.toy c = .error .checksumFail := by
  refine ⟨_, sampleRecovery [234], recoveryHist, rfl, sampleDamaged.2, rfl, rfl, rfl, rfl, rfl, ?_, ?_, ?_⟩
  · have h := congrArg List.length rdb_ok.2.2.2.2.2.2.2.2.2.2
    show ∃ d, d ∈ documents Env.toy kdb2
    cases hd : documents Env.toy kdb2 with
    | nil => rw [hd] at h; cases h
    | cons d l => exact ⟨d, List.mem_cons_self ..⟩
  · intro d hd
    have h := rdb_ok.2.2.2.2.2.2.2.2.2.2
    have hm : (d.id, lost Env.toy (damage [234]) d) ∈
        (documents Env.toy kdb2).map fun d => (d.id, lost Env.toy (damage [234]) d) := List.mem_map.mpr ⟨d, hd, rfl⟩
    rw [h] at hm
    simp only [List.mem_cons, Prod.mk.injEq, List.not_mem_nil, or_false] at hm
    rcases hm with h | h | h <;> exact h.2
  · have h := rdb_ok.2.2.2.2.2.2.2.2.2.1
    generalize recover Env.toy (sampleRecovery [234]) = r at h ⊢
    rcases r with e | r
    · cases e <;> first | rfl | cases h
    · cases h

end Couchstore.Props
