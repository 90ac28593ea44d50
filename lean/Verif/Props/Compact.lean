import Verif.Lemmas.CompactAsk
import Verif.Props.Commit

/-! Property theorem C26: compaction. -/

namespace Couchstore.Props

open Couchstore

variable {υ : Type}

/-! ## C26 Compaction keeps the contents -/

/-- The documents that compaction without a filter omits: the tombstones, if the drop-deletes option is
set. -/
def dropped (dropDeletes : Bool) (d : DocInfo) : Bool := dropDeletes && d.deleted

/-- A successful compaction (without a filter, and without other callbacks) makes a file that can be
opened, and that holds exactly what the source holds: the same documents with the same metadata and bodies, in
the same order of sequence numbers, the same local documents, the same last sequence number and the same
timestamp.  With the drop-deletes option exactly the tombstones are omitted (and the purge sequence number is
one more). -/
theorem C26_compaction_keeps_contents (E : Env) (L : E.Laws) (getKey : KeyGetter) (s : Sys) (hs : History E getKey s)
    (c : Compaction υ) (hsrc : c.source = s.db) (K : KeysOk c.getKey (compactFlags c.source c.upgrade).legacyCrc)
    (hf : c.filter = none) (t : Db) (hc : compact E c = .ok t)
    (flags : OpenFlags) (ok : flags.Ok (t.file.cfg.crcMode == .crc32)) (ctx : Bytes) :
    ∃ t2, openDb E flags c.getKey ctx (t.file.reset []) = .ok t2 t2.file ∧
      HoldsWithout E c.source t2 (dropped c.dropDeletes)
        (if c.dropDeletes then c.source.header.purgeSeq + 1 else c.source.header.purgeSeq) ∧
      (11 < c.source.header.diskVersion ∨ c.upgrade = true → t2.header.timestamp = c.source.header.timestamp) := by
  have hrw := compact_rewrite hc hf
  have hw := rewritesFit_none hrw
  obtain ⟨t0, f', t1, h1, h2, h3, h4⟩ := compact_ok hs hsrc K hw hc
  obtain ⟨ids, seqs, locs, S⟩ := (hs.hist L).handle
  rw [← hsrc] at S
  obtain ⟨_, T, hv⟩ := created_hist (compactFlags_thr _ _) K h1
  obtain ⟨u, kept, moved, ids', k1, k2, k3, F, hh⟩ := (compactFill_spec E L c hw S t0 T).ok h2
  rw [hf, hrw] at k1
  obtain ⟨-, k4⟩ := k1.noFilter
  have hcfg : t.file.cfg = t1.file.cfg := by
    obtain ⟨e1, m, C⟩ := (commit_spec E _ _ t1 hh).ok h3
    exact C.cfg
  obtain ⟨t2, r1, r2, r3, r4, r5, -, -⟩ := C20_commit_reopen E L c.getKey _ h4 _ _ t h3 flags (by rw [← hcfg]; exact ok) ctx
  refine ⟨t2, r1, ?_, ?_⟩
  · have hu : t1.header.updateSeq = c.source.header.updateSeq := by rw [F.same]
    have hp : t1.header.purgeSeq =
        if c.dropDeletes then c.source.header.purgeSeq + 1 else c.source.header.purgeSeq := by rw [F.same]
    rw [← hp]
    subst k4
    intro q hq
    rw [r3 q hq, r2 q hq]
    exact holds_of_copy L S.inv S.opened hh.inv hh.opened k2 hu q hq
  · intro hver
    have hd : t1.header.diskVersion = t0.header.diskVersion := by rw [F.same]
    have hleg : (compactFlags c.source c.upgrade).legacyCrc = false := by
      show (decide (c.source.header.diskVersion ≤ 11) && !c.upgrade) = false
      rcases hver with h | h
      · rw [decide_eq_false (by omega)]; rfl
      · rw [h]; simp
    rw [r5, r4]
    show (if 13 ≤ t1.header.diskVersion then _ else _) = _
    rw [hd, hv rfl, hleg]
    rfl

/-- The same with a filter: the documents that are omitted are those that the filter drops when it is
shown the documents of the source in the order of their sequence numbers, with their bodies if it asks for
them.  (The drop-deletes option then only increases the purge sequence number.) -/
theorem C26_compaction_with_filter (E : Env) (L : E.Laws) (getKey : KeyGetter) (s : Sys) (hs : History E getKey s)
    (c : Compaction υ) (hsrc : c.source = s.db) (K : KeysOk c.getKey (compactFlags c.source c.upgrade).legacyCrc)
    (g : CompactFilter υ) (hf : c.filter = some g) (hg : AsksForBodies g) (hrw : c.rewrite = none) (t : Db) (hc : compact E c = .ok t)
    (flags : OpenFlags) (ok : flags.Ok (t.file.cfg.crcMode == .crc32)) (ctx : Bytes) :
    ∃ t2 u kept, openDb E flags c.getKey ctx (t.file.reset []) = .ok t2 t2.file ∧
      applyFilter g (fun d => storedBodyOf E c.source d.id) c.user (documents E c.source) = some (u, kept) ∧
      HoldsWithout E c.source t2 (fun d => !kept.contains d)
        (if c.dropDeletes then c.source.header.purgeSeq + 1 else c.source.header.purgeSeq) ∧
      (11 < c.source.header.diskVersion ∨ c.upgrade = true → t2.header.timestamp = c.source.header.timestamp) := by
  have hw := rewritesFit_none hrw
  obtain ⟨t0, f', t1, h1, h2, h3, h4⟩ := compact_ok hs hsrc K hw hc
  obtain ⟨ids, seqs, locs, S⟩ := (hs.hist L).handle
  rw [← hsrc] at S
  obtain ⟨_, T, hv⟩ := created_hist (compactFlags_thr _ _) K h1
  obtain ⟨u, kept, moved, ids', k1, k2, k3, F, hh⟩ := (compactFill_spec E L c hw S t0 T).ok h2
  rw [hf, hrw] at k1
  have hmem : ∀ e ∈ seqs, e ∈ ids := fun e he => S.inv.perm.mem_iff.mp he
  have happ := k1.filter hg (body := fun d => storedBodyOf E c.source d.id)
    (fun e he => storedBodyOf_eq L S.inv S.opened (hmem e he)) (by
      intro e he hr
      have := S.inv.body e (hmem e he)
      unfold BodyAt at this
      rw [hr] at this
      exact this.1)
  rw [← documents_eq L S.inv S.opened] at happ
  have hn : (seqs.map (·.info)).Nodup := by
    have := sorted_seqs_nodup S.inv.seqSorted
    unfold List.Nodup at this ⊢
    rw [List.pairwise_map] at this ⊢
    exact this.imp fun h he => h (by rw [he])
  have k4 := sublist_filter k1.sublist hn
  have hcfg : t.file.cfg = t1.file.cfg := by
    obtain ⟨e1, m, C⟩ := (commit_spec E _ _ t1 hh).ok h3
    exact C.cfg
  obtain ⟨t2, r1, r2, r3, r4, r5, -, -⟩ := C20_commit_reopen E L c.getKey _ h4 _ _ t h3 flags (by rw [← hcfg]; exact ok) ctx
  refine ⟨t2, u, kept.map (·.info), r1, happ, ?_, ?_⟩
  · have hu : t1.header.updateSeq = c.source.header.updateSeq := by rw [F.same]
    have hp : t1.header.purgeSeq =
        if c.dropDeletes then c.source.header.purgeSeq + 1 else c.source.header.purgeSeq := by rw [F.same]
    rw [← hp]
    intro q hq
    rw [r3 q hq, r2 q hq]
    rw [k4] at k2
    exact holds_of_copy L S.inv S.opened hh.inv hh.opened k2 hu q hq
  · intro hver
    have hd : t1.header.diskVersion = t0.header.diskVersion := by rw [F.same]
    have hleg : (compactFlags c.source c.upgrade).legacyCrc = false := by
      show (decide (c.source.header.diskVersion ≤ 11) && !c.upgrade) = false
      rcases hver with h | h
      · rw [decide_eq_false (by omega)]; rfl
      · rw [h]; simp
    rw [r5, r4]
    show (if 13 ≤ t1.header.diskVersion then _ else _) = _
    rw [hd, hv rfl, hleg]
    rfl

/-- The file made by a successful compaction is like any other one: its final commit is part of a history,
so that commits, crashes and moves behave as they do in every history. -/
theorem C26_compacted_file_has_history (E : Env) (getKey : KeyGetter) (s : Sys) (hs : History E getKey s)
    (c : Compaction υ) (hsrc : c.source = s.db) (K : KeysOk c.getKey (compactFlags c.source c.upgrade).legacyCrc)
    (hw : RewritesFit c.rewrite) (t : Db) (hc : compact E c = .ok t) :
    ∃ s' cm, History E c.getKey s' ∧ s'.db = t ∧ s'.done = [cm] ∧ s'.cands = [cm] ∧
      cm.timestamp = c.source.header.timestamp := by
  obtain ⟨t0, f', t1, h1, h2, h3, h4⟩ := compact_ok hs hsrc K hw hc
  exact ⟨_, _, .op h4 (.commitOk _ _ h3), rfl, rfl, rfl, rfl⟩

/-- Without callbacks, and with callbacks that do not fail, a compaction only fails if the new file cannot be created, a raw file
operation misbehaves or a limit of the format is hit. -/
theorem C26_compaction_succeeds (E : Env) (L : E.Laws) (getKey : KeyGetter) (s : Sys) (hs : History E getKey s)
    (c : Compaction υ) (hsrc : c.source = s.db) (hf : ∀ g, c.filter = some g → Reliable g)
    (hw : RewritesFit c.rewrite) (hw0 : c.filter = none → c.rewrite = none)
    (h1 : c.source.file.faults = []) (h2 : c.bodyFaults = []) (h3 : c.localFaults = []) (h4 : c.faults = [])
    (hk : ∀ f, c.getKey = some f → f [] = none) :
    (∃ t, compact E c = .ok t) ∨ compact E c = .error .formatLimit := by
  have K : KeysOk c.getKey (compactFlags c.source c.upgrade).legacyCrc :=
    ⟨fun f hf k hk' => by rw [hk f hf] at hk'; exact (nomatch hk'), fun _ f hf => hk f hf⟩
  cases hc : compact E c with
  | ok t => exact Or.inl ⟨t, rfl⟩
  | error e =>
    right
    obtain ⟨t, ht, htf⟩ := compact_creates (E := E) h4 hk
    rcases compact_error L hs hsrc K hw hw0 hc with ⟨f', h⟩ | ⟨t', f', h, hx⟩
    · rw [ht] at h; cases h
    · rw [ht] at h
      cases h
      rcases hx with h | h | h | h | h | h
      · exact absurd h1 h
      · exact absurd h2 h
      · exact absurd h3 h
      · exact absurd htf h
      · rw [h]
      · obtain ⟨g, hg, hn⟩ := h
        exact absurd (hf g hg) hn

/-! ### A compaction -/

/-- A database is created; three documents, of which one is a tombstone, and a local document are saved,
and all is committed. -/
def sourceFlags : OpenFlags := ⟨true, false, false, false, true, false, 64, 64⟩
def sourceItems : List SaveItem :=
  [sampleItem [98] (some [1, 2, 3]) 128, ⟨none, ⟨[97], 0, 2, [8], true, 0, 0, 0⟩, 5⟩, sampleItem [99] (some [4]) 0]
def kdb0 : Db := openedDb Env.toy sourceFlags none (crashedFile [] [])
def kdb1 : Db := after (saveDocuments Env.toy sampleOpts (some sampleCb) sourceItems []) kdb0
def kdb2 : Db := after (saveLocalDocument Env.toy ⟨[95], [1, 2], false⟩) kdb1
def kdb3 : Db := after (commit Env.toy 1000 (fun _ => false)) kdb2

theorem keyless (legacy : Bool) : KeysOk none legacy := ⟨(fun _ h => nomatch h), (fun _ _ h => nomatch h)⟩

theorem kdb0_eq : openDb Env.toy sourceFlags none [7, 7] (crashedFile [] []) = .ok kdb0 kdb0.file :=
  openDb_opened (by decide) (by decide +kernel)
theorem kdb1_eq : SaveArgs Env.toy kdb0 sampleOpts sourceItems := args_of (by decide +kernel)
theorem kdb2_eq : LocalArgs [⟨[95], [1, 2], false⟩] := ⟨by decide, by decide⟩
theorem kdb3_eq : commit Env.toy 1000 (fun _ => false) kdb2 = .ok () kdb3 := commit_after (by decide +kernel)

/-- The history, with handles of any kind. -/
def oneCommit (d0 d2 d3 : Db) : Sys :=
  { Sys.created d0 true with
    db := d3, commits := Commit.of d2 1000 :: (Sys.created d0 true).commits
    done := Commit.of d2 1000 :: (Sys.created d0 true).done, cands := [Commit.of d2 1000] }

theorem oneCommit_hist {E : Env} {flags : OpenFlags} {ctx : Bytes} {d0 d1 d2 d3 : Db} (ht : 2 ≤ flags.kvThr)
    (hn : flags.noCommitAtCreate = true)
    (h0 : openDb E flags none ctx (crashedFile [] []) = .ok d0 d0.file) (h1 : Step E d0 d1) (h2 : Step E d1 d2)
    (h3 : commit E 1000 (fun _ => false) d2 = .ok () d3) : History E none (oneCommit d0 d2 d3) := by
  have h := History.create flags ctx [] ht (keyless _) h0
  rw [hn] at h
  exact .op (.op (.op h (.step h1)) (.step h2)) (.commitOk 1000 _ h3)

theorem sourceHist : History Env.toy none (oneCommit kdb0 kdb2 kdb3) :=
  oneCommit_hist (flags := sourceFlags) (by decide) rfl kdb0_eq
    (.save sampleOpts (some sampleCb) sourceItems [] kdb1_eq) (.saveLocal _ kdb2_eq) kdb3_eq

/-- It is compacted. -/
def sampleCompaction (drop : Bool) (filter : Option (CompactFilter Nat)) : Compaction Nat :=
  { source := kdb3, dropDeletes := drop, upgrade := false, filter := filter, user := 0, getKey := none, ctx := []
    faults := [], bodyFaults := [], localFaults := [] }

/-- A filter that counts, and drops the documents whose body is shorter than three bytes; it does not ask
for the bodies of tombstones, which it keeps. -/
def sampleFilter : CompactFilter Nat := fun n d b =>
  match d, b with
  | none, _ => (n, .keep)
  | some d, none => (n + 1, if d.bp = 0 then .keep else .needBody)
  | some _, some b => (n + 10, if b.length < 3 then .drop else .keep)

theorem sampleFilter_asks : AsksForBodies sampleFilter := by
  intro u d h hb
  simp [sampleFilter, hb] at h

def outcome (r : Except Err Db) : Db :=
  match r with
  | .ok t => t
  | .error _ => kdb3

theorem outcome_ok {r : Except Err Db} (h : r.toOption.isSome = true) : r = .ok (outcome r) := by
  cases r with
  | ok t => rfl
  | error e => cases h

/-- The compaction with everything kept, -/
def cdb1 : Db := outcome (compact Env.toy (sampleCompaction false none))
/-- without the tombstones, -/
def cdb2 : Db := outcome (compact Env.toy (sampleCompaction true none))
/-- and with the filter. -/
def cdb3 : Db := outcome (compact Env.toy (sampleCompaction true (some sampleFilter)))

theorem cdb_ok : ((compact Env.toy (sampleCompaction false none)).toOption.isSome = true ∧
      (compact Env.toy (sampleCompaction true none)).toOption.isSome = true ∧
      (compact Env.toy (sampleCompaction true (some sampleFilter))).toOption.isSome = true) ∧
    kdb3.file.faults = [] ∧
    ((documents Env.toy cdb1).map fun d => (d.id, d.deleted)) = [([98], false), ([97], true), ([99], false)] ∧
    ((documents Env.toy cdb2).map fun d => (d.id, d.deleted)) = [([98], false), ([99], false)] ∧
    ((documents Env.toy cdb3).map fun d => (d.id, d.deleted)) = [([98], false), ([97], true)] ∧
    cdb1.header.timestamp = 1000 ∧ cdb2.header.timestamp = 1000 := by
  decide +kernel

theorem cdb1_eq : compact Env.toy (sampleCompaction false none) = .ok cdb1 := outcome_ok cdb_ok.1.1
theorem cdb2_eq : compact Env.toy (sampleCompaction true none) = .ok cdb2 := outcome_ok cdb_ok.1.2.1
theorem cdb3_eq : compact Env.toy (sampleCompaction true (some sampleFilter)) = .ok cdb3 := outcome_ok cdb_ok.1.2.2

attribute [local irreducible] kdb0 kdb1 kdb2 kdb3 cdb1 cdb2 cdb3

theorem sampleSource (drop : Bool) (filter : Option (CompactFilter Nat)) :
    (sampleCompaction drop filter).source = (oneCommit kdb0 kdb2 kdb3).db := rfl

example : ∃ t2, openDb Env.toy sampleFlags none [] (cdb1.file.reset []) = .ok t2 t2.file ∧
    HoldsWithout Env.toy kdb3 t2 (dropped false) kdb3.header.purgeSeq := by
  obtain ⟨t2, h1, h2, -⟩ := C26_compaction_keeps_contents Env.toy Env.toy_laws none _ sourceHist
    (sampleCompaction false none) (sampleSource _ _) (keyless _) rfl cdb1 cdb1_eq sampleFlags (sampleFlags_ok _) []
  exact ⟨t2, h1, h2⟩

example : ∃ t2, openDb Env.toy sampleFlags none [] (cdb2.file.reset []) = .ok t2 t2.file ∧
    HoldsWithout Env.toy kdb3 t2 (dropped true) (kdb3.header.purgeSeq + 1) := by
  obtain ⟨t2, h1, h2, -⟩ := C26_compaction_keeps_contents Env.toy Env.toy_laws none _ sourceHist
    (sampleCompaction true none) (sampleSource _ _) (keyless _) rfl cdb2 cdb2_eq sampleFlags (sampleFlags_ok _) []
  exact ⟨t2, h1, h2⟩

example : ∃ t2 u kept, openDb Env.toy sampleFlags none [] (cdb3.file.reset []) = .ok t2 t2.file ∧
    applyFilter sampleFilter (fun d => storedBodyOf Env.toy kdb3 d.id) 0 (documents Env.toy kdb3) = some (u, kept) := by
  obtain ⟨t2, u, kept, h1, h2, -⟩ := C26_compaction_with_filter Env.toy Env.toy_laws none _ sourceHist
    (sampleCompaction true (some sampleFilter)) (sampleSource _ _) (keyless _) sampleFilter rfl sampleFilter_asks rfl cdb3 cdb3_eq
    sampleFlags (sampleFlags_ok _) []
  exact ⟨t2, u, kept, h1, h2⟩

/-- In these files: three documents, of which one is a tombstone; the live ones; and, with the filter, which
drops the short body, one of these and the tombstone. -/
example : ((documents Env.toy cdb1).map fun d => (d.id, d.deleted)) = [([98], false), ([97], true), ([99], false)] ∧
    ((documents Env.toy cdb2).map fun d => (d.id, d.deleted)) = [([98], false), ([99], false)] ∧
    ((documents Env.toy cdb3).map fun d => (d.id, d.deleted)) = [([98], false), ([97], true)] ∧
    cdb1.header.timestamp = 1000 ∧ cdb2.header.timestamp = 1000 := cdb_ok.2.2

example : ∃ s' cm, History Env.toy none s' ∧ s'.db = cdb1 ∧ s'.done = [cm] ∧ s'.cands = [cm] ∧
    cm.timestamp = kdb3.header.timestamp :=
  C26_compacted_file_has_history Env.toy none _ sourceHist (sampleCompaction false none) (sampleSource _ _) (keyless _) (fun _ h => nomatch h) cdb1 cdb1_eq

theorem sampleFilter_reliable : Reliable sampleFilter := by
  refine ⟨sampleFilter_asks, fun u d e h => ?_, fun u d b => ?_, fun u e h => nomatch h⟩
  · unfold sampleFilter at h
    dsimp only at h
    split at h <;> cases h
  · unfold sampleFilter
    dsimp only
    split
    · exact Or.inr rfl
    · exact Or.inl rfl

example : (∃ t, compact Env.toy (sampleCompaction true (some sampleFilter)) = .ok t) ∨
    compact Env.toy (sampleCompaction true (some sampleFilter)) = .error .formatLimit :=
  C26_compaction_succeeds Env.toy Env.toy_laws none _ sourceHist (sampleCompaction true (some sampleFilter)) (sampleSource _ _)
    (fun g hg => by cases hg; exact sampleFilter_reliable) (rewritesFit_none rfl) (fun _ => rfl)
    cdb_ok.2.1 rfl rfl rfl (fun _ h => nomatch h)

end Couchstore.Props
