import Verif.Lemmas.CompactRewrite
import Verif.Props.Compact
-- only so that the two are not built at the same time, which takes too much memory
import Verif.Props.Recover

/-! Property theorem C60: compaction that changes the metadata of documents. -/

namespace Couchstore.Props

open Couchstore

variable {υ : Type}

/-! ## C60 Metadata changed while compacting -/

/-- A successful compaction with a filter and a callback that gives documents other metadata makes a file that
can be opened, and that holds exactly the documents that the filter keeps, each with the metadata that the
callback gave it when it was shown the document and its body as they are stored in the source; everything else
(ids, sequence numbers, revision numbers, flags, bodies, local documents, the last sequence number, the timestamp) is as in the
source. -/
theorem C60_compaction_with_other_metadata (E : Env) (L : E.Laws) (getKey : KeyGetter) (s : Sys) (hs : History E getKey s)
    (c : Compaction υ) (hsrc : c.source = s.db) (K : KeysOk c.getKey (compactFlags c.source c.upgrade).legacyCrc)
    (g : CompactFilter υ) (hf : c.filter = some g) (hg : AsksForBodies g) (w : DocInfoRewrite υ) (hrw : c.rewrite = some w)
    (hfit : ∀ u d b d', d.id.length < 4096 → (w u d b).2 = some d' → 23 + d.id.length + d'.revMeta.length < 2 ^ 28)
    (t : Db) (hc : compact E c = .ok t)
    (flags : OpenFlags) (ok : flags.Ok (t.file.cfg.crcMode == .crc32)) (ctx : Bytes) :
    ∃ t2 u kept, openDb E flags c.getKey ctx (t.file.reset []) = .ok t2 t2.file ∧
      applyCallbacks g w (fun d => storedBodyOf E c.source d.id) c.user (documents E c.source) = some (u, kept) ∧
      HoldsWithMeta E c.source t2 kept
        (if c.dropDeletes then c.source.header.purgeSeq + 1 else c.source.header.purgeSeq) ∧
      (11 < c.source.header.diskVersion ∨ c.upgrade = true → t2.header.timestamp = c.source.header.timestamp) := by
  have hw : RewritesFit c.rewrite := by
    intro x hx
    rw [hrw] at hx
    cases hx
    exact hfit
  obtain ⟨t0, f', t1, h1, h2, h3, h4⟩ := compact_ok hs hsrc K hw hc
  obtain ⟨ids, seqs, locs, S⟩ := (hs.hist L).handle
  rw [← hsrc] at S
  obtain ⟨_, T, hv⟩ := created_hist (compactFlags_thr _ _) K h1
  obtain ⟨u, kept, moved, ids', k1, k2, k3, F, hh⟩ := (compactFill_spec E L c hw S t0 T).ok h2
  rw [hf, hrw] at k1
  have hmem : ∀ e ∈ seqs, e ∈ ids := fun e he => S.inv.perm.mem_iff.mp he
  have happ := k1.callbacks hg (body := fun d => storedBodyOf E c.source d.id)
    (fun e he => storedBodyOf_eq L S.inv S.opened (hmem e he)) (by
      intro e he hr
      have := S.inv.body e (hmem e he)
      unfold BodyAt at this
      rw [hr] at this
      exact this.1)
  rw [← documents_eq L S.inv S.opened] at happ
  obtain ⟨pre, hp1, hp2⟩ := k1.before
  have hcfg : t.file.cfg = t1.file.cfg := by
    obtain ⟨e1, m, C⟩ := (commit_spec E _ _ t1 hh).ok h3
    exact C.cfg
  obtain ⟨t2, r1, r2, r3, r4, r5, -, -⟩ := C20_commit_reopen E L c.getKey _ h4 _ _ t h3 flags (by rw [← hcfg]; exact ok) ctx
  refine ⟨t2, u, kept.map (·.info), r1, happ, ?_, ?_⟩
  · have hu : t1.header.updateSeq = c.source.header.updateSeq := by rw [F.same]
    have hp : t1.header.purgeSeq =
        if c.dropDeletes then c.source.header.purgeSeq + 1 else c.source.header.purgeSeq := by rw [F.same]
    rw [← hp]
    intro q hq
    rw [r3 q hq, r2 q hq]
    exact holds_with_meta L S.inv S.opened hh.inv hh.opened hp1 hp2 k2 hu q hq
  · intro hver
    have hd : t1.header.diskVersion = t0.header.diskVersion := by rw [F.same]
    have hleg : (compactFlags c.source c.upgrade).legacyCrc = false := by
      show (decide (c.source.header.diskVersion ≤ 11) && !c.upgrade) = false
      rcases hver with h | h
      · rw [decide_eq_false (by omega)]; rfl
      · rw [h]; simp
    rw [r5, r4]
    show (if 13 ≤ t1.header.diskVersion then _ else _) = _
    rw [hd, hv rfl, hleg]
    rfl

/-- Without a filter such a callback is not accepted: nothing is compacted. -/
theorem C60_callback_needs_filter (E : Env) (c : Compaction υ) (hf : c.filter = none) (w : DocInfoRewrite υ)
    (hrw : c.rewrite = some w) : compact E c = .error .logicError := by
  unfold compact
  rw [hf, hrw]
  rfl

/-! ### A compaction -/

/-- A callback that puts what it counted and the first byte of the body before the metadata; bodies of fewer
than three bytes leave the metadata as it is, but are counted too. -/
def sampleRewrite : DocInfoRewrite Nat := fun n d b =>
  (n + 100, if b.length < 3 then none else
    some { d with revMeta := UInt8.ofNat n :: b.headD 0 :: (d.revMeta.take 100), id := [1, 2], dbSeq := 77 })

/-- The new metadata is short. -/
theorem sampleRewrite_fits : ∀ u d b d', d.id.length < 4096 → (sampleRewrite u d b).2 = some d' →
    23 + d.id.length + d'.revMeta.length < 2 ^ 28 := by
  intro u d b d' hd h
  unfold sampleRewrite at h
  dsimp only at h
  split at h
  · cases h
  · cases h
    simp only [List.length_cons, List.length_take]
    omega

/-- A filter that keeps everything except the second document. -/
def sampleFilter2 : CompactFilter Nat := fun n d _ =>
  match d with
  | none => (n, .keep)
  | some _ => (n + 1, if n = 101 then .drop else .keep)

theorem sampleFilter2_asks : AsksForBodies sampleFilter2 := by
  intro u d h
  simp only [sampleFilter2] at h
  split at h <;> cases h

/-- The database with three documents is compacted with them. -/
def rewriteCompaction : Compaction Nat :=
  { sampleCompaction false (some sampleFilter2) with rewrite := some sampleRewrite }

def wdb : Db := outcome (compact Env.toy rewriteCompaction)

theorem wdb_ok : (compact Env.toy rewriteCompaction).toOption.isSome = true ∧
    ((documents Env.toy kdb3).map fun d => (d.id, d.revMeta, d.dbSeq, storedBodyOf Env.toy kdb3 d.id)) =
      [([98], [9], 1, some [7, 1, 2, 3]), ([97], [8], 2, none), ([99], [9], 3, some [4])] ∧
    ((documents Env.toy wdb).map fun d => (d.id, d.revMeta, d.dbSeq, storedBodyOf Env.toy wdb d.id)) =
      [([98], [1, 7, 9], 1, some [7, 1, 2, 3]), ([99], [9], 3, some [4])] := by
  decide +kernel

theorem wdb_eq : compact Env.toy rewriteCompaction = .ok wdb := outcome_ok wdb_ok.1

attribute [local irreducible] kdb0 kdb1 kdb2 kdb3 wdb

/-- The hypotheses are met by this compaction. -/
example : ∃ t2 u kept, openDb Env.toy sampleFlags none [] (wdb.file.reset []) = .ok t2 t2.file ∧
    applyCallbacks sampleFilter2 sampleRewrite (fun d => storedBodyOf Env.toy kdb3 d.id) 0 (documents Env.toy kdb3) =
      some (u, kept) ∧ HoldsWithMeta Env.toy kdb3 t2 kept kdb3.header.purgeSeq := by
  obtain ⟨t2, u, kept, h1, h2, h3, -⟩ := C60_compaction_with_other_metadata Env.toy Env.toy_laws none _ sourceHist
    rewriteCompaction rfl (keyless _) sampleFilter2 rfl sampleFilter2_asks sampleRewrite rfl sampleRewrite_fits wdb wdb_eq
    sampleFlags (sampleFlags_ok _) []
  exact ⟨t2, u, kept, h1, h2, h3⟩

/-- Of three documents, the second is dropped; the first has got other metadata, and what else the callback
changed in its copy of the document info has no effect. -/
example : ((documents Env.toy wdb).map fun d => (d.id, d.revMeta, d.dbSeq, storedBodyOf Env.toy wdb d.id)) =
    [([98], [1, 7, 9], 1, some [7, 1, 2, 3]), ([99], [9], 3, some [4])] := wdb_ok.2.2

/-- The file that was made has a history like every other one. -/
example : ∃ s' cm, History Env.toy none s' ∧ s'.db = wdb ∧ s'.done = [cm] ∧ s'.cands = [cm] ∧
    cm.timestamp = kdb3.header.timestamp :=
  C26_compacted_file_has_history Env.toy none _ sourceHist rewriteCompaction rfl (keyless _)
    (fun w h => by cases h; exact sampleRewrite_fits) wdb wdb_eq

example : compact Env.toy { sampleCompaction false none with rewrite := some sampleRewrite } = .error .logicError :=
  C60_callback_needs_filter Env.toy _ rfl sampleRewrite rfl

end Couchstore.Props
