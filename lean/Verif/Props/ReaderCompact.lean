import Verif.Lemmas.ReaderCompact
import Verif.Props.Compact
import Verif.Props.Reader
import Verif.Props.CompactTool -- only to build one large module after another

/-! Compaction of a file that is being written. -/

namespace Couchstore.Props

variable {υ : Type}

/-- **C73, compaction while the file is being written**: the source of a compaction is a handle `r` that was opened on
the file at any time, as in `C73_reader_isolated`.  While the writer goes on in any way, the compaction reads `img`.  If it
succeeds, the new file can be opened, and it holds exactly what `r` showed in the beginning (but for the tombstones,
if they are to be dropped). -/
theorem C73_compaction_of_a_snapshot (E : Env) (L : E.Laws) (getKey : KeyGetter) (s s1 s2 : Sys) (hs : History E getKey s)
    (hop : s1 = s ∨ Op E getKey s s1) (log : List Event) (h1 : s.db.file.log <:+ log) (h2 : log <:+ s1.db.file.log)
    (flags : OpenFlags) (ctx : Bytes) (faults : List Fault) (ht : 2 ≤ flags.kvThr) (r : Db) (f' : File)
    (ho : openDb E flags getKey ctx (crashedFile (replay s.base log) faults) = .ok r f')
    (hops : Ops E getKey s1 s2) (img : Bytes) (hi : Seen s2 log img)
    (c : Compaction υ) (hsrc : c.source = r.over img) (K : KeysOk c.getKey (compactFlags c.source c.upgrade).legacyCrc)
    (hf : c.filter = none) (t : Db) (hc : compact E c = .ok t)
    (flags2 : OpenFlags) (ok : flags2.Ok (t.file.cfg.crcMode == .crc32)) (ctx2 : Bytes) :
    ∃ t2, openDb E flags2 c.getKey ctx2 (t.file.reset []) = .ok t2 t2.file ∧
      HoldsWithout E r t2 (fun d => c.dropDeletes && d.deleted)
        (if c.dropDeletes then r.header.purgeSeq + 1 else r.header.purgeSeq) := by
  obtain ⟨⟨same, -⟩, ids, seqs, locs, S⟩ := reader_spec L (hs.hist L) hop h1 h2 flags ctx faults ht ho hops hi
  rw [← hsrc] at same S
  obtain ⟨t2, k1, k2⟩ := compact_handle L c S K hf hc flags2 ok ctx2
  have hh : c.source.header = r.header := by rw [hsrc]; rfl
  rw [hh] at k2
  exact ⟨t2, k1, k2.same same⟩

/-! ### A compaction during a save -/

/-- After the commit of the sample another document is saved, which is not committed; meanwhile a handle that was opened
after the commit is compacted. -/
def kdb4 : Db := after (saveDocuments Env.toy sampleOpts (some sampleCb) [sampleItem [100] (some [9]) 0] []) kdb3
def kreader : Db := openedDb Env.toy sampleFlags none (crashedFile kdb3.file.disk [])
def snapCompaction : Compaction Nat := { sampleCompaction true none with source := kreader.over kdb4.file.disk }
def sdb : Db := outcome (compact Env.toy snapCompaction)

theorem kdb4_args : SaveArgs Env.toy kdb3 sampleOpts [sampleItem [100] (some [9]) 0] := args_of (by decide +kernel)
theorem kreader_eq : openDb Env.toy sampleFlags none [7, 7] (crashedFile kdb3.file.disk []) = .ok kreader kreader.file :=
  openDb_opened (by decide) (by decide +kernel)
theorem snap_ok : (compact Env.toy snapCompaction).toOption.isSome = true ∧
    ((documents Env.toy sdb).map fun d => (d.id, d.deleted)) = [([98], false), ([99], false)] := by
  decide +kernel
theorem sdb_eq : compact Env.toy snapCompaction = .ok sdb := outcome_ok snap_ok.1
theorem kdb4_step : Step Env.toy kdb3 kdb4 := .save sampleOpts (some sampleCb) [sampleItem [100] (some [9]) 0] [] kdb4_args

theorem snap_sample {E : Env} (L : E.Laws) {d0 d2 d3 d4 r t : Db} {f' : File} {flags : OpenFlags} {c : Compaction υ}
    (hs : History E none (oneCommit d0 d2 d3)) (h4 : Step E d3 d4) (ht : 2 ≤ flags.kvThr)
    (ho : openDb E flags none [7, 7] (crashedFile d3.file.disk []) = .ok r f') (hsrc : c.source = r.over d4.file.disk)
    (hk : c.getKey = none) (hf : c.filter = none) (hc : compact E c = .ok t) (flags2 : OpenFlags) (ok : ∀ b, flags2.Ok b) :
    ∃ t2, openDb E flags2 none [] (t.file.reset []) = .ok t2 t2.file ∧
      HoldsWithout E r t2 (fun d => c.dropDeletes && d.deleted)
        (if c.dropDeletes then r.header.purgeSeq + 1 else r.header.purgeSeq) := by
  have H3 := hs.hist L
  have ops : Ops E none (oneCommit d0 d2 d3) { oneCommit d0 d2 d3 with db := d4 } := .tail .refl (.step h4)
  obtain ⟨H4, W⟩ := ops.went L H3
  obtain ⟨evs, e1, _⟩ := W.evs
  have hr : d3.file.disk = replay [] d3.file.log := H3.replay
  have hr4 : d4.file.disk = replay [] d4.file.log := H4.replay
  rw [hr] at ho
  have := C73_compaction_of_a_snapshot E L none _ _ _ hs (Or.inl rfl) d3.file.log (List.suffix_refl _) (List.suffix_refl _)
    flags [7, 7] [] ht r f' ho ops d4.file.disk
    (fun i => ⟨_, ⟨evs, e1.symm⟩, List.suffix_refl _, by rw [hr4]; rfl⟩) c hsrc (by rw [hk]; exact keyless _) hf t hc flags2 (ok _) []
  rw [hk] at this
  exact this

attribute [local irreducible] kdb0 kdb1 kdb2 kdb3 kdb4 kreader sdb

theorem snap_source : snapCompaction.source = kreader.over kdb4.file.disk := rfl

example : ∃ t2, openDb Env.toy sampleFlags none [] (sdb.file.reset []) = .ok t2 t2.file ∧
    HoldsWithout Env.toy kreader t2 (fun d => true && d.deleted) (kreader.header.purgeSeq + 1) :=
  snap_sample Env.toy_laws sourceHist kdb4_step (flags := sampleFlags) (by decide) kreader_eq snap_source rfl rfl sdb_eq
    sampleFlags sampleFlags_ok

end Couchstore.Props
