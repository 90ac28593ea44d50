import Verif.Lemmas.CompactHook
import Verif.Props.Compact
-- only so that the two are not built at the same time, which takes too much memory
import Verif.Props.Replay

/-! C70: the hooks of compaction. -/

namespace Couchstore.Props

variable {υ : Type}

/-- The parts of a successful compaction: the target that the hook gets, `t0`, is the compacted database, with the purge sequence number
that the filter has set; what the hook makes of it is what is found in the file. -/
theorem hooked_base {E : Env} (L : E.Laws) {getKey : KeyGetter} {s : Sys} (hs : History E getKey s)
    {c : HookedCompaction υ} (hsrc : c.source = s.db) (K : KeysOk c.getKey (compactFlags c.source c.upgrade).legacyCrc)
    (hrw : c.rewrite = none)
    (hcalls : ∀ t0 gone p, Reachable E t0 → HoldsWithout E c.source t0 gone p →
      HookCalls E t0 (after (runPrecommit c.hook c.source) t0))
    {t : Db} (hc : compactHooked E c = .ok t) :
    ∃ tt t0 t2 u kept ids seqs locs, Handle E c.source ids seqs locs ∧
      Kept c.dropDeletes c.filter none c.user seqs u kept ∧
      kept = seqs.filter (fun e => !(!(kept.map (·.info)).contains e.info)) ∧
      (∀ gone : DocInfo → Bool, kept = seqs.filter (fun e => !gone e.info) → HoldsWithout E c.source t0 gone
        ((c.purge (lastFilterState c.toCompaction u)).getD (purgeSeqOf c.toCompaction))) ∧
      runPrecommit c.hook c.source t0 = .ok () t2 ∧ History E c.getKey { Sys.created tt true with db := t2 } ∧
      commit E c.source.header.timestamp (fun _ => false) t2 = .ok () t ∧
      (11 < c.source.header.diskVersion ∨ c.upgrade = true → 13 ≤ t2.header.diskVersion) := by
  have hw := rewritesFit_none hrw
  obtain ⟨tt, f', r, t1, t2, h1, h2, h3, h4⟩ := compactHooked_ok hc
  obtain ⟨ids, seqs, locs, S⟩ := (hs.hist L).handle
  rw [← hsrc] at S
  obtain ⟨_, T, hv⟩ := created_hist (compactFlags_thr _ _) K h1
  obtain ⟨u, kept, moved, ids', hr, k1, k2, k3, F, hh⟩ := (hookedFill_spec E L c.toCompaction hw S tt T).ok h2
  have Hfill : History E c.getKey { Sys.created tt true with db := t1 } :=
    .compact c.toCompaction hs hsrc K h1 hw (hookedFill_ok h2)
  have Hpurge := (HookCalls.ofPurge (E := E) (a := t1) (c.purge r)).history Hfill
  rw [hrw] at k1
  have hn : (seqs.map (·.info)).Nodup := by
    have := sorted_seqs_nodup S.inv.seqSorted
    unfold List.Nodup at this ⊢
    rw [List.pairwise_map] at this ⊢
    exact this.imp fun h he => h (by rw [he])
  have k4 := sublist_filter k1.sublist hn
  have hu : t1.header.updateSeq = c.source.header.updateSeq := by rw [F.same]
  have hp : t1.header.purgeSeq = purgeSeqOf c.toCompaction := by rw [F.same]; rfl
  have hholds : ∀ gone : DocInfo → Bool, kept = seqs.filter (fun e => !gone e.info) →
      HoldsWithout E c.source (after (setPurgeIf (c.purge r)) t1) gone ((c.purge r).getD (purgeSeqOf c.toCompaction)) := by
    intro gone hgone
    rw [hgone] at k2
    cases hpr : c.purge r with
    | none =>
      have := holds_of_copy L S.inv S.opened hh.inv hh.opened k2 hu
      rw [hp] at this
      exact this
    | some n =>
      have i := hh.inv
      have i' : Inv E (after (setPurgeSeq n) t1) ids' moved locs := ⟨i.wf, i.pos, i.thr, i.idRoot, i.seqRoot, i.locRoot, i.idSorted,
        i.seqSorted, i.locSorted, i.perm, i.ok, i.upd, i.updLt, i.body, i.few⟩
      exact holds_of_copy L S.inv S.opened i' hh.opened k2 hu
  have hreach : Reachable E (after (setPurgeIf (c.purge r)) t1) := ⟨_, .inr ⟨_, _, Hpurge, rfl⟩, .refl⟩
  have hcl := hcalls _ _ _ hreach (hholds (fun d => !(kept.map (·.info)).contains d) k4)
  have ha : after (runPrecommit c.hook c.source) (after (setPurgeIf (c.purge r)) t1) = t2 := by
    unfold after at h3 ⊢
    rw [h3]
  rw [ha] at hcl
  have Hhook := hcl.history Hpurge
  refine ⟨tt, _, t2, u, kept, ids, seqs, locs, S, k1, k4, hr ▸ hholds, h3, Hhook, h4, ?_⟩
  intro hver
  have hd : t2.header.diskVersion = tt.header.diskVersion := by
    have e1 := hcl.version L Hpurge
    have e2 := (HookCalls.ofPurge (E := E) (a := t1) (c.purge r)).version L Hfill
    rw [e1]
    refine e2.trans ?_
    show t1.header.diskVersion = _
    rw [F.same]
  have hleg : (compactFlags c.source c.upgrade).legacyCrc = false := by
    show (decide (c.source.header.diskVersion ≤ 11) && !c.upgrade) = false
    rcases hver with h | h
    · rw [decide_eq_false (by omega)]; rfl
    · rw [h]; simp
  rw [hd, hv rfl, hleg]
  decide

theorem hooked_parts {E : Env} (L : E.Laws) {getKey : KeyGetter} {s : Sys} (hs : History E getKey s)
    {c : HookedCompaction υ} (hsrc : c.source = s.db) (K : KeysOk c.getKey (compactFlags c.source c.upgrade).legacyCrc)
    (hrw : c.rewrite = none)
    (hcalls : ∀ t0 gone p, Reachable E t0 → HoldsWithout E c.source t0 gone p →
      HookCalls E t0 (after (runPrecommit c.hook c.source) t0))
    {t : Db} (hc : compactHooked E c = .ok t)
    (flags : OpenFlags) (ok : flags.Ok (t.file.cfg.crcMode == .crc32)) (ctx : Bytes) :
    ∃ t0 t1 t2 u kept ids seqs locs, Handle E c.source ids seqs locs ∧
      Kept c.dropDeletes c.filter none c.user seqs u kept ∧
      kept = seqs.filter (fun e => !(!(kept.map (·.info)).contains e.info)) ∧
      (∀ gone : DocInfo → Bool, kept = seqs.filter (fun e => !gone e.info) → HoldsWithout E c.source t0 gone
        ((c.purge (lastFilterState c.toCompaction u)).getD (purgeSeqOf c.toCompaction))) ∧
      runPrecommit c.hook c.source t0 = .ok () t1 ∧
      openDb E flags c.getKey ctx (t.file.reset []) = .ok t2 t2.file ∧ SameAnswers E t1 t2 ∧
      (11 < c.source.header.diskVersion ∨ c.upgrade = true → t2.header.timestamp = c.source.header.timestamp) := by
  obtain ⟨tt, t0, t2, u, kept, ids, seqs, locs, S, k1, k4, hholds, h3, Hhook, h4, hver⟩ := hooked_base L hs hsrc K hrw hcalls hc
  obtain ⟨i1, i2, i3, hh3⟩ := (Hhook.hist L).handle
  have hcfg : t.file.cfg = t2.file.cfg := by
    obtain ⟨e1, m, C⟩ := (commit_spec E _ _ t2 hh3).ok h4
    exact C.cfg
  obtain ⟨t3, r1, r2, r3, r4, r5, -, -⟩ := C20_commit_reopen E L c.getKey _ Hhook _ _ t h4 flags (by rw [← hcfg]; exact ok) ctx
  refine ⟨t0, t2, t3, u, kept, ids, seqs, locs, S, k1, k4, hholds, h3, r1, fun q hq => (r3 q hq).trans (r2 q hq), fun h => ?_⟩
  rw [r5, r4]
  exact if_pos (hver h)

/-- The filter is shown the documents of the source. -/
theorem filter_applied {E : Env} (L : E.Laws) {db : Db} {ids seqs locs} (S : Handle E db ids seqs locs) {g : CompactFilter υ}
    (hg : AsksForBodies g) {drop : Bool} {u0 u : υ} {kept : List Entry} (k1 : Kept drop (some g) none u0 seqs u kept) :
    applyFilter g (fun d => storedBodyOf E db d.id) u0 (documents E db) = some (u, kept.map (·.info)) := by
  have hmem : ∀ e ∈ seqs, e ∈ ids := fun e he => S.inv.perm.mem_iff.mp he
  have happ := k1.filter hg (body := fun d => storedBodyOf E db d.id)
    (fun e he => storedBodyOf_eq L S.inv S.opened (hmem e he)) (by
      intro e he hr
      have := S.inv.body e (hmem e he)
      unfold BodyAt at this
      rw [hr] at this
      exact this.1)
  rw [← documents_eq L S.inv S.opened] at happ
  exact happ

theorem compactHooked_rewrite {E : Env} {c : HookedCompaction υ} {t' : Db} (hc : compactHooked E c = .ok t') (hf : c.filter = none) :
    c.rewrite = none := by
  unfold compactHooked at hc
  cases hw : c.rewrite with
  | none => rfl
  | some w => rw [hf, hw] at hc; cases hc

/-- What a hook does before the commit is part of the compacted file: the hook gets a database that holds what is left of the source
when the filter has dropped documents, and what it makes of it is what the file holds afterwards. -/
theorem C70_hook_is_committed (E : Env) (L : E.Laws) (getKey : KeyGetter) (s : Sys) (hs : History E getKey s)
    (c : HookedCompaction υ) (hsrc : c.source = s.db) (K : KeysOk c.getKey (compactFlags c.source c.upgrade).legacyCrc)
    (g : CompactFilter υ) (hf : c.filter = some g) (hg : AsksForBodies g) (hrw : c.rewrite = none)
    (hook : PrecommitHook) (hh : c.hook = some hook)
    (hcalls : ∀ t0 gone p, Reachable E t0 → HoldsWithout E c.source t0 gone p → HookCalls E t0 (after (hook c.source) t0))
    (t : Db) (hc : compactHooked E c = .ok t)
    (flags : OpenFlags) (ok : flags.Ok (t.file.cfg.crcMode == .crc32)) (ctx : Bytes) :
    ∃ t0 t1 t2 u kept,
      applyFilter g (fun d => storedBodyOf E c.source d.id) c.user (documents E c.source) = some (u, kept) ∧
      HoldsWithout E c.source t0 (fun d => !kept.contains d) ((c.purge (g u none none).1).getD (purgeSeqOf c.toCompaction)) ∧
      hook c.source t0 = .ok () t1 ∧
      openDb E flags c.getKey ctx (t.file.reset []) = .ok t2 t2.file ∧ SameAnswers E t1 t2 ∧
      (11 < c.source.header.diskVersion ∨ c.upgrade = true → t2.header.timestamp = c.source.header.timestamp) := by
  obtain ⟨t0, t1, t2, u, kept, ids, seqs, locs, S, k1, k4, k5, k6, k7, k8, k9⟩ := hooked_parts L hs hsrc K hrw
    (by rw [hh]; exact hcalls) hc flags ok ctx
  have hst : lastFilterState c.toCompaction u = (g u none none).1 := by unfold lastFilterState; rw [hf]
  rw [hst] at k5
  rw [hf] at k1
  rw [hh] at k6
  exact ⟨t0, t1, t2, u, kept.map (·.info), filter_applied L S hg k1, k5 (fun d => !(kept.map (·.info)).contains d) k4, k6, k7, k8, k9⟩

/-- The same without a filter. -/
theorem C70_hook_is_committed_without_filter (E : Env) (L : E.Laws) (getKey : KeyGetter) (s : Sys) (hs : History E getKey s)
    (c : HookedCompaction υ) (hsrc : c.source = s.db) (K : KeysOk c.getKey (compactFlags c.source c.upgrade).legacyCrc)
    (hf : c.filter = none) (hp : ∀ u, c.purge u = none)
    (hook : PrecommitHook) (hh : c.hook = some hook)
    (hcalls : ∀ t0 gone p, Reachable E t0 → HoldsWithout E c.source t0 gone p → HookCalls E t0 (after (hook c.source) t0))
    (t : Db) (hc : compactHooked E c = .ok t)
    (flags : OpenFlags) (ok : flags.Ok (t.file.cfg.crcMode == .crc32)) (ctx : Bytes) :
    ∃ t0 t1 t2, HoldsWithout E c.source t0 (dropped c.dropDeletes) (purgeSeqOf c.toCompaction) ∧ hook c.source t0 = .ok () t1 ∧
      openDb E flags c.getKey ctx (t.file.reset []) = .ok t2 t2.file ∧ SameAnswers E t1 t2 ∧
      (11 < c.source.header.diskVersion ∨ c.upgrade = true → t2.header.timestamp = c.source.header.timestamp) := by
  obtain ⟨t0, t1, t2, u, kept, ids, seqs, locs, S, k1, k4, k5, k6, k7, k8, k9⟩ := hooked_parts L hs hsrc K (compactHooked_rewrite hc hf)
    (by rw [hh]; exact hcalls) hc flags ok ctx
  rw [hp] at k5
  rw [hf] at k1
  rw [hh] at k6
  exact ⟨t0, t1, t2, k5 _ k1.noFilter.2, k6, k7, k8, k9⟩

/-- A filter that sets the purge sequence number of the new file finds it there; everything else is as without that. -/
theorem C70_filter_sets_purge_seq (E : Env) (L : E.Laws) (getKey : KeyGetter) (s : Sys) (hs : History E getKey s)
    (c : HookedCompaction υ) (hsrc : c.source = s.db) (K : KeysOk c.getKey (compactFlags c.source c.upgrade).legacyCrc)
    (g : CompactFilter υ) (hf : c.filter = some g) (hg : AsksForBodies g) (hrw : c.rewrite = none) (hh : c.hook = none)
    (t : Db) (hc : compactHooked E c = .ok t)
    (flags : OpenFlags) (ok : flags.Ok (t.file.cfg.crcMode == .crc32)) (ctx : Bytes) :
    ∃ t2 u kept, openDb E flags c.getKey ctx (t.file.reset []) = .ok t2 t2.file ∧
      applyFilter g (fun d => storedBodyOf E c.source d.id) c.user (documents E c.source) = some (u, kept) ∧
      HoldsWithout E c.source t2 (fun d => !kept.contains d) ((c.purge (g u none none).1).getD (purgeSeqOf c.toCompaction)) := by
  obtain ⟨t0, t1, t2, u, kept, ids, seqs, locs, S, k1, k4, k5, k6, k7, k8, k9⟩ := hooked_parts L hs hsrc K hrw
    (by rw [hh]; exact fun _ _ _ _ _ => .refl) hc flags ok ctx
  have hst : lastFilterState c.toCompaction u = (g u none none).1 := by unfold lastFilterState; rw [hf]
  rw [hst] at k5
  rw [hf] at k1
  rw [hh] at k6
  cases k6
  exact ⟨t2, u, kept.map (·.info), k7, filter_applied L S hg k1, fun q hq => by rw [k8 q hq]; exact k5 (fun d => !(kept.map (·.info)).contains d) k4 q hq⟩

/-- If the hook fails, so does the compaction, with its error. -/
theorem C70_failing_hook (E : Env) (c : HookedCompaction υ) (hook : PrecommitHook) (hh : c.hook = some hook) (e : Err)
    (hfail : ∀ t0, ∃ t1, hook c.source t0 = .error e t1) (t : Db) (hc : compact E c.toCompaction = .ok t) :
    compactHooked E c = .error e := compactHooked_fails hh hfail hc

/-- With a hook that does nothing, or none, compaction is that of the other properties. -/
theorem C70_idle_hook (E : Env) (c : HookedCompaction υ) (hp : ∀ u, c.purge u = none)
    (hh : c.hook = none ∨ c.hook = some fun _ => pure ()) : compactHooked E c = compact E c.toCompaction :=
  compactHooked_plain c hp hh

/-- The compacted file is like any other one: its final commit is part of a history. -/
theorem C70_compacted_file_has_history (E : Env) (L : E.Laws) (getKey : KeyGetter) (s : Sys) (hs : History E getKey s)
    (c : HookedCompaction υ) (hsrc : c.source = s.db) (K : KeysOk c.getKey (compactFlags c.source c.upgrade).legacyCrc)
    (hrw : c.rewrite = none) (hook : PrecommitHook) (hh : c.hook = some hook)
    (hcalls : ∀ t0 gone p, Reachable E t0 → HoldsWithout E c.source t0 gone p → HookCalls E t0 (after (hook c.source) t0))
    (t : Db) (hc : compactHooked E c = .ok t) :
    ∃ s' cm, History E c.getKey s' ∧ s'.db = t ∧ s'.done = [cm] ∧ s'.cands = [cm] ∧ cm.timestamp = c.source.header.timestamp := by
  obtain ⟨tt, t0, t2, u, kept, ids, seqs, locs, S, k1, k4, hholds, h3, Hhook, h4, hver⟩ := hooked_base L hs hsrc K hrw
    (by rw [hh]; exact hcalls) hc
  exact ⟨_, _, .op Hhook (.commitOk _ _ h4), rfl, rfl, rfl, rfl⟩

/-! ### A sample -/

/-- A hook that saves a local document and sets the purge sequence number. -/
def sampleHook : PrecommitHook := fun _ => do
  saveLocalDocument Env.toy ⟨[96], [5, 6], false⟩
  setPurgeSeq 33

theorem sampleHook_calls (src t0 : Db) : HookCalls Env.toy t0 (after (sampleHook src) t0) := by
  have h1 : HookCalls Env.toy t0 (after (saveLocalDocument Env.toy ⟨[96], [5, 6], false⟩) t0) :=
    .step .refl (.saveLocal _ ⟨by decide, by decide⟩)
  unfold sampleHook
  cases h : saveLocalDocument Env.toy ⟨[96], [5, 6], false⟩ t0 with
  | error e d =>
    have : after (do saveLocalDocument Env.toy ⟨[96], [5, 6], false⟩; setPurgeSeq 33) t0 = d := by
      unfold after
      rw [bind_error h]
    rw [this]
    unfold after at h1
    rw [h] at h1
    exact h1
  | ok a d =>
    have : after (do saveLocalDocument Env.toy ⟨[96], [5, 6], false⟩; setPurgeSeq 33) t0 = after (setPurgeSeq 33) d := by
      unfold after
      rw [bind_ok h]
    rw [this]
    unfold after at h1
    rw [h] at h1
    exact .setPurgeSeq 33 h1

/-- The sample of C26 with this hook; the filter, which counts, sets its count before. -/
def hookedSample (hook : Option PrecommitHook) : HookedCompaction Nat :=
  { sampleCompaction true (some sampleFilter) with purge := fun n => some n, hook := hook }

def cdb4 : Db := outcome (compactHooked Env.toy (hookedSample (some sampleHook)))
def cdb5 : Db := outcome (compactHooked Env.toy (hookedSample none))

theorem cdb45_ok : (compactHooked Env.toy (hookedSample (some sampleHook))).toOption.isSome = true ∧
    (compactHooked Env.toy (hookedSample none)).toOption.isSome = true ∧
    (answer (openLocalDocument Env.toy [96]) cdb4).toOption.isSome = true ∧ cdb4.header.purgeSeq = 33 ∧
    (answer (openLocalDocument Env.toy [96]) cdb5).toOption.isSome = false ∧ cdb5.header.purgeSeq = 23 := by
  decide +kernel

theorem cdb4_eq : compactHooked Env.toy (hookedSample (some sampleHook)) = .ok cdb4 := outcome_ok cdb45_ok.1
theorem cdb5_eq : compactHooked Env.toy (hookedSample none) = .ok cdb5 := outcome_ok cdb45_ok.2.1

attribute [local irreducible] kdb0 kdb1 kdb2 kdb3 cdb1 cdb2 cdb3 cdb4 cdb5

example : ∃ t0 t1 t2, sampleHook kdb3 t0 = .ok () t1 ∧
    openDb Env.toy sampleFlags none [] (cdb4.file.reset []) = .ok t2 t2.file ∧ SameAnswers Env.toy t1 t2 := by
  obtain ⟨t0, t1, t2, u, kept, -, -, h1, h2, h3, -⟩ := C70_hook_is_committed Env.toy Env.toy_laws none _ sourceHist
    (hookedSample (some sampleHook)) (sampleSource true (some sampleFilter)) (keyless _) sampleFilter rfl sampleFilter_asks rfl sampleHook rfl
    (fun t0 _ _ _ _ => sampleHook_calls _ t0) cdb4 cdb4_eq sampleFlags (sampleFlags_ok _) []
  exact ⟨t0, t1, t2, h1, h2, h3⟩

example : ∃ t2 u kept, openDb Env.toy sampleFlags none [] (cdb5.file.reset []) = .ok t2 t2.file ∧
    applyFilter sampleFilter (fun d => storedBodyOf Env.toy kdb3 d.id) 0 (documents Env.toy kdb3) = some (u, kept) ∧
    HoldsWithout Env.toy kdb3 t2 (fun d => !kept.contains d) u :=
  C70_filter_sets_purge_seq Env.toy Env.toy_laws none _ sourceHist
    (hookedSample none) (sampleSource true (some sampleFilter)) (keyless _) sampleFilter rfl sampleFilter_asks rfl rfl
    cdb5 cdb5_eq sampleFlags (sampleFlags_ok _) []

/-- Without a filter. -/
def hookedSample2 : HookedCompaction Nat :=
  { sampleCompaction true none with purge := fun _ => none, hook := some sampleHook }

def cdb6 : Db := outcome (compactHooked Env.toy hookedSample2)

theorem cdb6_ok : (compactHooked Env.toy hookedSample2).toOption.isSome = true ∧ cdb6.header.purgeSeq = 33 := by
  decide +kernel

example : ∃ t0 t1 t2, HoldsWithout Env.toy kdb3 t0 (dropped true) (kdb3.header.purgeSeq + 1) ∧ sampleHook kdb3 t0 = .ok () t1 ∧
    openDb Env.toy sampleFlags none [] (cdb6.file.reset []) = .ok t2 t2.file ∧ SameAnswers Env.toy t1 t2 := by
  obtain ⟨t0, t1, t2, h0, h1, h2, h3, -⟩ := C70_hook_is_committed_without_filter Env.toy Env.toy_laws none _ sourceHist
    hookedSample2 (sampleSource true none) (keyless _) rfl (fun _ => rfl) sampleHook rfl
    (fun t0 _ _ _ _ => sampleHook_calls _ t0) cdb6 (outcome_ok cdb6_ok.1) sampleFlags (sampleFlags_ok _) []
  exact ⟨t0, t1, t2, h0, h1, h2, h3⟩

example : ∃ s' cm, History Env.toy none s' ∧ s'.db = cdb6 ∧ s'.done = [cm] ∧ s'.cands = [cm] ∧
    cm.timestamp = kdb3.header.timestamp :=
  C70_compacted_file_has_history Env.toy Env.toy_laws none _ sourceHist hookedSample2 (sampleSource true none) (keyless _) rfl
    sampleHook rfl (fun t0 _ _ _ _ => sampleHook_calls _ t0) cdb6 (outcome_ok cdb6_ok.1)

/-- A hook that refuses. -/
example : compactHooked Env.toy { sampleCompaction true none with purge := fun _ => none, hook := some fun _ => throw .cancel } =
    .error .cancel :=
  C70_failing_hook Env.toy _ (fun _ => throw .cancel) rfl .cancel (fun t0 => ⟨t0, rfl⟩) cdb2 cdb2_eq

end Couchstore.Props
