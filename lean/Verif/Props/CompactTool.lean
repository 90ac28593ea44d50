import Verif.Lemmas.CompactTool
import Verif.Props.CompactHook
-- only so that the two are not built at the same time, which takes too much memory
import Verif.Props.DbDump

/-! C71: the program that compacts a file.

In these theorems the machine crashes at any time after the first successful commit (or does not crash; then nothing of the log is
missing), and `img` is what is left of the file that is compacted. -/

namespace Couchstore.Props

/-- The keys are such that the new file can be created. -/
def ToolKeys (getKey : KeyGetter) (a : CompactArgs) (s s' : Sys) : Prop :=
  ∀ c : Commit, (c ∈ s.cands ∨ c ∈ s'.cands) → KeysOk getKey (decide (c.db.header.diskVersion ≤ 11) && !a.upgrade)

theorem tool_parts {E : Env} (L : E.Laws) {getKey : KeyGetter} {s s' : Sys} (hs : History E getKey s)
    (hop : s' = s ∨ Op E getKey s s') (hc : s.cands ≠ [])
    {log : List Event} (h1 : s.db.file.log <:+ log) (h2 : log <:+ s'.db.file.log) {img : Bytes} (hi : CrashImage s.base log img)
    {a : CompactArgs} (hk : ToolKeys getKey a s s') {before : Int} (ha : a.purgeBefore = some before)
    {w : ToolWorld} {t : Db} (h : compactMain E getKey a w (crashedFile img []) = .done t)
    (flags : OpenFlags) (ok : flags.Ok (t.file.cfg.crcMode == .crc32)) (ctx : Bytes) :
    ∃ c t2, (c ∈ s.cands ∨ c ∈ s'.cands) ∧ openDb E flags getKey ctx (t.file.reset []) = .ok t2 t2.file ∧
      -2 ^ 31 ≤ before ∧ before < 2 ^ 31 ∧ (∃ r, ask E c.db .info = .stats (.ok r)) ∧
      HoldsWithout E c.db t2 (purges a.timePurge.beforeTs a.timePurge.beforeSeq)
        (highestSeq ((documents E c.db).filter (purges a.timePurge.beforeTs a.timePurge.beforeSeq))) := by
  obtain ⟨s2, c, H, ho, hm, hsame, hcalm, hver⟩ := tool_open L hs hop hc h1 h2 hi
  obtain ⟨hd, hr⟩ := compactMain_done ho h
  have K : KeysOk getKey (compactFlags s2.db a.upgrade).legacyCrc := by
    have := hk c hm
    rw [← hver] at this
    exact this
  obtain ⟨t0, t1, t2, u, kept, ids, seqs, locs, S, k1, k4, k5, k6, k7, k8, k9⟩ := hooked_parts L H
    (c := toolCompaction getKey a w s2.db) rfl K rfl (fun _ _ _ _ _ => .refl) hd flags ok ctx
  have hf : (toolCompaction getKey a w s2.db).filter = some timePurgeHook := by
    unfold toolCompaction
    dsimp only
    rw [ha]
    rfl
  rw [hf] at k1
  have happ := filter_applied L S timePurgeHook_reliable.asks k1
  rw [timePurge_apply] at happ
  simp only [Option.some.injEq, Prod.mk.injEq] at happ
  obtain ⟨hu, hkept⟩ := happ
  have hst : lastFilterState (toolCompaction getKey a w s2.db).toCompaction u = u := by
    unfold lastFilterState
    rw [hf]
    rfl
  have hp : (toolCompaction getKey a w s2.db).purge u = some u.maxPurged := by
    unfold toolCompaction
    dsimp only
    rw [ha]
    rfl
  rw [hst, hp] at k5
  have hsrc : (toolCompaction getKey a w s2.db).source = s2.db := rfl
  have hdocs : documents E s2.db = seqs.map (·.info) := documents_eq L S.inv S.opened
  rw [hsrc, hdocs] at hkept
  have hh := k5 (purges a.timePurge.beforeTs a.timePurge.beforeSeq) (kept_filter k4 hkept.symm)
  cases k6
  have hmax : u.maxPurged = highestSeq ((documents E c.db).filter (purges a.timePurge.beforeTs a.timePurge.beforeSeq)) := by
    rw [← hu, ← documents_sameAnswers hsame]
    exact Nat.zero_max _
  obtain ⟨r1, r2⟩ := hr before ha
  refine ⟨c, t2, hm, k7, r1, r2, ⟨_, (hsame .info trivial).symm.trans (ask_eq E L S.inv S.opened .info trivial)⟩, ?_⟩
  rw [← hmax]
  exact HoldsWithout.same hsame fun q hq => by rw [k8 q hq]; exact hh q hq

theorem purges_expired {a : CompactArgs} {before : Int} (ha : a.purgeBefore = some before) (hb : 0 ≤ before) (hb2 : before < 2 ^ 31)
    {upto : Option Nat} (hu : a.timePurge.beforeSeq = upto.getD 0) (h0 : upto ≠ some 0) :
    purges a.timePurge.beforeTs a.timePurge.beforeSeq = expired before upto := by
  funext d
  have ht : a.timePurge.beforeTs = before.toNat := by
    unfold CompactArgs.timePurge
    dsimp only
    rw [ha, Option.getD_some, Int.emod_eq_of_lt hb (by omega)]
  rw [ht, hu]
  unfold purges expired DocInfo.expiry slice
  by_cases h16 : 16 ≤ d.revMeta.length
  · have hlt : (beDec ((d.revMeta.drop 8).take 4) < before.toNat) ↔ ((beDec ((d.revMeta.drop 8).take 4) : Int) < before) := by omega
    cases upto with
    | none => simp [h16, hlt]
    | some n =>
      have hn : n ≠ 0 := fun h => h0 (by rw [h])
      simp [h16, hlt, hn, Bool.and_assoc]
  · simp [h16]

/-- With `--purge-before` exactly the tombstones from before that time, with `--purge-only-upto-seq` only those with a sequence
number up to that one, are not in the new file; everything else that the newest commit of the file contains is in it.
Missing of the full claim: the new file's purge sequence number is that of the documents purged now, whatever it was before
(`C71_purge_number_lost`); a negative time and the sequence number 0 (`C71_negative_time`, `C71_limit_of_zero`); and
`--dropdeletes` is ignored (`C71_drop_deletes_ignored`). -/
theorem C71_purges_exactly_partial (E : Env) (L : E.Laws) (getKey : KeyGetter) (s s' : Sys) (hs : History E getKey s)
    (hop : s' = s ∨ Op E getKey s s') (hc : s.cands ≠ [])
    (log : List Event) (h1 : s.db.file.log <:+ log) (h2 : log <:+ s'.db.file.log) (img : Bytes) (hi : CrashImage s.base log img)
    (a : CompactArgs) (hk : ToolKeys getKey a s s') (before : Int) (ha : a.purgeBefore = some before) (hb : 0 ≤ before)
    (h0 : a.purgeUpto ≠ some 0)
    (w : ToolWorld) (t : Db) (h : compactMain E getKey a w (crashedFile img []) = .done t)
    (flags : OpenFlags) (ok : flags.Ok (t.file.cfg.crcMode == .crc32)) (ctx : Bytes) :
    ∃ c t2, (c ∈ s.cands ∨ c ∈ s'.cands) ∧ openDb E flags getKey ctx (t.file.reset []) = .ok t2 t2.file ∧
      HoldsWithout E c.db t2 (expired before a.purgeUpto) (highestSeq ((documents E c.db).filter (expired before a.purgeUpto))) := by
  obtain ⟨c, t2, k1, k2, -, r2, -, k3⟩ := tool_parts L hs hop hc h1 h2 hi hk ha h flags ok ctx
  rw [purges_expired ha hb r2 rfl h0] at k3
  exact ⟨c, t2, k1, k2, k3⟩

/-- What the purge sequence number of the new file is. -/
theorem purgeSeqIn_holds {E : Env} {db t : Db} {gone : DocInfo → Bool} {p : Nat} (h : HoldsWithout E db t gone p)
    (hdb : ∃ r, ask E db .info = .stats (.ok r)) : purgeSeqIn E t = p := by
  have := h .info trivial
  obtain ⟨⟨a, b, c, d, e⟩, hr⟩ := hdb
  simp only [askWithout, hr, Reply.plain] at this
  unfold purgeSeqIn
  cases ht : ask E t .info with
  | stats x =>
    cases x with
    | error e => rw [ht] at this; simp [Reply.plain] at this
    | ok r =>
      obtain ⟨a', b', c', d', e'⟩ := r
      rw [ht] at this
      simp only [Reply.plain, Reply.stats.injEq, Except.ok.injEq, Prod.mk.injEq] at this
      exact this.2.2.2.2
  | doc x => rw [ht] at this; cases x <;> simp [Reply.plain] at this
  | docs x => rw [ht] at this; cases x <;> simp [Reply.plain] at this
  | _ => rw [ht] at this; simp [Reply.plain] at this

/-- If there is nothing to purge, the purge sequence number of the new file is 0, whatever it was: the claim that it never
decreases is false of the program. -/
theorem C71_purge_number_lost (E : Env) (L : E.Laws) (getKey : KeyGetter) (s s' : Sys) (hs : History E getKey s)
    (hop : s' = s ∨ Op E getKey s s') (hc : s.cands ≠ [])
    (log : List Event) (h1 : s.db.file.log <:+ log) (h2 : log <:+ s'.db.file.log) (img : Bytes) (hi : CrashImage s.base log img)
    (a : CompactArgs) (hk : ToolKeys getKey a s s') (before : Int) (ha : a.purgeBefore = some before) (hb : 0 ≤ before)
    (h0 : a.purgeUpto ≠ some 0)
    (w : ToolWorld) (t : Db) (h : compactMain E getKey a w (crashedFile img []) = .done t)
    (flags : OpenFlags) (ok : flags.Ok (t.file.cfg.crcMode == .crc32)) (ctx : Bytes) :
    ∃ c t2, (c ∈ s.cands ∨ c ∈ s'.cands) ∧ openDb E flags getKey ctx (t.file.reset []) = .ok t2 t2.file ∧
      ((∀ d ∈ documents E c.db, expired before a.purgeUpto d = false) → purgeSeqIn E t2 = 0) := by
  obtain ⟨c, t2, k1, k2, -, r2, hr, k3⟩ := tool_parts L hs hop hc h1 h2 hi hk ha h flags ok ctx
  rw [purges_expired ha hb r2 rfl h0] at k3
  refine ⟨c, t2, k1, k2, fun hno => ?_⟩
  rw [purgeSeqIn_holds k3 hr, List.filter_eq_nil_iff.mpr (fun d hd => by rw [hno d hd]; simp)]
  rfl

/-- The sequence number 0 is no limit. -/
theorem C71_limit_of_zero (E : Env) (L : E.Laws) (getKey : KeyGetter) (s s' : Sys) (hs : History E getKey s)
    (hop : s' = s ∨ Op E getKey s s') (hc : s.cands ≠ [])
    (log : List Event) (h1 : s.db.file.log <:+ log) (h2 : log <:+ s'.db.file.log) (img : Bytes) (hi : CrashImage s.base log img)
    (a : CompactArgs) (hk : ToolKeys getKey a s s') (before : Int) (ha : a.purgeBefore = some before) (hb : 0 ≤ before)
    (h0 : a.purgeUpto = some 0)
    (w : ToolWorld) (t : Db) (h : compactMain E getKey a w (crashedFile img []) = .done t)
    (flags : OpenFlags) (ok : flags.Ok (t.file.cfg.crcMode == .crc32)) (ctx : Bytes) :
    ∃ c t2, (c ∈ s.cands ∨ c ∈ s'.cands) ∧ openDb E flags getKey ctx (t.file.reset []) = .ok t2 t2.file ∧
      HoldsWithout E c.db t2 (expired before none) (highestSeq ((documents E c.db).filter (expired before none))) := by
  obtain ⟨c, t2, k1, k2, -, r2, -, k3⟩ := tool_parts L hs hop hc h1 h2 hi hk ha h flags ok ctx
  rw [purges_expired (upto := none) ha hb r2 (by show a.purgeUpto.getD 0 = 0; rw [h0]; rfl) (by simp)] at k3
  exact ⟨c, t2, k1, k2, k3⟩

/-- A negative time is later than all others: every tombstone that has a time, up to the limit, is purged. -/
theorem C71_negative_time (E : Env) (L : E.Laws) (getKey : KeyGetter) (s s' : Sys) (hs : History E getKey s)
    (hop : s' = s ∨ Op E getKey s s') (hc : s.cands ≠ [])
    (log : List Event) (h1 : s.db.file.log <:+ log) (h2 : log <:+ s'.db.file.log) (img : Bytes) (hi : CrashImage s.base log img)
    (a : CompactArgs) (hk : ToolKeys getKey a s s') (before : Int) (ha : a.purgeBefore = some before) (hb : before < 0)
    (h0 : a.purgeUpto ≠ some 0)
    (w : ToolWorld) (t : Db) (h : compactMain E getKey a w (crashedFile img []) = .done t)
    (flags : OpenFlags) (ok : flags.Ok (t.file.cfg.crcMode == .crc32)) (ctx : Bytes) :
    ∃ c t2, (c ∈ s.cands ∨ c ∈ s'.cands) ∧ openDb E flags getKey ctx (t.file.reset []) = .ok t2 t2.file ∧
      HoldsWithout E c.db t2 (expired (2 ^ 32) a.purgeUpto)
        (highestSeq ((documents E c.db).filter (expired (2 ^ 32) a.purgeUpto))) := by
  obtain ⟨c, t2, k1, k2, r1, -, -, k3⟩ := tool_parts L hs hop hc h1 h2 hi hk ha h flags ok ctx
  have : purges a.timePurge.beforeTs a.timePurge.beforeSeq = expired (2 ^ 32) a.purgeUpto := by
    funext d
    have ht : 2 ^ 32 ≤ a.timePurge.beforeTs := by
      unfold CompactArgs.timePurge
      dsimp only
      rw [ha, Option.getD_some]
      omega
    have hl : beDec ((d.revMeta.drop 8).take 4) < 2 ^ 32 := by
      have := beDec_lt ((d.revMeta.drop 8).take 4)
      have h2 : 256 ^ ((d.revMeta.drop 8).take 4).length ≤ 256 ^ 4 := Nat.pow_le_pow_right (by omega) (by simp; omega)
      omega
    have hlt : beDec ((d.revMeta.drop 8).take 4) < a.timePurge.beforeTs := by omega
    have hlt2 : ((beDec ((d.revMeta.drop 8).take 4) : Nat) : Int) < 2 ^ 32 := by omega
    have hu : a.timePurge.beforeSeq = a.purgeUpto.getD 0 := rfl
    rw [hu]
    unfold purges expired DocInfo.expiry slice
    by_cases h16 : 16 ≤ d.revMeta.length
    · simp only [h16, hlt, hlt2, if_true, decide_true, Bool.true_and, Bool.and_true]
      cases hup : a.purgeUpto with
      | none => simp
      | some n =>
        have hn : n ≠ 0 := fun h => h0 (by rw [hup, h])
        simp [hn]
    · simp [h16]
  rw [this] at k3
  exact ⟨c, t2, k1, k2, k3⟩

/-- With `--purge-before` the option `--dropdeletes` is ignored: a tombstone that is not expired is in the new file. -/
theorem C71_drop_deletes_ignored (E : Env) (L : E.Laws) (getKey : KeyGetter) (s s' : Sys) (hs : History E getKey s)
    (hop : s' = s ∨ Op E getKey s s') (hc : s.cands ≠ [])
    (log : List Event) (h1 : s.db.file.log <:+ log) (h2 : log <:+ s'.db.file.log) (img : Bytes) (hi : CrashImage s.base log img)
    (a : CompactArgs) (hk : ToolKeys getKey a s s') (before : Int) (ha : a.purgeBefore = some before) (hb : 0 ≤ before)
    (h0 : a.purgeUpto ≠ some 0) (_hd : a.dropDeletes = true)
    (w : ToolWorld) (t : Db) (h : compactMain E getKey a w (crashedFile img []) = .done t)
    (flags : OpenFlags) (ok : flags.Ok (t.file.cfg.crcMode == .crc32)) (ctx : Bytes) :
    ∃ c t2, (c ∈ s.cands ∨ c ∈ s'.cands) ∧ openDb E flags getKey ctx (t.file.reset []) = .ok t2 t2.file ∧
      ∀ id d, ask E c.db (.docinfo id) = .doc (.ok d) → d.deleted = true → expired before a.purgeUpto d = false →
        ∃ d', ask E t2 (.docinfo id) = .doc (.ok d') ∧ d'.id = d.id ∧ d'.dbSeq = d.dbSeq ∧ d'.deleted = true := by
  obtain ⟨c, t2, k1, k2, k3⟩ := C71_purges_exactly_partial E L getKey s s' hs hop hc log h1 h2 img hi a hk before ha hb h0 w t h flags ok ctx
  refine ⟨c, t2, k1, k2, fun id d hd1 hd2 hd3 => ?_⟩
  have := k3 (.docinfo id) trivial
  simp only [askWithout, hd1, askWithout.without, hd3, if_false, Bool.false_eq_true] at this
  cases ht : ask E t2 (.docinfo id) with
  | doc x =>
    cases x with
    | error e => rw [ht] at this; simp [Reply.plain] at this
    | ok d' =>
      rw [ht] at this
      simp only [Reply.plain, Reply.doc.injEq, Except.ok.injEq] at this
      have e1 := congrArg DocInfo.id this
      have e2 := congrArg DocInfo.dbSeq this
      have e3 := congrArg DocInfo.deleted this
      exact ⟨d', rfl, e1, e2, e3.trans hd2⟩
  | docs x => rw [ht] at this; cases x <;> simp [Reply.plain] at this
  | stats x => rw [ht] at this; cases x <;> simp [Reply.plain] at this
  | _ => rw [ht] at this; simp [Reply.plain] at this

/-- Without `--purge-before` everything is in the new file, except for the tombstones with `--dropdeletes`; `--purge-only-upto-seq`
has no effect. -/
theorem C71_without_purge (E : Env) (L : E.Laws) (getKey : KeyGetter) (s s' : Sys) (hs : History E getKey s)
    (hop : s' = s ∨ Op E getKey s s') (hc : s.cands ≠ [])
    (log : List Event) (h1 : s.db.file.log <:+ log) (h2 : log <:+ s'.db.file.log) (img : Bytes) (hi : CrashImage s.base log img)
    (a : CompactArgs) (hk : ToolKeys getKey a s s') (ha : a.purgeBefore = none)
    (w : ToolWorld) (t : Db) (h : compactMain E getKey a w (crashedFile img []) = .done t)
    (flags : OpenFlags) (ok : flags.Ok (t.file.cfg.crcMode == .crc32)) (ctx : Bytes) :
    ∃ c t2, (c ∈ s.cands ∨ c ∈ s'.cands) ∧ openDb E flags getKey ctx (t.file.reset []) = .ok t2 t2.file ∧
      HoldsWithout E c.db t2 (dropped a.dropDeletes) (if a.dropDeletes then purgeSeqIn E c.db + 1 else purgeSeqIn E c.db) := by
  obtain ⟨s2, c, H, ho, hm, hsame, hcalm, hver⟩ := tool_open L hs hop hc h1 h2 hi
  obtain ⟨hd, hr⟩ := compactMain_done ho h
  have K : KeysOk getKey (compactFlags s2.db a.upgrade).legacyCrc := by
    have := hk c hm
    rw [← hver] at this
    exact this
  obtain ⟨t0, t1, t2, u, kept, ids, seqs, locs, S, k1, k4, k5, k6, k7, k8, k9⟩ := hooked_parts L H
    (c := toolCompaction getKey a w s2.db) rfl K rfl (fun _ _ _ _ _ => .refl) hd flags ok ctx
  have hf : (toolCompaction getKey a w s2.db).filter = none := by
    unfold toolCompaction
    dsimp only
    rw [ha]
    rfl
  have hp : ∀ u, (toolCompaction getKey a w s2.db).purge u = none := by
    intro u
    unfold toolCompaction
    dsimp only
    rw [ha]
    rfl
  rw [hf] at k1
  rw [hp] at k5
  have hh := k5 (dropped a.dropDeletes) k1.noFilter.2
  cases k6
  have hps : purgeSeqIn E c.db = s2.db.header.purgeSeq := by
    unfold purgeSeqIn
    rw [← hsame .info trivial, show ask E s2.db .info = _ from ask_eq E L S.inv S.opened .info trivial]
    rfl
  refine ⟨c, t2, hm, k7, ?_⟩
  rw [hps]
  exact HoldsWithout.same hsame fun q hq => by rw [k8 q hq]; exact hh q hq

/-- The program fails only if the new file cannot be written or a limit of the format is hit. -/
theorem C71_succeeds (E : Env) (L : E.Laws) (getKey : KeyGetter) (s s' : Sys) (hs : History E getKey s)
    (hop : s' = s ∨ Op E getKey s s') (hc : s.cands ≠ [])
    (log : List Event) (h1 : s.db.file.log <:+ log) (h2 : log <:+ s'.db.file.log) (img : Bytes) (hi : CrashImage s.base log img)
    (a : CompactArgs) (hn : ∀ f, getKey = some f → f [] = none)
    (hb : ∀ v, a.purgeBefore = some v → -2 ^ 31 ≤ v ∧ v < 2 ^ 31) (hu : ∀ n, a.purgeUpto = some n → n < 2 ^ 64) (ctx : Bytes) :
    (∃ t, compactMain E getKey a ⟨ctx, [], [], []⟩ (crashedFile img []) = .done t) ∨
      compactMain E getKey a ⟨ctx, [], [], []⟩ (crashedFile img []) = .failed .formatLimit := by
  obtain ⟨s2, c, H, ho, hm, hsame, hcalm, hver⟩ := tool_open L hs hop hc h1 h2 hi
  have ha : a.throws = false := by
    unfold CompactArgs.throws
    rw [Bool.or_eq_false_iff]
    constructor
    · cases hv : a.purgeBefore with
      | none => rfl
      | some v =>
        have := hb v hv
        simp only [Bool.or_eq_false_iff, decide_eq_false_iff_not]
        omega
    · cases hv : a.purgeUpto with
      | none => rfl
      | some n =>
        have := hu n hv
        simp only [decide_eq_false_iff_not]
        omega
  rw [compactMain_runs ho ha]
  cases hc : compactHooked E (toolCompaction getKey a ⟨ctx, [], [], []⟩ s2.db) with
  | ok t => exact Or.inl ⟨t, rfl⟩
  | error e =>
    right
    have K : KeysOk getKey (compactFlags s2.db a.upgrade).legacyCrc :=
      ⟨fun f hf k hk' => by rw [hn f hf] at hk'; exact (nomatch hk'), fun _ f hf => hn f hf⟩
    obtain ⟨t, ht, htf⟩ := compact_creates (E := E) (c := (toolCompaction getKey a ⟨ctx, [], [], []⟩ s2.db).toCompaction) rfl hn
    rcases compactHooked_error L H (c := toolCompaction getKey a ⟨ctx, [], [], []⟩ s2.db) rfl K (rewritesFit_none rfl) (fun _ => rfl) rfl hc
      with ⟨f', h⟩ | ⟨t', f', h, hx⟩
    · rw [show openDb E _ _ _ _ = _ from h] at ht; cases ht
    · rw [show openDb E _ _ _ _ = _ from h] at ht
      cases ht
      rcases hx with h | h | h | h | h | h
      · exact absurd hcalm h
      · exact absurd rfl h
      · exact absurd rfl h
      · exact absurd htf h
      · rw [h]
      · obtain ⟨g, hg, hnr⟩ := h
        have : g = timePurgeHook := by
          unfold toolCompaction at hg
          dsimp only at hg
          split at hg
          · cases hg; rfl
          · cases hg
        rw [this] at hnr
        exact absurd timePurgeHook_reliable hnr

/-- A time that does not fit in 31 bits (from the year 2038 on) ends the program, whatever the file is. -/
theorem C71_late_time_ends_the_program (E : Env) (getKey : KeyGetter) (a : CompactArgs) (v : Int) (ha : a.purgeBefore = some v)
    (hv : 2 ^ 31 ≤ v) (w : ToolWorld) (f : File) : compactMain E getKey a w f = .aborted := by
  unfold compactMain
  rw [if_pos (by
    unfold CompactArgs.throws
    rw [ha]
    simp only [Bool.or_eq_true, decide_eq_true_eq]
    omega)]

/-! ### A sample

A document, a tombstone of the time 100, one of the time 200 and one without a time are saved; the purge sequence number is set to 7. -/

def purgeMeta (t : UInt8) : Bytes := [0, 0, 0, 0, 0, 0, 0, 1, 0, 0, 0, t, 0, 0, 0, 0, 0, 0]

def purgeItems : List SaveItem :=
  [sampleItem [98] (some [1, 2, 3]) 0, ⟨none, ⟨[97], 0, 2, purgeMeta 100, true, 0, 0, 0⟩, 5⟩,
    ⟨none, ⟨[96], 0, 2, purgeMeta 200, true, 0, 0, 0⟩, 5⟩, ⟨none, ⟨[99], 0, 2, [8], true, 0, 0, 0⟩, 5⟩]
def pdb0 : Db := openedDb Env.toy sourceFlags none (crashedFile [] [])
def pdb1 : Db := after (saveDocuments Env.toy sampleOpts (some sampleCb) purgeItems []) pdb0
def pdb2 : Db := after (setPurgeSeq 7) pdb1
def pdb3 : Db := after (commit Env.toy 1000 (fun _ => false)) pdb2

/-- The program with the sample. -/
def toolRun (a : CompactArgs) : ToolEnd :=
  compactMain Env.toy none a ⟨[], [], [], []⟩ (crashedFile (replay [] pdb3.file.log) [])

def ToolEnd.db? : ToolEnd → Option Db
  | .done t => some t
  | _ => none

/-- The documents and the purge sequence number of the new file. -/
def toolShown (e : ToolEnd) : Option (List Bytes × Nat) :=
  (ToolEnd.db? e).map fun t => ((documents Env.toy t).map (·.id), t.header.purgeSeq)

/-- All that is needed about the sample, evaluated at once. -/
theorem pdb_all : isOk (openBody Env.toy sourceFlags none [7, 7] (newHandle sourceFlags (crashedFile [] []))) = true ∧
    argsB Env.toy pdb0 sampleOpts purgeItems = true ∧ isOk (commit Env.toy 1000 (fun _ => false) pdb2) = true ∧
    toolShown (toolRun ⟨some 150, none, true, false⟩) = some ([[98], [96], [99]], 2) ∧
    toolShown (toolRun ⟨some 50, none, false, false⟩) = some ([[98], [97], [96], [99]], 0) ∧
    toolShown (toolRun ⟨some (-1), some 2, false, false⟩) = some ([[98], [96], [99]], 2) ∧
    toolShown (toolRun ⟨some 300, some 0, false, false⟩) = some ([[98], [99]], 3) ∧
    toolShown (toolRun ⟨none, some 2, true, false⟩) = some ([[98]], 8) ∧
    (documents Env.toy pdb2).all (fun d => !expired 50 none d) = true ∧ purgeSeqIn Env.toy pdb2 = 7 := by
  decide +kernel

theorem purgedCommit_hist {E : Env} {flags : OpenFlags} {ctx : Bytes} {d0 d1 d2 d3 : Db} (ht : 2 ≤ flags.kvThr)
    (hn : flags.noCommitAtCreate = true)
    (h0 : openDb E flags none ctx (crashedFile [] []) = .ok d0 d0.file) (h1 : Step E d0 d1) {n : Nat} (h2 : d2 = after (setPurgeSeq n) d1)
    (h3 : commit E 1000 (fun _ => false) d2 = .ok () d3) : History E none (oneCommit d0 d2 d3) := by
  subst h2
  have h := History.create flags ctx [] ht (keyless _) h0
  rw [hn] at h
  exact .op (.op (.op h (.step h1)) (.setPurgeSeq n)) (.commitOk 1000 _ h3)

theorem pdb0_eq : openDb Env.toy sourceFlags none [7, 7] (crashedFile [] []) = .ok pdb0 pdb0.file :=
  openDb_opened (by decide) pdb_all.1
theorem pdb1_eq : SaveArgs Env.toy pdb0 sampleOpts purgeItems := args_of pdb_all.2.1
theorem pdb2_eq : pdb2 = after (setPurgeSeq 7) pdb1 := by unfold pdb2; rfl
theorem pdb3_eq : commit Env.toy 1000 (fun _ => false) pdb2 = .ok () pdb3 := commit_after pdb_all.2.2.1

theorem purgeHist : History Env.toy none (oneCommit pdb0 pdb2 pdb3) :=
  purgedCommit_hist (flags := sourceFlags) (by decide) rfl pdb0_eq
    (.save sampleOpts (some sampleCb) purgeItems [] pdb1_eq) pdb2_eq pdb3_eq

/-- The file the program has made. -/
def toolDb (a : CompactArgs) : Db := ((ToolEnd.db? (toolRun a))).getD pdb0

theorem toolRun_done {a : CompactArgs} {x} (h : toolShown (toolRun a) = some x) : toolRun a = .done (toolDb a) := by
  unfold toolShown at h
  unfold toolDb
  cases hr : toolRun a with
  | done t => rfl
  | failed e => rw [hr] at h; cases h
  | aborted => rw [hr] at h; cases h

theorem purgeKeys (a : CompactArgs) (s s' : Sys) : ToolKeys none a s s' := fun _ _ => keyless _

attribute [local irreducible] pdb0 pdb1 pdb2 pdb3 toolRun toolDb

theorem toolRun_eq (a : CompactArgs) :
    compactMain Env.toy none a ⟨[], [], [], []⟩ (crashedFile (replay [] pdb3.file.log) []) = toolRun a := by
  unfold toolRun
  rfl

/-- The tombstone of the time 100 is purged. -/
example : ∃ t2, openDb Env.toy sampleFlags none [] ((toolDb ⟨some 150, none, true, false⟩).file.reset []) = .ok t2 t2.file ∧
    HoldsWithout Env.toy pdb2 t2 (expired 150 none) (highestSeq ((documents Env.toy pdb2).filter (expired 150 none))) := by
  obtain ⟨c, t2, k1, k2, k3⟩ := C71_purges_exactly_partial Env.toy Env.toy_laws none _ _ purgeHist (Or.inl rfl) (by simp [oneCommit])
    pdb3.file.log (List.suffix_refl _) (List.suffix_refl _) (replay [] pdb3.file.log) (crashImage_replay _ _)
    ⟨some 150, none, true, false⟩ (purgeKeys _ _ _) 150 rfl (by decide) (by simp) ⟨[], [], [], []⟩ _
    ((toolRun_eq _).trans (toolRun_done pdb_all.2.2.2.1)) sampleFlags (sampleFlags_ok _) []
  obtain rfl : c = Commit.of pdb2 1000 := by simpa [oneCommit] using k1
  exact ⟨t2, k2, k3⟩

/-- The purge sequence number was 7, nothing is purged, and it is 0. -/
example : purgeSeqIn Env.toy pdb2 = 7 ∧
    ∃ t2, openDb Env.toy sampleFlags none [] ((toolDb ⟨some 50, none, false, false⟩).file.reset []) = .ok t2 t2.file ∧
      purgeSeqIn Env.toy t2 = 0 := by
  obtain ⟨c, t2, k1, k2, k3⟩ := C71_purge_number_lost Env.toy Env.toy_laws none _ _ purgeHist (Or.inl rfl) (by simp [oneCommit])
    pdb3.file.log (List.suffix_refl _) (List.suffix_refl _) (replay [] pdb3.file.log) (crashImage_replay _ _)
    ⟨some 50, none, false, false⟩ (purgeKeys _ _ _) 50 rfl (by decide) (by simp) ⟨[], [], [], []⟩ _
    ((toolRun_eq _).trans (toolRun_done pdb_all.2.2.2.2.1)) sampleFlags (sampleFlags_ok _) []
  obtain rfl : c = Commit.of pdb2 1000 := by simpa [oneCommit] using k1
  have hall := pdb_all.2.2.2.2.2.2.2.2.1
  exact ⟨pdb_all.2.2.2.2.2.2.2.2.2, t2, k2, k3 fun d hd => by simpa using List.all_eq_true.mp hall d hd⟩

example : ∃ t2, openDb Env.toy sampleFlags none [] ((toolDb ⟨some (-1), some 2, false, false⟩).file.reset []) = .ok t2 t2.file ∧
    HoldsWithout Env.toy pdb2 t2 (expired (2 ^ 32) (some 2)) (highestSeq ((documents Env.toy pdb2).filter (expired (2 ^ 32) (some 2)))) := by
  obtain ⟨c, t2, k1, k2, k3⟩ := C71_negative_time Env.toy Env.toy_laws none _ _ purgeHist (Or.inl rfl) (by simp [oneCommit])
    pdb3.file.log (List.suffix_refl _) (List.suffix_refl _) (replay [] pdb3.file.log) (crashImage_replay _ _)
    ⟨some (-1), some 2, false, false⟩ (purgeKeys _ _ _) (-1) rfl (by decide) (by simp) ⟨[], [], [], []⟩ _
    ((toolRun_eq _).trans (toolRun_done pdb_all.2.2.2.2.2.1)) sampleFlags (sampleFlags_ok _) []
  obtain rfl : c = Commit.of pdb2 1000 := by simpa [oneCommit] using k1
  exact ⟨t2, k2, k3⟩

example : ∃ t2, openDb Env.toy sampleFlags none [] ((toolDb ⟨some 300, some 0, false, false⟩).file.reset []) = .ok t2 t2.file ∧
    HoldsWithout Env.toy pdb2 t2 (expired 300 none) (highestSeq ((documents Env.toy pdb2).filter (expired 300 none))) := by
  obtain ⟨c, t2, k1, k2, k3⟩ := C71_limit_of_zero Env.toy Env.toy_laws none _ _ purgeHist (Or.inl rfl) (by simp [oneCommit])
    pdb3.file.log (List.suffix_refl _) (List.suffix_refl _) (replay [] pdb3.file.log) (crashImage_replay _ _)
    ⟨some 300, some 0, false, false⟩ (purgeKeys _ _ _) 300 rfl (by decide) rfl ⟨[], [], [], []⟩ _
    ((toolRun_eq _).trans (toolRun_done pdb_all.2.2.2.2.2.2.1)) sampleFlags (sampleFlags_ok _) []
  obtain rfl : c = Commit.of pdb2 1000 := by simpa [oneCommit] using k1
  exact ⟨t2, k2, k3⟩

/-- With `--dropdeletes` the tombstones 96 and 99 are still there (see `pdb_all`). -/
example : ∃ t2, openDb Env.toy sampleFlags none [] ((toolDb ⟨some 150, none, true, false⟩).file.reset []) = .ok t2 t2.file ∧
    ∀ id d, ask Env.toy pdb2 (.docinfo id) = .doc (.ok d) → d.deleted = true → expired 150 none d = false →
        ∃ d', ask Env.toy t2 (.docinfo id) = .doc (.ok d') ∧ d'.id = d.id ∧ d'.dbSeq = d.dbSeq ∧ d'.deleted = true := by
  obtain ⟨c, t2, k1, k2, k3⟩ := C71_drop_deletes_ignored Env.toy Env.toy_laws none _ _ purgeHist (Or.inl rfl) (by simp [oneCommit])
    pdb3.file.log (List.suffix_refl _) (List.suffix_refl _) (replay [] pdb3.file.log) (crashImage_replay _ _)
    ⟨some 150, none, true, false⟩ (purgeKeys _ _ _) 150 rfl (by decide) (by simp) rfl ⟨[], [], [], []⟩ _
    ((toolRun_eq _).trans (toolRun_done pdb_all.2.2.2.1)) sampleFlags (sampleFlags_ok _) []
  obtain rfl : c = Commit.of pdb2 1000 := by simpa [oneCommit] using k1
  exact ⟨t2, k2, k3⟩

example : ∃ t2, openDb Env.toy sampleFlags none [] ((toolDb ⟨none, some 2, true, false⟩).file.reset []) = .ok t2 t2.file ∧
    HoldsWithout Env.toy pdb2 t2 (dropped true) (purgeSeqIn Env.toy pdb2 + 1) := by
  obtain ⟨c, t2, k1, k2, k3⟩ := C71_without_purge Env.toy Env.toy_laws none _ _ purgeHist (Or.inl rfl) (by simp [oneCommit])
    pdb3.file.log (List.suffix_refl _) (List.suffix_refl _) (replay [] pdb3.file.log) (crashImage_replay _ _)
    ⟨none, some 2, true, false⟩ (purgeKeys _ _ _) rfl ⟨[], [], [], []⟩ _
    ((toolRun_eq _).trans (toolRun_done pdb_all.2.2.2.2.2.2.2.1)) sampleFlags (sampleFlags_ok _) []
  obtain rfl : c = Commit.of pdb2 1000 := by simpa [oneCommit] using k1
  exact ⟨t2, k2, k3⟩

example : (∃ t, toolRun ⟨some 150, some 3, false, false⟩ = .done t) ∨ toolRun ⟨some 150, some 3, false, false⟩ = .failed .formatLimit := by
  have := C71_succeeds Env.toy Env.toy_laws none _ _ purgeHist (Or.inl rfl) (by simp [oneCommit])
    pdb3.file.log (List.suffix_refl _) (List.suffix_refl _) (replay [] pdb3.file.log) (crashImage_replay _ _)
    ⟨some 150, some 3, false, false⟩ (fun _ h => nomatch h) (by simp) (by simp) []
  rw [toolRun_eq] at this
  exact this

/-- The first second that is too late. -/
example (w : ToolWorld) (f : File) : compactMain Env.toy none ⟨some 2147483648, none, false, false⟩ w f = .aborted :=
  C71_late_time_ends_the_program Env.toy none _ 2147483648 rfl (by decide) w f

end Couchstore.Props
