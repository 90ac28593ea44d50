import Verif.Lemmas.CompactAsk
import Verif.Spec.CompactHook

namespace Couchstore

variable {υ : Type} {E : Env}

theorem hookedFill_spec (E : Env) (L : E.Laws) (c : Compaction υ) (hw : RewritesFit c.rewrite) {ids seqs locs} (S : Handle E c.source ids seqs locs)
    (t : Db) (T : Handle E t [] [] []) :
    Sp (hookedFill E c) t
      (fun r t' => ∃ u kept moved ids', r = lastFilterState c u ∧ Kept c.dropDeletes c.filter c.rewrite c.user seqs u kept ∧
        List.Forall₂ Moved kept moved ∧
        ids'.Perm moved ∧ Filled E c t ids' moved locs t' ∧ Handle E t' ids' moved locs)
      (fun _ _ => True) := by
  have inv := S.inv
  unfold hookedFill
  have hset : Sp (setHeader fun h => { h with
      updateSeq := c.source.header.updateSeq
      purgeSeq := if c.dropDeletes then c.source.header.purgeSeq + 1 else c.source.header.purgeSeq
      purgePtr := c.source.header.purgePtr }) t
      (fun _ t' => Filled E c t [] [] [] t' ∧ t'.file = t.file) (fun _ _ => False) :=
    ⟨⟨rfl, Ext.refl _, T.inv.idRoot, T.inv.seqRoot, T.inv.locRoot, by simp⟩, rfl⟩
  apply Sp.bind' hset
  · rintro _ t1 ⟨F1, hf1⟩
    apply Sp.bind' (compactDocs_spec E L c hw inv t t1 (by rw [hf1]; exact T.inv.wf) (by rw [hf1]; exact T.inv.pos)
      (by rw [hf1]; exact T.inv.thr) F1)
    · rintro u t2 ⟨kept, moved, ids', k1, k2, k3, k4, F2, x2⟩
      have w2 := F2.ext.wf T.inv.wf
      apply Sp.bind' (compactLocals_spec E L c inv t t2 w2 F2)
      · rintro _ t3 ⟨F3, x3⟩
        apply Sp.bind' (lastFilterCall_spec c u t3)
        · rintro _ t4 rfl
          exact ⟨u, kept, moved, ids', rfl, k1, k2, k3, F3, F3.handle S rfl T (k1.sublist_map (·.dbSeq) (fun _ _ => rfl)) k2 k3 k4⟩
        · exact fun _ _ _ => trivial
      · exact fun _ _ _ => trivial
    · exact fun _ _ _ => trivial
  · exact fun _ _ h => h.elim

/-- It does what compaction does without hooks. -/
theorem hookedFill_eq (c : Compaction υ) : compactFill E c = (do let _ ← hookedFill E c; pure ()) := by
  unfold compactFill hookedFill
  simp only [bind_assoc, pure_bind]
  congr 1; funext _; congr 1; funext u; congr 1; funext _
  exact (bind_pure (m := EStateM Err Db) (lastFilterCall c u)).symm

theorem hookedFill_ok {c : Compaction υ} {t t1 : Db} {u : υ} (h : hookedFill E c t = .ok u t1) : compactFill E c t = .ok () t1 := by
  rw [hookedFill_eq]
  exact bind_ok h

theorem HookCalls.history {getKey : KeyGetter} {s : Sys} {db' : Db} (H : History E getKey s) (h : HookCalls E s.db db') :
    History E getKey { s with db := db' } := by
  induction h with
  | refl => exact H
  | step _ h2 ih => exact .op ih (.step (s := { s with db := _ }) h2)
  | setPurgeSeq n _ ih => exact .op ih (.setPurgeSeq (s := { s with db := _ }) n)

theorem HookCalls.version {getKey : KeyGetter} (L : E.Laws) {s : Sys} {db' : Db} (H : History E getKey s) (h : HookCalls E s.db db') :
    db'.header.diskVersion = s.db.header.diskVersion := by
  induction h with
  | refl => rfl
  | step h1 h2 ih =>
    obtain ⟨_, _, _, hh⟩ := ((h1.history H).hist L).handle
    rw [(h2.saved hh.inv.wf).header.fields.1]
    exact ih
  | setPurgeSeq n _ ih => exact ih

theorem HookCalls.ofPurge {a : Db} (p : Option Nat) : HookCalls E a (after (setPurgeIf p) a) := by
  cases p with
  | none => exact .refl
  | some n => exact .setPurgeSeq n .refl

theorem HookCalls.trans {a b c : Db} (h1 : HookCalls E a b) (h2 : HookCalls E b c) : HookCalls E a c := by
  induction h2 with
  | refl => exact h1
  | step _ h ih => exact .step ih h
  | setPurgeSeq n _ ih => exact .setPurgeSeq n ih

/-- The parts of a successful compaction. -/
theorem compactHooked_ok {c : HookedCompaction υ} {t' : Db} (hc : compactHooked E c = .ok t') :
    ∃ t f' u t1 t2, openDb E (compactFlags c.source c.upgrade) c.getKey c.ctx (crashedFile [] c.faults) = .ok t f' ∧
      hookedFill E c.toCompaction t = .ok u t1 ∧
      runPrecommit c.hook c.source (after (setPurgeIf (c.purge u)) t1) = .ok () t2 ∧
      commit E c.source.header.timestamp (fun _ => false) t2 = .ok () t' := by
  unfold compactHooked at hc
  by_cases hw0 : (c.filter.isNone && c.rewrite.isSome) = true
  · rw [if_pos hw0] at hc; cases hc
  rw [if_neg hw0] at hc
  by_cases hd : c.source.dropped = true
  · rw [if_pos hd] at hc; cases hc
  rw [if_neg hd] at hc
  have hnew : newFile c.faults = crashedFile [] c.faults := rfl
  rw [hnew] at hc
  cases ho : openDb E (compactFlags c.source c.upgrade) c.getKey c.ctx (crashedFile [] c.faults) with
  | error e f => rw [ho] at hc; cases hc
  | ok t f' =>
    rw [ho] at hc
    dsimp only at hc
    cases hf : hookedFill E c.toCompaction t with
    | error e d => rw [bind_error hf] at hc; cases hc
    | ok u t1 =>
      rw [bind_ok hf] at hc
      have hp : setPurgeIf (c.purge u) t1 = .ok () (after (setPurgeIf (c.purge u)) t1) := by
        cases c.purge u <;> rfl
      rw [bind_ok hp] at hc
      cases hk : runPrecommit c.hook c.source (after (setPurgeIf (c.purge u)) t1) with
      | error e d => rw [bind_error hk] at hc; cases hc
      | ok a t2 =>
        rw [bind_ok hk] at hc
        cases hm : commit E c.source.header.timestamp (fun _ => false) t2 with
        | error e d => rw [hm] at hc; cases hc
        | ok a t3 =>
          rw [hm] at hc
          cases hc
          exact ⟨t, f', u, t1, t2, rfl, hf, hk, hm⟩

/-- Without hooks it is compaction. -/
theorem compactHooked_plain (c : HookedCompaction υ) (hp : ∀ u, c.purge u = none)
    (hh : c.hook = none ∨ c.hook = some fun _ => pure ()) : compactHooked E c = compact E c.toCompaction := by
  unfold compactHooked compact
  have hrun : runPrecommit c.hook c.source = pure () := by
    rcases hh with h | h <;> rw [h] <;> rfl
  simp only [hrun, hp, setPurgeIf, hookedFill_eq, bind_assoc, pure_bind]
  rfl

/-- A hook that fails. -/
theorem compactHooked_fails {c : HookedCompaction υ} {hook : PrecommitHook} (hh : c.hook = some hook) {e : Err}
    (hfail : ∀ t0, ∃ t1, hook c.source t0 = .error e t1) {t : Db} (hc : compact E c.toCompaction = .ok t) :
    compactHooked E c = .error e := by
  unfold compact at hc
  unfold compactHooked
  by_cases hw0 : (c.filter.isNone && c.rewrite.isSome) = true
  · rw [if_pos hw0] at hc; cases hc
  rw [if_neg hw0] at hc ⊢
  by_cases hd : c.source.dropped = true
  · rw [if_pos hd] at hc; cases hc
  rw [if_neg hd] at hc ⊢
  cases ho : openDb E (compactFlags c.source c.upgrade) c.getKey c.ctx (newFile c.faults) with
  | error e f => rw [ho] at hc; cases hc
  | ok t f' =>
    rw [ho] at hc
    dsimp only at hc ⊢
    cases hf : hookedFill E c.toCompaction t with
    | error e d =>
      rw [hookedFill_eq, bind_assoc, bind_error hf] at hc
      cases hc
    | ok u t1 =>
      rw [bind_ok hf]
      have hp : setPurgeIf (c.purge u) t1 = .ok () (after (setPurgeIf (c.purge u)) t1) := by
        cases c.purge u <;> rfl
      rw [bind_ok hp]
      obtain ⟨t2, h2⟩ := hfail (after (setPurgeIf (c.purge u)) t1)
      rw [bind_error (show runPrecommit c.hook c.source _ = .error e t2 by rw [hh]; exact h2)]

/-- Setting the purge sequence number. -/
theorem Handle.setPurge {db : Db} {ids seqs locs} (h : Handle E db ids seqs locs) (p : Option Nat) :
    Handle E (after (setPurgeIf p) db) ids seqs locs := by
  cases p with
  | none => exact h
  | some n =>
    have i := h.inv
    have i' : Inv E (after (setPurgeIf (some n)) db) ids seqs locs := ⟨i.wf, i.pos, i.thr, i.idRoot, i.seqRoot, i.locRoot, i.idSorted,
      i.seqSorted, i.locSorted, i.perm, i.ok, i.upd, i.updLt, i.body, i.few⟩
    exact { h with inv := i' }

/-- Why a compaction without a hook before the commit fails. -/
theorem compactHooked_error (L : E.Laws) {getKey : KeyGetter} {s : Sys} (h : History E getKey s) {c : HookedCompaction υ}
    (hs : c.source = s.db) (K : KeysOk c.getKey (compactFlags c.source c.upgrade).legacyCrc)
    (hw : RewritesFit c.rewrite) (hw0 : c.filter = none → c.rewrite = none) (hh : c.hook = none) {e : Err}
    (hc : compactHooked E c = .error e) :
    (∃ f', openDb E (compactFlags c.source c.upgrade) c.getKey c.ctx (crashedFile [] c.faults) = .error e f') ∨
      ∃ t f', openDb E (compactFlags c.source c.upgrade) c.getKey c.ctx (crashedFile [] c.faults) = .ok t f' ∧
        CompactFails c.toCompaction t e := by
  obtain ⟨ids, seqs, locs, S⟩ := (h.hist L).handle
  rw [← hs] at S
  unfold compactHooked at hc
  rw [if_neg (by
    cases hf : c.filter with
    | none => rw [hw0 hf]; simp
    | some g => simp)] at hc
  rw [if_neg (by rw [S.opened]; simp)] at hc
  have hnew : newFile c.faults = crashedFile [] c.faults := rfl
  rw [hnew] at hc
  cases ho : openDb E (compactFlags c.source c.upgrade) c.getKey c.ctx (crashedFile [] c.faults) with
  | error e f => rw [ho] at hc; cases hc; exact Or.inl ⟨f, rfl⟩
  | ok t f' =>
    rw [ho] at hc
    dsimp only at hc
    obtain ⟨H, T, _⟩ := created_hist (compactFlags_thr _ _) K ho
    have sp := compactFill_spec E L c.toCompaction hw S t T
    refine Or.inr ⟨t, f', rfl, ?_⟩
    cases hf : hookedFill E c.toCompaction t with
    | error e d =>
      rw [bind_error hf] at hc
      cases hc
      exact sp.error (show compactFill E c.toCompaction t = .error e d by rw [hookedFill_eq]; exact bind_error hf)
    | ok u t1 =>
      rw [bind_ok hf] at hc
      have hp : setPurgeIf (c.purge u) t1 = .ok () (after (setPurgeIf (c.purge u)) t1) := by
        cases c.purge u <;> rfl
      rw [bind_ok hp] at hc
      rw [bind_ok (show runPrecommit c.hook c.source (after (setPurgeIf (c.purge u)) t1) =
        .ok () (after (setPurgeIf (c.purge u)) t1) by rw [hh]; rfl)] at hc
      cases hm : commit E c.source.header.timestamp (fun _ => false) (after (setPurgeIf (c.purge u)) t1) with
      | ok a d => rw [hm] at hc; cases hc
      | error e d =>
        rw [hm] at hc
        cases hc
        obtain ⟨u', kept, moved, ids', _, _, _, F, hh'⟩ := sp.ok (hookedFill_ok hf)
        have hfile : (after (setPurgeIf (c.purge u)) t1).file = t1.file := by cases c.purge u <;> rfl
        rcases ((commit_spec E _ _ _ (hh'.setPurge (c.purge u))).error hm).2 with h | h
        · rw [hfile] at h
          exact Or.inr (Or.inr (Or.inr (Or.inl (F.ext.faults_ne h))))
        · exact Or.inr (Or.inr (Or.inr (Or.inr (Or.inl h))))

end Couchstore
