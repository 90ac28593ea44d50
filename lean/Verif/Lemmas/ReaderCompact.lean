import Verif.Lemmas.Reader
import Verif.Lemmas.CompactTool

/-! Compaction of a file that is being written. -/

namespace Couchstore

variable {E : Env} {υ : Type}

theorem compact_parts {c : Compaction υ} {t' : Db} (hc : compact E c = .ok t') :
    ∃ t f' t1, openDb E (compactFlags c.source c.upgrade) c.getKey c.ctx (crashedFile [] c.faults) = .ok t f' ∧
      compactFill E c t = .ok () t1 ∧ commit E c.source.header.timestamp (fun _ => false) t1 = .ok () t' := by
  unfold compact at hc
  by_cases hw0 : (c.filter.isNone && c.rewrite.isSome) = true
  · rw [if_pos hw0] at hc; cases hc
  rw [if_neg hw0] at hc
  by_cases hd : c.source.dropped = true
  · rw [if_pos hd] at hc; cases hc
  rw [if_neg hd] at hc
  have hnew : newFile c.faults = crashedFile [] c.faults := rfl
  rw [hnew] at hc
  cases ho : openDb E (compactFlags c.source c.upgrade) c.getKey c.ctx (crashedFile [] c.faults) with
  | error e f => rw [ho] at hc; cases hc
  | ok t f' =>
    rw [ho] at hc
    dsimp only at hc
    cases hf : compactFill E c t with
    | error e d =>
      rw [show (compactFill E c >>= fun _ => commit E c.source.header.timestamp fun _ => false) t = .error e d from
        bind_error hf] at hc
      cases hc
    | ok a t1 =>
      rw [show (compactFill E c >>= fun _ => commit E c.source.header.timestamp fun _ => false) t =
        commit E c.source.header.timestamp (fun _ => false) t1 from bind_ok hf] at hc
      cases hm : commit E c.source.header.timestamp (fun _ => false) t1 with
      | error e d => rw [hm] at hc; cases hc
      | ok a t2 =>
        rw [hm] at hc
        cases hc
        exact ⟨t, f', t1, rfl, hf, hm⟩

/-- A compaction whose source is any intact handle. -/
theorem compact_handle (L : E.Laws) (c : Compaction υ) {ids seqs : List Entry} {locs : List KV}
    (S : Handle E c.source ids seqs locs) (K : KeysOk c.getKey (compactFlags c.source c.upgrade).legacyCrc)
    (hf : c.filter = none) {t : Db} (hc : compact E c = .ok t) (flags : OpenFlags)
    (ok : flags.Ok (t.file.cfg.crcMode == .crc32)) (ctx : Bytes) :
    ∃ t2, openDb E flags c.getKey ctx (t.file.reset []) = .ok t2 t2.file ∧
      HoldsWithout E c.source t2 (fun d => c.dropDeletes && d.deleted)
        (if c.dropDeletes then c.source.header.purgeSeq + 1 else c.source.header.purgeSeq) := by
  have hrw := compact_rewrite hc hf
  have hw := rewritesFit_none hrw
  obtain ⟨t0, f', t1, h1, h2, h3⟩ := compact_parts hc
  obtain ⟨H0, T, hv⟩ := created_hist (compactFlags_thr _ _) K h1
  obtain ⟨u, kept, moved, ids', k1, k2, k3, F, hh⟩ := (compactFill_spec E L c hw S t0 T).ok h2
  have H : Hist E c.getKey { Sys.created t0 true with db := t1 } := Hist.fill (s := Sys.created t0 true) H0 F hh
  rw [hf, hrw] at k1
  obtain ⟨-, k4⟩ := k1.noFilter
  obtain ⟨e1, m, C⟩ := (commit_cases H).1 _ h3
  have H1 := H.commitOk C
  have hsame := commit_same L H c.source.header.timestamp (fun _ => false)
  unfold after at hsame
  rw [show commit E c.source.header.timestamp (fun _ => false) ({ Sys.created t0 true with db := t1 } : Sys).db = .ok () t from h3] at hsame
  obtain ⟨t2, r1, r2, c', r3, r4⟩ := openDb_of (mode := t.file.cfg.crcMode)
    ((H1.reopen_ok L (by simp) flags ctx ok.thr).mono (fun _ _ h => h) (fun _ _ h => h)) ok
  rw [List.mem_singleton] at r3
  subst r3
  refine ⟨t2, r1, ?_⟩
  have hu : t1.header.updateSeq = c.source.header.updateSeq := by rw [F.same]
  have hp : t1.header.purgeSeq =
      if c.dropDeletes then c.source.header.purgeSeq + 1 else c.source.header.purgeSeq := by rw [F.same]
  rw [← hp]
  subst k4
  intro q hq
  rw [r4.answers q hq]
  exact holds_of_copy L S.inv S.opened hh.inv hh.opened k2 hu q hq

end Couchstore
