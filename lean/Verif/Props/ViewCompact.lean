import Verif.Lemmas.ViewCompact
import Verif.Props.ViewUpdate

/-! C49: compaction of a view group. -/

namespace Couchstore.Props
open Couchstore

/-- C49: a compaction that succeeds gives a header that has everything of the old one but the roots, with nothing left to
clean up.  Its roots are those of indexes in the new file, which have exactly the entries of the old ones but for those of
partitions that are being cleaned up, and their number is reported.  What was in the new file is still there, and the index
file is as it was. -/
theorem C49_compact_group {D : Type} [LinearOrder D] (e : CollateEnv D) (round : Rat → D) (ucol : Bytes → Bytes → Int)
    (H : e.Ok round ucol) (E : Env) (L : E.Laws) (hne : ∀ b, b ≠ [] → E.deflate b ≠ []) (kvThr kpThr : Nat) (ha : 2 ≤ kvThr)
    (junk : Bytes) (s s' : ViewCompactSt) (hsrc : s.src.cfg.crcMode ≠ .unknown) (htgt : s.tgt.cfg.crcMode ≠ .unknown) (buf : Bytes)
    (h : IndexHeader) (hd : decodeIndexHeader E buf = .ok h) (kmax : Nat) (hmax : kmax < 4096) (ids : List KV)
    (views : List View) (hg : IndexesAt E kmax s.src h ids views) (hs : SortedKV ebinCmp ids)
    (hv : ∀ v ∈ views, v.Ok e ∧ SortedKV (viewBtreeCmp e) (v.emits.map Emit.kv) ∧ reductionMax v.specs + 12 < 2 ^ 16)
    (out : Bytes) (hc : compactViewGroup E e kvThr kpThr junk buf (views.map (·.reducers)) s = .ok out s')
    (hlen : s'.tgt.disk.length ≤ 2 ^ 48) :
    (∃ h', decodeIndexHeader E out = .ok h' ∧
      h' = { h with idRoot := h'.idRoot, views := h'.views, cleanup := emptyBitmap } ∧
      IndexesAt E kmax s'.tgt h' (ids.filter fun kv => !hasPart h.cleanup (idPart kv))
        (views.map fun v => v.having (v.emits.filter fun m => !hasPart h.cleanup m.part))) ∧
    s'.inserted % 2 ^ 64 = (s.inserted + (ids.filter fun kv => !hasPart h.cleanup (idPart kv)).length +
      (views.map fun v => (v.emits.filter fun m => !hasPart h.cleanup m.part).length).sum) % 2 ^ 64 ∧
    s'.src.disk = s.src.disk ∧ ∀ i, i < s.tgt.disk.length → s'.tgt.disk[i]? = s.tgt.disk[i]? := by
  obtain ⟨h1, h2, h3, h4⟩ := (compactViewGroup_spec E L hne e round ucol H kvThr kpThr ha junk s hsrc htgt buf h hd hmax ids views
    hg hs hv).ok hc
  exact ⟨h3.indexes hlen, h4, h1.disk, h2.agree⟩

/-- C49: a compaction that fails has met an I/O fault of one of the files or a limit of the file format, and the index file
is as it was. -/
theorem C49_compact_failure {D : Type} [LinearOrder D] (e : CollateEnv D) (round : Rat → D) (ucol : Bytes → Bytes → Int)
    (H : e.Ok round ucol) (E : Env) (L : E.Laws) (hne : ∀ b, b ≠ [] → E.deflate b ≠ []) (kvThr kpThr : Nat) (ha : 2 ≤ kvThr)
    (junk : Bytes) (s s' : ViewCompactSt) (hsrc : s.src.cfg.crcMode ≠ .unknown) (htgt : s.tgt.cfg.crcMode ≠ .unknown) (buf : Bytes)
    (h : IndexHeader) (hd : decodeIndexHeader E buf = .ok h) (kmax : Nat) (hmax : kmax < 4096) (ids : List KV)
    (views : List View) (hg : IndexesAt E kmax s.src h ids views) (hs : SortedKV ebinCmp ids)
    (hv : ∀ v ∈ views, v.Ok e ∧ SortedKV (viewBtreeCmp e) (v.emits.map Emit.kv) ∧ reductionMax v.specs + 12 < 2 ^ 16)
    (er : Err) (hc : compactViewGroup E e kvThr kpThr junk buf (views.map (·.reducers)) s = .error er s') :
    (s.src.faults ≠ [] ∨ s.tgt.faults ≠ [] ∨ er = .formatLimit) ∧ s'.src.disk = s.src.disk := by
  obtain ⟨h1, h2⟩ := (compactViewGroup_spec E L hne e round ucol H kvThr kpThr ha junk s hsrc htgt buf h hd hmax ids views
    hg hs hv).error hc
  exact ⟨h2, h1.disk⟩

def sampleGroupCompaction (buf : Bytes) (f : File) : EStateM.Result Err ViewCompactSt Bytes :=
  compactViewGroup Env.toy (exactEnv true) viewKvThr viewKpThr [] buf [smallView.reducers] ⟨f, File.empty, 0⟩

/-- All hypotheses are met: a group with three ids and three entries of a view, of which an id and an entry are of a
partition that is being cleaned up. -/
example : ∃ (f : File) (s : ViewCompactSt) (buf out : Bytes) (h h' : IndexHeader) (ids : List KV) (ms : List Emit),
    f.cfg.crcMode ≠ .unknown ∧ decodeIndexHeader Env.toy buf = .ok h ∧
    IndexesAt Env.toy 1 f h ids [smallView.having ms] ∧ SortedKV ebinCmp ids ∧
    (∀ v ∈ [smallView.having ms], v.Ok (exactEnv true) ∧ SortedKV (viewBtreeCmp (exactEnv true)) (v.emits.map Emit.kv) ∧
      reductionMax v.specs + 12 < 2 ^ 16) ∧ hasPart h.cleanup 9 = true ∧
    sampleGroupCompaction buf f = .ok out s ∧ s.inserted = 4 ∧ s.tgt.disk.length ≤ 2 ^ 48 ∧
    decodeIndexHeader Env.toy out = .ok h' ∧ h'.cleanup = emptyBitmap := by
  have run : (match firstUpdate with
    | .error _ _ => false
    | .ok (_, out) f => decide (f.disk.length ≤ 2 ^ 48 ∧ f.cfg.crcMode ≠ .unknown) &&
      (match decodeIndexHeader Env.toy out with
      | .error _ => false
      | .ok h => hasPart h.cleanup 9) &&
      (match sampleGroupCompaction out f with
      | .error _ _ => false
      | .ok out' s => decide (s.inserted = 4 ∧ s.tgt.disk.length ≤ 2 ^ 48) &&
        (match decodeIndexHeader Env.toy out' with
        | .error _ => false
        | .ok h => decide (h.cleanup = emptyBitmap)))) = true := by decide +kernel
  cases e1 : firstUpdate with
  | error er g => rw [e1] at run; exact (Bool.false_ne_true run).elim
  | ok x f =>
    obtain ⟨st, out⟩ := x
    rw [e1] at run
    simp only [Bool.and_eq_true, decide_eq_true_eq] at run
    obtain ⟨⟨⟨hl, hcrc⟩, run1⟩, run2⟩ := run
    obtain ⟨-, h, ids, views, d1, d2, d3, d4, d5, d6⟩ := C47_update_group (exactEnv true) _ _ (exactEnv_ok true) Env.toy
      Env.toy_laws toy_deflate_ne viewKvThr viewKpThr (by decide) [] 100 37449 File.empty f (by decide)
      (encodeIndexHeader Env.toy [] sampleHeader) sampleHeader
      (C45_header_roundtrip Env.toy Env.toy_laws toy_deflate_ne _ sampleHeader_ok sampleHeader_roots []) 1 (by decide) []
      firstIdRecs [(smallView.having [], firstViewRecs)]
      ⟨rfl, .cons ⟨rfl, by simp [View.having]⟩ .nil⟩ List.Pairwise.nil firstIdRecs_ok
      (by
        intro x hx
        rw [List.mem_singleton] at hx
        subst hx
        exact ⟨smallView_ok, List.Pairwise.nil, firstViewRecs_ok, by decide⟩) _ _ e1 hl
    cases d5 with
    | cons hv hn =>
      cases hn
      obtain ⟨ms, rfl, hms⟩ := hv
      rw [d1] at run1
      cases e2 : sampleGroupCompaction out f with
      | error er g => rw [e2] at run2; exact (Bool.false_ne_true run2).elim
      | ok out' s =>
        rw [e2] at run2
        simp only [Bool.and_eq_true, decide_eq_true_eq] at run2
        obtain ⟨⟨hi, hl2⟩, run3⟩ := run2
        cases e3 : decodeIndexHeader Env.toy out' with
        | error er => rw [e3] at run3; exact (Bool.false_ne_true run3).elim
        | ok h' =>
          rw [e3] at run3
          refine ⟨f, s, out, out', h, h', ids, ms, hcrc, d1, d3, d4.sorted, ?_, run1, e2, hi, hl2, e3, by simpa using run3⟩
          intro v hv
          rw [List.mem_singleton] at hv
          subst hv
          exact ⟨smallView_ok, hms.sorted, by show reductionMax smallView.specs + 12 < 2 ^ 16; decide⟩

end Couchstore.Props
