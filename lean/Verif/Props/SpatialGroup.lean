import Verif.Lemmas.SpatialGroup
import Verif.Props.Spatial
import Verif.Props.ViewUpdate

/-! C72: view groups with spatial views. -/

namespace Couchstore.Props
open Couchstore

/-- C72, in part: a group that is built in a new file is there with a header that has everything of the old one but the roots,
and each root is that of an index with exactly the records.  Missing: system calls on the new file that fail (`C61_loses_records`). -/
theorem C72_build_group_partial (E : Env) (L : E.Laws) (hne : ∀ b, b ≠ [] → E.deflate b ≠ []) (kvThr kpThr : Nat)
    (ha : 2 ≤ kvThr) (junk : Bytes) (old f : File) (hcrc : old.cfg.crcMode ≠ .unknown) (w : f.WF) (h0 : f.faults = []) (pos : Nat)
    (h : IndexHeader) (hh : ViewHeaderAt E old pos h) (hsize : HeaderSizeOk E junk h) (kmax : Nat) (hmax : kmax < 4096)
    (ids : List KV) (hi : ∀ kv ∈ ids, (viewIdIdx kmax).V kv) (views : List SpatialView) (hn : views.length = h.views.length)
    (hv : ∀ v ∈ views, v.Ok) :
    (∀ p g, buildSpatialGroup E kvThr kpThr junk old pos ids (views.map (·.recs)) f = .ok p g →
      g.WF ∧ (∀ i, i < f.pos → g.disk[i]? = f.disk[i]?) ∧ (g.disk.length ≤ 2 ^ 48 →
        ∃ h', h' = { h with idRoot := h'.idRoot, views := h'.views } ∧ ViewHeaderAt E g p h' ∧
          SpatialIndexesAt E kmax g h' ids views)) ∧
    (∀ er g, buildSpatialGroup E kvThr kpThr junk old pos ids (views.map (·.recs)) f = .error er g →
      old.faults ≠ [] ∨ er = .formatLimit) := by
  have hs := buildSpatialGroup_spec E L hne kvThr kpThr ha junk old hcrc pos h hh hmax ids hi views hn hv f w h0
  have hok : h.Ok := by
    obtain ⟨-, b, q, -, -, -, hd⟩ := hh
    exact (decodeIndexHeader_ok hd).1
  refine ⟨fun p g hb => ?_, fun er g hb => hs.error hb⟩
  obtain ⟨h1, h2, idRoot, roots, h3, h4⟩ := hs.ok hb
  exact ⟨h1, h2, fun hg => ⟨_, rfl, h4 hg (hsize idRoot roots h.cleanup h3 hok.cleanup)⟩⟩

/-- C72, in part: a compaction of a group that succeeds gives a header that has everything of the old one but the roots, with
nothing left to clean up.  Its roots are those of indexes in the new file, which have exactly the entries of the old ones but
for those of partitions that are being cleaned up, and their number is reported.  What was in the new file is still there, and
the index file is as it was.  Missing: system calls on the new file that fail. -/
theorem C72_compact_group_partial (E : Env) (L : E.Laws) (hne : ∀ b, b ≠ [] → E.deflate b ≠ [])
    (cmp : Bytes → Bytes → Ordering) (kvThr kpThr : Nat) (ha : 2 ≤ kvThr) (junk : Bytes) (s s' : ViewCompactSt)
    (hsrc : s.src.cfg.crcMode ≠ .unknown) (htgt : s.tgt.cfg.crcMode ≠ .unknown) (h0 : s.tgt.faults = []) (buf : Bytes)
    (h : IndexHeader) (hd : decodeIndexHeader E buf = .ok h) (kmax : Nat) (hmax : kmax < 4096) (ids : List KV)
    (views : List SpatialView) (hg : SpatialIndexesAt E kmax s.src h ids views) (hs : SortedKV ebinCmp ids)
    (hv : ∀ v ∈ views, v.Ok) (out : Bytes)
    (hc : compactSpatialGroup E cmp kvThr kpThr junk buf views.length s = .ok out s') (hlen : s'.tgt.disk.length ≤ 2 ^ 48) :
    (∃ h', decodeIndexHeader E out = .ok h' ∧
      h' = { h with idRoot := h'.idRoot, views := h'.views, cleanup := emptyBitmap } ∧
      SpatialIndexesAt E kmax s'.tgt h' (ids.filter fun kv => !hasPart h.cleanup (idPart kv))
        (views.map fun v => ⟨v.dim, v.recs.filter fun kv => !hasPart h.cleanup (idPart kv)⟩)) ∧
    s'.inserted % 2 ^ 64 = (s.inserted + (ids.filter fun kv => !hasPart h.cleanup (idPart kv)).length +
      (views.map fun v => (v.recs.filter fun kv => !hasPart h.cleanup (idPart kv)).length).sum) % 2 ^ 64 ∧
    s'.src.disk = s.src.disk ∧ ∀ i, i < s.tgt.disk.length → s'.tgt.disk[i]? = s.tgt.disk[i]? := by
  obtain ⟨h1, h2, h3, h4⟩ := (compactSpatialGroup_spec E L hne cmp kvThr kpThr ha junk s hsrc htgt h0 buf h hd hmax ids views
    hg hs hv).ok hc
  exact ⟨h3 hlen, h4, h1.disk, h2.agree⟩

/-- C72, in part: a compaction that fails has met an I/O fault of the index file or a limit of the file format, and the index
file is as it was. -/
theorem C72_compact_failure_partial (E : Env) (L : E.Laws) (hne : ∀ b, b ≠ [] → E.deflate b ≠ [])
    (cmp : Bytes → Bytes → Ordering) (kvThr kpThr : Nat) (ha : 2 ≤ kvThr) (junk : Bytes) (s s' : ViewCompactSt)
    (hsrc : s.src.cfg.crcMode ≠ .unknown) (htgt : s.tgt.cfg.crcMode ≠ .unknown) (h0 : s.tgt.faults = []) (buf : Bytes)
    (h : IndexHeader) (hd : decodeIndexHeader E buf = .ok h) (kmax : Nat) (hmax : kmax < 4096) (ids : List KV)
    (views : List SpatialView) (hg : SpatialIndexesAt E kmax s.src h ids views) (hs : SortedKV ebinCmp ids)
    (hv : ∀ v ∈ views, v.Ok) (er : Err)
    (hc : compactSpatialGroup E cmp kvThr kpThr junk buf views.length s = .error er s') :
    (s.src.faults ≠ [] ∨ er = .formatLimit) ∧ s'.src.disk = s.src.disk := by
  obtain ⟨h1, h2⟩ := (compactSpatialGroup_spec E L hne cmp kvThr kpThr ha junk s hsrc htgt h0 buf h hd hmax ids views
    hg hs hv).error hc
  exact ⟨h2, h1.disk⟩

/-- C72: an update that succeeds changes only the index by document id, as an update of a group with other views does.  The
spatial indexes have what they had, the header has everything of the old one but the root of that index and the cleanup mask,
and the indexes that the old header names are still there.  The counts are those of the records. -/
theorem C72_update_group (E : Env) (L : E.Laws) (hne : ∀ b, b ≠ [] → E.deflate b ≠ []) (kvThr kpThr : Nat) (ha : 2 ≤ kvThr)
    (junk : Bytes) (batchSize maxActs : Nat) (f g : File) (hcrc : f.cfg.crcMode ≠ .unknown) (buf : Bytes) (h : IndexHeader)
    (hd : decodeIndexHeader E buf = .ok h) (kmax : Nat) (hmax : kmax < 4096) (ids : List KV) (idRecs : List ViewRec)
    (views : List SpatialView) (hg : SpatialIndexesAt E kmax f h ids views) (hs : SortedKV ebinCmp ids)
    (hi : RecsOk ebinCmp (fun _ => True) (viewIdIdx kmax).V idRecs) (stats : UpdateStats) (out : Bytes)
    (hu : updateSpatialGroup E kvThr kpThr junk batchSize maxActs buf (recFile idRecs) f = .ok (stats, out) g)
    (hlen : g.disk.length ≤ 2 ^ 48) :
    SpatialIndexesAt E kmax g h ids views ∧
    (∃ h' ids', decodeIndexHeader E out = .ok h' ∧ h' = { h with idRoot := h'.idRoot, cleanup := h'.cleanup } ∧
      SpatialIndexesAt E kmax g h' ids' views ∧ Updated ebinCmp h.cleanup idRecs ids ids' ∧
      ∀ p, hasPart h'.cleanup p = true ↔ hasPart h.cleanup p = true ∧ ∃ kv ∈ ids', idPart kv = p) ∧
    stats.ids = countOps idRecs ∧ stats.kvs = ⟨0, 0⟩ ∧
    (NoInsertInto h.cleanup idRecs → ids.length + idRecs.length < 2 ^ 40 → goneIds h.cleanup ids < 2 ^ 64 →
      leastIdsPurged h.cleanup idRecs ids ≤ stats.purged ∧ stats.purged ≤ goneIds h.cleanup ids) := by
  obtain ⟨h1, h2⟩ := (updateSpatialGroup_spec E L hne kvThr kpThr ha junk batchSize maxActs f hcrc buf h hd hmax ids idRecs
    views hg hs hi).ok hu
  exact ⟨hg.grown h1, h2.indexes hlen, h2.idCount, h2.viewCount, h2.purged⟩

/-- C72: an update that fails has met an I/O fault or a limit of the file format, and the indexes are there as they were. -/
theorem C72_update_failure (E : Env) (L : E.Laws) (hne : ∀ b, b ≠ [] → E.deflate b ≠ []) (kvThr kpThr : Nat) (ha : 2 ≤ kvThr)
    (junk : Bytes) (batchSize maxActs : Nat) (f g : File) (hcrc : f.cfg.crcMode ≠ .unknown) (buf : Bytes) (h : IndexHeader)
    (hd : decodeIndexHeader E buf = .ok h) (kmax : Nat) (hmax : kmax < 4096) (ids : List KV) (idRecs : List ViewRec)
    (views : List SpatialView) (hg : SpatialIndexesAt E kmax f h ids views) (hs : SortedKV ebinCmp ids)
    (hi : RecsOk ebinCmp (fun _ => True) (viewIdIdx kmax).V idRecs) (er : Err)
    (hu : updateSpatialGroup E kvThr kpThr junk batchSize maxActs buf (recFile idRecs) f = .error er g) :
    (f.faults ≠ [] ∨ er = .formatLimit) ∧ SpatialIndexesAt E kmax g h ids views := by
  obtain ⟨h1, h2⟩ := (updateSpatialGroup_spec E L hne kvThr kpThr ha junk batchSize maxActs f hcrc buf h hd hmax ids idRecs
    views hg hs hi).error hu
  exact ⟨h2, hg.grown h1⟩

/-- The partition of an entry that the last record for its key inserted is one into which records insert. -/
theorem applied_part {cleanup : Bytes} {recs : List ViewRec} (hn : NoInsertInto cleanup recs) {kv : KV} (h : Applied recs [] kv) :
    hasPart cleanup (idPart kv) = false := by
  unfold Applied at h
  split at h
  · rename_i r hr
    have hm : r ∈ recs := List.mem_reverse.mp (List.mem_of_find?_eq_some hr)
    have hk : r.key = kv.1 := by simpa using List.find?_some hr
    have := hn r hm h.1
    rw [hk, h.2] at this
    exact this
  · cases h

/-- C72 does not hold for what is to be cleaned up: after any update with at least one record, none of which inserts into a
partition that is being cleaned up, nothing is left to be cleaned up according to the new header, although the spatial indexes
still have all their records of these partitions (`C72_update_group`).  A compaction of the new group keeps them all. -/
theorem C72_update_forgets_cleanup (E : Env) (L : E.Laws) (hne : ∀ b, b ≠ [] → E.deflate b ≠ []) (kvThr kpThr : Nat)
    (ha : 2 ≤ kvThr) (junk : Bytes) (batchSize maxActs : Nat) (f g : File) (hcrc : f.cfg.crcMode ≠ .unknown) (buf : Bytes)
    (h : IndexHeader) (hd : decodeIndexHeader E buf = .ok h) (kmax : Nat) (hmax : kmax < 4096) (ids : List KV)
    (idRecs : List ViewRec) (views : List SpatialView) (hg : SpatialIndexesAt E kmax f h ids views) (hs : SortedKV ebinCmp ids)
    (hi : RecsOk ebinCmp (fun _ => True) (viewIdIdx kmax).V idRecs) (h1 : idRecs ≠ []) (h2 : NoInsertInto h.cleanup idRecs)
    (stats : UpdateStats) (out : Bytes)
    (hu : updateSpatialGroup E kvThr kpThr junk batchSize maxActs buf (recFile idRecs) f = .ok (stats, out) g)
    (hlen : g.disk.length ≤ 2 ^ 48) :
    (∃ h', decodeIndexHeader E out = .ok h' ∧ h'.cleanup = emptyBitmap) ∧
    ∀ (cmp : Bytes → Bytes → Ordering) (tgt : File) (n : Nat) (s' : ViewCompactSt) (out' : Bytes),
      tgt.cfg.crcMode ≠ .unknown → tgt.faults = [] → (∀ v ∈ views, v.Ok) →
      compactSpatialGroup E cmp kvThr kpThr junk out views.length ⟨g, tgt, n⟩ = .ok out' s' → s'.tgt.disk.length ≤ 2 ^ 48 →
      ∃ h'' ids'', decodeIndexHeader E out' = .ok h'' ∧ SpatialIndexesAt E kmax s'.tgt h'' ids'' views := by
  obtain ⟨-, ⟨h', ids', d1, d2, d3, d4, d5⟩, -⟩ := C72_update_group E L hne kvThr kpThr ha junk batchSize maxActs f g hcrc buf h hd
    kmax hmax ids idRecs views hg hs hi stats out hu hlen
  have he : h'.cleanup = emptyBitmap := by
    refine bitmap_ext ?_ fun p => ?_
    · rw [(decodeIndexHeader_ok d1).1.cleanup]
      simp [emptyBitmap]
    · rw [emptyBitmap_parts, ← Bool.not_eq_true]
      intro hp
      obtain ⟨p1, kv, hkv, rfl⟩ := (d5 p).mp hp
      rw [applied_part h2 (d4.cleaned h1 kv hkv p1)] at p1
      cases p1
  have t3 : g.cfg.crcMode ≠ .unknown := by
    rw [((updateSpatialGroup_spec E L hne kvThr kpThr ha junk batchSize maxActs f hcrc buf h hd hmax ids idRecs views hg hs
      hi).ok hu).1.cfg]
    exact hcrc
  refine ⟨⟨h', d1, he⟩, fun cmp tgt n s' out' t1 t2 hv hc hl => ?_⟩
  obtain ⟨⟨h'', e1, -, e3⟩, -⟩ := C72_compact_group_partial E L hne cmp kvThr kpThr ha junk ⟨g, tgt, n⟩ s' t3 t1 t2 out h' d1 kmax
    hmax ids' views d3 d4.sorted hv out' hc hl
  have : (views.map fun v : SpatialView => (⟨v.dim, v.recs.filter fun kv => !hasPart h'.cleanup (idPart kv)⟩ : SpatialView)) = views := by
    rw [he]
    simp [emptyBitmap_parts]
  rw [this] at e3
  exact ⟨h'', _, e1, e3⟩

/-! ### A sample -/

/-- Three records, one of them of partition 9. -/
def mixedSegments : List KV := [segment dbl0 dbl1 5, segment dbl1 dbl1 9, segment dbl2 dbl2 5]

def mixedView : SpatialView := ⟨1, mixedSegments⟩

theorem mixedView_ok : mixedView.Ok := by
  have hb : ∀ x ∈ [dbl0, dbl1, dbl2], IsBound x := by
    unfold IsBound
    decide +kernel
  have h0 := hb dbl0 (by simp)
  have h1 := hb dbl1 (by simp)
  have h2 := hb dbl2 (by simp)
  refine ⟨by decide, fun kv hkv => ?_⟩
  simp only [mixedView, mixedSegments, List.mem_cons, List.not_mem_nil, or_false] at hkv
  rcases hkv with rfl | rfl | rfl
  · exact ⟨⟨⟨[(dbl0, dbl1)], ⟨rfl, by simp [h0, h1]⟩, rfl⟩, by decide, by decide⟩, by decide, by decide⟩
  · exact ⟨⟨⟨[(dbl1, dbl1)], ⟨rfl, by simp [h1]⟩, rfl⟩, by decide, by decide⟩, by decide, by decide⟩
  · exact ⟨⟨⟨[(dbl2, dbl2)], ⟨rfl, by simp [h2]⟩, rfl⟩, by decide, by decide⟩, by decide, by decide⟩

def builtGroup (old : File) (pos : Nat) : EStateM.Result Err File Nat :=
  buildSpatialGroup Env.toy viewKvThr viewKpThr [] old pos smallIds ([mixedView].map (·.recs)) File.empty

def compactedGroup (buf : Bytes) (f : File) : EStateM.Result Err ViewCompactSt Bytes :=
  compactSpatialGroup Env.toy ebinCmp viewKvThr viewKpThr [] buf [mixedView].length ⟨f, File.empty, 0⟩

def updatedGroup (buf : Bytes) (f : File) : EStateM.Result Err File (UpdateStats × Bytes) :=
  updateSpatialGroup Env.toy viewKvThr viewKpThr [] 100 37449 buf (recFile secondIdRecs) f

/-- All hypotheses are met: a group with three ids and three records of a spatial view is built, where an id and a record are of
partition 9, which is being cleaned up.  A compaction leaves four of the six.  After an update that removes an id and changes
another one, a compaction copies all three records and one id: only the id of partition 9 has gone. -/
example : ∃ (old f g : File) (pos p : Nat) (h : IndexHeader) (buf out out' out'' : Bytes) (s s' : ViewCompactSt),
    ViewHeaderAt Env.toy old pos sampleHeader ∧ old.cfg.crcMode ≠ .unknown ∧ HeaderSizeOk Env.toy [] sampleHeader ∧
    builtGroup old pos = .ok p f ∧ f.cfg.crcMode ≠ .unknown ∧ decodeIndexHeader Env.toy buf = .ok h ∧
    hasPart h.cleanup 9 = true ∧ SpatialIndexesAt Env.toy 1 f h smallIds [mixedView] ∧ SortedKV ebinCmp smallIds ∧
    (∀ v ∈ [mixedView], v.Ok) ∧ RecsOk ebinCmp (fun _ => True) (viewIdIdx 1).V secondIdRecs ∧ secondIdRecs ≠ [] ∧
    NoInsertInto h.cleanup secondIdRecs ∧
    compactedGroup buf f = .ok out s ∧ s.inserted = 4 ∧ s.tgt.disk.length ≤ 2 ^ 48 ∧
    updatedGroup buf f = .ok (⟨⟨1, 2⟩, ⟨0, 0⟩, 1⟩, out') g ∧ g.disk.length ≤ 2 ^ 48 ∧
    compactedGroup out' g = .ok out'' s' ∧ s'.inserted = 4 ∧ s'.tgt.disk.length ≤ 2 ^ 48 := by
  have wf : File.empty.WF := ⟨by decide, by decide⟩
  have run : (match writeViewGroupHeader Env.toy [] sampleHeader File.empty with
    | .error _ _ => false
    | .ok pos old => match builtGroup old pos with
      | .error _ _ => false
      | .ok p f => decide (f.faults = [] ∧ f.disk.length ≤ 2 ^ 48) && (match readViewGroupHeader Env.toy p f with
        | .error _ _ => false
        | .ok h _ => (match compactedGroup (encodeIndexHeader Env.toy [] h) f with
            | .error _ _ => false
            | .ok _ s => decide (s.inserted = 4 ∧ s.tgt.disk.length ≤ 2 ^ 48)) &&
          (match updatedGroup (encodeIndexHeader Env.toy [] h) f with
            | .error _ _ => false
            | .ok (st, out) g => decide (st = ⟨⟨1, 2⟩, ⟨0, 0⟩, 1⟩ ∧ g.disk.length ≤ 2 ^ 48) && (match compactedGroup out g with
              | .error _ _ => false
              | .ok _ s => decide (s.inserted = 4 ∧ s.tgt.disk.length ≤ 2 ^ 48))))) = true := by decide +kernel
  have hvok : ∀ v ∈ [mixedView], v.Ok := by
    intro v hv
    rw [List.mem_singleton] at hv
    subst hv
    exact mixedView_ok
  cases e1 : writeViewGroupHeader Env.toy [] sampleHeader File.empty with
  | error er g => rw [e1] at run; exact (Bool.false_ne_true run).elim
  | ok pos old =>
    rw [e1] at run
    simp only at run
    obtain ⟨w1, hh⟩ := sampleHeader_written pos old e1
    cases e2 : builtGroup old pos with
    | error er g => rw [e2] at run; exact (Bool.false_ne_true run).elim
    | ok p f =>
      rw [e2] at run
      simp only [Bool.and_eq_true, decide_eq_true_eq] at run
      obtain ⟨⟨f2, f3⟩, run⟩ := run
      obtain ⟨w2, -, hb⟩ := (C72_build_group_partial Env.toy Env.toy_laws toy_deflate_ne viewKvThr viewKpThr (by decide) [] old
        File.empty w1.crc wf rfl pos sampleHeader hh (sampleHeader_size sampleHeader rfl rfl) 1 (by decide) smallIds smallIds_valid
        [mixedView] rfl hvok).1 p f e2
      obtain ⟨h, h2, hat, hg⟩ := hb f3
      have hread := readViewGroupHeader_spec w2.crc hat
      obtain ⟨hok, hroots⟩ : h.Ok ∧ h.RootsOk := by
        obtain ⟨-, b, q, -, -, -, hd⟩ := hat
        exact ⟨(decodeIndexHeader_ok hd).1, (decodeIndexHeader_ok hd).2.1⟩
      have hc : h.cleanup = smallMask := by rw [h2]; rfl
      cases e3 : readViewGroupHeader Env.toy p f with
      | error er g => exact absurd f2 (hread.error e3).2
      | ok h' g' =>
        obtain rfl := (hread.ok e3).1
        rw [e3] at run
        simp only at run
        cases e4 : compactedGroup (encodeIndexHeader Env.toy [] h') f with
        | error er g => simp only [e4, Bool.false_and] at run; exact (Bool.false_ne_true run).elim
        | ok out s =>
          cases e5 : updatedGroup (encodeIndexHeader Env.toy [] h') f with
          | error er g => simp only [e4, e5, Bool.and_false] at run; exact (Bool.false_ne_true run).elim
          | ok x g =>
            obtain ⟨st, out'⟩ := x
            cases e6 : compactedGroup out' g with
            | error er s => simp only [e4, e5, e6, Bool.and_false] at run; exact (Bool.false_ne_true run).elim
            | ok out'' s' =>
              simp only [e4, e5, e6, Bool.and_eq_true, decide_eq_true_eq] at run
              obtain ⟨⟨r1, r2⟩, ⟨rfl, r4⟩, r5, r6⟩ := run
              refine ⟨old, f, g, pos, p, h', _, out, out', out'', s, s', hh, w1.crc, sampleHeader_size sampleHeader rfl rfl, e2, w2.crc,
                C45_header_roundtrip Env.toy Env.toy_laws toy_deflate_ne h' hok hroots [], ?_, hg, by unfold SortedKV; decide +kernel, hvok, secondIdRecs_ok,
                by decide, ?_, e4, r1, r2, e5, r4, e6, r5, r6⟩
              · rw [hc]; decide +kernel
              · rw [hc]; unfold NoInsertInto; decide +kernel

end Couchstore.Props
