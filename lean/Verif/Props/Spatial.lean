import Verif.Lemmas.SpatialRead
import Verif.Lemmas.ZOrder
import Verif.Props.ViewCompact

/-! C61, C62, C63: spatial indexes. -/

namespace Couchstore.Props
open Couchstore

/-! ### Building an index -/

/-- C61: a build that succeeds gives an index with exactly the records that were given, in this order, in which every node is kept
with the smallest box around its records.  What was in the file before the write position is still there.  Missing: system calls that fail
(`C61_loses_records`). -/
theorem C61_build_partial (E : Env) {d : Nat} (hd : d ≤ 255) (kvThr kpThr : Nat) (kvs : List KV)
    (hv : ∀ kv ∈ kvs, (∃ b, BoxOk d b ∧ kv.1 = boxKey b) ∧ kv.1.length < 4096 ∧ kv.2.length < 2 ^ 28)
    (f g : File) (w : f.WF) (hf : f.faults = []) (r : Option NodePointer) (h : buildSpatial E kvThr kpThr kvs f = .ok r g) :
    SRootAt E d g r kvs ∧ ∀ i, i < f.pos → g.disk[i]? = f.disk[i]? := by
  obtain ⟨h1, h2⟩ := (buildSpatial_spec hd kvThr kpThr E kvs f w hf hv).ok h
  exact ⟨h2, fun i hi => h1.frame.agree i hi (by have := w.pos_le; omega)⟩

/-- C61: a build fails only at a limit of the file format.  Missing: system calls that fail. -/
theorem C61_build_succeeds_partial (E : Env) {d : Nat} (hd : d ≤ 255) (kvThr kpThr : Nat) (kvs : List KV)
    (hv : ∀ kv ∈ kvs, (∃ b, BoxOk d b ∧ kv.1 = boxKey b) ∧ kv.1.length < 4096 ∧ kv.2.length < 2 ^ 28)
    (f g : File) (w : f.WF) (hf : f.faults = []) (e : Err) (h : buildSpatial E kvThr kpThr kvs f = .error e g) :
    e = .formatLimit :=
  ((buildSpatial_spec hd kvThr kpThr E kvs f w hf hv).error h).2

/-- C61: a search that goes down only into nodes whose box meets a window finds all records whose boxes meet it, and no
others, each as often as it is in the index. -/
theorem C61_window_search (E : Env) (L : E.Laws) {d : Nat} (hd : d ≤ 255) (win : Box) (f : File) (w : f.WF) (p : NodePointer)
    (kvs : List KV) (h : SRootAt E d f (some p) kvs) (r : List KV) (g : File)
    (hr : windowSearch E win (p.pointer + 1) p.pointer f = .ok r g) :
    r = kvs.filter fun kv => meets win (boxOf kv.1) := by
  obtain ⟨l, hl⟩ := h
  have := spatial_height hl
  exact ((windowSearch_spec E L hd win (p.pointer + 1) l (by omega) p kvs f w hl).ok hr).1

/-- C61: such a search fails only if a system call fails. -/
theorem C61_window_search_succeeds (E : Env) (L : E.Laws) {d : Nat} (hd : d ≤ 255) (win : Box) (f : File) (w : f.WF)
    (p : NodePointer) (kvs : List KV) (h : SRootAt E d f (some p) kvs) (e : Err) (g : File)
    (hr : windowSearch E win (p.pointer + 1) p.pointer f = .error e g) : f.faults ≠ [] := by
  obtain ⟨l, hl⟩ := h
  have := spatial_height hl
  exact ((windowSearch_spec E L hd win (p.pointer + 1) l (by omega) p kvs f w hl).error hr).2

/-- C61: the box of a key that stands for a box is this box. -/
theorem C61_box_of_key {d : Nat} (b : Box) (hb : BoxOk d b) : boxOf (boxKey b) = b := boxOf_boxKey hb

/-! Numbers, boxes and records of an index with one dimension. -/

def dbl0 : Bytes := [0, 0, 0, 0, 0, 0, 0, 0]
def dbl1 : Bytes := [0, 0, 0, 0, 0, 0, 0xf0, 0x3f]
def dbl2 : Bytes := [0, 0, 0, 0, 0, 0, 0, 0x40]

/-- The numbers are 0, 1, 2, -1/2 and infinity (not less than any other), and one is not a number. -/
example : dblVal dbl0 = some 0 ∧ dblVal dbl1 = some (2 ^ 1074) ∧ dblVal dbl2 = some (2 * 2 ^ 1074) ∧
    dblVal [0, 0, 0, 0, 0, 0, 0xe0, 0xbf] = some (-(2 ^ 1073)) ∧
    dblVal [0, 0, 0, 0, 0, 0, 0xf0, 0x7f] = some (2 ^ 52 * 2 ^ 2046) ∧
    dblVal [0xff, 0xff, 0xff, 0xff, 0xff, 0xff, 0xef, 0x7f] = some ((2 ^ 53 - 1) * 2 ^ 2045) ∧
    dblVal [1, 0, 0, 0, 0, 0, 0xf0, 0x7f] = none := by decide +kernel

/-- A record for the numbers from `a` to `b`, of partition `part`. -/
def segment (a b : Bytes) (part : UInt8) : KV := (boxKey [(a, b)], [0, part])

def segments : List KV := [segment dbl0 dbl1 1, segment dbl1 dbl1 2, segment dbl2 dbl2 3]

theorem segments_ok : ∀ kv ∈ segments, (∃ b, BoxOk 1 b ∧ kv.1 = boxKey b) ∧ kv.1.length < 4096 ∧ kv.2.length < 2 ^ 28 := by
  have hb : ∀ x ∈ [dbl0, dbl1, dbl2], IsBound x := by
    unfold IsBound
    decide +kernel
  have h0 := hb dbl0 (by simp)
  have h1 := hb dbl1 (by simp)
  have h2 := hb dbl2 (by simp)
  intro kv hkv
  simp only [segments, List.mem_cons, List.not_mem_nil, or_false] at hkv
  rcases hkv with rfl | rfl | rfl
  · exact ⟨⟨[(dbl0, dbl1)], ⟨rfl, by simp [h0, h1]⟩, rfl⟩, by decide, by decide⟩
  · exact ⟨⟨[(dbl1, dbl1)], ⟨rfl, by simp [h1]⟩, rfl⟩, by decide, by decide⟩
  · exact ⟨⟨[(dbl2, dbl2)], ⟨rfl, by simp [h2]⟩, rfl⟩, by decide, by decide⟩

/-- The build of an index with these records and small nodes, in an empty file, with the given outcomes of the system calls. -/
def buildSegments (faults : List Fault) : EStateM.Result Err File (Option NodePointer) :=
  buildSpatial Env.toy 0 0 segments { File.empty with faults := faults }

theorem segments_built (kvs : List KV) (hv : ∀ kv ∈ kvs, (spatialIdx 1).V kv) (r : NodePointer) (g : File)
    (h : buildSpatial Env.toy 0 0 kvs File.empty = .ok (some r) g) : Ext File.empty g ∧ SRootAt Env.toy 1 g (some r) kvs :=
  (buildSpatial_spec (d := 1) (by decide) 0 0 Env.toy kvs File.empty ⟨by decide, by decide⟩ rfl hv).ok h

/-- All hypotheses are met, by an index with inner nodes in which a search finds two records of three. -/
example : ∃ (r : NodePointer) (f g : File), f.WF ∧ f.faults = [] ∧ buildSpatial Env.toy 0 0 segments f = .ok (some r) g ∧ g.WF ∧
    SRootAt Env.toy 1 g (some r) segments ∧
    windowSearch Env.toy [(dbl1, dbl1)] (r.pointer + 1) r.pointer g = .ok [segment dbl0 dbl1 1, segment dbl1 dbl1 2] g := by
  have run : (match buildSegments [] with
    | .ok (some r) g => (match windowSearch Env.toy [(dbl1, dbl1)] (r.pointer + 1) r.pointer g with
      | .ok l _ => decide (l = [segment dbl0 dbl1 1, segment dbl1 dbl1 2])
      | .error _ _ => false)
    | _ => false) = true := by decide +kernel
  have w : File.empty.WF := by refine ⟨?_, ?_⟩ <;> decide
  cases e : buildSegments [] with
  | error er g => rw [e] at run; exact (Bool.false_ne_true run).elim
  | ok r g =>
    cases r with
    | none => rw [e] at run; exact (Bool.false_ne_true run).elim
    | some r =>
      rw [e] at run
      have e' : buildSpatial Env.toy 0 0 segments File.empty = .ok (some r) g := e
      obtain ⟨h1, h2⟩ := segments_built segments segments_ok r g e'
      have hf : g.faults = [] := h1.no_faults rfl
      refine ⟨r, File.empty, g, w, rfl, e', h1.wf w, h2, ?_⟩
      cases e2 : windowSearch Env.toy [(dbl1, dbl1)] (r.pointer + 1) r.pointer g with
      | error er g2 => simp only [e2] at run; exact (Bool.false_ne_true run).elim
      | ok l g2 =>
        simp only [e2, decide_eq_true_eq] at run
        obtain ⟨k, hk⟩ := h2
        have := spatial_height hk
        obtain ⟨-, hr⟩ := (windowSearch_spec Env.toy Env.toy_laws (by decide) [(dbl1, dbl1)] (r.pointer + 1) k (by omega) r segments
          g (h1.wf w) hk).ok e2
        have : g2 = g := by
          have h5 := hr.1
          rw [hf, List.suffix_nil] at h5
          rw [hr.2, h5, ← hf]
        rw [run, this]

/-- C61 does not hold if a system call fails: the error of the write of the last of the topmost nodes is ignored
(spatial_modify.cc:319), the build returns success, and records are missing from the index. -/
theorem C61_loses_records : ∃ (faults : List Fault) (p : NodePointer) (g : File) (r : List KV),
    buildSegments faults = .ok (some p) g ∧ g.faults = [] ∧
    windowSearch Env.toy [(dbl0, dbl2)] (p.pointer + 1) p.pointer g = .ok r g ∧ r = [segment dbl0 dbl1 1, segment dbl1 dbl1 2] ∧
    segments.filter (fun kv => meets [(dbl0, dbl2)] (boxOf kv.1)) = segments ∧ r ≠ segments := by
  have run : (match buildSegments (List.replicate 9 .none ++ [.err (-20)]) with
    | .ok (some r) g => decide (g.faults = []) && (match windowSearch Env.toy [(dbl0, dbl2)] (r.pointer + 1) r.pointer g with
      | .ok l g2 => decide (l = [segment dbl0 dbl1 1, segment dbl1 dbl1 2] ∧ g2.disk = g.disk ∧ g2.pos = g.pos ∧ g2.cfg = g.cfg ∧
          g2.faults = g.faults ∧ g2.log = g.log)
      | .error _ _ => false)
    | _ => false) = true := by decide +kernel
  cases e : buildSegments (List.replicate 9 .none ++ [.err (-20)]) with
  | error er g => rw [e] at run; exact (Bool.false_ne_true run).elim
  | ok r g =>
    cases r with
    | none => rw [e] at run; exact (Bool.false_ne_true run).elim
    | some r =>
      rw [e] at run
      simp only [Bool.and_eq_true, decide_eq_true_eq] at run
      obtain ⟨hf, run⟩ := run
      cases e2 : windowSearch Env.toy [(dbl0, dbl2)] (r.pointer + 1) r.pointer g with
      | error er g2 => simp only [e2] at run; exact (Bool.false_ne_true run).elim
      | ok l g2 =>
        simp only [e2, decide_eq_true_eq] at run
        obtain ⟨h1, h2, h3, h4, h5, h6⟩ := run
        have : g2 = g := by cases g; cases g2; simp only at h2 h3 h4 h5 h6; simp [h2, h3, h4, h5, h6]
        subst this
        exact ⟨_, r, g2, l, e, hf, e2, h1, by decide +kernel, by rw [h1]; decide +kernel⟩

/-! ### The order of the records -/

/-- C62: numbers of 32 bits are interleaved bit by bit, from the highest bits to the lowest, in the order of the
numbers.  (The code allows for more numbers, see `C62_many_numbers`.) -/
theorem C62_interleave (xs : List Nat) (h0 : xs ≠ []) (hn : xs.length < 2048) :
    ∃ z, interleave xs = .ok z ∧ z.length = 4 * xs.length ∧ beDec z = curve 32 xs :=
  interleave_curve xs h0 hn

/-- C62: keys are compared by the positions of the centers of their boxes on the curve. -/
theorem C62_compare (A : SpatialArith) (sf : ScaleFactor) {d : Nat} (hd : d ≤ 255) (h1 : sf ≠ []) (h2 : sf.length ≤ d)
    (a b : Box) (ha : BoxOk d a) (hb : BoxOk d b) (pa pb : List Nat) (hpa : gridPoint A sf a = some pa)
    (hpb : gridPoint A sf b = some pb) :
    spatialKeyCmp A sf (boxKey a) (boxKey b) = .ok (compare (curve 32 pa) (curve 32 pb)) :=
  spatialKeyCmp_spec A sf hd h1 h2 a b ha hb pa pb hpa hpb

/-- C62: a box whose center is in no dimension behind that of another one is not sorted behind it. -/
theorem C62_monotone (A : SpatialArith) (sf : ScaleFactor) {d : Nat} (hd : d ≤ 255) (h1 : sf ≠ []) (h2 : sf.length ≤ d)
    (a b : Box) (ha : BoxOk d a) (hb : BoxOk d b) (pa pb : List Nat) (hpa : gridPoint A sf a = some pa)
    (hpb : gridPoint A sf b = some pb) (hle : List.Forall₂ (· ≤ ·) pa pb) :
    ∃ o, spatialKeyCmp A sf (boxKey a) (boxKey b) = .ok o ∧ o ≠ .gt := by
  refine ⟨_, spatialKeyCmp_spec A sf hd h1 h2 a b ha hb pa pb hpa hpb, ?_⟩
  rw [ne_eq, Nat.compare_eq_gt, Nat.not_lt]
  exact curve_mono hle (scalePoint_spec A sf b pb (by rw [hb.1]; exact h2) hpb).2.2

/-- C62: two keys compare as equal only if the centers of their boxes are at the same point of the grid. -/
theorem C62_equal (A : SpatialArith) (sf : ScaleFactor) {d : Nat} (hd : d ≤ 255) (h1 : sf ≠ []) (h2 : sf.length ≤ d)
    (a b : Box) (ha : BoxOk d a) (hb : BoxOk d b) (pa pb : List Nat) (hpa : gridPoint A sf a = some pa)
    (hpb : gridPoint A sf b = some pb) : spatialKeyCmp A sf (boxKey a) (boxKey b) = .ok .eq ↔ pa = pb := by
  obtain ⟨-, la, ba⟩ := scalePoint_spec A sf a pa (by rw [ha.1]; exact h2) hpa
  obtain ⟨-, lb, bb⟩ := scalePoint_spec A sf b pb (by rw [hb.1]; exact h2) hpb
  rw [spatialKeyCmp_spec A sf hd h1 h2 a b ha hb pa pb hpa hpb]
  have := curve_cell (k := 32) (c := 0) (by rw [la, lb]) ba bb
  simp only [Nat.zero_mul, Nat.pow_zero, Nat.div_one, List.map_id'] at this
  rw [Except.ok.injEq, Nat.compare_eq_eq, this]

/-- C62: what is close together stays together.  If the grid is divided into cells with sides of 2^c, everything that is sorted
between two boxes with centers in the same cell has its center in this cell as well. -/
theorem C62_cells (A : SpatialArith) (sf : ScaleFactor) {d : Nat} (hd : d ≤ 255) (h1 : sf ≠ []) (h2 : sf.length ≤ d)
    (a b x : Box) (ha : BoxOk d a) (hb : BoxOk d b) (hx : BoxOk d x) (pa pb px : List Nat) (hpa : gridPoint A sf a = some pa)
    (hpb : gridPoint A sf b = some pb) (hpx : gridPoint A sf x = some px) (c : Nat) (hcell : pa.map (· / 2 ^ c) = pb.map (· / 2 ^ c))
    (hax : spatialKeyCmp A sf (boxKey a) (boxKey x) ≠ .ok .gt) (hxb : spatialKeyCmp A sf (boxKey x) (boxKey b) ≠ .ok .gt) :
    px.map (· / 2 ^ c) = pa.map (· / 2 ^ c) := by
  obtain ⟨-, la, ba⟩ := scalePoint_spec A sf a pa (by rw [ha.1]; exact h2) hpa
  obtain ⟨-, lb, bb⟩ := scalePoint_spec A sf b pb (by rw [hb.1]; exact h2) hpb
  obtain ⟨-, lx, bx⟩ := scalePoint_spec A sf x px (by rw [hx.1]; exact h2) hpx
  rw [spatialKeyCmp_spec A sf hd h1 h2 a x ha hx pa px hpa hpx, ne_eq, Except.ok.injEq, Nat.compare_eq_gt, Nat.not_lt] at hax
  rw [spatialKeyCmp_spec A sf hd h1 h2 x b hx hb px pb hpx hpb, ne_eq, Except.ok.injEq, Nat.compare_eq_gt, Nat.not_lt] at hxb
  have hab := (curve_cell (k := 32) (c := c) (by rw [la, lb]) ba bb).mpr hcell
  apply (curve_cell (k := 32) (c := c) (by rw [lx, la]) bx ba).mp
  rw [lx, ← la]
  apply Nat.le_antisymm
  · rw [hab]; exact Nat.div_le_div_right hxb
  · exact Nat.div_le_div_right hax

/-- C62: the comparison by which duplicates are found is a total order on all keys. -/
theorem C62_merge_order : (∀ a b, spatialMergerKeyCmp a b = .eq ↔ a = b) ∧
    (∀ a b, spatialMergerKeyCmp b a = (spatialMergerKeyCmp a b).swap) ∧
    ∀ a b c, spatialMergerKeyCmp a b = .lt → spatialMergerKeyCmp b c = .lt → spatialMergerKeyCmp a c = .lt := by
  -- by the length, then by the number the bytes stand for
  have key : ∀ a b, spatialMergerKeyCmp a b = (compare a.length b.length).then (compare (beDec a) (beDec b)) := by
    intro a b
    unfold spatialMergerKeyCmp
    split
    · rename_i h
      rw [memcmp_beDec _ a b rfl h.symm, h]
      simp
    · rename_i h
      rcases Nat.lt_or_gt_of_ne h with h | h
      · rw [Nat.compare_eq_lt.mpr h]; rfl
      · rw [Nat.compare_eq_gt.mpr h]; rfl
  refine ⟨?_, ?_, ?_⟩
  · intro a b
    rw [key, Ordering.then_eq_eq, Nat.compare_eq_eq, Nat.compare_eq_eq]
    constructor
    · rintro ⟨h1, h2⟩; exact beDec_inj h1 h2
    · rintro rfl; exact ⟨rfl, rfl⟩
  · intro a b
    rw [key, key, Ordering.swap_then, Nat.compare_swap, Nat.compare_swap]
  · intro a b c
    rw [key, key, key, Ordering.then_eq_lt, Ordering.then_eq_lt, Ordering.then_eq_lt]
    simp only [Nat.compare_eq_lt, Nat.compare_eq_eq]
    omega

/-- 2048 numbers are interleaved to nothing, and for 2049 numbers the code writes beyond the end of its buffer, although it
accepts up to 16383.  (An index has at most 255 dimensions.) -/
theorem C62_many_numbers : interleave (List.replicate 2048 1) = .ok [] ∧ interleave (List.replicate 2049 1) = .error .overrun := by
  decide +kernel

/-- A toy arithmetic: the last byte of a number, and the sum of it and the scale. -/
def toyArith : SpatialArith :=
  ⟨fun a b => [(a.getLastD 0 + b.getLastD 0) / 2], fun _ _ b => b, fun x _ s => some ((x.getLastD 0).toNat + (s.getLastD 0).toNat)⟩

/-- All hypotheses are met, and the comparison tells the boxes apart. -/
example : ∃ (a b : Box) (sf : ScaleFactor), sf ≠ [] ∧ sf.length ≤ 1 ∧ BoxOk 1 a ∧ BoxOk 1 b ∧
    gridPoint toyArith sf a = some [0x1f] ∧ gridPoint toyArith sf b = some [0x40] ∧
    List.Forall₂ (· ≤ ·) [0x1f] [0x40] ∧ [0x1f].map (· / 2 ^ 7) = [0x40].map (· / 2 ^ 7) ∧
    spatialKeyCmp toyArith sf (boxKey a) (boxKey b) = .ok .lt ∧ spatialKeyCmp toyArith sf (boxKey b) (boxKey b) ≠ .ok .gt := by
  refine ⟨[(dbl0, dbl1)], [(dbl2, dbl2)], spatialScaleFactor toyArith [dbl0, dbl0] 4, by decide, by decide, ⟨rfl, ?_⟩, ⟨rfl, ?_⟩,
    by decide, by decide, by simp, by decide, by decide +kernel, by decide +kernel⟩ <;>
  · unfold IsBound
    decide +kernel

/-! ### Compaction -/

/-- C63: a compaction of a spatial index that succeeds gives an index in the new file with exactly the records of the old one, in
the same order, but for those of partitions that are being cleaned up, and their number is reported; boxes are again
the smallest ones.  What was in the new file before the write position is still there, and the old file is as it was.  Missing: failing system calls on the new file (see `C61_loses_records`). -/
theorem C63_compact_partial (E : Env) (L : E.Laws) (cmp : Bytes → Bytes → Ordering) {d : Nat} (hd : d ≤ 255) (kvThr kpThr : Nat)
    (cleanup : Bytes) (hc : cleanup.length = 128) (root : Option NodePointer) (kvs : List KV) (s s' : ViewCompactSt) (ws : s.src.WF)
    (wt : s.tgt.WF) (h0 : s.tgt.faults = []) (hr : SRootAt E d s.src root kvs)
    (hp : ∀ kv ∈ kvs, 2 ≤ kv.2.length ∧ beDec (kv.2.take 2) < 1024) (r : Option NodePointer)
    (h : compactSpatial E cmp kvThr kpThr (some cleanup) root s = .ok r s') :
    SRootAt E d s'.tgt r (kvs.filter fun kv => !hasPart cleanup (beDec (kv.2.take 2))) ∧
    s'.inserted % 2 ^ 64 = (s.inserted + (kvs.filter fun kv => !hasPart cleanup (beDec (kv.2.take 2))).length) % 2 ^ 64 ∧
    s'.src.disk = s.src.disk ∧ ∀ i, i < s.tgt.pos → s'.tgt.disk[i]? = s.tgt.disk[i]? := by
  obtain ⟨h1, h2, h3, h4⟩ := (compactSpatial_spec E L cmp hd kvThr kpThr (dead := fun kv => hasPart cleanup (beDec (kv.2.take 2)))
    root kvs s ws wt h0 hr (by
      intro kv hkv
      obtain ⟨p1, p2⟩ := hp kv hkv
      show (if kv.2.length < 2 then _ else isBitSet cleanup (beDec (kv.2.take 2))) = _
      rw [if_neg (by omega), isBitSet_ok hc p2])).ok h
  exact ⟨h3, h4, h1.disk, fun i hi => h2.frame.agree i hi (by have := wt.pos_le; omega)⟩

/-- C63: without a filter everything is kept. -/
theorem C63_compact_all_partial (E : Env) (L : E.Laws) (cmp : Bytes → Bytes → Ordering) {d : Nat} (hd : d ≤ 255) (kvThr kpThr : Nat)
    (root : Option NodePointer) (kvs : List KV) (s s' : ViewCompactSt) (ws : s.src.WF)
    (wt : s.tgt.WF) (h0 : s.tgt.faults = []) (hr : SRootAt E d s.src root kvs) (r : Option NodePointer)
    (h : compactSpatial E cmp kvThr kpThr none root s = .ok r s') :
    SRootAt E d s'.tgt r kvs ∧ s'.inserted % 2 ^ 64 = (s.inserted + kvs.length) % 2 ^ 64 ∧
    s'.src.disk = s.src.disk ∧ ∀ i, i < s.tgt.pos → s'.tgt.disk[i]? = s.tgt.disk[i]? := by
  obtain ⟨h1, h2, h3, h4⟩ := (compactSpatial_spec E L cmp hd kvThr kpThr (dead := fun _ => false) root kvs s ws wt h0 hr
    (by intros; rfl)).ok h
  have : (kvs.filter fun _ => !false) = kvs := by simp
  rw [this] at h3 h4
  exact ⟨h3, h4, h1.disk, fun i hi => h2.frame.agree i hi (by have := wt.pos_le; omega)⟩

/-- C63: a compaction fails only at a failing read of the old file or a limit of the file format, and the old file is as it
was. -/
theorem C63_compact_failure_partial (E : Env) (L : E.Laws) (cmp : Bytes → Bytes → Ordering) {d : Nat} (hd : d ≤ 255) (kvThr kpThr : Nat)
    (cleanup : Bytes) (hc : cleanup.length = 128) (root : Option NodePointer) (kvs : List KV) (s s' : ViewCompactSt) (ws : s.src.WF)
    (wt : s.tgt.WF) (h0 : s.tgt.faults = []) (hr : SRootAt E d s.src root kvs)
    (hp : ∀ kv ∈ kvs, 2 ≤ kv.2.length ∧ beDec (kv.2.take 2) < 1024) (e : Err)
    (h : compactSpatial E cmp kvThr kpThr (some cleanup) root s = .error e s') :
    (s.src.faults ≠ [] ∨ e = .formatLimit) ∧ s'.src.disk = s.src.disk := by
  obtain ⟨h1, h2⟩ := (compactSpatial_spec E L cmp hd kvThr kpThr (dead := fun kv => hasPart cleanup (beDec (kv.2.take 2)))
    root kvs s ws wt h0 hr (by
      intro kv hkv
      obtain ⟨p1, p2⟩ := hp kv hkv
      show (if kv.2.length < 2 then _ else isBitSet cleanup (beDec (kv.2.take 2))) = _
      rw [if_neg (by omega), isBitSet_ok hc p2])).error h
  exact ⟨h2, h1.disk⟩

/-- A filter with partition 2. -/
def cleanupTwo : Bytes := List.replicate 127 0 ++ [4]

/-- All hypotheses are met: of an index with three records one is left out. -/
example : ∃ (root r : NodePointer) (s s' : ViewCompactSt), s.src.WF ∧ s.tgt.WF ∧ s.tgt.faults = [] ∧
    SRootAt Env.toy 1 s.src (some root) segments ∧ cleanupTwo.length = 128 ∧
    (∀ kv ∈ segments, 2 ≤ kv.2.length ∧ beDec (kv.2.take 2) < 1024) ∧
    compactSpatial Env.toy ebinCmp 0 0 (some cleanupTwo) (some root) s = .ok (some r) s' ∧ s'.inserted = 2 ∧
    (segments.filter fun kv => !hasPart cleanupTwo (beDec (kv.2.take 2))) = [segment dbl0 dbl1 1, segment dbl2 dbl2 3] := by
  have run : (match buildSegments [] with
    | .ok (some r) g => (match compactSpatial Env.toy ebinCmp 0 0 (some cleanupTwo) (some r) ⟨g, File.empty, 0⟩ with
      | .ok (some _) s => decide (s.inserted = 2)
      | _ => false)
    | _ => false) = true := by decide +kernel
  have w : File.empty.WF := by refine ⟨?_, ?_⟩ <;> decide
  cases e : buildSegments [] with
  | error er g => rw [e] at run; exact (Bool.false_ne_true run).elim
  | ok r g =>
    cases r with
    | none => rw [e] at run; exact (Bool.false_ne_true run).elim
    | some r =>
      rw [e] at run
      simp only at run
      have e' : buildSpatial Env.toy 0 0 segments File.empty = .ok (some r) g := e
      obtain ⟨h1, h2⟩ := segments_built segments segments_ok r g e'
      cases e2 : compactSpatial Env.toy ebinCmp 0 0 (some cleanupTwo) (some r) ⟨g, File.empty, 0⟩ with
      | error er s => simp only [e2] at run; exact (Bool.false_ne_true run).elim
      | ok r' s =>
        cases r' with
        | none => simp only [e2] at run; exact (Bool.false_ne_true run).elim
        | some r' =>
          simp only [e2, decide_eq_true_eq] at run
          exact ⟨r, r', ⟨g, File.empty, 0⟩, s, h1.wf w, w, rfl, h2, by decide +kernel, by decide +kernel, e2, run, by decide +kernel⟩

end Couchstore.Props
