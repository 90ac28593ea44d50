import Verif.Lemmas.IndexHeader
import Verif.Props.ViewGroup
-- only so that the two are not built at the same time, which takes too much memory
import Verif.Props.Search

/-! C45: the header of an index file, and the whole group.  C46: sorted lists. -/

namespace Couchstore.Props
open Couchstore

/-! ### Sorted lists -/

/-- What is done to a sorted list. -/
inductive ListOp (α : Type) where
  | add (x : α)
  | remove (x : α)

/-- The list after operations on an empty list. -/
def runListOps {α : Type} (cmp : α → α → Int) (ops : List (ListOp α)) : List α :=
  ops.foldl (fun l op => match op with | .add x => sortedAdd cmp l x | .remove x => sortedRemove cmp l x) []

/-- What was added last under a key, unless it was removed since. -/
def lastAdded {α : Type} (key : α → Nat) (k : Nat) (ops : List (ListOp α)) : Option α :=
  ops.foldl (fun o op => match op with
    | .add x => if key x = k then some x else o
    | .remove x => if key x = k then none else o) none

/-- C46: whatever is added and removed, a sorted list whose comparison is the difference of keys is in ascending order with
no key twice, and has under each key what was added last, unless it was removed since: looking a key up gives it. -/
theorem C46_sorted_list {α : Type} (key : α → Nat) (cmp : α → α → Int) (hc : ∀ a b, cmp a b = (key a : Int) - key b)
    (ops : List (ListOp α)) :
    (runListOps cmp ops).Pairwise (fun a b => key a < key b) ∧
    (∀ y, sortedGet cmp (runListOps cmp ops) y = lastAdded key (key y) ops) ∧
    (∀ x, x ∈ runListOps cmp ops ↔ lastAdded key (key x) ops = some x) := by
  have main : ∀ (ops : List (ListOp α)) (l : List α) (o : Nat → Option α), l.Pairwise (fun a b => key a < key b) →
      (∀ k, l.find? (fun z => key z == k) = o k) →
      (ops.foldl (fun l op => match op with | .add x => sortedAdd cmp l x | .remove x => sortedRemove cmp l x) l).Pairwise
        (fun a b => key a < key b) ∧
      ∀ k, (ops.foldl (fun l op => match op with | .add x => sortedAdd cmp l x | .remove x => sortedRemove cmp l x) l).find?
        (fun z => key z == k) = ops.foldl (fun o op => match op with
          | .add x => if key x = k then some x else o
          | .remove x => if key x = k then none else o) (o k) := by
    intro ops
    induction ops with
    | nil => exact fun l o h1 h2 => ⟨h1, h2⟩
    | cons op ops ih =>
      intro l o h1 h2
      cases op with
      | add x =>
        have := ih (sortedAdd cmp l x) (fun k => if key x = k then some x else o k) (sortedAdd_sorted key hc x l h1)
          fun k => by rw [find_sortedAdd key hc x k l h1, h2]
        exact ⟨this.1, fun k => this.2 k⟩
      | remove x =>
        have := ih (sortedRemove cmp l x) (fun k => if key x = k then none else o k) (h1.sublist (sortedRemove_sub x l))
          fun k => by rw [find_sortedRemove key hc x k l h1, h2]
        exact ⟨this.1, fun k => this.2 k⟩
  have h := main ops [] (fun _ => none) (by simp) (by simp)
  have hsort : (runListOps cmp ops).Pairwise (fun a b => key a < key b) := h.1
  have hfind : ∀ k, (runListOps cmp ops).find? (fun z => key z == k) = lastAdded key k ops := h.2
  refine ⟨hsort, fun y => ?_, fun x => ?_⟩
  · rw [sortedGet_eq key hc y _ hsort]
    exact hfind _
  · rw [← hfind]
    constructor
    · intro hx
      cases e : (runListOps cmp ops).find? (fun z => key z == key x) with
      | none =>
        rw [List.find?_eq_none] at e
        exact absurd (e x hx) (by simp)
      | some y =>
        have hy := List.mem_of_find?_eq_some e
        have hk : key y = key x := by simpa using List.find?_some e
        rw [sorted_unique key hsort hy hx hk]
    · exact List.mem_of_find?_eq_some

/-- The lists of the header are such lists. -/
example : runListOps partSeqCmp [.add (7, 1), .add (3, 2), .add (7, 5), .add (9, 1), .remove (9, 0)] = [(3, 2), (7, 5)] := by
  decide

example : (∀ a b, partSeqCmp a b = (a.1 : Int) - b.1) ∧ (∀ a b, partIdCmp a b = (a : Int) - b) ∧
    ∀ a b, partVersionCmp a b = (a.partId : Int) - b.partId := ⟨fun _ _ => rfl, fun _ _ => rfl, fun _ _ => rfl⟩

/-! ### The header as bytes -/

/-- C45: a header that is written is read back as it was, if its values are in range and its roots have room. -/
theorem C45_header_roundtrip (E : Env) (L : E.Laws) (hne : ∀ b, b ≠ [] → E.deflate b ≠ []) (h : IndexHeader) (ok : h.Ok)
    (roots : h.RootsOk) (junk : Bytes) : decodeIndexHeader E (encodeIndexHeader E junk h) = .ok h := by
  rw [decode_encode L h ok junk hne, stored_ok roots]

/-- C45: whatever bytes a header is read from, it has values in range and lists in order, and is written and read again
without a change. -/
theorem C45_decoded_header (E : Env) (L : E.Laws) (hne : ∀ b, b ≠ [] → E.deflate b ≠ []) (b : Bytes) (h : IndexHeader)
    (hd : decodeIndexHeader E b = .ok h) (junk : Bytes) :
    h.Ok ∧ h.RootsOk ∧ decodeIndexHeader E (encodeIndexHeader E junk h) = .ok h :=
  have ⟨h1, h2, _⟩ := decodeIndexHeader_ok hd
  ⟨h1, h2, C45_header_roundtrip E L hne h h1 h2 junk⟩

/-- C45 is not so for all roots: one with a reduction of 65524 to 65535 bytes, which an index may have, is read back as
the root of an empty index; all the other roots and values are read back as they were. -/
theorem C45_long_root_lost (E : Env) (L : E.Laws) (hne : ∀ b, b ≠ [] → E.deflate b ≠ []) (h : IndexHeader) (ok : h.Ok)
    (hid : HeaderRootOk h.idRoot) (before after : List (Option NodePointer)) (p : NodePointer)
    (hv : h.views = before ++ some p :: after) (hb : ∀ r ∈ before, HeaderRootOk r) (ha : ∀ r ∈ after, HeaderRootOk r)
    (h1 : 65524 ≤ p.reduceValue.length) (h2 : p.reduceValue.length ≤ 65535) (junk : Bytes) :
    decodeIndexHeader E (encodeIndexHeader E junk h) = .ok { h with views := before ++ none :: after } := by
  have hm : ∀ l : List (Option NodePointer), (∀ r ∈ l, HeaderRootOk r) → l.map storedRoot = l := fun l hl => by
    conv_rhs => rw [← List.map_id l]
    exact List.map_congr_left fun r hr => storedRoot_ok (hl r hr)
  rw [decode_encode L h ok junk hne]
  unfold IndexHeader.stored
  rw [storedRoot_ok hid, hv, List.map_append, List.map_cons, hm _ hb, hm _ ha, storedRoot_lost p (by omega) (by omega)]

/-- C45 is not so for all bytes: a header with fewer than 387 bytes of fields is read beyond its end. -/
theorem C45_short_header_overruns (E : Env) (b fields : Bytes) (hl : 16 < b.length)
    (hi : E.inflate (b.drop 16) = some fields) (hs : fields.length < 387) : decodeIndexHeader E b = .error .overrun := by
  have h : decodeFields (b.take 16) fields = .error .overrun := by
    unfold decodeFields
    refine ((takes_nat 1).needs fun _ => (takes_nat 2).needs fun _ => (takes_take 128).needs fun _ =>
      (takes_take 128).needs fun _ => (takes_take 128).needs (m := 0) fun _ => ?_) fields (by omega)
    intro b hb
    omega
  unfold decodeIndexHeader
  rw [if_neg (by omega), hi]
  simp only [h]

/-- The header is within the size that can be read, whatever its roots and its cleanup mask. -/
def HeaderSizeOk (E : Env) (junk : Bytes) (h : IndexHeader) : Prop :=
  ∀ idRoot (views : List (Option NodePointer)) cleanup, views.length = h.views.length → cleanup.length = 128 →
    (encodeIndexHeader E junk { h with idRoot := idRoot, views := views, cleanup := cleanup }).length + 4 ≤ maxViewHeaderSize

/-! ### The header in a file -/

/-- C45: the position that comes from writing a header is that of a header that is read back as it was, as long as the
file is only appended to (`later`); reading fails only from an I/O fault. -/
theorem C45_write_read (E : Env) (L : E.Laws) (hne : ∀ b, b ≠ [] → E.deflate b ≠ []) (h : IndexHeader) (ok : h.Ok)
    (roots : h.RootsOk) (junk : Bytes) (hlen : (encodeIndexHeader E junk h).length + 4 ≤ maxViewHeaderSize) (f g later : File)
    (w : f.WF) (pos : Nat) (hw : writeViewGroupHeader E junk h f = .ok pos g)
    (hlater : ∀ i, i < g.disk.length → later.disk[i]? = g.disk[i]?) (hll : g.disk.length ≤ later.disk.length)
    (hcfg : later.cfg = g.cfg) :
    f.pos ≤ pos ∧ pos % blockSize = 0 ∧
    (∀ h' x, readViewGroupHeader E pos later = .ok h' x → h' = h ∧ x.disk = later.disk) ∧
    (∀ er x, readViewGroupHeader E pos later = .error er x → later.faults ≠ []) := by
  have hs := (writeViewGroupHeader_spec f w (decode_encode L h ok junk hne)).ok hw
  obtain ⟨rfl, h1, h2, h3, h4, h5⟩ := hs
  rw [stored_ok roots] at h5
  have hr := readViewGroupHeader_spec (f := later) (by rw [hcfg]; exact h2.crc) ((h5 hlen).frame hlater hll hcfg)
  exact ⟨alignToNextBlock_ge _, alignToNextBlock_mod _, fun h' x hx => ⟨(hr.ok hx).1, (hr.ok hx).2.disk⟩,
    fun er x hx => (hr.error hx).2⟩

/-- C45: writing a header at the end of a file leaves the groups that are in it, whether it succeeds or not. -/
theorem C45_write_keeps (E : Env) (L : E.Laws) (hne : ∀ b, b ≠ [] → E.deflate b ≠ []) (h : IndexHeader) (ok : h.Ok)
    (junk : Bytes) (f : File) (w : f.WF) (hend : f.pos = f.disk.length) (kmax pos : Nat) (h' : IndexHeader) (ids : List KV)
    (views : List View) (hg : GroupAt E kmax f pos h' ids views) :
    (∀ p g, writeViewGroupHeader E junk h f = .ok p g → GroupAt E kmax g pos h' ids views) ∧
    (∀ er g, writeViewGroupHeader E junk h f = .error er g → GroupAt E kmax g pos h' ids views ∧
      (f.faults ≠ [] ∨ er = .formatLimit)) := by
  have hs := writeViewGroupHeader_spec f w (decode_encode L h ok junk hne)
  exact ⟨fun p g hw => hg.grown ((hs.ok hw).2.1.grown (by omega)),
    fun er g hw => ⟨hg.grown ((hs.error hw).1.grown (by omega)), (hs.error hw).2.2.2⟩⟩

/-! ### The whole group -/

/-- C45: a group that is built in a new file is there with a header that has everything of the old one but the roots,
and each root is that of an index with exactly the records. -/
theorem C45_build_group {D : Type} [LinearOrder D] (e : CollateEnv D) (round : Rat → D) (ucol : Bytes → Bytes → Int)
    (H : e.Ok round ucol) (E : Env) (L : E.Laws) (hne : ∀ b, b ≠ [] → E.deflate b ≠ []) (kvThr kpThr : Nat) (ha : 2 ≤ kvThr)
    (junk : Bytes) (old f : File) (hcrc : old.cfg.crcMode ≠ .unknown) (w : f.WF) (pos : Nat) (h : IndexHeader)
    (hh : ViewHeaderAt E old pos h) (hsize : HeaderSizeOk E junk h) (kmax : Nat) (hmax : kmax < 4096) (ids : List KV)
    (hi : ∀ kv ∈ ids, (viewIdIdx kmax).V kv) (views : List View) (hn : views.length = h.views.length)
    (hv : ∀ v ∈ views, v.Ok e ∧ (∀ m ∈ v.emits, v.keys m.kv.1) ∧ ∀ m ∈ v.emits, m.Fits v.specs)
    (hred : ∀ v ∈ views, reductionMax v.specs + 12 < 2 ^ 16) :
    (∀ p g, buildViewGroup E e kvThr kpThr junk old pos ids (views.map fun v => (v.reducers, v.emits.map Emit.kv)) f = .ok p g →
      g.WF ∧ (g.disk.length ≤ 2 ^ 48 →
        ∃ h', h' = { h with idRoot := h'.idRoot, views := h'.views } ∧ GroupAt E kmax g p h' ids views)) ∧
    (∀ er g, buildViewGroup E e kvThr kpThr junk old pos ids (views.map fun v => (v.reducers, v.emits.map Emit.kv)) f =
      .error er g → old.faults ≠ [] ∨ f.faults ≠ [] ∨ er = .formatLimit) := by
  have hs := buildViewGroup_spec E L hne e round ucol H kvThr kpThr ha junk old hcrc pos h hh hmax ids hi views hn hv hred f w
  have hok : h.Ok := by
    obtain ⟨-, b, q, -, -, -, hd⟩ := hh
    exact (decodeIndexHeader_ok hd).1
  refine ⟨fun p g hb => ?_, fun er g hb => hs.error hb⟩
  obtain ⟨h1, idRoot, roots, h2, h3⟩ := hs.ok hb
  exact ⟨h1, fun hg => ⟨_, rfl, h3 hg (hsize idRoot roots h.cleanup h2 hok.cleanup)⟩⟩

/-- C45, in part: a cleanup of a group leaves a new group in the file, with a header that has everything of the old one
but the roots and the cleanup mask, which is empty; the old group is still there.  As for C44, each index of the new
group has an end piece of what is to be left.  Missing: that it is all of it, which is not so. -/
theorem C45_cleanup_group_partial {D : Type} [LinearOrder D] (e : CollateEnv D) (round : Rat → D) (ucol : Bytes → Bytes → Int)
    (H : e.Ok round ucol) (E : Env) (L : E.Laws) (hne : ∀ b, b ≠ [] → E.deflate b ≠ []) (kvThr kpThr : Nat) (ha : 2 ≤ kvThr)
    (junk : Bytes) (f g : File) (hcrc : f.cfg.crcMode ≠ .unknown) (pos : Nat) (h : IndexHeader)
    (hsize : HeaderSizeOk E junk h) (kmax : Nat) (hmax : kmax < 4096) (ids : List KV) (views : List View)
    (hg : GroupAt E kmax f pos h ids views) (hv : ∀ v ∈ views, v.Ok e ∧ reductionMax v.specs + 12 < 2 ^ 16) (p n : Nat)
    (hc : cleanupViewGroup E e kvThr kpThr junk pos (views.map View.reducers) f = .ok (p, n) g) :
    GroupAt E kmax g pos h ids views ∧
    (g.disk.length ≤ 2 ^ 48 → ∃ h' left kept,
      h' = { h with idRoot := h'.idRoot, views := h'.views, cleanup := emptyBitmap } ∧
      GroupAt E kmax g p h' left kept ∧ left <:+ keptIds h.cleanup ids ∧
      List.Forall₂ (fun (v v' : View) => ∃ ms, ms <:+ keptEmits h.cleanup v.emits ∧ v' = v.having ms) views kept) ∧
    (ids.length < 2 ^ 40 → (∀ v ∈ views, valueCount v.emits < 2 ^ 40) →
      goneIds h.cleanup ids + (views.map fun v => goneValues h.cleanup v.emits).sum < 2 ^ 64 →
      n = goneIds h.cleanup ids + (views.map fun v => goneValues h.cleanup v.emits).sum) := by
  obtain ⟨h1, ⟨⟨idRoot, roots, left, kept, hl, l1, -, l2, l3⟩, h3⟩⟩ := (cleanupViewGroup_spec E L hne e round ucol H kvThr
    kpThr ha junk False f hcrc pos h hmax ids views hg hv (fun h => h.elim) (fun h => h.elim)).ok hc
  refine ⟨h1, fun hd => ⟨_, left, kept, rfl, l3 hd (hsize _ _ _ hl (by simp [emptyBitmap])), l1, l2.imp ?_⟩, h3⟩
  rintro v v' ⟨ms, m1, -, m2⟩
  exact ⟨ms, m1, m2⟩

/-- C45, in part: if moreover no node of the trees can overflow when entries are removed, each index of the new group has
exactly what is to be left. -/
theorem C45_cleanup_group_exact_partial {D : Type} [LinearOrder D] (e : CollateEnv D) (round : Rat → D)
    (ucol : Bytes → Bytes → Int) (H : e.Ok round ucol) (E : Env) (L : E.Laws) (hne : ∀ b, b ≠ [] → E.deflate b ≠ [])
    (kvThr kpThr : Nat) (ha : 2 ≤ kvThr) (junk : Bytes) (f g : File) (hcrc : f.cfg.crcMode ≠ .unknown) (pos : Nat)
    (h : IndexHeader) (hsize : HeaderSizeOk E junk h) (kmax : Nat) (hmax : kmax < 4096) (ids : List KV) (views : List View)
    (hg : GroupAt E kmax f pos h ids views) (hv : ∀ v ∈ views, v.Ok e ∧ reductionMax v.specs + 12 < 2 ^ 16)
    (hroom : rootRoomy E f.atEnd kvThr kpThr (kmax + 133 + 19) h.idRoot = true)
    (hvroom : ∀ x ∈ views.zip h.views, ∃ kmax, (∀ k, x.1.keys k → k.length ≤ kmax) ∧
      rootRoomy E f.atEnd kvThr kpThr (kmax + reductionMax x.1.specs + 19) x.2 = true) (p n : Nat)
    (hc : cleanupViewGroup E e kvThr kpThr junk pos (views.map View.reducers) f = .ok (p, n) g)
    (hd : g.disk.length ≤ 2 ^ 48) :
    ∃ h', h' = { h with idRoot := h'.idRoot, views := h'.views, cleanup := emptyBitmap } ∧
      GroupAt E kmax g p h' (keptIds h.cleanup ids) (views.map fun v => v.having (keptEmits h.cleanup v.emits)) := by
  obtain ⟨h1, ⟨⟨idRoot, roots, left, kept, hl, -, l1, l2, l3⟩, h3⟩⟩ := (cleanupViewGroup_spec E L hne e round ucol H kvThr
    kpThr ha junk True f hcrc pos h hmax ids views hg hv (fun _ => hroom) (fun _ => hvroom)).ok hc
  have hk : kept = views.map fun v => v.having (keptEmits h.cleanup v.emits) := by
    clear l3 hroom hvroom hg hv hc h1 h3
    induction l2 with
    | nil => rfl
    | cons h1 _ ih =>
      obtain ⟨ms, -, m1, rfl⟩ := h1
      rw [m1 trivial, List.map_cons, ih]
  rw [← hk, ← l1 trivial]
  exact ⟨_, rfl, l3 hd (hsize _ _ _ hl (by simp [emptyBitmap]))⟩

/-- C45: a cleanup of a group that fails has met an I/O fault or a limit of the file format, and the group is there as it
was. -/
theorem C45_cleanup_group_failure {D : Type} [LinearOrder D] (e : CollateEnv D) (round : Rat → D)
    (ucol : Bytes → Bytes → Int) (H : e.Ok round ucol) (E : Env) (L : E.Laws) (hne : ∀ b, b ≠ [] → E.deflate b ≠ [])
    (kvThr kpThr : Nat) (ha : 2 ≤ kvThr) (junk : Bytes) (f g : File) (hcrc : f.cfg.crcMode ≠ .unknown) (pos : Nat)
    (h : IndexHeader) (kmax : Nat) (hmax : kmax < 4096) (ids : List KV) (views : List View)
    (hg : GroupAt E kmax f pos h ids views) (hv : ∀ v ∈ views, v.Ok e ∧ reductionMax v.specs + 12 < 2 ^ 16) (er : Err)
    (hc : cleanupViewGroup E e kvThr kpThr junk pos (views.map View.reducers) f = .error er g) :
    (f.faults ≠ [] ∨ er = .formatLimit) ∧ GroupAt E kmax g pos h ids views :=
  ((cleanupViewGroup_spec E L hne e round ucol H kvThr kpThr ha junk False f hcrc pos h hmax ids views hg hv
    (fun h => h.elim) (fun h => h.elim)).error hc).symm

/-! ### An example

A group with one view and no entries yet, as it is when a group is new, and a build of the small group of C44. -/

def sampleHeader : IndexHeader where
  version := 2
  signature := List.replicate 16 7
  numPartitions := 1024
  active := List.replicate 127 0 ++ [32]
  passive := List.replicate 128 0
  cleanup := smallMask
  seqs := [(5, 77), (9, 12)]
  idRoot := none
  views := [none]
  hasReplica := true
  replicas := [3, 900]
  pendingActive := []
  pendingPassive := [17]
  pendingUnindexable := []
  unindexable := [(17, 2 ^ 40)]
  partVersions := [⟨5, [([1, 2, 3, 4, 5, 6, 7, 8], 2 ^ 63), ([0, 0, 0, 0, 0, 0, 0, 1], 0)]⟩, ⟨9, []⟩]

theorem sampleHeader_ok : sampleHeader.Ok :=
  ⟨by decide, by decide, by decide, by decide +kernel, by decide +kernel, by decide +kernel,
    by unfold PartSeqsOk PartIdsOk; decide, by decide, by unfold PartIdsOk; decide, by unfold PartIdsOk; decide,
    by unfold PartIdsOk; decide, by unfold PartIdsOk; decide, by unfold PartSeqsOk PartIdsOk; decide,
    by unfold PartVersionsOk PartIdsOk; decide, by decide⟩

theorem sampleHeader_roots : sampleHeader.RootsOk := by
  refine ⟨fun p h => by simp [sampleHeader] at h, fun r hr p h => ?_⟩
  have : r = none := by simpa [sampleHeader] using hr
  rw [this] at h
  cases h

theorem toy_deflate_ne (b : Bytes) (_ : b ≠ []) : Env.toy.deflate b ≠ [] := by
  unfold Env.toy; simp

theorem encRootField_length (r : Option NodePointer) : (encRootField r).length ≤ 65537 := by
  unfold encRootField
  simp only [List.length_append, List.length_take, enc16, length_beEnc]
  omega

theorem sampleHeader_size (h : IndexHeader) (hh : h = { sampleHeader with idRoot := h.idRoot, views := h.views })
    (hl : h.views.length = 1) : HeaderSizeOk Env.toy [] h := by
  intro idRoot views cleanup hv hc
  rw [hh]
  rw [hl] at hv
  obtain ⟨r, rfl⟩ := List.length_eq_one_iff.mp hv
  have h1 := encRootField_length idRoot
  have h2 := encRootField_length r
  have d : ∀ b : Bytes, (Env.toy.deflate b).length = b.length + 1 := fun b => by unfold Env.toy; simp
  have e1 : sampleHeader.signature.length = 16 := by decide
  have e2 : (encPartSeqs sampleHeader.seqs).length = 18 := by decide
  have e3 : (encPartIds sampleHeader.replicas).length = 6 := by decide
  have e4 : (encPartIds sampleHeader.pendingActive).length = 2 := by decide
  have e5 : (encPartIds sampleHeader.pendingPassive).length = 4 := by decide
  have e6 : (encPartIds sampleHeader.pendingUnindexable).length = 2 := by decide
  have e7 : (encPartSeqs sampleHeader.unindexable).length = 10 := by decide
  have e8 : (encPartVersions sampleHeader.partVersions).length = 42 := by decide
  have e9 : sampleHeader.active.length = 128 := sampleHeader_ok.active
  have e10 : sampleHeader.passive.length = 128 := sampleHeader_ok.passive
  have e11 : (enc16 sampleHeader.numPartitions).length = 2 := by decide
  have e12 : sampleHeader.version ≥ 2 := by decide
  unfold encodeIndexHeader encodeFields maxViewHeaderSize
  simp only [d, List.length_append, List.length_cons, List.flatMap_cons, List.flatMap_nil, List.length_nil, e1, e2, e3, e4,
    e5, e6, e7, e8, e9, e10, e11, hc, if_pos e12]
  omega

/-- The hypotheses of the round trip are met, also with roots. -/
example : ∃ h : IndexHeader, h.Ok ∧ h.RootsOk ∧ h.views = [some ⟨[], 4096, [1, 2, 3], 100⟩, none] ∧
    h.cleanup = sampleHeader.cleanup := by
  refine ⟨{ sampleHeader with views := [some ⟨[], 4096, [1, 2, 3], 100⟩, none] }, { sampleHeader_ok with views := by decide },
    ⟨fun p h => by simp [sampleHeader] at h, fun r hr p h => ?_⟩, rfl, rfl⟩
  simp only [List.mem_cons, List.not_mem_nil, or_false] at hr
  rcases hr with rfl | rfl
  · cases h; decide
  · cases h

/-- The hypotheses of `C45_long_root_lost` are met: a reduction of 65524 bytes is within the limit for reductions. -/
example : ∃ (h : IndexHeader) (p : NodePointer), h.Ok ∧ HeaderRootOk h.idRoot ∧ h.views = [] ++ some p :: [none] ∧
    HeaderRootOk none ∧ 65524 ≤ p.reduceValue.length ∧ p.reduceValue.length ≤ 65535 := by
  obtain ⟨red, hred⟩ : ∃ red : Bytes, red.length = 65524 := ⟨List.replicate 65524 0, List.length_replicate⟩
  exact ⟨{ sampleHeader with views := [some ⟨[], 4096, red, 100⟩, none] }, ⟨[], 4096, red, 100⟩,
    { sampleHeader_ok with views := by show 2 < 256; decide }, sampleHeader_roots.1, rfl, (fun p h => by cases h), hred.ge, by
      show red.length ≤ 65535
      omega⟩

/-- The hypotheses of `C45_short_header_overruns` are met by the header of a valid index cut short by a byte. -/
example : 16 < (encodeIndexHeader Env.toy [] sampleHeader).length ∧
    ∃ b fields : Bytes, 16 < b.length ∧ Env.toy.inflate (b.drop 16) = some fields ∧ fields.length < 387 :=
  ⟨by decide +kernel, List.replicate 16 7 ++ [7, 2], [2], by decide, by decide, by decide⟩

theorem header_written (h : IndexHeader) (hok : h.Ok) (hr : h.RootsOk) (hs : HeaderSizeOk Env.toy [] h) (f : File) (wf : f.WF)
    (pos : Nat) (g : File) (e : writeViewGroupHeader Env.toy [] h f = .ok pos g) : g.WF ∧ ViewHeaderAt Env.toy g pos h := by
  have rt := C45_header_roundtrip Env.toy Env.toy_laws toy_deflate_ne h hok hr []
  obtain ⟨-, -, w1, -, -, h1⟩ := (writeViewGroupHeader_spec f wf rt).ok e
  exact ⟨w1, h1 (hs h.idRoot h.views h.cleanup rfl hok.cleanup)⟩

theorem sampleHeader_written (pos : Nat) (g : File) (e : writeViewGroupHeader Env.toy [] sampleHeader File.empty = .ok pos g) :
    g.WF ∧ ViewHeaderAt Env.toy g pos sampleHeader :=
  header_written sampleHeader sampleHeader_ok sampleHeader_roots (sampleHeader_size sampleHeader rfl rfl) File.empty
    ⟨by decide, by decide⟩ pos g e

/-- All hypotheses of the theorems about groups are met: an empty group is written, the small group is built from it, with
a header that has the values of the empty one, no node can overflow, and a cleanup of partition 9 removes an id and a value. -/
example : ∃ (old f g : File) (pos p p' : Nat) (h : IndexHeader),
    writeViewGroupHeader Env.toy [] sampleHeader File.empty = .ok pos old ∧ ViewHeaderAt Env.toy old pos sampleHeader ∧
    buildViewGroup Env.toy (exactEnv true) viewKvThr viewKpThr [] old pos smallIds
      ([smallView].map fun v => (v.reducers, v.emits.map Emit.kv)) File.empty = .ok p f ∧
    GroupAt Env.toy 1 f p h smallIds [smallView] ∧ h = { sampleHeader with idRoot := h.idRoot, views := h.views } ∧
    HeaderSizeOk Env.toy [] h ∧
    rootRoomy Env.toy f.atEnd viewKvThr viewKpThr (1 + 133 + 19) h.idRoot = true ∧
    (∀ x ∈ [smallView].zip h.views, ∃ kmax, (∀ k, x.1.keys k → k.length ≤ kmax) ∧
      rootRoomy Env.toy f.atEnd viewKvThr viewKpThr (kmax + reductionMax x.1.specs + 19) x.2 = true) ∧
    cleanupViewGroup Env.toy (exactEnv true) viewKvThr viewKpThr [] p ([smallView].map View.reducers) f = .ok (p', 2) g ∧
    g.disk.length ≤ 2 ^ 48 := by
  have wf : File.empty.WF := ⟨by decide, by decide⟩
  have run : (match writeViewGroupHeader Env.toy [] sampleHeader File.empty with
    | .error _ _ => false
    | .ok pos old => match buildViewGroup Env.toy (exactEnv true) viewKvThr viewKpThr [] old pos smallIds
        ([smallView].map fun v => (v.reducers, v.emits.map Emit.kv)) File.empty with
      | .error _ _ => false
      | .ok p f => decide (old.faults = [] ∧ f.faults = [] ∧ f.disk.length ≤ 2 ^ 48) && (match readViewGroupHeader Env.toy p f with
        | .error _ _ => false
        | .ok h _ => rootRoomy Env.toy f.atEnd viewKvThr viewKpThr (1 + 133 + 19) h.idRoot &&
          (match h.views with
          | [r] => rootRoomy Env.toy f.atEnd viewKvThr viewKpThr (20 + reductionMax toySpecs + 19) r
          | _ => false)) &&
        (match cleanupViewGroup Env.toy (exactEnv true) viewKvThr viewKpThr [] p ([smallView].map View.reducers) f with
        | .error _ _ => false
        | .ok (_, n) g => decide (n = 2 ∧ g.disk.length ≤ 2 ^ 48))) = true := by decide +kernel
  cases e1 : writeViewGroupHeader Env.toy [] sampleHeader File.empty with
  | error er g => rw [e1] at run; exact (Bool.false_ne_true run).elim
  | ok pos old =>
    rw [e1] at run
    simp only at run
    obtain ⟨w1, hh⟩ := sampleHeader_written pos old e1
    cases e2 : buildViewGroup Env.toy (exactEnv true) viewKvThr viewKpThr [] old pos smallIds
        ([smallView].map fun v => (v.reducers, v.emits.map Emit.kv)) File.empty with
    | error er g => rw [e2] at run; exact (Bool.false_ne_true run).elim
    | ok p f =>
      rw [e2] at run
      simp only [Bool.and_eq_true, decide_eq_true_eq] at run
      obtain ⟨⟨⟨f1, f2, f3⟩, run1⟩, run2⟩ := run
      obtain ⟨w2, hb⟩ := (C45_build_group (exactEnv true) _ _ (exactEnv_ok true) Env.toy Env.toy_laws toy_deflate_ne viewKvThr
        viewKpThr (by decide) [] old File.empty w1.crc wf pos sampleHeader hh (sampleHeader_size sampleHeader rfl rfl) 1
        (by decide) smallIds smallIds_valid [smallView] rfl
        (by
          intro v hv
          rw [List.mem_singleton] at hv
          subst hv
          exact ⟨smallView_ok, smallEmits_keys, sampleEmits_fits⟩)
        (by
          intro v hv
          rw [List.mem_singleton] at hv
          subst hv
          decide)).1 p f e2
      obtain ⟨h, h2, hg⟩ := hb f3
      have hl : h.views.length = 1 := hg.views.length_eq.symm
      obtain ⟨r, hr⟩ := List.length_eq_one_iff.mp hl
      have hread := readViewGroupHeader_spec w2.crc hg.header
      cases e3 : readViewGroupHeader Env.toy p f with
      | error er g => exact absurd f2 (hread.error e3).2
      | ok h' g =>
        obtain rfl := (hread.ok e3).1
        rw [e3] at run1
        simp only [hr, Bool.and_eq_true] at run1
        cases e4 : cleanupViewGroup Env.toy (exactEnv true) viewKvThr viewKpThr [] p ([smallView].map View.reducers) f with
        | error er g => rw [e4] at run2; exact (Bool.false_ne_true run2).elim
        | ok x g =>
          obtain ⟨p', n⟩ := x
          rw [e4] at run2
          simp only [decide_eq_true_eq] at run2
          obtain ⟨rfl, hlen⟩ := run2
          refine ⟨old, f, g, pos, p, p', h', rfl, hh, e2, hg, h2, sampleHeader_size h' h2 hl, run1.1, ?_, e4, hlen⟩
          intro x hx
          rw [hr] at hx
          simp only [List.zip_cons_cons, List.zip_nil_left, List.mem_singleton] at hx
          subst hx
          exact ⟨20, fun k hk => hk.2, run1.2⟩

end Couchstore.Props
