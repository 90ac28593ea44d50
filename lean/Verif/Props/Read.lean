import Verif.Lemmas.Read
import Verif.Props.Btree

/-! Property theorems C09, C10 and C31: reading a B-tree index.

`Represents E X cmp f root m` (Props/Btree.lean) says that the tree with that root is intact in
file `f`, its keys are ascending for `cmp`, and it represents the map `m`.  `visit cb events u`
(Spec/Look.lean) is: invoke the callback for one event after another, from context `u`, until it
fails.  An event is a key with its value, or with nothing for "not found".

The theorems hold for the order used by lookups, `lookupCompare cmp`, in which an empty key comes
first; `lookupCompare_ebin` and `lookupCompare_laws` (Lemmas/Read.lean) show that it is a total
order for document ids and for sequence keys. -/

namespace Couchstore.Props

variable {σ : Type}

/-! ## C09 Looking up keys in an index returns exactly what the index maps them to -/

/-- Whatever the tree, the callback and its context are: looking up an ascending list of keys
invokes the callback for each key in order, once, with the value the tree maps it to or with
nothing, until the callback fails; the result is the callback's.  The file is unchanged.  If raw
reads may fail (`f.faults ≠ []`) a lookup may stop early with an error, after a prefix of these
invocations. -/
theorem C09_lookup (E : Env) (L : E.Laws) (X : Idx) (rq : LookRq σ) (K : Bytes → Prop)
    (ok : LookOk rq K) (hV : ∀ kv, X.V kv → K kv.1 ∧ kv.1.length < 4096)
    (f : File) (w : f.WF) (p : NodePointer) (m : KMap)
    (hroot : Represents E X (lookupCompare rq.cmp) f (some p) m)
    (htol : rq.tolerate = true → f.faults = [])
    (ks : List Bytes) (hks : ks.Pairwise fun a b => lookupCompare rq.cmp a b = .lt)
    (hkK : ∀ k ∈ ks, K k) (u : σ) :
    ∃ u' e g, btreeLookup E rq false p.pointer ks u f = .ok (u', e) g ∧ g.disk = f.disk ∧
      (visit rq.fetch (ks.map fun k => (k, m k)) u = (u', e) ∨
        (f.faults ≠ [] ∧ e ≠ none ∧
          ∃ n, visit rq.fetch ((ks.map fun k => (k, m k)).take n) u = (u', none))) := by
  obtain ⟨kvs, hr, hs, hm⟩ := hroot
  have h := btreeLookup_find E L ok hV p kvs f w hr hs htol ks hks hkK u
  have hev : findEvents kvs ks = ks.map fun k => (k, m k) :=
    List.map_congr_left fun k _ => by rw [hm k]
  rw [hev] at h
  cases hx : btreeLookup E rq false p.pointer ks u f with
  | ok a g =>
    obtain ⟨h1, h2⟩ := h.ok hx
    exact ⟨a.1, a.2, g, rfl, h1.disk, h2⟩
  | error e g => exact (h.error hx).elim

/-- A lookup that records what it is told. -/
def recordRq : LookRq (List (Bytes × Option Bytes)) where
  cmp := ebinCmp
  tolerate := false
  fetch u k v := (u ++ [(k, v)], none)
  node := none

theorem recordRq_ok : LookOk recordRq (fun _ => True) where
  cmp := by
    show CmpLaws (lookupCompare ebinCmp) _
    rw [lookupCompare_ebin]; exact ebinCmp_laws
  tol h := by simp [recordRq] at h
  node := rfl

/-- A file with a tree, from the result of an update. -/
def treeOf (r : EStateM.Result Err File (St (List (Bytes × Option Bytes)) × Option NodePointer)) :
    File × Option NodePointer :=
  match r with
  | .ok (_, p) g => (g, p)
  | .error _ g => (g, none)

/-- The tree of the examples: eight entries `[i] ↦ [10 i, 10 i, 10 i]` in several nodes. -/
def sampleTree : File × Option NodePointer :=
  treeOf (modifyBtree Env.toy plainRq none sampleBatch ⟨[], false⟩ File.empty)

/-- The entries of the sample tree. -/
def sampleEntries : List KV :=
  [([1], [10, 10, 10]), ([2], [20, 20, 20]), ([3], [30, 30, 30]), ([4], [40, 40, 40]),
   ([5], [50, 50, 50]), ([6], [60, 60, 60]), ([7], [70, 70, 70]), ([8], [80, 80, 80])]

theorem sampleBatch_spec :
    specFold plainRq sampleBatch [] [] = .ok ([([4], none), ([7], none)], sampleEntries) := rfl

theorem sampleTree_root : sampleTree.2.isSome = true := by decide +kernel
theorem sampleTree_faults : sampleTree.1.faults = [] := by decide +kernel

theorem treeOf_spec (f : File) (hw : f.WF) (as : List Action) (hb : BatchOk plainRq as)
    (ha : ∀ a ∈ as, plainIdx.V (a.key, a.data)) (u' out)
    (hspec : specFold plainRq as [] [] = .ok (u', out)) (t : File × Option NodePointer)
    (ht : t = treeOf (modifyBtree Env.toy plainRq none as ⟨[], false⟩ f)) (h1 : t.2.isSome = true) :
    t.1.WF ∧ ∃ p, t.2 = some p ∧ RootAt Env.toy plainIdx t.1 (some p) out := by
  have hsp := modifyBtree_spec Env.toy Env.toy_laws plainRq_ok none [] as [] f
    hw rfl List.Pairwise.nil hb (fun a h => ⟨trivial, fun _ => ha a h⟩)
  rw [hspec] at hsp
  subst ht
  cases hx : modifyBtree Env.toy plainRq none as ⟨[], false⟩ f with
  | error e g => rw [hx] at h1; simp [treeOf] at h1
  | ok r g =>
    obtain ⟨st, r⟩ := r
    obtain ⟨he, u', out, h3, -, h5, -⟩ := hsp.ok hx
    rw [hx] at h1
    injection h3 with h3
    injection h3 with h3 h4
    subst h4
    cases r with
    | none => simp [treeOf] at h1
    | some p => exact ⟨he.wf' hw, p, rfl, h5⟩

/-- The sample tree is intact and has these entries. -/
theorem sampleTree_spec : sampleTree.1.WF ∧ ∃ p, sampleTree.2 = some p ∧
    RootAt Env.toy plainIdx sampleTree.1 (some p) sampleEntries :=
  treeOf_spec File.empty ⟨by decide, by decide⟩ sampleBatch (by decide) (by unfold plainIdx; decide)
    _ _ sampleBatch_spec sampleTree (by unfold sampleTree; rfl) sampleTree_root

/-- Non-vacuity: the sample tree represents the map of its entries. -/
example : ∃ p, sampleTree.2 = some p ∧ Represents Env.toy plainIdx (lookupCompare recordRq.cmp)
    sampleTree.1 (some p) (fun k => kvFind k sampleEntries) := by
  obtain ⟨_, p, h1, h2⟩ := sampleTree_spec
  refine ⟨p, h1, _, h2, ?_, fun _ => rfl⟩
  show SortedKV (lookupCompare ebinCmp) _
  rw [lookupCompare_ebin]
  unfold SortedKV; decide

/-- Run a lookup on the sample tree. -/
def sampleLookup (fold : Bool) (ks : List Bytes) :
    Option (List (Bytes × Option Bytes) × Option Err) :=
  match sampleTree.2 with
  | none => none
  | some p =>
    match btreeLookup Env.toy recordRq fold p.pointer ks [] sampleTree.1 with
    | .ok r _ => some r
    | .error _ _ => none

example : sampleLookup false [[0], [2], [3, 1], [8], [9]] =
    some ([([0], none), ([2], some [20, 20, 20]), ([3, 1], none), ([8], some [80, 80, 80]),
      ([9], none)], none) := by decide +kernel

/-- Keys must be distinct: the second occurrence of a present key is reported as not found
(btree_read.cc:150-152 advances to the next record after a match). -/
theorem C09_repeated_key_reported_missing :
    sampleLookup false [[2], [2]] = some ([([2], some [20, 20, 20]), ([2], none)], none) := by
  decide +kernel

/-! ## C10 A range scan of an index returns exactly the entries in the range, in order -/

/-- Whatever the tree, the callback and its context are: a scan invokes the callback, in ascending
order, for exactly the entries whose key is not below `lo` and not above `hi` (if given), until
the callback fails; the result is the callback's.  If raw reads may fail it may stop early with
an error, after a prefix of these invocations. -/
theorem C10_range (E : Env) (L : E.Laws) (X : Idx) (rq : LookRq σ) (K : Bytes → Prop)
    (ok : LookOk rq K) (hV : ∀ kv, X.V kv → K kv.1 ∧ kv.1.length < 4096)
    (f : File) (w : f.WF) (p : NodePointer) (m : KMap)
    (hroot : Represents E X (lookupCompare rq.cmp) f (some p) m)
    (htol : rq.tolerate = true → f.faults = [])
    (lo : Bytes) (hi : Option Bytes) (hlo : K lo) (hhi : ∀ h, hi = some h → K h) (u : σ) :
    ∃ evs u' e g, btreeLookup E rq true p.pointer (lo :: hi.toList) u f = .ok (u', e) g ∧
      g.disk = f.disk ∧
      (∀ k v, (k, v) ∈ evs ↔ (∃ b, v = some b ∧ m k = some b) ∧
        lookupCompare rq.cmp k lo ≠ .lt ∧ ∀ h, hi = some h → lookupCompare rq.cmp k h ≠ .gt) ∧
      (evs.Pairwise fun a b => lookupCompare rq.cmp a.1 b.1 = .lt) ∧
      (visit rq.fetch evs u = (u', e) ∨
        (f.faults ≠ [] ∧ e ≠ none ∧ ∃ n, visit rq.fetch (evs.take n) u = (u', none))) := by
  obtain ⟨kvs, hr, hs, hm⟩ := hroot
  have h := btreeLookup_fold E L ok hV p kvs f w hr hs htol lo hi hlo hhi u
  have hK : ∀ kv ∈ kvs, K kv.1 := fun kv hkv => (hV kv (hr.valid kv hkv)).1
  have hmem : ∀ k v, (k, v) ∈ rangeEvents (lookupCompare rq.cmp) lo hi kvs ↔
      (∃ b, v = some b ∧ m k = some b) ∧
        lookupCompare rq.cmp k lo ≠ .lt ∧ ∀ h, hi = some h → lookupCompare rq.cmp k h ≠ .gt := by
    intro k v
    unfold rangeEvents
    simp only [List.mem_map, List.mem_filter, Prod.mk.injEq, Prod.exists]
    constructor
    · rintro ⟨a, b, ⟨h1, h2⟩, rfl, rfl⟩
      refine ⟨⟨b, rfl, ?_⟩, ?_⟩
      · rw [← hm]; exact kvFind_of_mem ok.cmp hK hs h1
      · unfold inRange at h2
        cases hi with
        | none => simpa using h2
        | some h => simpa using h2
    · rintro ⟨⟨b, rfl, h1⟩, h2, h3⟩
      refine ⟨k, b, ⟨mem_of_kvFind (by rw [hm, h1]), ?_⟩, rfl, rfl⟩
      unfold inRange
      cases hi with
      | none => simpa using h2
      | some h' => simpa using ⟨h2, h3 h' rfl⟩
  have hsorted : (rangeEvents (lookupCompare rq.cmp) lo hi kvs).Pairwise
      fun a b => lookupCompare rq.cmp a.1 b.1 = .lt := by
    unfold rangeEvents
    rw [List.pairwise_map]
    exact hs.sublist List.filter_sublist
  cases hx : btreeLookup E rq true p.pointer (boundKeys lo hi) u f with
  | ok a g =>
    obtain ⟨h1, h2⟩ := h.ok hx
    exact ⟨_, a.1, a.2, g, hx, h1.disk, hmem, hsorted, h2⟩
  | error e g => exact (h.error hx).elim

example : sampleLookup true [[2], [5]] =
    some ([([2], some [20, 20, 20]), ([3], some [30, 30, 30]), ([4], some [40, 40, 40]),
      ([5], some [50, 50, 50])], none) := by decide +kernel

/-- An empty lower bound scans from the beginning. -/
example : (sampleLookup true [[]]).map (fun r => r.1.length) = some 8 := by decide +kernel

/-! ## C31 Ranges lookup

`couchstore_docinfos_by_id` with `RANGES` passes all the bounds to one scan.  That is wrong of
more than one range: only the first pair of keys is used. -/

/-- The property as one would expect it, for the recording callback: with several pairs of bounds
the entries of each range are delivered, range by range. -/
def RangesProperty : Prop :=
  ∀ (f : File) (p : NodePointer) (kvs : List KV), f.WF → f.faults = [] →
    RootAt Env.toy plainIdx f (some p) kvs → SortedKV ebinCmp kvs →
    ∀ ranges : List (Bytes × Bytes),
      ((ranges.flatMap fun r => [r.1, r.2]).Pairwise fun a b => ebinCmp a b = .lt) →
      ∃ g, btreeLookup Env.toy recordRq true p.pointer (ranges.flatMap fun r => [r.1, r.2]) [] f
        = .ok (ranges.flatMap fun r => rangeEvents ebinCmp r.1 (some r.2) kvs, none) g

/-- Two ranges on the sample tree: the second is not delivered. -/
theorem C31_second_range_lost :
    sampleLookup true [[1], [3], [5], [6]] =
      some ([([1], some [10, 10, 10]), ([2], some [20, 20, 20]), ([3], some [30, 30, 30])], none) := by
  decide +kernel

/-- The property is false of the code. -/
theorem C31_ranges_fail : ¬ RangesProperty := by
  intro h
  obtain ⟨hw, p, h1, h2⟩ := sampleTree_spec
  obtain ⟨g', h6⟩ := h sampleTree.1 p _ hw sampleTree_faults h2 (by unfold SortedKV; decide) [([1], [3]), ([5], [6])]
    (by decide)
  have h7 := C31_second_range_lost
  unfold sampleLookup at h7
  rw [h1] at h7
  rw [show ([([1], [3]), ([5], [6])] : List (Bytes × Bytes)).flatMap (fun r => [r.1, r.2]) =
    [[1], [3], [5], [6]] from rfl] at h6
  simp only [h6] at h7
  revert h7
  decide

/-- What does hold: with a single range the lookup delivers exactly its entries. -/
theorem C31_single_range_partial (E : Env) (L : E.Laws) (X : Idx) (rq : LookRq σ) (K : Bytes → Prop)
    (ok : LookOk rq K) (hV : ∀ kv, X.V kv → K kv.1 ∧ kv.1.length < 4096)
    (f : File) (w : f.WF) (hnf : f.faults = []) (p : NodePointer) (kvs : List KV)
    (hroot : RootAt E X f (some p) kvs) (hs : SortedKV (lookupCompare rq.cmp) kvs)
    (lo hi : Bytes) (hlo : K lo) (hhi : K hi) (u : σ) :
    ∃ g, btreeLookup E rq true p.pointer [lo, hi] u f =
      .ok (visit rq.fetch (rangeEvents (lookupCompare rq.cmp) lo (some hi) kvs) u) g := by
  have h := btreeLookup_fold E L ok hV p kvs f w hroot hs (fun _ => hnf) lo (some hi) hlo
    (by intro h hh; injection hh with hh; exact hh ▸ hhi) u
  cases hx : btreeLookup E rq true p.pointer [lo, hi] u f with
  | ok a g =>
    obtain ⟨_, h2⟩ := h.ok hx
    rcases h2 with h2 | ⟨h2, _⟩
    · exact ⟨g, by rw [h2]⟩
    · exact absurd hnf h2
  | error e g => exact (h.error hx).elim

end Couchstore.Props
