import Verif.Lemmas.ViewGroup
import Verif.Props.Purge
import Verif.Props.ViewReduce

/-! C44: building and cleaning up the indexes of a view group. -/

namespace Couchstore.Props
open Couchstore

/-! ### Building -/

/-- C44: an index by document id that is built from sorted records has exactly them; if the build fails, there was an
I/O fault or a limit of the file format was met. -/
theorem C44_build_ids (E : Env) (kmax : Nat) (hmax : kmax < 4096) (kvThr kpThr : Nat) (ha : 2 ≤ kvThr) (f : File) (w : f.WF)
    (ids : List KV) (hi : ∀ kv ∈ ids, (viewIdIdx kmax).V kv) :
    (∀ root g, buildIdBtree E kvThr kpThr ids f = .ok root g → RootAt E (viewIdIdx kmax) g root ids ∧ g.WF ∧
      ∀ X r kvs, RootAt E X f r kvs → RootAt E X g r kvs) ∧
    (∀ e g, buildIdBtree E kvThr kpThr ids f = .error e g → f.faults ≠ [] ∨ e = .formatLimit) := by
  have := buildBtree_spec E (viewIdRq_ok hmax (kvThr + kvThr / 3) (kpThr + kpThr / 3) emptyBitmap (by omega)) ids hi f w
  exact ⟨fun root g h => ⟨(this.ok h).2, (this.ok h).1.wf' w, fun X r kvs hr => hr.keep ((this.ok h).1.keep w)⟩, fun e g h => (this.error h).2⟩

/-- C44: the same for the index of a view. -/
theorem C44_build_view {D : Type} [LinearOrder D] (e : CollateEnv D) (round : Rat → D) (ucol : Bytes → Bytes → Int)
    (H : e.Ok round ucol) (E : Env) (kvThr kpThr : Nat) (ha : 2 ≤ kvThr) (f : File) (w : f.WF) (v : View) (hv : v.Ok e)
    (hk : ∀ m ∈ v.emits, v.keys m.kv.1) (hm : ∀ m ∈ v.emits, m.Fits v.specs) :
    (∀ root g, buildViewBtree E e kvThr kpThr v.reducers (v.emits.map Emit.kv) f = .ok root g →
      v.At E g root ∧ g.WF ∧ ∀ X r kvs, RootAt E X f r kvs → RootAt E X g r kvs) ∧
    (∀ er g, buildViewBtree E e kvThr kpThr v.reducers (v.emits.map Emit.kv) f = .error er g →
      f.faults ≠ [] ∨ er = .formatLimit) := by
  obtain ⟨h1, h2, h3⟩ := hv
  have := buildBtree_spec E (viewRq_ok e round ucol H _ h1 h2 h3 (kvThr + kvThr / 3) (kpThr + kpThr / 3) emptyBitmap
    (by omega)) (v.emits.map Emit.kv) (by
      intro kv hkv
      obtain ⟨m, hm', rfl⟩ := List.mem_map.mp hkv
      exact ⟨hk m hm', m, hm m hm', rfl⟩) f w
  exact ⟨fun root g h => ⟨⟨(this.ok h).2, hm⟩, (this.ok h).1.wf' w, fun X r kvs hr => hr.keep ((this.ok h).1.keep w)⟩, fun e g h => (this.error h).2⟩

/-! ### Cleaning up -/

/-- C44, in part: after a cleanup of the indexes of a group, every index has an end piece of what is to be left, in its
order, with right reductions; nothing of the partitions that were to be cleaned up; an index with nothing to clean up
is as it was; the mask of partitions yet to be cleaned up is empty; the count is the number of ids and values that were
to go.  The old indexes are still there in the file.  Missing: that it is all of what is to be left, which is not so
(`C44_cleanup_loses_entries`). -/
theorem C44_cleanup_partial {D : Type} [LinearOrder D] (e : CollateEnv D) (round : Rat → D) (ucol : Bytes → Bytes → Int)
    (H : e.Ok round ucol) (E : Env) (L : E.Laws) (kvThr kpThr : Nat) (ha : 2 ≤ kvThr) (cleanup : Bytes)
    (hc : cleanup.length = 128) (kmax : Nat) (hmax : kmax < 4096) (f g : File) (w : f.WF) (idRoot : Option NodePointer)
    (ids : List KV) (hr : RootAt E (viewIdIdx kmax) f idRoot ids) (views : List (View × Option NodePointer))
    (hv : ∀ x ∈ views, x.1.Ok e ∧ x.1.At E f x.2) (n : Nat) (idRoot' : Option NodePointer)
    (roots' : List (Option NodePointer)) (bm : Bytes)
    (h : cleanupGroup E e kvThr kpThr cleanup idRoot (views.map fun x => (x.1.reducers, x.2)) f =
      .ok (n, idRoot', roots', bm) g) :
    (∃ left, left <:+ keptIds cleanup ids ∧ RootAt E (viewIdIdx kmax) g idRoot' left) ∧
    (keptIds cleanup ids = ids → idRoot' = idRoot) ∧
    List.Forall₂ (fun x r => (∃ left, left <:+ keptEmits cleanup x.1.emits ∧ (x.1.having left).At E g r) ∧
      (keptEmits cleanup x.1.emits = x.1.emits → r = x.2)) views roots' ∧
    (∀ p, hasPart bm p = false) ∧
    (ids.length < 2 ^ 40 → (∀ x ∈ views, valueCount x.1.emits < 2 ^ 40) →
      goneIds cleanup ids + (views.map fun x => goneValues cleanup x.1.emits).sum < 2 ^ 64 →
      n = goneIds cleanup ids + (views.map fun x => goneValues cleanup x.1.emits).sum) ∧
    RootAt E (viewIdIdx kmax) g idRoot ids ∧ ∀ x ∈ views, x.1.At E g x.2 := by
  obtain ⟨he, hx⟩ := (cleanupGroup_spec E L e round ucol H kvThr kpThr ha hc hmax False f w idRoot ids hr views hv
    (fun h => h.elim) (fun h => h.elim)).ok h
  obtain ⟨left, h1, h2, -⟩ := hx.ids
  refine ⟨⟨left, h1, h2⟩, hx.same, hx.views.imp ?_, ?_, hx.count, hr.keep (he.keep w), fun x hx => ?_⟩
  · rintro x r ⟨h1, left, h2, h3, -⟩
    exact ⟨⟨left, h2, h3⟩, h1⟩
  · intro p
    have : bm = emptyBitmap := hx.mask
    rw [this, emptyBitmap_parts]
  · exact ⟨(hv x hx).2.1.keep (he.keep w), (hv x hx).2.2⟩

/-- C44, in part: if moreover no node of the trees can overflow when entries are removed, every index has exactly what
is to be left. -/
theorem C44_cleanup_exact_partial {D : Type} [LinearOrder D] (e : CollateEnv D) (round : Rat → D)
    (ucol : Bytes → Bytes → Int) (H : e.Ok round ucol) (E : Env) (L : E.Laws) (kvThr kpThr : Nat) (ha : 2 ≤ kvThr)
    (cleanup : Bytes) (hc : cleanup.length = 128) (kmax : Nat) (hmax : kmax < 4096) (f g : File) (w : f.WF)
    (idRoot : Option NodePointer) (ids : List KV) (hr : RootAt E (viewIdIdx kmax) f idRoot ids)
    (hroom : rootRoomy E f kvThr kpThr (kmax + 133 + 19) idRoot = true)
    (views : List (View × Option NodePointer)) (hv : ∀ x ∈ views, x.1.Ok e ∧ x.1.At E f x.2)
    (hvroom : ∀ x ∈ views, ∃ kmax, (∀ k, x.1.keys k → k.length ≤ kmax) ∧
      rootRoomy E f kvThr kpThr (kmax + reductionMax x.1.specs + 19) x.2 = true)
    (n : Nat) (idRoot' : Option NodePointer) (roots' : List (Option NodePointer)) (bm : Bytes)
    (h : cleanupGroup E e kvThr kpThr cleanup idRoot (views.map fun x => (x.1.reducers, x.2)) f =
      .ok (n, idRoot', roots', bm) g) :
    RootAt E (viewIdIdx kmax) g idRoot' (keptIds cleanup ids) ∧
    List.Forall₂ (fun x r => (x.1.having (keptEmits cleanup x.1.emits)).At E g r) views roots' := by
  obtain ⟨he, hx⟩ := (cleanupGroup_spec E L e round ucol H kvThr kpThr ha hc hmax True f w idRoot ids hr views hv
    (fun _ => hroom) (fun _ => hvroom)).ok h
  obtain ⟨left, -, h2, h3⟩ := hx.ids
  refine ⟨h3 trivial ▸ h2, hx.views.imp ?_⟩
  rintro x r ⟨-, left, -, h3, h4⟩
  exact h4 trivial ▸ h3

/-- C44: a cleanup that fails has met an I/O fault or a limit of the file format, and all the indexes are as they were. -/
theorem C44_cleanup_failure {D : Type} [LinearOrder D] (e : CollateEnv D) (round : Rat → D)
    (ucol : Bytes → Bytes → Int) (H : e.Ok round ucol) (E : Env) (L : E.Laws) (kvThr kpThr : Nat) (ha : 2 ≤ kvThr)
    (cleanup : Bytes) (hc : cleanup.length = 128) (kmax : Nat) (hmax : kmax < 4096) (f g : File) (w : f.WF)
    (idRoot : Option NodePointer) (ids : List KV) (hr : RootAt E (viewIdIdx kmax) f idRoot ids)
    (views : List (View × Option NodePointer)) (hv : ∀ x ∈ views, x.1.Ok e ∧ x.1.At E f x.2) (er : Err)
    (h : cleanupGroup E e kvThr kpThr cleanup idRoot (views.map fun x => (x.1.reducers, x.2)) f = .error er g) :
    (f.faults ≠ [] ∨ er = .formatLimit) ∧ RootAt E (viewIdIdx kmax) g idRoot ids ∧ ∀ x ∈ views, x.1.At E g x.2 := by
  have := (cleanupGroup_spec E L e round ucol H kvThr kpThr ha hc hmax False f w idRoot ids hr views hv
    (fun h => h.elim) (fun h => h.elim)).error h
  exact ⟨this.2, hr.keep (this.1.keep w), fun x hx => ⟨(hv x hx).2.1.keep (this.1.keep w), (hv x hx).2.2⟩⟩

/-! ### A small group

Three documents that emit the key `null`, in an index by document id and in the index of a view with `_count` and `_sum`;
the partition 9 is to be cleaned up. -/

def smallIds : List KV := [([1], [0, 5, 1]), ([2], [0, 9, 1]), ([3], [0, 5, 2])]

/-- Keys that are `null` in JSON, of at most 20 bytes. -/
def shortKeys (k : Bytes) : Prop := nullKeys k ∧ k.length ≤ 20

def smallView : View := ⟨[countReducer, sumReducer toyNum], shortKeys, toySpecs, sampleEmits⟩

def smallMask : Bytes := List.replicate 126 0 ++ [2, 0]

/-- The file with both indexes. -/
def smallBuilt : Option (File × Option NodePointer × File × Option NodePointer) :=
  match buildIdBtree Env.toy viewKvThr viewKpThr smallIds File.empty with
  | .ok r f => match buildViewBtree Env.toy (exactEnv true) viewKvThr viewKpThr smallView.reducers
      (smallView.emits.map Emit.kv) f with
    | .ok r' g => some (f, r, g, r')
    | .error _ _ => none
  | .error _ _ => none

theorem shortKeys_class : ViewKeyClass (exactEnv true) shortKeys :=
  have h := sameJson_class _ _ _ (exactEnv_ok true) Json.null (by decide)
  ⟨fun k hk => h.key k hk.1, fun a b ha hb => h.apart a b ha.1 hb.1⟩

theorem smallEmits_keys : ∀ m ∈ smallView.emits, smallView.keys m.kv.1 := by
  have h : ∀ m ∈ sampleEmits, m.kv.1.length ≤ 20 := by decide +kernel
  exact fun m hm => ⟨(sampleEmits_valid m hm).1, h m hm⟩

theorem smallView_ok : smallView.Ok (exactEnv true) :=
  ⟨shortKeys_class, .cons C43_count (.cons (C43_sum _ _ toyNum_laws) .nil),
    by unfold ResultsFit; decide⟩

theorem smallIds_valid : ∀ kv ∈ smallIds, (viewIdIdx 1).V kv := by unfold viewIdIdx; decide +kernel

/-- All hypotheses are met: the indexes are built, no node can overflow, and the cleanup succeeds; one id and one value go,
and the sum of the view is 24. -/
example : ∃ (g : File) (r r' : Option NodePointer),
    g.WF ∧ RootAt Env.toy (viewIdIdx 1) g r smallIds ∧ smallView.At Env.toy g r' ∧
    rootRoomy Env.toy g viewKvThr viewKpThr (1 + 133 + 19) r = true ∧
    (∃ kmax, (∀ k, smallView.keys k → k.length ≤ kmax) ∧
      rootRoomy Env.toy g viewKvThr viewKpThr (kmax + reductionMax smallView.specs + 19) r' = true) ∧
    (match cleanupGroup Env.toy (exactEnv true) viewKvThr viewKpThr smallMask r [(smallView.reducers, r')] g with
      | .ok (n, some _, [some p], bm) _ => decide (n = 2 ∧ bm = emptyBitmap) && (match decodeViewReduction p.reduceValue with
        | .ok x => decide (x.values = [decText 3, intText 24])
        | .error _ => false)
      | _ => false) = true := by
  have wf : File.empty.WF := ⟨by decide, by decide⟩
  have run : (match smallBuilt with
    | some (_, r, g, r') => rootRoomy Env.toy g viewKvThr viewKpThr (1 + 133 + 19) r &&
      rootRoomy Env.toy g viewKvThr viewKpThr (20 + reductionMax toySpecs + 19) r' &&
      (match cleanupGroup Env.toy (exactEnv true) viewKvThr viewKpThr smallMask r [(smallView.reducers, r')] g with
      | .ok (n, some _, [some p], bm) _ => decide (n = 2 ∧ bm = emptyBitmap) && (match decodeViewReduction p.reduceValue with
        | .ok x => decide (x.values = [decText 3, intText 24])
        | .error _ => false)
      | _ => false)
    | none => false) = true := by decide +kernel
  unfold smallBuilt at run
  cases h1 : buildIdBtree Env.toy viewKvThr viewKpThr smallIds File.empty with
  | error e f => rw [h1] at run; cases run
  | ok r f =>
    rw [h1] at run
    simp only at run
    obtain ⟨k1, w1, -⟩ := (C44_build_ids Env.toy 1 (by decide) viewKvThr viewKpThr (by decide) File.empty wf smallIds
      smallIds_valid).1 _ _ h1
    cases h2 : buildViewBtree Env.toy (exactEnv true) viewKvThr viewKpThr smallView.reducers
        (smallView.emits.map Emit.kv) f with
    | error e g => rw [h2] at run; cases run
    | ok r' g =>
      rw [h2] at run
      simp only [Bool.and_eq_true] at run
      obtain ⟨k2, w2, k3⟩ := (C44_build_view (exactEnv true) _ _ (exactEnv_ok true) Env.toy viewKvThr viewKpThr (by decide) f w1
        smallView smallView_ok smallEmits_keys sampleEmits_fits).1 _ _ h2
      exact ⟨g, r, r', w2, k3 _ _ _ k1, k2, run.1.1, ⟨20, fun k hk => hk.2, run.1.2⟩, run.2⟩

/-! ### A cleanup that loses documents -/

/-- One document of partition 7 and four of partition 5, each with an entry of 2302 bytes. -/
def overIds : List KV :=
  ([1], [0, 7]) :: (List.range 4).map fun i => ([2 + UInt8.ofNat i], [0, 5] ++ List.replicate 2300 0)

/-- Partition 7. -/
def overMask : Bytes := List.replicate 127 0 ++ [128]

def overBuilt : File × Option NodePointer :=
  match buildIdBtree Env.toy viewKvThr viewKpThr overIds File.empty with
  | .ok r g => (g, r)
  | .error _ g => (g, none)

def overPurged : File × Nat × Option NodePointer :=
  match cleanupGroup Env.toy (exactEnv true) viewKvThr viewKpThr overMask overBuilt.2 [] overBuilt.1 with
  | .ok r g => (g, r.1, r.2.1)
  | .error _ g => (g, 0, none)

theorem overBuilt_eq : buildIdBtree Env.toy viewKvThr viewKpThr overIds File.empty = .ok overBuilt.2 overBuilt.1 := by
  have h : (match buildIdBtree Env.toy viewKvThr viewKpThr overIds File.empty with
    | .ok _ _ => true | .error _ _ => false) = true := by decide +kernel
  unfold overBuilt
  cases hb : buildIdBtree Env.toy viewKvThr viewKpThr overIds File.empty with
  | ok r g => rfl
  | error e g => rw [hb] at h; cases h

theorem overPurged_eq : (∃ roots bm,
    cleanupGroup Env.toy (exactEnv true) viewKvThr viewKpThr overMask overBuilt.2 [] overBuilt.1 =
      .ok (overPurged.2.1, overPurged.2.2, roots, bm) overPurged.1) ∧
    ∃ p bm, overPurged.2.2 = some p ∧ decodeIdReduction p.reduceValue = .ok (1, bm) := by
  have h : (match cleanupGroup Env.toy (exactEnv true) viewKvThr viewKpThr overMask overBuilt.2 [] overBuilt.1 with
    | .ok (_, some p, _) _ => match decodeIdReduction p.reduceValue with
      | .ok (1, _) => true
      | _ => false
    | _ => false) = true := by decide +kernel
  unfold overPurged
  generalize cleanupGroup Env.toy (exactEnv true) viewKvThr viewKpThr overMask overBuilt.2 [] overBuilt.1 = res at h
  split at h
  · rename_i n p y g
    refine ⟨⟨y.1, y.2, rfl⟩, p, ?_⟩
    split at h
    · rename_i bm hd
      exact ⟨bm, rfl, hd⟩
    · cases h
  · cases h

theorem overIds_valid : ∀ kv ∈ overIds, (viewIdIdx 250).V kv := by unfold viewIdIdx; decide +kernel

theorem overIds_kept : (keptIds overMask overIds).length = 4 := by decide +kernel

theorem overMask_length : overMask.length = 128 := by decide +kernel

attribute [irreducible] overBuilt overPurged overIds overMask

/-- C44 is not so in full: an index by document id that was built with the thresholds of the code has its five documents
in one leaf; a cleanup of the partition of one of them leaves one of the four that are to be left, and is a success. -/
theorem C44_cleanup_loses_entries :
    ∃ (f g : File) (root root' : Option NodePointer) (n : Nat) (roots : List (Option NodePointer)) (bm : Bytes)
      (left : List KV),
    buildIdBtree Env.toy viewKvThr viewKpThr overIds File.empty = .ok root f ∧
    RootAt Env.toy (viewIdIdx 250) f root overIds ∧
    cleanupGroup Env.toy (exactEnv true) viewKvThr viewKpThr overMask root [] f = .ok (n, root', roots, bm) g ∧
    RootAt Env.toy (viewIdIdx 250) g root' left ∧
    (keptIds overMask overIds).length = 4 ∧ left.length = 1 := by
  have wf : File.empty.WF := ⟨by decide, by decide⟩
  obtain ⟨hr, w, -⟩ := (C44_build_ids Env.toy 250 (by decide) viewKvThr viewKpThr (by decide) File.empty wf overIds
    overIds_valid).1 _ _ overBuilt_eq
  obtain ⟨⟨roots, bm, hp⟩, p, bm', hroot, hc⟩ := overPurged_eq
  obtain ⟨⟨left, h1, h2⟩, -⟩ := C44_cleanup_partial (exactEnv true) _ _ (exactEnv_ok true) Env.toy Env.toy_laws viewKvThr
    viewKpThr (by decide) overMask overMask_length 250 (by decide) _ _ w _ _ hr [] (by simp) _ _ _ _ hp
  refine ⟨_, _, _, _, _, _, _, left, overBuilt_eq, hr, hp, h2, overIds_kept, ?_⟩
  have h4 : left.length ≤ 4 := Nat.le_trans h1.length_le (Nat.le_of_eq overIds_kept)
  rw [hroot] at h2
  obtain ⟨l, cs, -, -, -, -, hR, -⟩ := h2
  obtain ⟨-, n, b, hd, hn, -⟩ := hR
  rw [hc] at hd
  injection hd with hd
  injection hd with hd
  omega

end Couchstore.Props
