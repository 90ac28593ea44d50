import Verif.Lemmas.Purge
import Verif.Spec.Env
import Verif.Props.Btree

/-! Property theorems C34: purging an index.

`purgeList D kvs` (Spec/Purge.lean) goes through the entries one by one and drops those that the
decisions `D` say are to be purged, up to a "stop"; `PurgeOk` says that the purge callbacks decide
like `D`, for single entries and for whole subtrees (of which they see the reduction). -/

namespace Couchstore.Props

variable {σ : Type}

/-- Whatever the tree, the decisions and the I/O faults are: if the purge of an index succeeds,
the new tree is intact, none of its entries is one that was to be purged, and none is new.  Its
entries are the last part of those that were to be left; if nothing was to be purged, the root is
the old one.  The old tree is still there.

Missing: the new tree should have all the entries that were to be left.  That is false in general
(`C34_purge_loses_entries`); `C34_guided_purge_exact_partial` says when it holds. -/
theorem C34_guided_purge_partial (E : Env) (L : E.Laws) (rq : Rq σ) (K : Bytes → Prop) (X : Idx)
    (ok : RqOk rq K X) (D : KV → PurgeAct) (po : PurgeOk rq X D) (f g : File) (w : f.WF)
    (root root' : Option NodePointer) (kvs : List KV) (hroot : RootAt E X f root kvs) (u : σ)
    (st' : St σ) (h : guidedPurge E rq root u f = .ok (st', root') g) :
    ∃ left, RootAt E X g root' left ∧ left <:+ (purgeList D kvs).1 ∧ RootAt E X g root kvs ∧
      ((purgeList D kvs).1 = kvs → root' = root) := by
  obtain ⟨he, _, h1, c', h2, h3, _⟩ := (guidedPurge_spec E L ok po (PurgeTally.any _ _) False 0 (fun h => h.elim)
    (fun h => h.elim) root kvs u f w hroot (fun h => h.elim)).ok h
  exact ⟨c', h3, h2, hroot.keep (he.keep w), h1⟩

/-- If moreover no node of the tree can overflow when entries are removed (`roomy`: leaves are
within the leaf size limit, interior nodes have at most three records or the limit is enough for
as many records with the longest keys and reductions), the new tree has exactly the entries that
were to be left, in order. -/
theorem C34_guided_purge_exact_partial (E : Env) (L : E.Laws) (rq : Rq σ) (K : Bytes → Prop)
    (X : Idx) (ok : RqOk rq K X) (D : KV → PurgeAct) (po : PurgeOk rq X D)
    (hcomp : rq.compacting = false) (kmax rmax : Nat)
    (hk : ∀ kv, X.V kv → kv.1.length ≤ kmax) (hr : ∀ kvs r, X.R kvs r → r.length ≤ rmax)
    (f g : File) (w : f.WF) (root root' : Option NodePointer) (kvs : List KV)
    (hroot : RootAt E X f root kvs)
    (hroom : ∀ p height, root = some p → TreeAt E X f height p kvs →
      roomy E f rq.kvThr rq.kpThr (kmax + rmax + 19) height p = true)
    (u : σ) (st' : St σ) (h : guidedPurge E rq root u f = .ok (st', root') g) :
    RootAt E X g root' (purgeList D kvs).1 := by
  obtain ⟨_, _, _, c', _, h3, h4⟩ := (guidedPurge_spec E L ok po (PurgeTally.any _ _) True (kmax + rmax + 19)
    (fun _ => hcomp) (fun _ => recMax_of hk hr) root kvs u f w hroot (fun _ => hroom)).ok h
  rw [← h4 trivial]
  exact h3

/-- Without "stop" decisions that is filtering, and the keys are still strictly increasing. -/
theorem C34_purge_filters (D : KV → PurgeAct) (cmp : Bytes → Bytes → Ordering) (kvs : List KV) :
    ((∀ kv ∈ kvs, D kv ≠ .stop) →
      (purgeList D kvs).1 = kvs.filter fun kv => D kv ≠ .item) ∧
    (SortedKV cmp kvs → SortedKV cmp (purgeList D kvs).1) :=
  ⟨purgeList_filter D kvs, fun h => List.Pairwise.sublist (purgeList_sublist D kvs) h⟩

/-- A purge that fails has met an I/O fault or the limits of the file format; the tree is still
there. -/
theorem C34_purge_failure (E : Env) (L : E.Laws) (rq : Rq σ) (K : Bytes → Prop) (X : Idx)
    (ok : RqOk rq K X) (D : KV → PurgeAct) (po : PurgeOk rq X D) (f g : File) (w : f.WF)
    (root : Option NodePointer) (kvs : List KV) (hroot : RootAt E X f root kvs) (u : σ) (e : Err)
    (h : guidedPurge E rq root u f = .error e g) :
    (f.faults ≠ [] ∨ e = .formatLimit) ∧ RootAt E X g root kvs := by
  have := (guidedPurge_spec E L ok po (PurgeTally.any _ _) False 0 (fun h => h.elim)
    (fun h => h.elim) root kvs u f w hroot (fun h => h.elim)).error h
  exact ⟨this.2, hroot.keep (this.1.keep w)⟩

/-- The state of the callbacks (a count of what was purged, say) is that for all the entries, in order, whatever
subtrees were decided about as a whole; unless an entry said "stop".  C44 uses this for the counts of a cleanup. -/
theorem C34_purge_state (E : Env) (L : E.Laws) (rq : Rq σ) (K : Bytes → Prop) (X : Idx)
    (ok : RqOk rq K X) (D : KV → PurgeAct) (po : PurgeOk rq X D) (S : σ → σ → List KV → Prop)
    (pt : PurgeTally rq X S) (f g : File) (w : f.WF) (root root' : Option NodePointer) (kvs : List KV)
    (hroot : RootAt E X f root kvs) (hstop : ∀ kv ∈ kvs, D kv ≠ .stop) (u : σ) (st' : St σ)
    (h : guidedPurge E rq root u f = .ok (st', root') g) : S u st'.user kvs := by
  have h1 := ((guidedPurge_spec E L ok po pt False 0 (fun h => h.elim)
    (fun h => h.elim) root kvs u f w hroot (fun h => h.elim)).ok h).2.1
  refine h1.2 ?_
  simp only at h1
  rw [h1.1]
  clear h1 h hroot
  induction kvs with
  | nil => rfl
  | cons kv kvs ih =>
    have a := ih fun x hx => hstop x (by simp [hx])
    have b := hstop kv (by simp)
    simp only [purgeList]
    split <;> simp_all

/-! ### An index to purge -/

/-- Entries whose value is `9` are to be purged. -/
def nines (kv : KV) : PurgeAct := if kv.2 = [9] then .item else .keep

/-- The reduction: is there an entry to be purged, and one to be kept? -/
def ninesRed (kvs : List KV) : Bytes :=
  [if kvs.any (fun kv => kv.2 = [9]) then 1 else 0, if kvs.any (fun kv => kv.2 ≠ [9]) then 1 else 0]

def ninesIdx : Idx where
  V kv := kv.1.length ≤ 7 ∧ kv.2.length < 2 ^ 28
  R kvs r := r = ninesRed kvs

/-- Combine the reductions of subtrees. -/
def ninesRered (is : List Item) : Bytes :=
  let rs := is.map fun i => match i.pointer with | some p => p.reduceValue | none => []
  [if rs.any (fun r => r.head? = some 1) then 1 else 0,
   if rs.any (fun r => r.getLast? = some 1) then 1 else 0]

def ninesRq (kvThr kpThr : Nat) : Rq Unit where
  cmp := ebinCmp
  reduce := some fun is => .ok (ninesRed (is.map fun i => (i.key, i.data)))
  rereduce := some fun is => .ok (ninesRered is)
  compacting := false
  kvThr := kvThr
  kpThr := kpThr
  fetchCb := none
  saveCb := none
  purgeKv := some fun u k v => .ok (u, nines (k, v))
  purgeKp := some fun u p => .ok (u,
    if p.reduceValue = [0, 1] then .keep else if p.reduceValue = [1, 0] then .item else .part)

theorem any_congr_mem {α : Type} {p q : α → Bool} {l : List α} (h : ∀ x ∈ l, p x = q x) :
    l.any p = l.any q := by
  induction l with
  | nil => rfl
  | cons x l ih => simp [h x (by simp), ih fun y hy => h y (by simp [hy])]

theorem ninesRq_ok (a b : Nat) (ha : 2 ≤ a) : RqOk (ninesRq a b) (fun _ => True) ninesIdx where
  cmp := ebinCmp_laws
  entry kv h := ⟨trivial, by have := h.1; omega, h.2⟩
  reduce is _ _ := ⟨_, rfl, rfl, by simp [ninesRed]⟩
  rereduce cs _ h := by
    refine ⟨_, rfl, ?_, by simp [ninesRered]⟩
    have h1 : ∀ c ∈ cs, c.1.reduceValue = ninesRed c.2 := h
    show ninesRered _ = ninesRed _
    unfold ninesRered
    simp only [List.map_map, ninesRed, List.any_map, List.any_flatMap]
    have e : ∀ c ∈ cs,
        ((fun r : Bytes => decide (r.head? = some 1)) ∘
          ((fun i : Item => match i.pointer with | some p => p.reduceValue | none => []) ∘
            fun c : NodePointer × List KV => ptrItem c.1)) c = c.2.any (fun kv => kv.2 = [9]) ∧
        ((fun r : Bytes => decide (r.getLast? = some 1)) ∘
          ((fun i : Item => match i.pointer with | some p => p.reduceValue | none => []) ∘
            fun c : NodePointer × List KV => ptrItem c.1)) c = c.2.any (fun kv => kv.2 ≠ [9]) := by
      intro c hc
      simp only [Function.comp, ptrItem, h1 c hc, ninesRed]
      constructor
      · cases c.2.any (fun kv => kv.2 = [9]) <;> rfl
      · cases c.2.any (fun kv => kv.2 ≠ [9]) <;> rfl
    have e1 := any_congr_mem (fun c hc => (e c hc).1)
    have e2 := any_congr_mem (fun c hc => (e c hc).2)
    rw [e1, e2]
  thr := ha
  fetch cb hcb := by cases hcb

theorem nines_purgeList (kvs : List KV) :
    purgeList nines kvs = (kvs.filter fun kv => kv.2 ≠ [9], true) := by
  induction kvs with
  | nil => rfl
  | cons kv kvs ih =>
    simp only [purgeList, nines]
    by_cases h : kv.2 = [9]
    · simp [h, ih]
    · simp [h, ih]

theorem ninesRq_purgeOk (a b : Nat) : PurgeOk (ninesRq a b) ninesIdx nines where
  kv := ⟨_, rfl, fun u k v _ => ⟨u, rfl⟩⟩
  part kv _ := by unfold nines; split <;> simp
  kp := by
    refine ⟨_, rfl, fun u p kvs hne _ hR => ⟨u, _, rfl, ?_⟩⟩
    have hR' : p.reduceValue = ninesRed kvs := hR
    rw [hR']
    by_cases h1 : ∃ kv ∈ kvs, kv.2 = [9]
    · have e1 : kvs.any (fun kv => kv.2 = [9]) = true := by simpa using h1
      by_cases h2 : ∃ kv ∈ kvs, kv.2 ≠ [9]
      · have e2 : kvs.any (fun kv => kv.2 ≠ [9]) = true := by simpa using h2
        simp only [ninesRed, e1, e2]
        show (purgeList nines kvs).1 ≠ kvs
        rw [nines_purgeList]
        intro h0
        obtain ⟨kv, hkv, hv⟩ := h1
        have h0' : kvs.filter (fun kv => kv.2 ≠ [9]) = kvs := h0
        have := List.filter_eq_self.mp h0' kv hkv
        simp [hv] at this
      · have e2 : kvs.any (fun kv => kv.2 ≠ [9]) = false := by
          simpa using h2
        simp only [ninesRed, e1, e2]
        show purgeList nines kvs = ([], true)
        rw [nines_purgeList, Prod.mk.injEq]
        refine ⟨?_, rfl⟩
        rw [List.filter_eq_nil_iff]
        intro kv hkv
        have : kv.2 = [9] := Classical.byContradiction fun h => h2 ⟨kv, hkv, h⟩
        simp [this]
    · have e1 : kvs.any (fun kv => kv.2 = [9]) = false := by
        rw [List.any_eq_false]
        intro kv hkv hv
        exact h1 ⟨kv, hkv, by simpa using hv⟩
      have e2 : kvs.any (fun kv => kv.2 ≠ [9]) = true := by
        cases kvs with
        | nil => exact absurd rfl hne
        | cons kv kvs =>
          have : kv.2 ≠ [9] := fun h => h1 ⟨kv, by simp, h⟩
          simp [this]
      simp only [ninesRed, e1, e2]
      show purgeList nines kvs = (kvs, true)
      rw [nines_purgeList, Prod.mk.injEq]
      refine ⟨?_, rfl⟩
      rw [List.filter_eq_self]
      intro kv hkv
      have : kv.2 ≠ [9] := fun h => h1 ⟨kv, hkv, h⟩
      simpa using this

def put (k : Bytes) (v : UInt8) : Action := ⟨.insert, k, [v], 0⟩

/-- Entries; the first three make up the first leaf, of which the last entry is to be purged. -/
def ninesBatch : List Action :=
  [put [1] 1, put [1, 2, 3, 4, 5, 6, 7] 1, put [2] 9, put [3] 1, put [4] 1, put [5] 1, put [6] 1,
   put [7] 1, put [8] 1, put [9] 1, put [10] 1, put [11] 1, put [12] 1, put [13] 1]

/-- The index with those entries. -/
def ninesTree : File × Option NodePointer :=
  match modifyBtree Env.toy (ninesRq 33 90) none ninesBatch ⟨(), false⟩ File.empty with
  | .ok (_, r) g => (g, r)
  | .error _ g => (g, none)

/-- The same index after the purge. -/
def ninesPurged (kpThr : Nat) : File × Option NodePointer :=
  match guidedPurge Env.toy (ninesRq 33 kpThr) ninesTree.2 () ninesTree.1 with
  | .ok (_, r) g => (g, r)
  | .error _ g => (g, none)

theorem ninesTree_eq : ∃ st, modifyBtree Env.toy (ninesRq 33 90) none ninesBatch ⟨(), false⟩
    File.empty = .ok (st, ninesTree.2) ninesTree.1 := by
  have h : (match modifyBtree Env.toy (ninesRq 33 90) none ninesBatch ⟨(), false⟩ File.empty with
    | .ok _ _ => true | .error _ _ => false) = true := by decide +kernel
  unfold ninesTree
  cases hm : modifyBtree Env.toy (ninesRq 33 90) none ninesBatch ⟨(), false⟩ File.empty with
  | ok r g => exact ⟨r.1, rfl⟩
  | error e g => rw [hm] at h; cases h

theorem ninesPurged_eq (b : Nat) (hb : b = 90 ∨ b = 112) : ∃ st, guidedPurge Env.toy (ninesRq 33 b)
    ninesTree.2 () ninesTree.1 = .ok (st, (ninesPurged b).2) (ninesPurged b).1 := by
  have h : (match guidedPurge Env.toy (ninesRq 33 b) ninesTree.2 () ninesTree.1 with
    | .ok _ _ => true | .error _ _ => false) = true := by
    rcases hb with rfl | rfl <;> decide +kernel
  unfold ninesPurged
  cases hm : guidedPurge Env.toy (ninesRq 33 b) ninesTree.2 () ninesTree.1 with
  | ok r g => exact ⟨r.1, rfl⟩
  | error e g => rw [hm] at h; cases h

theorem ninesPurged_length : ((ninesPurged 90).2.bind fun p =>
    (treeHeight Env.toy (ninesPurged 90).1 (p.pointer + 1) p).bind fun l =>
      (checkTree Env.toy (ninesPurged 90).1 (fun _ _ => true) l p).map List.length) = some 3 := by
  decide +kernel

theorem ninesTree_roomy : (ninesTree.2.bind fun p =>
    (treeHeight Env.toy ninesTree.1 (p.pointer + 1) p).map fun l =>
      roomy Env.toy ninesTree.1 33 112 28 l p) = some true := by
  decide +kernel

/-- A request whose callback answers "partial" for every subtree. -/
def partRq : Rq Unit := { ninesRq 33 1000 with purgeKp := some fun u _ => .ok (u, .part) }

/-- The purge of the same tree with that request, and the entries of the new tree. -/
def partPurged : Option (List KV) :=
  match guidedPurge Env.toy partRq ninesTree.2 () ninesTree.1 with
  | .ok (_, some p) g =>
    (treeHeight Env.toy g (p.pointer + 1) p).bind fun l => checkTree Env.toy g (fun _ _ => true) l p
  | _ => none

/-- The answer "partial" must not be given for a subtree of which nothing is to be purged: such
subtrees are dropped.  Here the first leaf loses its purged entry, the other three leaves with
eleven entries to be kept are lost. -/
theorem C34_partial_without_purge_drops :
    partPurged = some [([1], [1]), ([1, 2, 3, 4, 5, 6, 7], [1])] := by
  decide +kernel

attribute [irreducible] ninesTree ninesPurged

/-- The entries of the index. -/
def ninesKvs : List KV := ninesBatch.map fun a => (a.key, a.data)

theorem built_root {E : Env} (L : E.Laws) {rq : Rq σ} {K X} (ok : RqOk rq K X) {batch : List Action}
    {f g : File} (w : f.WF) (hb : BatchOk rq batch) (ha : ActsOk K X batch) {u u' : σ} {st r}
    {kvs : List KV} (hs : specFold rq batch u [] = .ok (u', kvs))
    (hm : modifyBtree E rq none batch ⟨u, false⟩ f = .ok (st, r) g) :
    g.WF ∧ RootAt E X g r kvs := by
  obtain ⟨he, u', out, h1, h2, h3, -⟩ := (modifyBtree_spec E L ok none [] batch u f w rfl
    List.Pairwise.nil hb ha).ok hm
  rw [hs] at h1
  injection h1 with h1
  injection h1 with _ h1
  subst h1
  exact ⟨he.wf' w, h3⟩

theorem ninesTree_root :
    ninesTree.1.WF ∧ RootAt Env.toy ninesIdx ninesTree.1 ninesTree.2 ninesKvs := by
  obtain ⟨st, hm⟩ := ninesTree_eq
  have hb : BatchOk (ninesRq 33 90) ninesBatch := by unfold BatchOk; decide
  have ha : ActsOk (fun _ => True) ninesIdx ninesBatch := by
    intro a ha
    refine ⟨trivial, fun _ => ?_⟩
    revert a
    unfold ninesIdx
    decide
  exact built_root Env.toy_laws (ninesRq_ok 33 90 (by decide)) ⟨by decide, by decide⟩ hb ha
    (u' := ()) rfl hm

/-- The claim is false in general.  An index is built and purged with the same request.  One of
its fourteen entries is to be purged.  The purge succeeds, and the new tree has three entries:
the last key of the first leaf has become longer, so that the root node is split, and of the two
halves only the last is returned. -/
theorem C34_purge_loses_entries : ∃ (f g : File) (root root' : Option NodePointer) (st st' : St Unit)
    (left : List KV),
    modifyBtree Env.toy (ninesRq 33 90) none ninesBatch ⟨(), false⟩ File.empty = .ok (st, root) f ∧
    RootAt Env.toy ninesIdx f root ninesKvs ∧
    guidedPurge Env.toy (ninesRq 33 90) root () f = .ok (st', root') g ∧
    RootAt Env.toy ninesIdx g root' left ∧
    (purgeList nines ninesKvs).1.length = 13 ∧ left.length = 3 := by
  obtain ⟨st, hm⟩ := ninesTree_eq
  obtain ⟨st', hp⟩ := ninesPurged_eq 90 (Or.inl rfl)
  obtain ⟨w, hr⟩ := ninesTree_root
  obtain ⟨he, _, _, left, _, h1, _⟩ := (guidedPurge_spec Env.toy Env.toy_laws
    (ninesRq_ok 33 90 (by decide)) (ninesRq_purgeOk 33 90) (PurgeTally.any _ _) False 0 (fun h => h.elim)
    (fun h => h.elim) _ _ () _ w hr (fun h => h.elim)).ok hp
  refine ⟨_, _, _, _, st, st', left, hm, hr, hp, h1, by decide, ?_⟩
  have w' : (ninesPurged 90).1.WF := he.wf' w
  cases hroot : (ninesPurged 90).2 with
  | none =>
    have := ninesPurged_length
    rw [hroot] at this
    cases this
  | some p =>
    rw [hroot] at h1
    obtain ⟨l, h2, h3⟩ := h1.entries Env.toy_laws w' (fun kv h => by have := h.1; omega)
    have hc := ninesPurged_length
    rw [hroot] at hc
    simp only [Option.bind_some, h2, h3, Option.map_some] at hc
    injection hc

/-- Non-vacuity of the exact theorem: with an interior size limit of 112 bytes the root (four
records, longest key 7, reduction of 2 bytes) cannot overflow; purging the same tree with that
limit leaves exactly the 13 entries. -/
example : RootAt Env.toy ninesIdx (ninesPurged 112).1 (ninesPurged 112).2
    (purgeList nines ninesKvs).1 := by
  obtain ⟨st', hp⟩ := ninesPurged_eq 112 (Or.inr rfl)
  obtain ⟨w, hr⟩ := ninesTree_root
  refine C34_guided_purge_exact_partial Env.toy Env.toy_laws _ _ _
    (ninesRq_ok 33 112 (by decide)) _ (ninesRq_purgeOk 33 112) rfl 7 2 (fun kv h => h.1)
    (fun kvs r h => by have h' : r = ninesRed kvs := h; rw [h']; simp [ninesRed]) _ _ w _ _ _ hr ?_
    () st' hp
  intro p l hp' ht
  have hroom := ninesTree_roomy
  have hl := treeHeight_spec Env.toy_laws w (fun kv h => by have := h.1; omega) ht
    (fuel := p.pointer + 1) (by have := ht.height; omega)
  rw [hp'] at hroom
  simp only [Option.bind_some, hl, Option.map_some] at hroom
  injection hroom

end Couchstore.Props
