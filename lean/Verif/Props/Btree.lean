import Verif.Lemmas.Modify2
import Verif.Lemmas.Map
import Verif.Lemmas.Check
import Verif.Spec.Env

/-! Property theorems C07 and C08: updating a B-tree index.

`RootAt E X f root kvs` (Spec/Tree.lean) says that the tree with that root, stored in file `f`,
is structurally intact and has exactly the entries `kvs`; `SortedKV` says they are strictly
ascending.  `mapFold` (Spec/Map.lean) is the meaning of a batch on a map. -/

namespace Couchstore.Props

variable {σ : Type}

/-- The tree is intact, its keys are strictly increasing and it represents the map `m`. -/
def Represents (E : Env) (X : Idx) (cmp : Bytes → Bytes → Ordering) (f : File)
    (root : Option NodePointer) (m : KMap) : Prop :=
  ∃ kvs, RootAt E X f root kvs ∧ SortedKV cmp kvs ∧ ∀ k, kvFind k kvs = m k

/-! ## C07 A batch of index updates equals doing the updates one at a time on a map -/

/-- Whatever the tree, the batch, the node size limits, the callbacks and the reduce functions
are: if the update succeeds, the new tree represents the map obtained by applying the
operations one after another, the callbacks have been called with the same arguments in the
same order (they reach the same state), and the new root is null exactly if the map is empty.
The old tree is still there, unchanged. -/
theorem C07_batch_is_map_fold (E : Env) (L : E.Laws) (rq : Rq σ) (K : Bytes → Prop) (X : Idx)
    (ok : RqOk rq K X) (f g : File) (w : f.WF) (root root' : Option NodePointer) (m : KMap)
    (hroot : Represents E X rq.cmp f root m)
    (as : List Action) (hb : BatchOk rq as) (hK : ∀ a ∈ as, K a.key)
    (hV : ∀ a ∈ as, a.type = .insert ∨ a.type = .fetchInsert → X.V (a.key, a.data))
    (u : σ) (st' : St σ) (h : modifyBtree E rq root as ⟨u, false⟩ f = .ok (st', root') g) :
    ∃ m', mapFold rq as u m = .ok (st'.user, m') ∧ Represents E X rq.cmp g root' m' ∧
      Represents E X rq.cmp g root m ∧ (root' = none ↔ ∀ k, m' k = none) := by
  obtain ⟨kvs, hr, hs, hm⟩ := hroot
  have hKkv : ∀ kv ∈ kvs, K kv.1 := fun kv hkv => (ok.entry kv (hr.valid kv hkv)).1
  obtain ⟨he, u', out, h1, h2, h3, -⟩ :=
    (modifyBtree_spec E L ok root kvs as u f w hr hs hb (fun a ha => ⟨hK a ha, hV a ha⟩)).ok h
  have hmk : m = toMap kvs := funext fun k => (hm k).symm
  have hf := mapFold_eq ok (u := u) hK hKkv hs
  simp only at h2 h3
  rw [h1] at hf
  subst h2
  refine ⟨toMap out, by rw [hmk]; exact hf,
    ⟨out, h3, specFold_sorted ok hK hKkv hs h1, fun _ => rfl⟩,
    ⟨kvs, hr.keep (he.keep w), hs, hm⟩, ?_⟩
  cases root' with
  | none =>
    have : out = [] := h3
    subst this
    simp [toMap, kvFind]
  | some p =>
    obtain ⟨l, ht⟩ := h3
    have hne := ht.ne_nil
    constructor
    · intro h0; simp at h0
    · intro h0
      exfalso
      cases out with
      | nil => exact hne rfl
      | cons x xs =>
        obtain ⟨k, v⟩ := x
        have := h0 k
        simp [toMap, kvFind] at this

/-- If the update fails, then a raw file operation failed, a size limit of the file format was
exceeded, or the batch itself fails with the same error (of a callback); the old tree is
intact. -/
theorem C07_failure (E : Env) (L : E.Laws) (rq : Rq σ) (K : Bytes → Prop) (X : Idx)
    (ok : RqOk rq K X) (f g : File) (w : f.WF) (root : Option NodePointer) (m : KMap)
    (hroot : Represents E X rq.cmp f root m)
    (as : List Action) (hb : BatchOk rq as) (hK : ∀ a ∈ as, K a.key)
    (hV : ∀ a ∈ as, a.type = .insert ∨ a.type = .fetchInsert → X.V (a.key, a.data))
    (u : σ) (e : Err) (h : modifyBtree E rq root as ⟨u, false⟩ f = .error e g) :
    (f.faults ≠ [] ∨ e = .formatLimit ∨ mapFold rq as u m = .error e) ∧
      Represents E X rq.cmp g root m := by
  obtain ⟨kvs, hr, hs, hm⟩ := hroot
  have hKkv : ∀ kv ∈ kvs, K kv.1 := fun kv hkv => (ok.entry kv (hr.valid kv hkv)).1
  obtain ⟨he, h1⟩ :=
    (modifyBtree_spec E L ok root kvs as u f w hr hs hb (fun a ha => ⟨hK a ha, hV a ha⟩)).error h
  have hmk : m = toMap kvs := funext fun k => (hm k).symm
  refine ⟨h1.imp id (Or.imp id ?_), kvs, hr.keep (he.keep w), hs, hm⟩
  intro h2
  rw [hmk, mapFold_eq ok (u := u) hK hKkv hs, h2]
  rfl

/-- Any number of batches, successful or not: each batch that succeeds takes effect, each that
fails has none (the caller keeps the old root, as couchstore does). -/
def runBatches (E : Env) (rq : Rq σ) (f : File) (root : Option NodePointer) (u : σ) :
    List (List Action) → File × Option NodePointer × σ
  | [] => (f, root, u)
  | b :: bs =>
    match modifyBtree E rq root b ⟨u, false⟩ f with
    | .ok (st, root') g => runBatches E rq g root' st.user bs
    | .error _ g => runBatches E rq g root u bs

/-- The meaning of a history: some of the batches (those that fail are left out). -/
inductive History (rq : Rq σ) : σ → KMap → List (List Action) → σ → KMap → Prop
  | done (u m) : History rq u m [] u m
  | step {u m b bs u1 m1 u2 m2} : mapFold rq b u m = .ok (u1, m1) → History rq u1 m1 bs u2 m2 →
      History rq u m (b :: bs) u2 m2
  | skip {u m b bs u2 m2} : History rq u m bs u2 m2 → History rq u m (b :: bs) u2 m2

theorem C07_history (E : Env) (L : E.Laws) (rq : Rq σ) (K : Bytes → Prop) (X : Idx)
    (ok : RqOk rq K X) (f : File) (w : f.WF) (root : Option NodePointer) (m : KMap)
    (hroot : Represents E X rq.cmp f root m)
    (bs : List (List Action)) (hb : ∀ b ∈ bs, BatchOk rq b) (hK : ∀ b ∈ bs, ∀ a ∈ b, K a.key)
    (hV : ∀ b ∈ bs, ∀ a ∈ b, a.type = .insert ∨ a.type = .fetchInsert → X.V (a.key, a.data))
    (u : σ) (g : File) (root' : Option NodePointer) (u' : σ)
    (h : runBatches E rq f root u bs = (g, root', u')) :
    ∃ m', History rq u m bs u' m' ∧ Represents E X rq.cmp g root' m' := by
  induction bs generalizing f root m u with
  | nil =>
    injection h with h1 h2; injection h2 with h2 h3
    subst h1; subst h2; subst h3
    exact ⟨m, .done _ _, hroot⟩
  | cons b bs ih =>
    unfold runBatches at h
    have hb' := fun b hb0 => hb b (List.mem_cons_of_mem _ hb0)
    have hK' := fun b hb0 => hK b (List.mem_cons_of_mem _ hb0)
    have hV' := fun b hb0 => hV b (List.mem_cons_of_mem _ hb0)
    have hwf : ∀ {kvs}, RootAt E X f root kvs → SortedKV rq.cmp kvs →
        Sp (modifyBtree E rq root b ⟨u, false⟩) f (fun _ g => g.WF) (fun _ g => g.WF) := by
      intro kvs hr hs
      exact (modifyBtree_spec E L ok root kvs b u f w hr hs (hb b (by simp))
        (fun a ha => ⟨hK b (by simp) a ha, hV b (by simp) a ha⟩)).mono
        (fun _ _ h => h.1.wf' w) (fun _ _ h => h.1.wf' w)
    have hroot' := hroot
    obtain ⟨kvs, hr, hs, _⟩ := hroot'
    have hw := hwf hr hs
    split at h
    · rename_i st r1 g1 hm
      obtain ⟨m1, h1, h2, -⟩ := C07_batch_is_map_fold E L rq K X ok f g1 w root r1 m hroot b
        (hb b (by simp)) (hK b (by simp)) (hV b (by simp)) u st hm
      obtain ⟨m', h3, h4⟩ := ih g1 (hw.ok hm) r1 m1 h2 hb' hK' hV' st.user h
      exact ⟨m', .step h1 h3, h4⟩
    · rename_i e g1 hm
      obtain ⟨-, h2⟩ := C07_failure E L rq K X ok f g1 w root m hroot b
        (hb b (by simp)) (hK b (by simp)) (hV b (by simp)) u e hm
      obtain ⟨m', h3, h4⟩ := ih g1 (hw.error hm) root m h2 hb' hK' hV' u h
      exact ⟨m', .skip h3, h4⟩

/-! A concrete index: byte-wise order, no reductions, small nodes. -/

/-- Entries within the format's limits; the reduction is the empty string. -/
def plainIdx : Idx where
  V kv := kv.1.length < 4096 ∧ kv.2.length < 2 ^ 28
  R _ r := r = []

/-- A request for that index recording fetched values. -/
def plainRq : Rq (List (Bytes × Option Bytes)) where
  cmp := ebinCmp
  reduce := none
  rereduce := none
  compacting := false
  kvThr := 30
  kpThr := 30
  fetchCb := some fun u a v => .ok (u ++ [(a.key, v)], a.type)
  saveCb := none
  purgeKv := none
  purgeKp := none

theorem plainRq_ok : RqOk plainRq (fun _ => True) plainIdx where
  cmp := ebinCmp_laws
  entry kv h := ⟨trivial, h.1, h.2⟩
  reduce is _ _ := ⟨[], rfl, rfl, by decide⟩
  rereduce cs _ _ := ⟨[], rfl, rfl, by decide⟩
  thr := by decide
  fetch cb hcb u a v u' t ht h := by
    injection hcb with hcb
    subst hcb
    injection h with h
    injection h with h1 h2
    exact h2 ▸ ht

/-- Nine insertions, among them a fetch and a fetch-and-insert. -/
def sampleBatch : List Action :=
  [⟨.insert, [1], [10, 10, 10], 0⟩, ⟨.insert, [2], [20, 20, 20], 0⟩, ⟨.insert, [3], [30, 30, 30], 0⟩,
   ⟨.fetch, [4], [], 0⟩, ⟨.insert, [4], [40, 40, 40], 0⟩, ⟨.insert, [5], [50, 50, 50], 0⟩,
   ⟨.insert, [6], [60, 60, 60], 0⟩, ⟨.fetchInsert, [7], [70, 70, 70], 0⟩,
   ⟨.insert, [8], [80, 80, 80], 0⟩]

/-- Then a batch of removals, fetches and insertions. -/
def sampleBatch2 : List Action :=
  [⟨.remove, [1], [], 0⟩, ⟨.fetch, [2], [], 0⟩, ⟨.remove, [2], [], 0⟩, ⟨.insert, [2], [21], 0⟩,
   ⟨.remove, [7], [], 0⟩, ⟨.remove, [9], [], 0⟩]

instance (a : Action) : Decidable a.inserts := by unfold Action.inserts; infer_instance
instance (as : List Action) : Decidable (BatchOk plainRq as) := by unfold BatchOk; infer_instance

/-- Non-vacuity: the hypotheses hold for the two batches, the updates succeed on an empty file
and produce a multi-level tree. -/
example : Represents Env.toy plainIdx plainRq.cmp File.empty none (fun _ => none) ∧ File.empty.WF ∧
    BatchOk plainRq sampleBatch ∧ BatchOk plainRq sampleBatch2 ∧
    (∀ b ∈ [sampleBatch, sampleBatch2], ∀ a ∈ b, plainIdx.V (a.key, a.data)) := by
  refine ⟨⟨[], rfl, List.Pairwise.nil, fun _ => rfl⟩, ⟨by decide, by decide⟩, by decide, by decide, ?_⟩
  unfold plainIdx
  decide

/-- They succeed, and the state shows what the fetches found. -/
example : (match modifyBtree Env.toy plainRq none sampleBatch ⟨[], false⟩ File.empty with
    | .ok (st, some p) g => decide (p.pointer = 103 ∧ g.pos = 173 ∧ st.user = [([4], none), ([7], none)])
    | _ => false) = true := by decide +kernel

example : (runBatches Env.toy plainRq File.empty none [] [sampleBatch, sampleBatch2]).2.2 =
    [([4], none), ([7], none), ([2], some [20, 20, 20])] := by decide +kernel

/-! ## C08 B-tree structural integrity is preserved by every update

`checkTree` (Spec/Check.lean) reads the tree with the library's read functions and accepts it only
if every pointer refers to an earlier position holding an intact, non-empty node, all leaves are at
the same depth, every separator is the greatest key below it, and subtree sizes and reductions
describe the data below; it returns the entries in order. -/

/-- After any history of batches (successful or not) from an intact tree, for instance the empty
one, the tree passes the check and its keys are strictly increasing; its height is bounded by the
position of the root, hence traversals terminate.  `redOk` is any test that accepts the
reductions of the index. -/
theorem C08_structure (E : Env) (L : E.Laws) (rq : Rq σ) (K : Bytes → Prop) (X : Idx)
    (ok : RqOk rq K X) (redOk : List KV → Bytes → Bool)
    (hred : ∀ kvs r, X.R kvs r → redOk kvs r = true)
    (f : File) (w : f.WF) (root : Option NodePointer) (m : KMap)
    (hroot : Represents E X rq.cmp f root m)
    (bs : List (List Action)) (hb : ∀ b ∈ bs, BatchOk rq b) (hK : ∀ b ∈ bs, ∀ a ∈ b, K a.key)
    (hV : ∀ b ∈ bs, ∀ a ∈ b, a.type = .insert ∨ a.type = .fetchInsert → X.V (a.key, a.data))
    (u : σ) (g : File) (root' : Option NodePointer) (u' : σ)
    (h : runBatches E rq f root u bs = (g, root', u')) :
    root' = none ∨ ∃ p height kvs, root' = some p ∧ p.pointer < g.pos ∧ height ≤ p.pointer ∧
      checkTree E g redOk height p = some kvs ∧ ascending rq.cmp kvs = true := by
  obtain ⟨m', -, kvs, hr, hs, -⟩ := C07_history E L rq K X ok f w root m hroot bs hb hK hV u g root' u' h
  have hw : g.WF := by
    clear hr hs
    induction bs generalizing f root m u with
    | nil =>
      injection h with h1 h2
      exact h1 ▸ w
    | cons b bs ih =>
      have hb' := fun b hb0 => hb b (List.mem_cons_of_mem _ hb0)
      have hK' := fun b hb0 => hK b (List.mem_cons_of_mem _ hb0)
      have hV' := fun b hb0 => hV b (List.mem_cons_of_mem _ hb0)
      have hroot' := hroot
      obtain ⟨kvs1, hr1, hs1, _⟩ := hroot'
      have hw := (modifyBtree_spec E L ok root kvs1 b u f w hr1 hs1 (hb b (by simp))
        (fun a ha => ⟨hK b (by simp) a ha, hV b (by simp) a ha⟩)).mono
        (fun _ _ h => h.1.wf' w) (fun _ _ h => h.1.wf' w)
      unfold runBatches at h
      split at h
      · rename_i st r1 g1 hm
        obtain ⟨m1, h1, h2, -⟩ := C07_batch_is_map_fold E L rq K X ok f g1 w root r1 m hroot b
          (hb b (by simp)) (hK b (by simp)) (hV b (by simp)) u st hm
        exact ih g1 (hw.ok hm) r1 m1 h2 hb' hK' hV' st.user h
      · rename_i e g1 hm
        obtain ⟨-, h2⟩ := C07_failure E L rq K X ok f g1 w root m hroot b
          (hb b (by simp)) (hK b (by simp)) (hV b (by simp)) u e hm
        exact ih g1 (hw.error hm) root m h2 hb' hK' hV' u h
  cases root' with
  | none => exact Or.inl rfl
  | some p =>
    obtain ⟨l, ht⟩ := hr
    exact Or.inr ⟨p, l, kvs, rfl, ht.pointer_lt, ht.height,
      checkTree_spec L hw redOk hred (fun kv hkv => (ok.entry kv hkv).2.1) ht, ascending_of_sorted hs⟩

/-- Non-vacuity: the tree after the two sample batches has interior nodes and passes the check. -/
example : (match runBatches Env.toy plainRq File.empty none [] [sampleBatch, sampleBatch2] with
    | (g, some p, _) => checkTree Env.toy g (fun _ r => r == []) 1 p
    | _ => none) = some [([2], [21]), ([3], [30, 30, 30]), ([4], [40, 40, 40]), ([5], [50, 50, 50]),
      ([6], [60, 60, 60]), ([8], [80, 80, 80])] := by decide +kernel

end Couchstore.Props
