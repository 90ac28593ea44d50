import Verif.Model.ViewReduce
import Verif.Model.Compact

/-
Model of the indexes of a view group, /repo/src/views/view_group.cc.

Simplifications: allocation does not fail, the files are open, the reduce functions can be set up
(`make_view_reducer_ctx`), and error messages are not modelled.
-/

namespace Couchstore

/-- view_group.cc:41-42 `VIEW_KV_CHUNK_THRESHOLD`, `VIEW_KP_CHUNK_THRESHOLD`. -/
def viewKvThr : Nat := 7 * 1024
def viewKpThr : Nat := 6 * 1024

/-- view_group.cc:707-771 `build_btree` with `build_btree_record_callback` (:679-705): the tree is made from the records
as they come, sorted, from the file merger. -/
def buildBtree {σ : Type} (E : Env) (rq : Rq σ) (kvs : List (Bytes × Bytes)) : M (Option NodePointer) := do
  let mr ← pushItems E rq kvs newBtreeModres
  completeNewBtree E rq mr

/-- view_group.cc:774-795 `build_id_btree` (:738-739 the thresholds). -/
def buildIdBtree (E : Env) (kvThr kpThr : Nat) (kvs : List (Bytes × Bytes)) : M (Option NodePointer) :=
  buildBtree E (viewIdRq (kvThr + kvThr / 3) (kpThr + kpThr / 3) emptyBitmap) kvs

/-- view_group.cc:798-836 `build_view_btree`. -/
def buildViewBtree {D : Type} [LinearOrder D] (E : Env) (e : CollateEnv D) (kvThr kpThr : Nat) (rs : List Reducer)
    (kvs : List (Bytes × Bytes)) : M (Option NodePointer) :=
  buildBtree E (viewRq e rs (kvThr + kvThr / 3) (kpThr + kpThr / 3) emptyBitmap) kvs

/-- view_group.cc:978-1002 `cleanup_id_btree` with `cleanup_btree` (:944-976); the state is `purge_ctx.count`. -/
def cleanupIdBtree (E : Env) (kvThr kpThr : Nat) (cleanup : Bytes) (root : Option NodePointer) (count : Nat) :
    M (Nat × Option NodePointer) := do
  let (st, r) ← guidedPurge E (viewIdRq kvThr kpThr cleanup) root count
  pure (st.user, r)

/-- view_group.cc:1005-1048 `cleanup_view_btree`. -/
def cleanupViewBtree {D : Type} [LinearOrder D] (E : Env) (e : CollateEnv D) (kvThr kpThr : Nat) (cleanup : Bytes)
    (rs : List Reducer) (root : Option NodePointer) (count : Nat) : M (Nat × Option NodePointer) := do
  let (st, r) ← guidedPurge E (viewRq e rs kvThr kpThr cleanup) root count
  pure (st.user, r)

/-- view_group.cc:1118-1138: the views of the group, with their reduce functions. -/
def cleanupViews {D : Type} [LinearOrder D] (E : Env) (e : CollateEnv D) (kvThr kpThr : Nat) (cleanup : Bytes) :
    List (List Reducer × Option NodePointer) → Nat → M (Nat × List (Option NodePointer))
  | [], n => pure (n, [])
  | (rs, root) :: vs, n => do
    let (n, r) ← cleanupViewBtree E e kvThr kpThr cleanup rs root n
    let (n, out) ← cleanupViews E e kvThr kpThr cleanup vs n
    pure (n, r :: out)

/-- view_group.cc:906-926 `view_id_bitmask`; its result is not looked at (:1114). -/
def viewIdBitmask (root : Option NodePointer) (bm : Bytes) : Except Err Bytes :=
  match root with
  | none => .ok bm
  | some p => match decodeIdReduction p.reduceValue with
    | .error e => .error e
    | .ok (_, b) => .ok (unionBitmaps bm b)

/-- view_group.cc:928-941 `view_bitmask`, for each view. -/
def viewBitmasks : List (Option NodePointer) → Bytes → Except Err Bytes
  | [], bm => .ok bm
  | none :: rs, bm => viewBitmasks rs bm
  | some p :: rs, bm => match decodeReductionBitmap p.reduceValue with
    | .error e => .error e
    | .ok (_, b) => viewBitmasks rs (unionBitmaps bm b)

/-- view_group.cc:1096-1143, the part of `couchstore_cleanup_view_group` between the reading and the writing of the
header: the new roots, the new cleanup bitmask and the count.  (In the code the masks are combined between the purges
of the views; they depend on the roots only.) -/
def cleanupGroup {D : Type} [LinearOrder D] (E : Env) (e : CollateEnv D) (kvThr kpThr : Nat) (cleanup : Bytes)
    (idRoot : Option NodePointer) (views : List (List Reducer × Option NodePointer)) :
    M (Nat × Option NodePointer × List (Option NodePointer) × Bytes) := do
  let (n, idRoot) ← cleanupIdBtree E kvThr kpThr cleanup idRoot 0
  let (n, roots) ← cleanupViews E e kvThr kpThr cleanup views n
  let bm ← ofExcept (viewIdBitmask idRoot emptyBitmap)
  let bm ← ofExcept (viewBitmasks roots bm)
  pure (n, idRoot, roots, intersectBitmaps bm cleanup)

end Couchstore
