import Verif.Model.IndexHeader

/-
Model of the compaction of a view group, /repo/src/views/view_group.cc:1561-1887 and /repo/src/views/compaction.cc.

Simplifications: allocation does not fail, both files can be opened, the reduce functions can be set up, and error
messages are not modelled.  The progress callback (`stats->update_fun`) only looks at the count.
-/

namespace Couchstore

/-- The index file and the new file, and compaction.h:38-42 `compactor_stats_t`: the number of entries copied. -/
structure ViewCompactSt where
  src : File
  tgt : File
  inserted : Nat

abbrev ViewCompactM := EStateM Err ViewCompactSt

/-- An operation on the new file. -/
def onNew {α : Type} (m : M α) : ViewCompactM α := fun s =>
  match m s.tgt with
  | .ok a f => .ok a { s with tgt := f }
  | .error e f => .error e { s with tgt := f }

/-- compaction.cc:26-36 `view_id_btree_filter`, `view_btree_filter`: is the entry to be left out?  (view_group.cc:1575-1582,
without a filter all are kept.) -/
def compactFilter (filter : Option Bytes) (v : Bytes) : Except Err Bool :=
  match filter with
  | none => .ok false
  | some bm => match decodePartition v with
    | .error e => .error e
    | .ok p => isBitSet bm p

/-- view_group.cc:1561-1603 `compact_view_fetchcb` on the new file, `ctx->mr` and the count. -/
def compactViewFetch {σ : Type} (E : Env) (rq : Rq σ) (filter : Option Bytes) (k v : Bytes) :
    EStateM Err (File × MR × Nat) Unit := fun s =>
  match compactFilter filter v with
  | .error e => .error e s
  | .ok true => .ok () s
  | .ok false =>
    match mrPushItem E rq k v s.2.1 s.1 with
    | .ok mr f => .ok () (f, mr, (s.2.2 + 1) % 2 ^ 64)
    | .error e f => .error e (f, s.2.1, s.2.2)

/-- view_group.cc:1605-1689 `compact_btree`: all entries from the lowest one (the empty key) are put into a new tree. -/
def compactBtree {σ : Type} (E : Env) (rq : Rq σ) (filter : Option Bytes) (root : Option NodePointer) :
    ViewCompactM (Option NodePointer) := fun s =>
  match root with
  | none => .ok none s
  | some p =>
    let look : LookRq (File × MR × Nat) :=
      { cmp := rq.cmp, tolerate := false, fetch := runFetch (compactViewFetch E rq filter), node := none }
    match btreeLookup E look true p.pointer [[]] (s.tgt, newBtreeModres, s.inserted) s.src with
    | .error e f => .error e { s with src := f }
    | .ok (st, some e) f => .error e ⟨f, st.1, st.2.2⟩
    | .ok (st, none) f =>
      match completeNewBtree E rq st.2.1 st.1 with
      | .ok r g => .ok r ⟨f, g, st.2.2⟩
      | .error e g => .error e ⟨f, g, st.2.2⟩

/-- view_group.cc:1691-1716 `compact_id_btree` (:1646-1647 the thresholds). -/
def compactIdBtree (E : Env) (kvThr kpThr : Nat) (filter : Option Bytes) (root : Option NodePointer) :
    ViewCompactM (Option NodePointer) :=
  compactBtree E (viewIdRq (kvThr + kvThr / 3) (kpThr + kpThr / 3) emptyBitmap) filter root

/-- view_group.cc:1718-1761 `compact_view_btree`. -/
def compactViewBtree {D : Type} [LinearOrder D] (E : Env) (e : CollateEnv D) (kvThr kpThr : Nat) (filter : Option Bytes)
    (rs : List Reducer) (root : Option NodePointer) : ViewCompactM (Option NodePointer) :=
  compactBtree E (viewRq e rs (kvThr + kvThr / 3) (kpThr + kpThr / 3) emptyBitmap) filter root

/-- view_group.cc:1832-1863: the views of the group, with their reduce functions. -/
def compactViews {D : Type} [LinearOrder D] (E : Env) (e : CollateEnv D) (kvThr kpThr : Nat) (filter : Option Bytes) :
    List (List Reducer × Option NodePointer) → ViewCompactM (List (Option NodePointer))
  | [] => pure []
  | (rs, root) :: vs => do
    let r ← compactViewBtree E e kvThr kpThr filter rs root
    let out ← compactViews E e kvThr kpThr filter vs
    pure (r :: out)

/-- view_group.cc:1763-1887 `couchstore_compact_view_group`: the new header, which is not written.  As for the cleanup, an
end of the file that cannot be found is an error in the model.  The write position of the index file, which is only read, is
taken to be at its end. -/
def compactViewGroup {D : Type} [LinearOrder D] (E : Env) (e : CollateEnv D) (kvThr kpThr : Nat) (junk : Bytes)
    (headerBuf : Bytes) (views : List (List Reducer)) : ViewCompactM Bytes := fun s =>
  match decodeIndexHeader E headerBuf with
  | .error er => .error er s
  | .ok h =>
    if views.length ≠ h.views.length then .error .assertFail s else
    let filter := if isEqualBitmap emptyBitmap h.cleanup then none else some h.cleanup
    (do
      onNew (do setPos (← gotoEof))
      let idRoot ← compactIdBtree E kvThr kpThr filter h.idRoot
      let roots ← compactViews E e kvThr kpThr filter (views.zip h.views)
      pure (encodeIndexHeader E junk { h with idRoot := idRoot, views := roots, cleanup := emptyBitmap })) { s with src := { s.src with pos := s.src.disk.length } }

end Couchstore
