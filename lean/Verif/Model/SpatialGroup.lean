import Verif.Model.Spatial
import Verif.Model.ViewUpdate

/-
Model of view groups whose views are spatial (`VIEW_INDEX_TYPE_SPATIAL`), /repo/src/views/view_group.cc.

Simplifications as for groups of other views (Model/IndexHeader.lean, Model/ViewUpdate.lean, Model/ViewCompact.lean): files can
be opened, records come sorted.  `couchstore_cleanup_view_group` (:1050-1166) takes the views for ones that are not spatial and
is not modelled for spatial ones.
-/

namespace Couchstore

/-- view_group.cc:547-573, for spatial views: the index of each view is built from its sorted records. -/
def buildSpatialViews (E : Env) (kvThr kpThr : Nat) : List (List (Bytes × Bytes)) → M (List (Option NodePointer))
  | [] => pure []
  | kvs :: vs => do
    let r ← buildSpatial E kvThr kpThr kvs
    let out ← buildSpatialViews E kvThr kpThr vs
    pure (r :: out)

/-- view_group.cc:494-595 `couchstore_build_view_group` of a spatial group. -/
def buildSpatialGroup (E : Env) (kvThr kpThr : Nat) (junk : Bytes) (old : File) (pos : Nat) (ids : List (Bytes × Bytes))
    (views : List (List (Bytes × Bytes))) : M Nat :=
  match readViewGroupHeader E pos old with
  | .error er _ => throw er
  | .ok h _ => do
    if views.length ≠ h.views.length then throw .assertFail else
    let idRoot ← buildIdBtree E kvThr kpThr ids
    let roots ← buildSpatialViews E kvThr kpThr views
    writeViewGroupHeader E junk { h with idRoot := idRoot, views := roots }

/-- view_group.cc:1832-1863, for spatial views. -/
def compactSpatialViews (E : Env) (cmp : Bytes → Bytes → Ordering) (kvThr kpThr : Nat) (filter : Option Bytes) :
    List (Option NodePointer) → ViewCompactM (List (Option NodePointer))
  | [] => pure []
  | root :: vs => do
    let r ← compactSpatial E cmp kvThr kpThr filter root
    let out ← compactSpatialViews E cmp kvThr kpThr filter vs
    pure (r :: out)

/-- view_group.cc:1763-1887 `couchstore_compact_view_group` of a spatial group with `n` views, as `compactViewGroup`. -/
def compactSpatialGroup (E : Env) (cmp : Bytes → Bytes → Ordering) (kvThr kpThr : Nat) (junk : Bytes) (headerBuf : Bytes) (n : Nat) :
    ViewCompactM Bytes := fun s =>
  match decodeIndexHeader E headerBuf with
  | .error er => .error er s
  | .ok h =>
    if n ≠ h.views.length then .error .assertFail s else
    let filter := if isEqualBitmap emptyBitmap h.cleanup then none else some h.cleanup
    (do
      onNew (do setPos (← gotoEof))
      let idRoot ← compactIdBtree E kvThr kpThr filter h.idRoot
      let roots ← compactSpatialViews E cmp kvThr kpThr filter h.views
      pure (encodeIndexHeader E junk { h with idRoot := idRoot, views := roots, cleanup := emptyBitmap }))
        { s with src := { s.src with pos := s.src.disk.length } }

/-- view_group.cc:1395-1555 `couchstore_update_view_group` of a spatial group: the caller has removed the views from `info`
(:1425-1432), so that only the index by document id is updated.  The new cleanup mask is that of this index alone. -/
def updateSpatialGroup (E : Env) (kvThr kpThr : Nat) (junk : Bytes) (batchSize maxActs : Nat) (headerBuf : Bytes)
    (idsFile : RecFile) : M (UpdateStats × Bytes) := do
  let h ← ofExcept (decodeIndexHeader E headerBuf)
  setPos (← gotoEof)
  let (n, ci, idRoot) ← updateIdBtree E kvThr kpThr h.cleanup batchSize maxActs idsFile h.idRoot 0 ⟨0, 0⟩
  let bm ← ofExcept (viewIdBitmask idRoot emptyBitmap)
  pure (⟨ci, ⟨0, 0⟩, n⟩, encodeIndexHeader E junk { h with idRoot := idRoot, cleanup := intersectBitmaps bm h.cleanup })

end Couchstore
