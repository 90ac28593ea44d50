import Verif.Model.IndexHeader

/-! Incremental updates of a view group from files with records (views/view_group.cc). -/

namespace Couchstore

/-- A file with records as `fread` sees it: bytes, and after them the end of the file or an error of the device. -/
structure RecFile where
  bytes : Bytes
  eof : Bool
deriving DecidableEq, Repr

/-- What `read_record` did. -/
inductive RecNext where
  | /-- 0: no more records -/ last
  | /-- a negative number -/ fail
  | /-- a record, and what follows it -/ record (r : ViewRec) (rest : Bytes)
deriving DecidableEq, Repr

/-- view_group.cc:603-659 `read_record` for an update (`op` is not null).  The length is in the byte order of the machine
(little endian); the length of the value is computed in 32 bits; `fread` of a key of no bytes gives 0 and is taken for a
failure; the result is the length as a signed number, so that 0 is taken for the end of the file and 2^31 or more for an
error.  All errors are one in the model, and memory does not run out. -/
def readRecord (src : RecFile) : RecNext :=
  if src.bytes.length < 4 then if src.eof then .last else .fail
  else
    let len := beDec (src.bytes.take 4).reverse
    match src.bytes.drop 4 with
    | op :: k1 :: k2 :: b =>
      let klen := beDec [k1, k2]
      let vlen := (len + 2 ^ 32 - 3 - klen) % 2 ^ 32
      if klen = 0 ∨ b.length < klen + vlen then .fail
      else if len = 0 then .last
      else if 2 ^ 31 ≤ len then .fail
      else .record { op := op, key := b.take klen, val := (b.drop klen).take vlen } (b.drop (klen + vlen))
    | _ => .fail

/-- couch_btree.h:82-85, the numbers of the actions; other numbers are outside the model. -/
def actionOf (op : UInt8) : Option ActType :=
  if op = 0 then some .fetch else if op = 1 then some .remove else if op = 2 then some .insert
  else if op = 3 then some .fetchInsert else none

/-- view_group.h:69-75 `view_group_update_stats_t`, the part for one kind of index: insertions and removals. -/
structure OpCount where
  inserted : Nat
  removed : Nat
deriving DecidableEq, Repr

/-- view_group.cc:1262-1266. -/
def OpCount.note (c : OpCount) (op : UInt8) : OpCount :=
  if op = 2 then { c with inserted := c.inserted + 1 } else if op = 1 then { c with removed := c.removed + 1 } else c

/-- view_group.cc:1243-1285, the loop of `update_btree`: `acts` are the actions that are not yet applied and `size` is
`bufsize`.  A record with a number that is not one of an action is an error in the model only.  The fuel is a bound on the
number of records. -/
def updateLoop {σ : Type} (E : Env) (rq : Rq σ) (batchSize maxActs : Nat) (eof : Bool) :
    Nat → Bytes → List Action → Nat → OpCount → St σ → Option NodePointer → M (St σ × OpCount × Option NodePointer)
  | 0, _, _, _, _, _, _ => throw .diverge
  | n + 1, bytes, acts, size, c, st, root =>
    match readRecord ⟨bytes, eof⟩ with
    | .fail => throw .read
    | .last =>
      if acts.isEmpty then pure (st, c, root)
      else do
        let (st, root) ← modifyBtree E rq root acts st
        pure (st, c, root)
    | .record r rest =>
      match actionOf r.op with
      | none => throw .assertFail
      | some t =>
        if batchSize < size + r.key.length + r.val.length + 1 ∨ acts.length + 1 = maxActs then do
          let (st, root) ← modifyBtree E rq root (acts ++ [⟨t, r.key, r.val, 0⟩]) st
          updateLoop E rq batchSize maxActs eof n rest [] 0 (c.note r.op) st root
        else
          updateLoop E rq batchSize maxActs eof n rest (acts ++ [⟨t, r.key, r.val, 0⟩])
            (size + r.key.length + r.val.length + 1) (c.note r.op) st root

/-- view_group.cc:1168-1309 `update_btree`; the source file can be opened.  The state is `purge_ctx.count`. -/
def updateBtree (E : Env) (rq : Rq Nat) (cleanup : Bytes) (batchSize maxActs : Nat) (src : RecFile)
    (root : Option NodePointer) (count : Nat) (c : OpCount) : M (Nat × OpCount × Option NodePointer) := do
  let (st, c, root) ← updateLoop E rq batchSize maxActs src.eof (src.bytes.length + 1) src.bytes [] 0 c
    ⟨count, !isEqualBitmap emptyBitmap cleanup⟩ root
  pure (st.user, c, root)

/-- view_group.cc:1311-1340 `update_id_btree`. -/
def updateIdBtree (E : Env) (kvThr kpThr : Nat) (cleanup : Bytes) (batchSize maxActs : Nat) (src : RecFile)
    (root : Option NodePointer) (count : Nat) (c : OpCount) : M (Nat × OpCount × Option NodePointer) :=
  updateBtree E (viewIdRq kvThr kpThr cleanup) cleanup batchSize maxActs src root count c

/-- view_group.cc:1343-1391 `update_view_btree`. -/
def updateViewBtree {D : Type} [LinearOrder D] (E : Env) (e : CollateEnv D) (kvThr kpThr : Nat) (cleanup : Bytes)
    (batchSize maxActs : Nat) (rs : List Reducer) (src : RecFile) (root : Option NodePointer) (count : Nat) (c : OpCount) :
    M (Nat × OpCount × Option NodePointer) :=
  updateBtree E (viewRq e rs kvThr kpThr cleanup) cleanup batchSize maxActs src root count c

/-- view_group.cc:1487-1530: the views of the group, with their reduce functions and files. -/
def updateViews {D : Type} [LinearOrder D] (E : Env) (e : CollateEnv D) (kvThr kpThr : Nat) (cleanup : Bytes)
    (batchSize maxActs : Nat) : List ((List Reducer × RecFile) × Option NodePointer) → Nat → OpCount →
    M (Nat × OpCount × List (Option NodePointer))
  | [], n, c => pure (n, c, [])
  | ((rs, src), root) :: vs, n, c => do
    let (n, c, r) ← updateViewBtree E e kvThr kpThr cleanup batchSize maxActs rs src root n c
    let (n, c, out) ← updateViews E e kvThr kpThr cleanup batchSize maxActs vs n c
    pure (n, c, r :: out)

/-- view_group.h:69-75 `view_group_update_stats_t`. -/
structure UpdateStats where
  ids : OpCount
  kvs : OpCount
  purged : Nat
deriving DecidableEq, Repr

/-- view_group.cc:1393-1560 `couchstore_update_view_group` for sorted files (`is_sorted`): what is counted, starting from
nothing, and the new header, which is not written.  The file can be opened.  As for the cleanup, an end of the file that
cannot be found is an error in the model, and the masks are combined after the updates. -/
def updateViewGroup {D : Type} [LinearOrder D] (E : Env) (e : CollateEnv D) (kvThr kpThr : Nat) (junk : Bytes)
    (batchSize maxActs : Nat) (headerBuf : Bytes) (idsFile : RecFile) (views : List (List Reducer × RecFile)) :
    M (UpdateStats × Bytes) := do
  let h ← ofExcept (decodeIndexHeader E headerBuf)
  if views.length ≠ h.views.length then throw .assertFail else
  setPos (← gotoEof)
  let (n, ci, idRoot) ← updateIdBtree E kvThr kpThr h.cleanup batchSize maxActs idsFile h.idRoot 0 ⟨0, 0⟩
  let (n, cv, roots) ← updateViews E e kvThr kpThr h.cleanup batchSize maxActs (views.zip h.views) n ⟨0, 0⟩
  let bm ← ofExcept (viewIdBitmask idRoot emptyBitmap)
  let bm ← ofExcept (viewBitmasks roots bm)
  pure (⟨ci, cv, n⟩,
    encodeIndexHeader E junk { h with idRoot := idRoot, views := roots, cleanup := intersectBitmaps bm h.cleanup })

end Couchstore
