import Verif.Model.Disk

/-
Model of /repo/src/btree_modify.cc: updating, building and purging B-trees.

Simplifications, common to the whole file:
* arenas and allocation failures are not modelled; linked lists are Lean lists;
* `node_len`, `count` and the thresholds (`long`/`int`/`size_t` in the code) are `Nat`;
* the callbacks of a request are functions on an explicit callback state `σ`.
-/

namespace Couchstore

/-- couch_btree.h:83-86 `ACTION_*`. -/
inductive ActType where
  | fetch | remove | insert | fetchInsert
deriving DecidableEq, Repr

/-- couch_btree.h:88-112 `couchfile_modify_action`. -/
structure Action where
  type : ActType
  key : Bytes
  data : Bytes
  userReq : Nat
deriving DecidableEq, Repr

/-- couch_btree.h:65-70 `nodelist`: one record of a node under construction; `pointer` is set
for records of interior nodes. -/
structure Item where
  key : Bytes
  data : Bytes
  pointer : Option NodePointer
deriving DecidableEq, Repr

/-- couch_btree.h:115-118 `PURGE_*`. -/
inductive PurgeAct where
  | item | stop | keep | part
deriving DecidableEq, Repr

/-- couch_btree.h:124-151 `couchfile_modify_request`, without the actions.  A fetch callback
receives the action and the value found and returns the type the action has afterwards (the
code re-reads `getType()` after the callback). -/
structure Rq (σ : Type) where
  cmp : Bytes → Bytes → Ordering
  reduce : Option (List Item → Except Err Bytes)
  rereduce : Option (List Item → Except Err Bytes)
  compacting : Bool
  kvThr : Nat
  kpThr : Nat
  fetchCb : Option (σ → Action → Option Bytes → Except Err (σ × ActType))
  /-- `do_save_callback`: key, old value, new value, user request. -/
  saveCb : Option (σ → Bytes → Option Bytes → Bytes → Nat → Except Err σ)
  purgeKv : Option (σ → Bytes → Bytes → Except Err (σ × PurgeAct))
  purgeKp : Option (σ → NodePointer → Except Err (σ × PurgeAct))

/-- The mutable part of a request: the callbacks' state and `enable_purging`. -/
structure St (σ : Type) where
  user : σ
  purging : Bool

/-- couch_btree.h:153-154 `KP_NODE`, `KV_NODE`. -/
inductive NodeKind where
  | kp | kv
deriving DecidableEq, Repr

/-- The type byte of a node (btree_modify.cc:241). -/
def NodeKind.byte : NodeKind → UInt8
  | .kp => 0
  | .kv => 1

/-- couch_btree.h:157-176 `couchfile_modify_result`. -/
structure MR where
  values : List Item
  pointers : List Item
  nodeLen : Nat
  count : Nat
  modified : Bool
  kind : NodeKind
deriving DecidableEq, Repr

/-- btree_modify.cc:67-92 `make_modres` (the node type is set by the callers). -/
def MR.new (kind : NodeKind) : MR :=
  { values := [], pointers := [], nodeLen := 0, count := 0, modified := false, kind := kind }

/-- Encoded size of a record, btree_modify.cc:145, 175, 251, 351. -/
def Item.kvSize (i : Item) : Nat := i.key.length + i.data.length + 5

/-- btree_modify.cc:150-164 `encode_pointer`: the list element made for a pointer. -/
def ptrItem (p : NodePointer) : Item := { key := p.key, data := encodePointer p, pointer := some p }

/-- btree_modify.cc:246-272, the loop of `flush_mr_partial`: the records that go into the
node, and the others. -/
def flushTake (kind : NodeKind) (quota bufSize : Nat) :
    List Item → Nat → Nat → Except Err (List Item × List Item)
  | [], _, _ => .ok ([], [])
  | i :: is, used, itmcount =>
    if used < quota ∨ (itmcount < 2 ∧ kind = .kp) then
      if 1 + used + i.kvSize > bufSize then .error .invalidArguments
      else
        match flushTake kind quota bufSize is (used + i.kvSize) (itmcount + 1) with
        | .ok (t, r) => .ok (i :: t, r)
        | .error e => .error e
    else .ok ([], i :: is)

/-- The records of a node. -/
def encodeItems (is : List Item) : Bytes := is.flatMap fun i => writeKv i.key i.data

/-- btree_modify.cc:288-302: the reduction of a node; no reduction if there is no function. -/
def nodeReduce {σ} (rq : Rq σ) (kind : NodeKind) (taken : List Item) : Except Err Bytes :=
  match kind with
  | .kv => match rq.reduce with | some r => r taken | none => .ok []
  | .kp => match rq.rereduce with | some r => r taken | none => .ok []

/-- btree_modify.cc:264-266: what a record adds to the size of the subtree. -/
def Item.sub (i : Item) : Nat := match i.pointer with | some p => p.subtreesize | none => 0

/-- btree_modify.cc:244, 268: `final_key`, initially the key of the first record. -/
def finalKeyOf (first : Item) (taken : List Item) : Bytes :=
  match taken.getLast? with
  | some i => i.key
  | none => first.key

/-- Lift a pure result. -/
def ofExcept {α : Type} : Except Err α → M α
  | .ok a => pure a
  | .error e => throw e

/-- btree_modify.cc:209-337 `flush_mr_partial`.  `reducebuf` holds 65535 bytes
(`MAX_REDUCTION_SIZE`); a longer reduction is the failed assertion. -/
def flushMrPartial {σ} (E : Env) (rq : Rq σ) (mr : MR) (quota : Nat) : M MR :=
  match mr.values with
  | [] => pure mr
  | first :: _ =>
    if mr.modified = false then pure mr else do
    let (taken, rest) ← ofExcept (flushTake mr.kind quota (mr.nodeLen + 1) mr.values 0 0)
    let finalKey := finalKeyOf first taken
    let body := mr.kind.byte :: encodeItems taken
    let subtreesize := (taken.map Item.sub).sum
    let (diskpos, diskSize) ← dbWriteBufCompressed E body
    let red ← ofExcept (nodeReduce rq mr.kind taken)
    if red.length > 65535 then throw .assertFail else
    let ptr : NodePointer := { key := finalKey, pointer := diskpos, reduceValue := red,
                               subtreesize := subtreesize + diskSize }
    pure { mr with values := rest, pointers := mr.pointers ++ [ptrItem ptr],
                   nodeLen := mr.nodeLen - (body.length - 1),
                   count := mr.count - taken.length }

/-- btree_modify.cc:202-207 `flush_mr`. -/
def flushMr {σ} (E : Env) (rq : Rq σ) (mr : MR) : M MR := flushMrPartial E rq mr mr.nodeLen

/-- btree_modify.cc:22-52 `maybe_flush`. -/
def maybeFlush {σ} (E : Env) (rq : Rq σ) (mr : MR) : M MR :=
  if rq.compacting then
    if mr.modified ∧ ((mr.kind = .kv ∧ mr.nodeLen > rq.kvThr * 2 / 3) ∨
        (mr.kind = .kp ∧ mr.nodeLen > rq.kpThr * 2 / 3 ∧ mr.count > 1)) then flushMr E rq mr
    else pure mr
  else if mr.modified ∧ mr.count > 3 then
    if mr.kind = .kv ∧ mr.nodeLen > rq.kvThr then flushMrPartial E rq mr (rq.kvThr * 2 / 3)
    else if mr.kind = .kp ∧ mr.nodeLen > rq.kpThr then flushMrPartial E rq mr (rq.kpThr * 2 / 3)
    else pure mr
  else pure mr

/-- Append a record to the values list and maybe flush: the common part of
btree_modify.cc:128-148 `mr_push_item`, :166-178 `mr_push_pointerinfo` and the loop body of
:340-367 `mr_move_pointers`. -/
def mrPush {σ} (E : Env) (rq : Rq σ) (i : Item) (dst : MR) : M MR :=
  maybeFlush E rq { dst with values := dst.values ++ [i], nodeLen := dst.nodeLen + i.kvSize,
                             count := dst.count + 1 }

/-- btree_modify.cc:128-148 `mr_push_item`. -/
def mrPushItem {σ} (E : Env) (rq : Rq σ) (k v : Bytes) (dst : MR) : M MR :=
  mrPush E rq { key := k, data := v, pointer := none } dst

/-- btree_modify.cc:166-178 `mr_push_pointerinfo`. -/
def mrPushPointer {σ} (E : Env) (rq : Rq σ) (p : NodePointer) (dst : MR) : M MR :=
  mrPush E rq (ptrItem p) dst

/-- Push a list of records one after another. -/
def mrPushList {σ} (E : Env) (rq : Rq σ) : List Item → MR → M MR
  | [], dst => pure dst
  | i :: is, dst => do
    let dst ← mrPush E rq i dst
    mrPushList E rq is dst

/-- btree_modify.cc:340-367 `mr_move_pointers`; returns source and destination. -/
def mrMovePointers {σ} (E : Env) (rq : Rq σ) (src dst : MR) : M (MR × MR) := do
  let dst ← mrPushList E rq src.pointers dst
  pure ({ src with pointers := [] }, dst)

/-- The records of a node buffer after its type byte, as the loops of btree_modify.cc and
btree_read.cc obtain them with `read_kv`; a final `none` stands for a call of `read_kv` that
fails (the loops then report corruption).  `fuel` is the length of the buffer; every record
takes at least 5 bytes. -/
def parseRecs : Nat → Bytes → List (Option (Bytes × Bytes))
  | _, [] => []
  | 0, _ :: _ => [none]
  | fuel + 1, b =>
    match readKv b with
    | none => [none]
    | some (k, v, rest) => some (k, v) :: parseRecs fuel rest

/-- Read and split a node: its type byte and its records.  An empty node is corrupt
(btree_modify.cc:485-489, 921-925, btree_read.cc:41-44). -/
def readNode (E : Env) (pos : Nat) : M (UInt8 × List (Option (Bytes × Bytes))) := do
  let b ← preadCompressed E pos
  match b with
  | [] => throw .corrupt
  | t :: rest => pure (t, parseRecs rest.length rest)

/-- btree_modify.cc:369-401 `maybe_purgekv`. -/
def maybePurgeKv {σ} (E : Env) (rq : Rq σ) (k v : Bytes) (st : St σ) (res : MR) :
    M (St σ × MR) := do
  let (st, action) ←
    match st.purging, rq.purgeKv with
    | true, some cb => do
      let (u, a) ← ofExcept (cb st.user k v)
      pure ({ st with user := u }, a)
    | _, _ => pure (st, PurgeAct.keep)
  match action with
  | .item => pure (st, { res with modified := true })
  | .stop => do
    let res ← mrPushItem E rq k v res
    pure ({ st with purging := false }, res)
  | .keep => do
    let res ← mrPushItem E rq k v res
    pure (st, res)
  | .part => pure (st, res)    -- no such case in the switch

/-- btree_modify.cc:403-437 `maybe_purgekp`, with `purge_node` as a parameter. -/
def maybePurgeKp {σ} (E : Env) (rq : Rq σ) (purgeNode : NodePointer → St σ → MR → M (St σ × MR))
    (p : NodePointer) (st : St σ) (res : MR) : M (St σ × MR) := do
  let (st, action) ←
    match st.purging, rq.purgeKp with
    | true, some cb => do
      let (u, a) ← ofExcept (cb st.user p)
      pure ({ st with user := u }, a)
    | _, _ => pure (st, PurgeAct.keep)
  match action with
  | .item => pure (st, { res with modified := true })
  | .part => purgeNode p st res
  | .stop => do
    let res ← mrPushPointer E rq p res
    pure ({ st with purging := false }, res)
  | .keep => do
    let res ← mrPushPointer E rq p res
    pure (st, res)

/-- btree_modify.cc:932-943, the leaf loop of `purge_node`. -/
def purgeKvLoop {σ} (E : Env) (rq : Rq σ) :
    List (Option (Bytes × Bytes)) → St σ → MR → M (St σ × MR)
  | [], st, mr => pure (st, mr)
  | none :: _, _, _ => throw .corrupt
  | some (k, v) :: rest, st, mr => do
    let (st, mr) ← maybePurgeKv E rq k v st mr
    purgeKvLoop E rq rest st mr

/-- btree_modify.cc:946-963 and 708-724, the loop pushing the remaining pointers. -/
def purgeKpLoop {σ} (E : Env) (rq : Rq σ) (purgeNode : NodePointer → St σ → MR → M (St σ × MR)) :
    List (Option (Bytes × Bytes)) → St σ → MR → M (St σ × MR)
  | [], st, mr => pure (st, mr)
  | none :: _, _, _ => throw .corrupt
  | some (k, v) :: rest, st, mr =>
    match readPointer k v with
    | none => throw .corrupt
    | some p => do
      let (st, mr) ← maybePurgeKp E rq purgeNode p st mr
      purgeKpLoop E rq purgeNode rest st mr

/-- btree_modify.cc:900-979 `purge_node` for a non-null pointer; `fuel` bounds the depth. -/
def purgeNode {σ} (E : Env) (rq : Rq σ) : Nat → NodePointer → St σ → MR → M (St σ × MR)
  | 0, _, _, _ => throw .diverge
  | fuel + 1, p, st, dst =>
    if st.purging = false then do
      let dst ← mrPushPointer E rq p { dst with modified := true }
      pure (st, dst)
    else do
      let (t, recs) ← readNode E p.pointer
      let (st, loc) ←
        if t = 1 then purgeKvLoop E rq recs st (MR.new .kv)
        else if t = 0 then purgeKpLoop E rq (purgeNode E rq fuel) recs st (MR.new .kp)
        else throw .corrupt
      if loc.modified then do
        let loc ← flushMr E rq loc
        let (_, dst) ← mrMovePointers E rq loc { dst with modified := true }
        pure (st, dst)
      else pure (st, dst)

/-- `do_save_callback` if there is one (btree_modify.cc:441-466, 538-545). -/
def doSave {σ} (rq : Rq σ) (a : Action) (old : Option Bytes) (st : St σ) : M (St σ) :=
  match rq.saveCb with
  | none => pure st
  | some cb => do
    let u ← ofExcept (cb st.user a.key old a.data a.userReq)
    pure { st with user := u }

/-- The fetch callback if there is one; returns the type of the action afterwards. -/
def doFetch {σ} (rq : Rq σ) (a : Action) (found : Option Bytes) (st : St σ) :
    M (St σ × ActType) :=
  match rq.fetchCb with
  | none => pure (st, a.type)
  | some cb => do
    let (u, t) ← ofExcept (cb st.user a found)
    pure ({ st with user := u }, t)

/-- `ACTION_INSERT`: btree_modify.cc:533-546, 578-591, 625-637. -/
def doInsert {σ} (E : Env) (rq : Rq σ) (a : Action) (old : Option Bytes) (st : St σ) (loc : MR) :
    M (St σ × MR) := do
  let loc ← mrPushItem E rq a.key a.data { loc with modified := true }
  let st ← doSave rq a old st
  pure (st, loc)

/-- An action whose key is not in the leaf: btree_modify.cc:515-551 and 610-642. -/
def notFound {σ} (E : Env) (rq : Rq σ) (a : Action) (st : St σ) (loc : MR) : M (St σ × MR) :=
  match a.type with
  | .remove => pure (st, { loc with modified := true })
  | .insert => doInsert E rq a none st loc
  | _ => do
    let (st, t) ← doFetch rq a none st
    if t = .fetch then pure (st, loc) else doInsert E rq a none st loc

/-- btree_modify.cc:503-599, the inner loop for one record of a leaf: returns the remaining
actions and `advance`. -/
def kvInner {σ} (E : Env) (rq : Rq σ) (k v : Bytes) :
    List Action → St σ → MR → M (List Action × Bool × St σ × MR)
  | [], st, loc => pure ([], false, st, loc)
  | a :: as, st, loc =>
    match rq.cmp k a.key with
    | .lt => do
      let (st, loc) ← maybePurgeKv E rq k v st loc
      pure (a :: as, true, st, loc)
    | .gt => do
      let (st, loc) ← notFound E rq a st loc
      kvInner E rq k v as st loc
    | .eq =>
      match a.type with
      | .remove => pure (as, true, st, { loc with modified := true })
      | .insert => do
        let (st, loc) ← doInsert E rq a (some v) st loc
        pure (as, true, st, loc)
      | _ => do
        let (st, t) ← doFetch rq a (some v) st
        if t = .fetch then kvInner E rq k v as st loc
        else do
          let (st, loc) ← doInsert E rq a (some v) st loc
          pure (as, true, st, loc)

/-- btree_modify.cc:608-644, the actions after the last record of a leaf. -/
def kvTail {σ} (E : Env) (rq : Rq σ) : List Action → St σ → MR → M (St σ × MR)
  | [], st, loc => pure (st, loc)
  | a :: as, st, loc => do
    let (st, loc) ← notFound E rq a st loc
    kvTail E rq as st loc

/-- btree_modify.cc:497-644, a leaf. -/
def kvLoop {σ} (E : Env) (rq : Rq σ) :
    List (Option (Bytes × Bytes)) → List Action → St σ → MR → M (St σ × MR)
  | [], as, st, loc => kvTail E rq as st loc
  | none :: _, _, _, _ => throw .corrupt
  | some (k, v) :: rest, as, st, loc => do
    let (as, advance, st, loc) ← kvInner E rq k v as st loc
    let (st, loc) ←
      if as = [] ∧ advance = false then maybePurgeKv E rq k v st loc else pure (st, loc)
    kvLoop E rq rest as st loc

/-- btree_modify.cc:647-724, an interior node; `descend` is the recursive call. -/
def kpLoop {σ} (E : Env) (rq : Rq σ)
    (descend : NodePointer → List Action → St σ → MR → M (St σ × MR))
    (purge : NodePointer → St σ → MR → M (St σ × MR)) :
    List (Option (Bytes × Bytes)) → List Action → St σ → MR → M (St σ × MR)
  | [], _, st, loc => pure (st, loc)
  | r :: rest, [], st, loc => purgeKpLoop E rq purge (r :: rest) st loc
  | none :: _, _ :: _, _, _ => throw .corrupt
  | some (k, v) :: rest, a :: as, st, loc =>
    match readPointer k v with
    | none => throw .corrupt
    | some p =>
      if rest = [] then descend p (a :: as) st loc
      else if rq.cmp k a.key = .lt then do
        let (st, loc) ← maybePurgeKp E rq purge p st loc
        kpLoop E rq descend purge rest (a :: as) st loc
      else do
        let inRange := fun b : Action => rq.cmp b.key k != .gt
        let (st, loc) ← descend p ((a :: as).takeWhile inRange) st loc
        kpLoop E rq descend purge rest ((a :: as).dropWhile inRange) st loc

/-- btree_modify.cc:484-730: everything `modify_node` does with a node up to writing out the
rest of it. -/
def modifyBody {σ} (E : Env) (rq : Rq σ)
    (descend : NodePointer → List Action → St σ → MR → M (St σ × MR))
    (purge : NodePointer → St σ → MR → M (St σ × MR))
    (nptr : Option NodePointer) (as : List Action) (st : St σ) : M (St σ × MR) := do
  let (t, recs) ←
    match nptr with
    | none => pure (1, [])
    | some p => readNode E p.pointer
  let (st, loc) ←
    if t = 1 then kvLoop E rq recs as st (MR.new .kv)
    else if t = 0 then kpLoop E rq descend purge recs as st (MR.new .kp)
    else throw .corrupt
  let loc ← flushMr E rq loc
  pure (st, loc)

/-- btree_modify.cc:468-745 `modify_node`; `fuel` bounds the depth of the recursion (the code
has no bound: on a cyclic tree it does not return). -/
def modifyNode {σ} (E : Env) (rq : Rq σ) :
    Nat → Option NodePointer → List Action → St σ → MR → M (St σ × MR)
  | _, _, [], st, dst => pure (st, dst)
  | 0, _, _ :: _, _, _ => throw .diverge
  | fuel + 1, nptr, a :: as, st, dst => do
    let (st, loc) ← modifyBody E rq (fun p => modifyNode E rq fuel (some p))
      (purgeNode E rq fuel) nptr (a :: as) st
    match loc.modified, nptr with
    | false, some p => do
      let dst ← mrPushPointer E rq p dst
      pure (st, dst)
    | _, _ => do
      let (_, dst) ← mrMovePointers E rq loc { dst with modified := true }
      pure (st, dst)

/-- btree_modify.cc:763-787, the loop of `finish_root`; `fuel` bounds the number of levels. -/
def finishRootLoop {σ} (E : Env) (rq : Rq σ) : Nat → MR → MR → M (Option NodePointer)
  | fuel, root, collector =>
    match root.pointers with
    | [it] => pure it.pointer
    | _ =>
      match fuel with
      | 0 => throw .diverge
      | fuel + 1 => do
        let (root, collector) ← mrMovePointers E rq root collector
        let collector ← flushMr E rq collector
        finishRootLoop E rq fuel collector root

/-- btree_modify.cc:747-790 `finish_root`. -/
def finishRoot {σ} (E : Env) (rq : Rq σ) (root : MR) : M (Option NodePointer) := do
  let root ← flushMr E rq root
  finishRootLoop E rq (root.pointers.length + 1) root { MR.new .kp with modified := true }

/-- `values_end->pointer`: the pointer of the last element, null if there is none. -/
def lastPointer (mr : MR) : Option NodePointer :=
  match mr.values.getLast? with
  | some i => i.pointer
  | none => none

/-- btree_modify.cc:852-898 `modify_btree`; returns the new root.  The recursion bound is the
file size: nodes point to earlier nodes, so a longer chain revisits a node. -/
def modifyBtree {σ} (E : Env) (rq : Rq σ) (root : Option NodePointer) (as : List Action)
    (st : St σ) : M (St σ × Option NodePointer) := do
  let fuel := (← get).disk.length + 1
  let (st, res) ← modifyNode E rq fuel root as st (MR.new .kp)
  if res.modified then
    if res.count > 1 ∨ res.pointers ≠ [] then do
      let r ← finishRoot E rq res
      pure (st, r)
    else pure (st, lastPointer res)
  else pure (st, root)

/-- btree_modify.cc:981-1016 `guided_purge_btree`. -/
def guidedPurge {σ} (E : Env) (rq : Rq σ) (root : Option NodePointer) (user : σ) :
    M (St σ × Option NodePointer) := do
  let fuel := (← get).disk.length + 1
  let (st, res) ←
    match root with
    | none => pure (⟨user, true⟩, MR.new .kp)
    | some p => purgeNode E rq fuel p ⟨user, true⟩ (MR.new .kp)
  if res.modified then pure (st, lastPointer res) else pure (st, root)

/-- btree_modify.cc:94-126 `new_btree_modres`: an empty tree under construction. -/
def newBtreeModres : MR := { MR.new .kv with modified := true }

/-- btree_modify.cc:814-850 `complete_new_btree`. -/
def completeNewBtree {σ} (E : Env) (rq : Rq σ) (mr : MR) : M (Option NodePointer) := do
  let mr ← flushMr E rq mr
  let (_, targ) ← mrMovePointers E rq mr { MR.new .kp with modified := true }
  if targ.count > 1 ∨ targ.pointers ≠ [] then finishRoot E rq targ
  else pure (lastPointer targ)

end Couchstore
