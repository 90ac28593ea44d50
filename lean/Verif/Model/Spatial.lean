import Verif.Model.ViewCompact

/-
Model of /repo/src/views/spatial.cc and /repo/src/views/spatial_modify.cc: bounding boxes, their order along a
space-filling curve, and building and compacting spatial indexes (/repo/src/views/view_group.cc:1889-2197).

Simplifications: allocation does not fail; linked lists are Lean lists; `node_len` and `count` are `Nat`.  Doubles are
the eight bytes that stand for them in memory (least significant byte first, as on x86 and ARM); the arithmetic that only
decides on the order of the records is a parameter (`SpatialArith`).
-/

namespace Couchstore

/-! ### Boxes -/

/-- The number for which eight bytes stand as a double (IEEE 754 binary64), in units of 2^-1074; `none` is not a
number.  An infinity is one step beyond the greatest finite number. -/
def dblVal (b : Bytes) : Option Int :=
  let n := beDec b.reverse
  let e := n / 2 ^ 52 % 2 ^ 11
  let m := n % 2 ^ 52
  if e = 2047 ∧ m ≠ 0 then none
  else
    let x : Nat := if e = 0 then m else (2 ^ 52 + m) * 2 ^ (e - 1)
    some (if n / 2 ^ 63 % 2 = 1 then -(x : Int) else x)

/-- `a < b` for doubles. -/
def dblLt (a b : Bytes) : Bool :=
  match dblVal a, dblVal b with
  | some x, some y => decide (x < y)
  | _, _ => false

/-- `std::min(a, b)` for doubles. -/
def dblMin (a b : Bytes) : Bytes := if dblLt b a then b else a

/-- `std::max(a, b)` for doubles. -/
def dblMax (a b : Bytes) : Bytes := if dblLt a b then b else a

/-- An array of `n` doubles. -/
def doubles : Nat → Bytes → List Bytes
  | 0, _ => []
  | n + 1, b => b.take 8 :: doubles n (b.drop 8)

/-- spatial.cc:233-238 `decode_spatial_key`, and the doubles that are there.  The code does not look at the size of the
key; doubles beyond its end are read from memory outside of it. -/
def decodeSpatialKey (key : Bytes) : Except Err (List Bytes) :=
  if key.length < 2 then .error .overrun
  else
    let num := beDec (key.take 2)
    if key.length < 2 + 8 * num then .error .overrun else .ok (doubles num (key.drop 2))

/-- spatial.cc:241-254 `encode_spatial_key` into a buffer for `nkey` bytes. -/
def encodeSpatialKey (mbb : List Bytes) (nkey : Nat) : Except Err Bytes :=
  if mbb.length * 8 > nkey then .error .assertFail else .ok (enc16 mbb.length ++ mbb.flatten)

/-- spatial.cc:270-276, the loop of `expand_mbb`, from `i` on. -/
def expandLoop : Nat → List Bytes → List Bytes → List Bytes
  | i, a :: as, b :: bs => (if i % 2 = 0 then dblMin a b else dblMax a b) :: expandLoop (i + 1) as bs
  | _, _, _ => []

/-- spatial.cc:258-282 `expand_mbb`. -/
def expandMbb (original expander : List Bytes) : Except Err (List Bytes) :=
  if original.length ≠ expander.length then .error .assertFail else .ok (expandLoop 0 original expander)

/-- spatial.cc:299-302, the loop of `view_spatial_reduce`. -/
def spatialReduceLoop : List Item → List Bytes → Except Err (List Bytes)
  | [], enclosing => .ok enclosing
  | i :: is, enclosing =>
    match decodeSpatialKey i.key with
    | .error e => .error e
    | .ok tmp =>
      match expandMbb enclosing tmp with
      | .error e => .error e
      | .ok enclosing => spatialReduceLoop is enclosing

/-- spatial.cc:286-310 `view_spatial_reduce`, also for the rereduction (`MAX_REDUCTION_SIZE` is 65535).  The code expands the
box in the memory of the key of the first record.  In `flush_spatial_partial` the record has been written before and is not
used any more; here it is left as it is. -/
def spatialReduce : List Item → Except Err Bytes
  | [] => .error .overrun
  | i :: is =>
    match decodeSpatialKey i.key with
    | .error e => .error e
    | .ok enclosing =>
      match spatialReduceLoop is enclosing with
      | .error e => .error e
      | .ok enclosing => encodeSpatialKey enclosing 65535

/-! ### The order of the records -/

/-- spatial.cc:197-200 `set_bit_sized`: the index is unsigned, for a bit beyond the size it is outside of the array. -/
def setBitSized (bitmap : Bytes) (size bit : Nat) : Except Err Bytes :=
  if bit / 8 < size then
    match bitmap[size - 1 - bit / 8]? with
    | none => .error .overrun
    | some c => .ok (bitmap.set (size - 1 - bit / 8) (c ||| chunkMask bit))
  else .error .overrun

/-- spatial.cc:221-227, the inner loop of `interleave_uint32s`, for the numbers from the last one on (`j` is the number
of those before). -/
def interleaveLevel (num size i : Nat) : List Nat → Nat → Bytes → Except Err Bytes
  | [], _, bm => .ok bm
  | x :: xs, j, bm =>
    if x.testBit i then
      match setBitSized bm (size / 8) ((i * num + j) % 2 ^ 16) with
      | .error e => .error e
      | .ok bm => interleaveLevel num size i xs (j + 1) bm
    else interleaveLevel num size i xs (j + 1) bm

/-- spatial.cc:220-228, the outer loop of `interleave_uint32s` from `i` on.  (`i * num < bitmap_size` and
`bitmap_size ≤ 32 * num`, so that 32 steps are enough.) -/
def interleaveLoop (num size : Nat) (numbers : List Nat) : Nat → Nat → Bytes → Except Err Bytes
  | 0, _, bm => .ok bm
  | fuel + 1, i, bm =>
    if i * num < size then
      match interleaveLevel num size i numbers.reverse 0 bm with
      | .error e => .error e
      | .ok bm => interleaveLoop num size numbers fuel (i + 1) bm
    else .ok bm

/-- spatial.cc:203-230 `interleave_uint32s`.  The size of the result in bits is kept in 16 bits. -/
def interleave (numbers : List Nat) : Except Err Bytes :=
  let num := numbers.length
  if num < 16384 then
    let size := (32 * num) % 2 ^ 16
    interleaveLoop num size numbers 33 0 (List.replicate (size / 8) 0)
  else .error .assertFail

/-- The arithmetic on doubles: spatial.cc:173 (the middle of two numbers), :136-145 (the factor that scales a range to
a maximum) and :189-191 (a scaled number as an integer of 32 bits; `none` if it is not in the range of these, for
which the conversion is undefined). -/
structure SpatialArith where
  middle : Bytes → Bytes → Bytes
  factor : Nat → Bytes → Bytes → Bytes
  scale : Bytes → Bytes → Bytes → Option Nat

/-- spatial.h:47-56 `scale_factor_t`: offset and scale of each dimension.  (`dim` is their number.) -/
abbrev ScaleFactor := List (Bytes × Bytes)

/-- The first and the second of each pair. -/
def pairUp : List Bytes → List (Bytes × Bytes)
  | a :: b :: rest => (a, b) :: pairUp rest
  | _ => []

/-- spatial.cc:112-151 `spatial_scale_factor`; the number of dimensions is kept in 8 bits. -/
def spatialScaleFactor (A : SpatialArith) (mbb : List Bytes) (max : Nat) : ScaleFactor :=
  let all := (pairUp mbb).map fun x => (x.1, A.factor max x.1 x.2)
  all.take (all.length % 256)

/-- spatial.cc:164-176 `spatial_center`; with an odd number of coordinates the code goes beyond the end of both
arrays. -/
def spatialCenter (A : SpatialArith) (mbb : List Bytes) : Except Err (List Bytes) :=
  if mbb.length % 2 = 1 then .error .overrun
  else .ok ((pairUp mbb).map fun x => A.middle x.1 x.2)

/-- spatial.cc:179-194 `spatial_scale_point`: as many coordinates as there are dimensions are read. -/
def spatialScalePoint (A : SpatialArith) : List Bytes → ScaleFactor → Except Err (List Nat)
  | _, [] => .ok []
  | [], _ :: _ => .error .overrun
  | x :: xs, s :: sf =>
    match A.scale x s.1 s.2 with
    | none => .error .overrun
    | some n =>
      match spatialScalePoint A xs sf with
      | .error e => .error e
      | .ok ns => .ok (n :: ns)

/-- spatial.cc:67-74: the position of a key on the space-filling curve. -/
def spatialZcode (A : SpatialArith) (sf : ScaleFactor) (key : Bytes) : Except Err Bytes := do
  let mbb ← decodeSpatialKey key
  let center ← spatialCenter A mbb
  let scaled ← spatialScalePoint A center sf
  interleave scaled

/-- spatial.cc:50-93 `spatial_key_cmp`. -/
def spatialKeyCmp (A : SpatialArith) (sf : ScaleFactor) (k1 k2 : Bytes) : Except Err Ordering := do
  if sf.length = 0 then throw .assertFail
  let z1 ← spatialZcode A sf k1
  let z2 ← spatialZcode A sf k2
  pure (memcmp (sf.length * 4) z1 z2)

/-- spatial.cc:95-109 `spatial_merger_key_cmp`.  (The difference of the sizes, of less than 2^31 bytes, as an `int`.) -/
def spatialMergerKeyCmp (k1 k2 : Bytes) : Ordering :=
  if k1.length = k2.length then memcmp k1.length k1 k2
  else compare k1.length k2.length

/-! ### Building a tree -/

/-- spatial_modify.cc:187-200, the loop of `flush_spatial_partial`: the records that go into the node, and the others.
The quota is unsigned: below zero it starts again from the greatest number. -/
def spatialTake (kind : NodeKind) : Nat → List Item → Nat → List Item × List Item
  | _, [], _ => ([], [])
  | quota, i :: is, itmcount =>
    if quota ≠ 0 ∨ (itmcount < 2 ∧ kind = .kp) then
      let quota := if quota < i.kvSize then quota + 2 ^ 64 - i.kvSize else quota - i.kvSize
      let r := spatialTake kind quota is (itmcount + 1)
      (i :: r.1, r.2)
    else ([], i :: is)

/-- spatial_modify.cc:155-271 `flush_spatial_partial`.  The buffer has room for the type of the node and `node_len` bytes.
The key of the new pointer is the reduction, the box around the records. -/
def flushSpatialPartial {σ} (E : Env) (rq : Rq σ) (mr : MR) (quota : Nat) : M MR :=
  if mr.values = [] then pure mr
  else if mr.modified = false then pure mr
  else
    let t := spatialTake mr.kind quota mr.values 0
    let body := mr.kind.byte :: encodeItems t.1
    if body.length > mr.nodeLen + 1 then throw .overrun
    else do
      let (diskpos, diskSize) ← dbWriteBufCompressed E body
      let red ← ofExcept (nodeReduce rq mr.kind t.1)
      if red.length > 65535 then throw .assertFail
      else
        let ptr : NodePointer := { key := red, pointer := diskpos, reduceValue := red,
                                   subtreesize := (t.1.map Item.sub).sum + diskSize }
        pure { mr with values := t.2, pointers := mr.pointers ++ [ptrItem ptr],
                       nodeLen := mr.nodeLen - (body.length - 1), count := mr.count - t.1.length }

/-- spatial_modify.cc:148-151 `flush_spatial`. -/
def flushSpatial {σ} (E : Env) (rq : Rq σ) (mr : MR) : M MR := flushSpatialPartial E rq mr mr.nodeLen

/-- spatial_modify.cc:31-60 `maybe_flush_spatial`. -/
def maybeFlushSpatial {σ} (E : Env) (rq : Rq σ) (mr : MR) : M MR :=
  if rq.compacting then
    if mr.modified ∧ ((mr.kind = .kv ∧ mr.nodeLen > rq.kvThr * 2 / 3) ∨
        (mr.kind = .kp ∧ mr.nodeLen > rq.kpThr * 2 / 3 ∧ mr.count > 1)) then flushSpatial E rq mr
    else pure mr
  else if mr.modified ∧ mr.count > 3 then
    if mr.kind = .kv ∧ mr.nodeLen > rq.kvThr then flushSpatialPartial E rq mr (rq.kvThr * 2 / 3)
    else if mr.kind = .kp ∧ mr.nodeLen > rq.kpThr then flushSpatialPartial E rq mr (rq.kpThr * 2 / 3)
    else pure mr
  else pure mr

/-- A record is added to the values: the common part of spatial_modify.cc:103-126 `spatial_push_item` and of the loop of
:274-304 `spatial_move_pointers`. -/
def spatialPush {σ} (E : Env) (rq : Rq σ) (i : Item) (dst : MR) : M MR :=
  maybeFlushSpatial E rq { dst with values := dst.values ++ [i], nodeLen := dst.nodeLen + i.kvSize,
                                    count := dst.count + 1 }

/-- spatial_modify.cc:103-126 `spatial_push_item`. -/
def spatialPushItem {σ} (E : Env) (rq : Rq σ) (k v : Bytes) (dst : MR) : M MR :=
  spatialPush E rq { key := k, data := v, pointer := none } dst

/-- Records one after the other. -/
def spatialPushList {σ} (E : Env) (rq : Rq σ) : List Item → MR → M MR
  | [], dst => pure dst
  | i :: is, dst => do
    let dst ← spatialPush E rq i dst
    spatialPushList E rq is dst

/-- spatial_modify.cc:274-304 `spatial_move_pointers`; returns source and destination. -/
def spatialMovePointers {σ} (E : Env) (rq : Rq σ) (src dst : MR) : M (MR × MR) := do
  let dst ← spatialPushList E rq src.pointers dst
  pure ({ src with pointers := [] }, dst)

/-- spatial_modify.cc:320-346, the loop of `spatial_finish_root`; `fuel` bounds the number of rounds (the code has no
bound). -/
def spatialRootLoop {σ} (E : Env) (rq : Rq σ) : Nat → MR → MR → M (Option NodePointer)
  | fuel, root, collector =>
    match root.pointers with
    | [it] => pure it.pointer
    | _ =>
      match fuel with
      | 0 => throw .diverge
      | fuel + 1 => do
        let (root, collector) ← spatialMovePointers E rq root collector
        let collector ← flushSpatial E rq collector
        spatialRootLoop E rq fuel collector root

/-- spatial_modify.cc:319 `flush_spatial(root_result);`: the error code is ignored.  After a failed write the records have not been
taken off the list, but they have been counted (:197).  Outcomes that are not error codes are not ignored. -/
def flushSpatialIgnore {σ} (E : Env) (rq : Rq σ) (mr : MR) : M MR := fun f =>
  match flushSpatial E rq mr f with
  | .ok r g => .ok r g
  | .error e g => if e.code.isSome then .ok { mr with count := 0 } g else .error e g

/-- spatial_modify.cc:307-349 `spatial_finish_root`. -/
def spatialFinishRoot {σ} (E : Env) (rq : Rq σ) (root : MR) : M (Option NodePointer) := do
  let root ← flushSpatialIgnore E rq root
  spatialRootLoop E rq (2 * (root.pointers.length + root.values.length) + 2) root { MR.new .kp with modified := true }

/-- spatial_modify.cc:353-392 `complete_new_spatial`. -/
def completeNewSpatial {σ} (E : Env) (rq : Rq σ) (mr : MR) : M (Option NodePointer) := do
  let mr ← flushSpatial E rq mr
  let (_, targ) ← spatialMovePointers E rq mr { MR.new .kp with modified := true }
  if targ.count > 1 ∨ targ.pointers ≠ [] then spatialFinishRoot E rq targ
  else pure (lastPointer targ)

/-- The request for a spatial index: btree_modify.cc:94-126 `new_btree_modres` (`compacting` is set) with the arguments of
view_group.cc:1991-2004, 2119-2133.  The comparison is not used. -/
def spatialRq (kvThr kpThr : Nat) : Rq Unit :=
  { cmp := ebinCmp, reduce := some spatialReduce, rereduce := some spatialReduce, compacting := true
    kvThr := kvThr + kvThr / 3, kpThr := kpThr + kpThr / 3, fetchCb := none, saveCb := none, purgeKv := none
    purgeKp := none }

/-- view_group.cc:1894-1922 `build_spatial_record_callback` for records one after the other. -/
def spatialPushItems {σ} (E : Env) (rq : Rq σ) : List (Bytes × Bytes) → MR → M MR
  | [], mr => pure mr
  | kv :: kvs, mr => do spatialPushItems E rq kvs (← spatialPushItem E rq kv.1 kv.2 mr)

/-- view_group.cc:1925-2037 `build_view_spatial`, `build_spatial`: the index is made from the records as they come,
sorted, from the file sorter. -/
def buildSpatial (E : Env) (kvThr kpThr : Nat) (kvs : List (Bytes × Bytes)) : M (Option NodePointer) := do
  let mr ← spatialPushItems E (spatialRq kvThr kpThr) kvs newBtreeModres
  completeNewSpatial E (spatialRq kvThr kpThr) mr

/-! ### Compaction -/

/-- spatial.cc:313-321 `view_spatial_filter` (view_group.cc:2054-2061, without a filter all are kept). -/
def spatialFilter (filter : Option Bytes) (v : Bytes) : Except Err Bool :=
  match filter with
  | none => .ok false
  | some bm => if v.length < 2 then .error .overrun else isBitSet bm (beDec (v.take 2))

/-- view_group.cc:2041-2082 `compact_spatial_fetchcb`. -/
def compactSpatialFetch {σ} (E : Env) (rq : Rq σ) (filter : Option Bytes) (k v : Bytes) :
    EStateM Err (File × MR × Nat) Unit := fun s =>
  match spatialFilter filter v with
  | .error e => .error e s
  | .ok true => .ok () s
  | .ok false =>
    match spatialPushItem E rq k v s.2.1 s.1 with
    | .ok mr f => .ok () (f, mr, (s.2.2 + 1) % 2 ^ 64)
    | .error e f => .error e (f, s.2.1, s.2.2)

/-- view_group.cc:2084-2197 `compact_view_spatial`, `compact_spatial`.  The comparison is that of views (`cmp`), but only the
empty key is looked for. -/
def compactSpatial (E : Env) (cmp : Bytes → Bytes → Ordering) (kvThr kpThr : Nat) (filter : Option Bytes)
    (root : Option NodePointer) : ViewCompactM (Option NodePointer) := fun s =>
  match root with
  | none => .ok none s
  | some p =>
    let rq := spatialRq kvThr kpThr
    let look : LookRq (File × MR × Nat) :=
      { cmp := cmp, tolerate := false, fetch := runFetch (compactSpatialFetch E rq filter), node := none }
    match btreeLookup E look true p.pointer [[]] (s.tgt, newBtreeModres, s.inserted) s.src with
    | .error e f => .error e { s with src := f }
    | .ok (st, some e) f => .error e ⟨f, st.1, st.2.2⟩
    | .ok (st, none) f =>
      match completeNewSpatial E rq st.2.1 st.1 with
      | .ok r g => .ok r ⟨f, g, st.2.2⟩
      | .error e g => .error e ⟨f, g, st.2.2⟩

end Couchstore
