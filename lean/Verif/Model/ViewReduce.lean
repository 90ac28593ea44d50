import Verif.Model.ViewCodec
import Verif.Model.Btree
import Mathlib.Data.Nat.Digits.Defs

/-
Model of /repo/src/views/reducers.cc and /repo/src/views/purgers.cc.

Simplifications: allocation does not fail; the error messages and the key of the value that made a reducer fail are not
modelled; JavaScript functions (`js_reducer`) are any functions of their arguments; `strtod` and the printing and the
addition of floating point numbers are given by the environment.
-/

namespace Couchstore

/-! ### The index by document id -/

/-- reducers.cc:131-137. -/
def idReduceLoop : List Item → Bytes → Except Err Bytes
  | [], bm => .ok bm
  | i :: is, bm =>
    match decodePartition i.data with
    | .error e => .error e
    | .ok p => match setBit bm p with
      | .error e => .error e
      | .ok bm => idReduceLoop is bm

/-- reducers.cc:122-140 `view_id_btree_reduce`. -/
def viewIdReduce (is : List Item) : Except Err Bytes :=
  match idReduceLoop is emptyBitmap with
  | .error e => .error e
  | .ok bm => .ok (encodeIdReduction is.length bm)

/-- reducers.cc:151-163; a record without a pointer is the use of a null pointer. -/
def idRereduceLoop : List Item → Nat → Bytes → Except Err (Nat × Bytes)
  | [], n, bm => .ok (n, bm)
  | i :: is, n, bm =>
    match i.pointer with
    | none => .error .overrun
    | some p => match decodeIdReduction p.reduceValue with
      | .error e => .error e
      | .ok (k, b) => idRereduceLoop is ((n + k) % 2 ^ 64) (unionBitmaps bm b)

/-- reducers.cc:142-166 `view_id_btree_rereduce`. -/
def viewIdRereduce (is : List Item) : Except Err Bytes :=
  match idRereduceLoop is 0 emptyBitmap with
  | .error e => .error e
  | .ok (n, bm) => .ok (encodeIdReduction n bm)

/-! ### Reducers -/

/-- reducers.cc:51-54 `reducer_fn_t`: called with keys and values for the entries of a node, and with the values only
for reductions of nodes. -/
structure Reducer where
  reduce : List (Bytes × Bytes) → Except Err Bytes
  rereduce : List Bytes → Except Err Bytes

/-- `printf` of a number with `PRIu64`. -/
def decText (n : Nat) : Bytes :=
  if n = 0 then [48] else (Nat.digits 10 n).reverse.map fun d => UInt8.ofNat (48 + d)

/-- `isspace` in the C locale. -/
def isSpace (c : UInt8) : Bool := c = 32 || (9 ≤ c && c ≤ 13)

/-- `isdigit`. -/
def isDecDigit (c : UInt8) : Bool := 48 ≤ c && c ≤ 57

/-- The number that digits stand for. -/
def digitsVal (s : Bytes) : Nat := s.foldl (fun a c => a * 10 + (c.toNat - 48)) 0

/-- `strtoull(s, &end, 10)` and `end > str && *end == '\0'`. -/
def strtoull (s : Bytes) : Option Nat :=
  let s1 := s.dropWhile isSpace
  let neg := s1.head? = some 45
  let s2 := if s1.head? = some 45 ∨ s1.head? = some 43 then s1.drop 1 else s1
  let ds := s2.takeWhile isDecDigit
  let rest := s2.dropWhile isDecDigit
  if ds = [] then none
  else if rest = [] ∨ rest.head? = some 0 then
    let n := digitsVal ds
    some (if n ≥ 2 ^ 64 then 2 ^ 64 - 1 else if neg then (2 ^ 64 - n) % 2 ^ 64 else n)
  else none

/-- reducers.cc:83-92, 109-120 `json_to_str`, `json_to_uint64`. -/
def jsonToUint64 (s : Bytes) : Option Nat := if s.length < 1 ∨ s.length > 31 then none else strtoull s

/-- reducers.cc:228-244, without keys. -/
def countLoop : List Bytes → Nat → Except Err Nat
  | [], n => .ok n
  | v :: vs, n =>
    match jsonToUint64 v with
    | none => .error .reducerFailure
    | some k => countLoop vs ((n + k) % 2 ^ 64)

/-- reducers.cc:219-256 `builtin_count_reducer`. -/
def countReducer : Reducer where
  reduce l := .ok (decText (l.length % 2 ^ 64))
  rereduce vs :=
    match countLoop vs 0 with
    | .error e => .error e
    | .ok n => .ok (decText n)

/-- Floating point numbers: `strtod` of a text that is used up by it, `+`, and `printf` with `%.15g`. -/
structure NumEnv (F : Type) where
  zero : F
  add : F → F → F
  parse : Bytes → Option F
  print : F → Bytes

/-- reducers.cc:83-106 `json_to_str`, `json_to_double`. -/
def jsonToDouble {F : Type} (N : NumEnv F) (s : Bytes) : Option F :=
  if s.length < 1 ∨ s.length > 31 then none else N.parse s

/-- reducers.cc:177-204. -/
def sumLoop {F : Type} (N : NumEnv F) : List Bytes → F → Except Err F
  | [], s => .ok s
  | v :: vs, s =>
    match jsonToDouble N v with
    | none => .error .reducerFailure
    | some x => sumLoop N vs (N.add s x)

/-- reducers.cc:168-216 `builtin_sum_reducer`. -/
def sumReducer {F : Type} (N : NumEnv F) : Reducer where
  reduce l :=
    match sumLoop N (l.map (·.2)) N.zero with
    | .error e => .error e
    | .ok x => .ok (N.print x)
  rereduce vs :=
    match sumLoop N vs N.zero with
    | .error e => .error e
    | .ok x => .ok (N.print x)

/-! ### The index of a view -/

/-- reducers.cc:612-619: the values of the entries, the partitions and the number of values. -/
def viewReduceLoop : List Item → List ViewValue → Bytes → Except Err (List ViewValue × Bytes)
  | [], vs, bm => .ok (vs, bm)
  | i :: is, vs, bm =>
    match decodeViewValue i.data with
    | .error e => .error e
    | .ok v => match setBit bm v.partition with
      | .error e => .error e
      | .ok bm => viewReduceLoop is (vs ++ [v]) bm

/-- reducers.cc:634-649: the keys and values for the reducers. -/
def viewPairs : List Item → List ViewValue → Except Err (List (Bytes × Bytes))
  | i :: is, v :: vs =>
    match decodeJsonKey i.key with
    | .error e => .error e
    | .ok k => match viewPairs is vs with
      | .error e => .error e
      | .ok l => .ok (v.values.map (fun x => (k, x)) ++ l)
  | _, _ => .ok []

/-- reducers.cc:661-673, 736-759: the reducers are called one after the other. -/
def runReducers {α : Type} (f : Reducer → α → Except Err Bytes) : List (Reducer × α) → Except Err (List Bytes)
  | [] => .ok []
  | (r, a) :: rest =>
    match f r a with
    | .error e => .error e
    | .ok b => match runReducers f rest with
      | .error e => .error e
      | .ok bs => .ok (b :: bs)

/-- reducers.cc:583-688 `view_btree_reduce`.  The number of results is kept in 8 bits (:660). -/
def viewReduce (rs : List Reducer) (is : List Item) : Except Err Bytes :=
  if is.isEmpty then .error .assertFail
  else match viewReduceLoop is [] emptyBitmap with
  | .error e => .error e
  | .ok (vs, bm) =>
    match viewPairs is vs with
    | .error e => .error e
    | .ok l =>
      match runReducers Reducer.reduce (rs.map fun r => (r, l)) with
      | .error e => .error e
      | .ok out => encodeViewReduction
          { kvCount := (vs.map fun v => v.values.length).sum, partitions := bm, values := out.take (rs.length % 256) }

/-- reducers.cc:723-734. -/
def viewRereduceLoop (n : Nat) : List Item → List ViewReduction → Except Err (List ViewReduction)
  | [], rs => .ok rs
  | i :: is, rs =>
    match i.pointer with
    | none => .error .overrun
    | some p => match decodeViewReduction p.reduceValue with
      | .error e => .error e
      | .ok r => if r.values.length ≠ n then .error .assertFail else viewRereduceLoop n is (rs ++ [r])

/-- reducers.cc:690-768 `view_btree_rereduce`. -/
def viewRereduce (rs : List Reducer) (is : List Item) : Except Err Bytes :=
  match viewRereduceLoop rs.length is [] with
  | .error e => .error e
  | .ok reds =>
    match runReducers Reducer.rereduce
        (rs.zipIdx.map fun (r, i) => (r, reds.map fun x => (x.values[i]?).getD [])) with
    | .error e => .error e
    | .ok out => encodeViewReduction
        { kvCount := (reds.map (·.kvCount)).sum % 2 ^ 64
          partitions := reds.foldl (fun b r => unionBitmaps b r.partitions) emptyBitmap
          values := out }

/-! ### Purging -/

/-- purgers.cc:33-44 `view_purgekv_action`; the state is `ctx->count`. -/
def purgeKvAction (cleanup : Bytes) (part values count : Nat) : Except Err (Nat × PurgeAct) :=
  match isBitSet cleanup part with
  | .error e => .error e
  | .ok true => .ok ((count + values) % 2 ^ 64, .item)
  | .ok false => .ok (count, .keep)

/-- purgers.cc:46-64 `view_purgekp_action`. -/
def purgeKpAction (cleanup red : Bytes) (kvCount count : Nat) : Nat × PurgeAct :=
  if isEqualBitmap red cleanup then ((count + kvCount) % 2 ^ 64, .item)
  else if isEqualBitmap (intersectBitmaps cleanup red) emptyBitmap then (count, .keep)
  else (count, .part)

/-- purgers.cc:66-76 `view_id_btree_purge_kv`. -/
def viewIdPurgeKv (cleanup : Bytes) (count : Nat) (_key val : Bytes) : Except Err (Nat × PurgeAct) :=
  match decodePartition val with
  | .error e => .error e
  | .ok p => purgeKvAction cleanup p 1 count

/-- purgers.cc:78-98 `view_id_btree_purge_kp`. -/
def viewIdPurgeKp (cleanup : Bytes) (count : Nat) (p : NodePointer) : Except Err (Nat × PurgeAct) :=
  match decodeIdReduction p.reduceValue with
  | .error e => .error e
  | .ok (n, bm) => .ok (purgeKpAction cleanup bm n count)

/-- purgers.cc:100-109 `view_btree_purge_kv`. -/
def viewPurgeKv (cleanup : Bytes) (count : Nat) (_key val : Bytes) : Except Err (Nat × PurgeAct) :=
  match decodePartitionCount val with
  | .error e => .error e
  | .ok (p, n) => purgeKvAction cleanup p n count

/-- purgers.cc:111-120 `view_btree_purge_kp`. -/
def viewPurgeKp (cleanup : Bytes) (count : Nat) (p : NodePointer) : Except Err (Nat × PurgeAct) :=
  match decodeReductionBitmap p.reduceValue with
  | .error e => .error e
  | .ok (n, bm) => .ok (purgeKpAction cleanup bm n count)

/-! ### Requests -/

/-- view_group.cc `view_btree_cmp`; keys that the comparison has no result for (see C41, C42) are equal here. -/
def viewBtreeCmp {D : Type} [LinearOrder D] (e : CollateEnv D) (k1 k2 : Bytes) : Ordering :=
  match viewKeyCmp e (k1.length + 1) k1 k2 with
  | .error _ => .eq
  | .ok c => if c < 0 then .lt else if 0 < c then .gt else .eq

/-- view_group.cc:944-1002, 1219-1339: the requests for the index by document id (7 KiB and 6 KiB, :41-42).  The state
is the number of purged values. -/
def viewIdRq (kvThr kpThr : Nat) (cleanup : Bytes) : Rq Nat where
  cmp := ebinCmp
  reduce := some viewIdReduce
  rereduce := some viewIdRereduce
  compacting := false
  kvThr := kvThr
  kpThr := kpThr
  fetchCb := none
  saveCb := none
  purgeKv := some (viewIdPurgeKv cleanup)
  purgeKp := some (viewIdPurgeKp cleanup)

/-- view_group.cc:944-1048, 1219-1391: the requests for the index of a view. -/
def viewRq {D : Type} [LinearOrder D] (e : CollateEnv D) (rs : List Reducer) (kvThr kpThr : Nat) (cleanup : Bytes) :
    Rq Nat where
  cmp := viewBtreeCmp e
  reduce := some (viewReduce rs)
  rereduce := some (viewRereduce rs)
  compacting := false
  kvThr := kvThr
  kpThr := kpThr
  fetchCb := none
  saveCb := none
  purgeKv := some (viewPurgeKv cleanup)
  purgeKp := some (viewPurgeKp cleanup)

end Couchstore
