import Verif.Model.Disk
import Verif.Model.Collate

/-
Model of /repo/src/views/bitmap.cc, keys.cc, values.cc, reductions.cc and of the record files of views/util.cc.

Common simplifications: allocation does not fail (a request for no bytes gives a pointer that is not null, as in
glibc); a `cb_assert` that fails is the error `assertFail`; memory used outside of what was set aside for it, or
set aside for something else, is the error `overrun`.  A number of elements kept in 8 or 16 bits and an array of that
many elements is a Lean list.
-/

namespace Couchstore

/-! ### Sets of partitions -/

/-- bitmap.h:26-31 `bitmap_t`, value-initialised. -/
def emptyBitmap : Bytes := List.replicate 128 0

/-- bitmap.cc:25-28 `CHUNK_INDEX`: the arithmetic is unsigned, for a bit from 1024 on the index is outside of the
array. -/
def chunkIndex (bit : Nat) : Option Nat := if bit / 8 < 128 then some (127 - bit / 8) else none

/-- bitmap.cc:29 `1 << CHUNK_OFFSET(bit)`, as a byte. -/
def chunkMask (bit : Nat) : UInt8 := UInt8.ofNat (2 ^ (bit % 8))

/-- The chunk of a bit (bitmap.cc:28 `MAP_CHUNK`) replaced by what `f` makes of it. -/
def onChunk (f : UInt8 → UInt8) (bm : Bytes) (bit : Nat) : Except Err Bytes :=
  match chunkIndex bit with
  | none => .error .overrun
  | some i => match bm[i]? with
    | none => .error .overrun
    | some c => .ok (bm.set i (f c))

/-- bitmap.cc:31-33 `is_bit_set`. -/
def isBitSet (bm : Bytes) (bit : Nat) : Except Err Bool :=
  match chunkIndex bit with
  | none => .error .overrun
  | some i => match bm[i]? with
    | none => .error .overrun
    | some c => .ok (c &&& chunkMask bit != 0)

/-- bitmap.cc:35-37 `set_bit`. -/
def setBit (bm : Bytes) (bit : Nat) : Except Err Bytes := onChunk (fun c => c ||| chunkMask bit) bm bit

/-- bitmap.cc:39-41 `unset_bit`. -/
def unsetBit (bm : Bytes) (bit : Nat) : Except Err Bytes := onChunk (fun c => c &&& ~~~ chunkMask bit) bm bit

/-- bitmap.cc:43-48 `union_bitmaps`. -/
def unionBitmaps (dst src : Bytes) : Bytes := List.zipWith (· ||| ·) dst src

/-- bitmap.cc:50-55 `intersect_bitmaps`. -/
def intersectBitmaps (dst src : Bytes) : Bytes := List.zipWith (· &&& ·) dst src

/-- bitmap.cc:57-59 `is_equal_bitmap`. -/
def isEqualBitmap (a b : Bytes) : Bool := a == b

/-! ### Keys -/

/-- keys.h:9-12 `view_btree_key_t`. -/
structure ViewKey where
  jsonKey : Bytes
  docId : Bytes
deriving DecidableEq, Repr

/-- keys.cc:33-84 `decode_view_btree_key`. -/
def decodeViewKey (b : Bytes) : Except Err ViewKey :=
  if b.length < 2 then .error .assertFail
  else
    let sz := beDec (b.take 2)
    let rest := b.drop 2
    if rest.length < sz then .error .assertFail
    else .ok { jsonKey := rest.take sz, docId := rest.drop sz }

/-- keys.cc:10-31 `decode_view_btree_json_key`. -/
def decodeJsonKey (b : Bytes) : Except Err Bytes :=
  if b.length < 2 then .error .assertFail
  else
    let sz := beDec (b.take 2)
    let rest := b.drop 2
    if rest.length < sz then .error .assertFail
    else .ok (rest.take sz)

/-- keys.cc:87-120 `encode_view_btree_key`: the length of the JSON key is cut to 16 bits. -/
def encodeViewKey (k : ViewKey) : Bytes := enc16 k.jsonKey.length ++ k.jsonKey ++ k.docId

/-- keys.h:14-17 `view_id_btree_key_t`. -/
structure ViewIdKey where
  partition : Nat
  docId : Bytes
deriving DecidableEq, Repr

/-- keys.cc:135-170 `decode_view_id_btree_key`. -/
def decodeViewIdKey (b : Bytes) : Except Err ViewIdKey :=
  if b.length < 2 then .error .assertFail
  else .ok { partition := beDec (b.take 2), docId := b.drop 2 }

/-- keys.cc:173-203 `encode_view_id_btree_key`. -/
def encodeViewIdKey (k : ViewIdKey) : Bytes := enc16 k.partition ++ k.docId

/-- util.cc:17-35 `ebin_cmp` gives an integer of which only the sign matters. -/
def orderInt : Ordering → Int
  | .lt => -1
  | .eq => 0
  | .gt => 1

/-- views/util.cc:37-66 `view_key_cmp`.  Lengths are not checked: if the bytes are fewer than they say, bytes outside of
the keys are used.  `rounds`: see `collateJson`. -/
def viewKeyCmp {D : Type} [LinearOrder D] (e : CollateEnv D) (rounds : Nat) (k1 k2 : Bytes) : Except Stuck Int :=
  match decodeViewKey k1, decodeViewKey k2 with
  | .ok a, .ok b =>
    match collateJson e .unicode rounds a.jsonKey b.jsonKey with
    | .error s => .error s
    | .ok c => if c = 0 then .ok (orderInt (ebinCmp a.docId b.docId)) else .ok c
  | _, _ => .error .outside

/-- views/util.cc:69-74 `view_id_cmp`. -/
def viewIdCmp (k1 k2 : Bytes) : Int := orderInt (ebinCmp k1 k2)

/-! ### Values -/

/-- values.cc:87-98 and reductions.cc:49-61: items with a length of `w` bytes, up to the end of the buffer.  `fuel` is
the number of rounds. -/
def scanSized (w : Nat) : Nat → Bytes → Except Err (List Bytes)
  | _, [] => .ok []
  | 0, _ :: _ => .error .diverge
  | fuel + 1, b =>
    if b.length < w then .error .assertFail
    else
      let sz := beDec (b.take w)
      let rest := b.drop w
      if rest.length < sz then .error .assertFail
      else match scanSized w fuel (rest.drop sz) with
        | .error e => .error e
        | .ok vs => .ok (rest.take sz :: vs)

/-- values.cc:125-130, reductions.cc:131-136. -/
def encodeSized (w : Nat) (vs : List Bytes) : Bytes := vs.flatMap fun v => beEnc w v.length ++ v

/-- values.h:13-18 `view_btree_value_t`. -/
structure ViewValue where
  partition : Nat
  values : List Bytes
deriving DecidableEq, Repr

/-- values.cc:67-70 `decode_view_btree_partition`. -/
def decodePartition (b : Bytes) : Except Err Nat :=
  if b.length < 2 then .error .assertFail else .ok (beDec (b.take 2))

/-- values.cc:72-101 `decode_view_btree_partition_and_num_values`, without the sum of the sizes: the number of values
is kept in 16 bits. -/
def decodePartitionCount (b : Bytes) : Except Err (Nat × Nat) :=
  match decodePartition b with
  | .error e => .error e
  | .ok p => match scanSized 3 b.length (b.drop 2) with
    | .error e => .error e
    | .ok vs => .ok (p, vs.length % 2 ^ 16)

/-- values.cc:18-65 `decode_view_btree_value`.  The array is as long as the number of values in 16 bits says; more
values are written over the bytes of others or past the end. -/
def decodeViewValue (b : Bytes) : Except Err ViewValue :=
  match decodePartition b with
  | .error e => .error e
  | .ok p => match scanSized 3 b.length (b.drop 2) with
    | .error e => .error e
    | .ok vs => if vs.length ≥ 2 ^ 16 then .error .overrun else .ok { partition := p, values := vs }

/-- values.cc:103-142 `encode_view_btree_value`. -/
def encodeViewValue (v : ViewValue) : Bytes := enc16 v.partition ++ encodeSized 3 v.values

/-- values.h:20-24 `view_keys_mapping_t`. -/
structure ViewKeys where
  viewId : UInt8
  keys : List Bytes
deriving DecidableEq, Repr

/-- values.h:26-30 `view_id_btree_value_t`; `count`: `num_view_keys_map`, `none` if it was not set. -/
structure ViewIdValue where
  partition : Nat
  count : Option Nat
  maps : List ViewKeys
deriving DecidableEq, Repr

/-- values.cc:186-196, 239-255: the keys of one view; the first argument is their number. -/
def scanKeys : Nat → Bytes → Except Err (List Bytes × Bytes)
  | 0, b => .ok ([], b)
  | n + 1, b =>
    if b.length < 2 then .error .assertFail
    else
      let sz := beDec (b.take 2)
      let rest := b.drop 2
      if rest.length < sz then .error .assertFail
      else match scanKeys n (rest.drop sz) with
        | .error e => .error e
        | .ok (ks, r) => .ok (rest.take sz :: ks, r)

/-- values.cc:175-199, 219-258. -/
def scanMaps : Nat → Bytes → Except Err (List ViewKeys)
  | _, [] => .ok []
  | 0, _ :: _ => .error .diverge
  | fuel + 1, id :: b =>
    if b.length < 2 then .error .assertFail
    else match scanKeys (beDec (b.take 2)) (b.drop 2) with
      | .error e => .error e
      | .ok (ks, r) => match scanMaps fuel r with
        | .error e => .error e
        | .ok ms => .ok ({ viewId := id, keys := ks } :: ms)

/-- values.cc:144-267 `decode_view_id_btree_value`.  Without views the number of them is left unset (:166-169). -/
def decodeViewIdValue (b : Bytes) : Except Err ViewIdValue :=
  match decodePartition b with
  | .error e => .error e
  | .ok p =>
    if (b.drop 2).isEmpty then .ok { partition := p, count := none, maps := [] }
    else match scanMaps b.length (b.drop 2) with
      | .error e => .error e
      | .ok ms =>
        if ms.length ≥ 2 ^ 16 then .error .overrun
        else .ok { partition := p, count := some ms.length, maps := ms }

/-- values.cc:270-326 `encode_view_id_btree_value`. -/
def encodeViewIdValue (p : Nat) (maps : List ViewKeys) : Bytes :=
  enc16 p ++ maps.flatMap fun m => m.viewId :: (enc16 m.keys.length ++ encodeSized 2 m.keys)

/-! ### Reductions -/

/-- reductions.h:12-19 `view_btree_reduction_t`. -/
structure ViewReduction where
  kvCount : Nat
  partitions : Bytes
  values : List Bytes
deriving DecidableEq, Repr

/-- reductions.cc:18-28 `decode_view_btree_reduction_partitions_bitmap`. -/
def decodeReductionBitmap (b : Bytes) : Except Err (Nat × Bytes) :=
  if b.length < 5 then .error .assertFail
  else if (b.drop 5).length < 128 then .error .assertFail
  else .ok (beDec (b.take 5), (b.drop 5).take 128)

/-- reductions.cc:30-102 `decode_view_btree_reduction`.  The number of values is kept in 8 bits: 256 values are none,
and the array for more is too short. -/
def decodeViewReduction (b : Bytes) : Except Err ViewReduction :=
  match decodeReductionBitmap b with
  | .error e => .error e
  | .ok (n, bm) => match scanSized 2 b.length (b.drop 133) with
    | .error e => .error e
    | .ok vs =>
      if vs.length % 256 = 0 then .ok { kvCount := n, partitions := bm, values := [] }
      else if vs.length ≥ 256 then .error .overrun
      else .ok { kvCount := n, partitions := bm, values := vs }

/-- couch_btree.h `MAX_REDUCTION_SIZE`. -/
def maxReductionSize : Nat := 65535

/-- reductions.cc:104-141 `encode_view_btree_reduction`. -/
def encodeViewReduction (r : ViewReduction) : Except Err Bytes :=
  if 133 + (encodeSized 2 r.values).length > maxReductionSize then .error .reductionTooLarge
  else .ok (enc40 r.kvCount ++ r.partitions ++ encodeSized 2 r.values)

/-- reductions.cc:163-185 `decode_view_id_btree_reduction`: the length is not known to the code. -/
def decodeIdReduction (b : Bytes) : Except Err (Nat × Bytes) :=
  if b.length < 133 then .error .overrun else .ok (beDec (b.take 5), (b.drop 5).take 128)

/-- reductions.cc:188-211 `encode_view_id_btree_reduction`. -/
def encodeIdReduction (kvCount : Nat) (partitions : Bytes) : Bytes := enc40 kvCount ++ partitions

/-! ### Record files -/

/-- util.h:30-34 `view_file_merge_record_t` with its key and value; `op` is 0 in the files of an initial build. -/
structure ViewRec where
  op : UInt8
  key : Bytes
  val : Bytes
deriving DecidableEq, Repr

/-- A 32-bit number in the byte order of the machine (little endian). -/
def leEnc32 (n : Nat) : Bytes := (enc32 n).reverse

/-- util.cc:129-160 `write_view_record`: the bytes written and whether the call succeeds; `fwrite` of no bytes gives 0
and is taken for a failure.  `inc`: `is_incremental_update_record`. -/
def writeViewRecord (inc : Bool) (r : ViewRec) : Bytes × Bool :=
  let op := if inc then [r.op] else []
  let len := 2 + r.key.length + r.val.length + op.length
  (leEnc32 len ++ op ++ enc16 r.key.length ++ r.key ++ r.val, r.key.length + r.val.length ≠ 0)

/-- What `read_view_record` did. -/
inductive RecRead where
  | /-- 0: the end of the file -/ eof
  | /-- `FILE_MERGER_ERROR_FILE_READ` -/ fail
  | /-- a record, and what follows it -/ record (r : ViewRec) (rest : Bytes)
  | /-- a record whose key and value are not in the bytes read for it -/ garbage
deriving DecidableEq, Repr

/-- util.cc:77-126 `read_view_record`; errors of the device are not modelled.  The number of bytes to read is computed
in 32 bits from the record length, whatever the length of the key; a result from 2^31 on is negative. -/
def readViewRecord (inc : Bool) (b : Bytes) : RecRead :=
  if b.length < 4 then .eof
  else
    let len := beDec (b.take 4).reverse
    let b1 := b.drop 4
    if inc && b1.isEmpty then .fail
    else
      let op := if inc then b1.headD 0 else 0
      let b2 := if inc then b1.drop 1 else b1
      if b2.length < 2 then .fail
      else
        let klen := beDec (b2.take 2)
        let b3 := b2.drop 2
        let size := (len + 2 ^ 32 - (if inc then 3 else 2)) % 2 ^ 32
        if size = 0 ∨ b3.length < size ∨ 2 ^ 31 ≤ size then .fail
        else if size < klen then .garbage
        else .record { op := op, key := b3.take klen, val := (b3.drop klen).take (size - klen) } (b3.drop size)

/-- util.cc:177-191 `dedup_view_records_merger`: the numbers of the files of the records with one key. -/
def dedupPick (nums : List Nat) : Nat :=
  (nums.zipIdx.foldl (fun (best : Nat × Nat) x => if best.1 < x.1 then x else best) (nums.headD 0, 0)).2

end Couchstore
