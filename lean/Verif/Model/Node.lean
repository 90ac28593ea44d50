import Verif.Model.Bytes

/-
Model of /repo/src/node_types.cc, /repo/src/node_types.h and the record codecs of
couch_save.cc and couch_db.cc.
-/

namespace Couchstore

/-- `n` bytes of `b` starting at `off` (C pointer arithmetic on a field of a packed struct). -/
def slice (b : Bytes) (off n : Nat) : Bytes := (b.drop off).take n

/-- node_types.cc:109-117 `encode_kv_length`: bytes 1..4 hold `vlen` as a big endian 32 bit
number, byte 0 is `klen >> 4` truncated to 8 bits, and `(klen & 0xF) << 4` is or-ed into
byte 1.  No masking of over-long lengths, as in the code. -/
def encodeKvLength (klen vlen : Nat) : Bytes :=
  match enc32 vlen with
  | b1 :: rest => UInt8.ofNat (klen / 16) :: (b1 ||| UInt8.ofNat (klen % 16 * 16)) :: rest
  | [] => []

/-- node_types.cc:101-107 `decode_kv_length` on a 5 byte `raw_kv_length`. -/
def decodeKvLength (b : Bytes) : Nat × Nat :=
  match b with
  | b0 :: b1 :: rest => (b0.toNat * 16 + b1.toNat / 16, beDec (b1 :: rest) % 2 ^ 28)
  | _ => (0, 0)

/-- What `read_kv` (node_types.cc:13-39) stores in its out parameters: lengths of key and
value and number of bytes consumed; the key starts 5 bytes after `buf_start` and the value
right after the key. -/
structure KvRef where
  klen : Nat
  vlen : Nat
  total : Nat
deriving DecidableEq, Repr

/-- node_types.cc:13-39 `read_kv`; `none` is the return value 0. -/
def readKvRef (buf : Bytes) (bufStart bufEnd : Nat) : Option KvRef :=
  if bufEnd < bufStart + 5 then none
  else
    let (klen, vlen) := decodeKvLength (slice buf bufStart 5)
    let total := 5 + klen + vlen
    if bufEnd - bufStart < total then none
    else some ⟨klen, vlen, total⟩

/-- `read_kv` as its callers use it: the bytes of key and value, and the rest of the buffer
after the record.  `buf` here is the part of the C buffer from `buf_start` to `buf_end`. -/
def readKv (buf : Bytes) : Option (Bytes × Bytes × Bytes) :=
  match readKvRef buf 0 buf.length with
  | none => none
  | some r => some (slice buf 5 r.klen, slice buf (5 + r.klen) r.vlen, buf.drop r.total)

/-- node_types.cc:41-51 `write_kv`. -/
def writeKv (key value : Bytes) : Bytes :=
  encodeKvLength key.length value.length ++ key ++ value

/-- internal.h `node_pointer`: key, position of the node, reduction, size of the subtree. -/
structure NodePointer where
  key : Bytes
  pointer : Nat
  reduceValue : Bytes
  subtreesize : Nat
deriving DecidableEq, Repr, Inhabited

/-- btree_modify.cc:150-164 `encode_pointer`: the value part of a pointer record. -/
def encodePointer (p : NodePointer) : Bytes :=
  enc48 p.pointer ++ enc48 p.subtreesize ++ enc16 p.reduceValue.length ++ p.reduceValue

/-- btree_modify.cc:180-200 `read_pointer`; `none` is the null pointer. -/
def readPointer (key val : Bytes) : Option NodePointer :=
  if val.length < 14 then none
  else
    let rsz := beDec (slice val 12 2)
    if 14 + rsz > val.length then none
    else some { key := key, pointer := beDec (slice val 0 6),
                subtreesize := beDec (slice val 6 6), reduceValue := slice val 14 rsz }

/-- node_types.cc:53-83 `read_root`. -/
def readRoot (b : Bytes) : Option NodePointer :=
  if b.length < 12 then none
  else some { key := [], pointer := beDec (slice b 0 6),
              subtreesize := beDec (slice b 6 6), reduceValue := b.drop 12 }

/-- node_types.cc:85-99 `encode_root`; a null root occupies no bytes. -/
def encodeRoot : Option NodePointer → Bytes
  | none => []
  | some p => enc48 p.pointer ++ enc48 p.subtreesize ++ p.reduceValue

/-- couch_common.h `DocInfo`. -/
structure DocInfo where
  id : Bytes
  dbSeq : Nat
  revSeq : Nat
  revMeta : Bytes
  deleted : Bool
  contentMeta : Nat
  bp : Nat
  physicalSize : Nat
deriving DecidableEq, Repr, Inhabited

/-- node_types.h:103 `BP_DELETED_FLAG`, bit 47. -/
def bpDeletedFlag : Nat := 2 ^ 47

/-- couch_save.cc:42 and :62, `docinfo->bp | (docinfo->deleted ? 1LL<<47 : 0)`. -/
def bpField (d : DocInfo) : Nat := d.bp ||| (if d.deleted then bpDeletedFlag else 0)

/-- couch_save.cc:37-54 `assemble_seq_index_value`. -/
def assembleSeqIndexValue (d : DocInfo) : Bytes :=
  encodeKvLength d.id.length d.physicalSize ++ enc48 (bpField d) ++ enc48 d.revSeq
    ++ enc8 d.contentMeta ++ d.id ++ d.revMeta

/-- couch_save.cc:56-72 `assemble_id_index_value`. -/
def assembleIdIndexValue (d : DocInfo) : Bytes :=
  enc48 d.dbSeq ++ enc32 d.physicalSize ++ enc48 (bpField d) ++ enc48 d.revSeq
    ++ enc8 d.contentMeta ++ d.revMeta

/-- couch_db.cc:1149-1186 `by_seq_read_docinfo`; `none` is `COUCHSTORE_ERROR_CORRUPT`. -/
def bySeqReadDocInfo (k v : Bytes) : Option DocInfo :=
  if v.length < 18 ∨ k.length < 6 then none
  else
    let (idsize, datasize) := decodeKvLength (slice v 0 5)
    if idsize > v.length - 18 then none
    else
      let bp := beDec (slice v 5 6)
      some { id := slice v 18 idsize
             dbSeq := decodeSequenceKey k
             revSeq := beDec (slice v 11 6)
             revMeta := slice v (18 + idsize) (v.length - 18 - idsize)
             deleted := bp &&& bpDeletedFlag != 0
             contentMeta := beDec (slice v 17 1)
             bp := bp % bpDeletedFlag     -- `bp &= ~BP_DELETED_FLAG` on a 48 bit number
             physicalSize := datasize }

/-- couch_db.cc:1188-1223 `by_id_read_docinfo`; `none` is `COUCHSTORE_ERROR_CORRUPT`. -/
def byIdReadDocInfo (k v : Bytes) : Option DocInfo :=
  if v.length < 23 then none
  else
    let bp := beDec (slice v 10 6)
    some { id := k
           dbSeq := beDec (slice v 0 6)
           revSeq := beDec (slice v 16 6)
           revMeta := v.drop 23
           deleted := bp &&& bpDeletedFlag != 0
           contentMeta := beDec (slice v 22 1)
           bp := bp % bpDeletedFlag
           physicalSize := beDec (slice v 6 4) }

end Couchstore
