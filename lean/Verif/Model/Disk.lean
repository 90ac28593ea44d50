import Verif.Model.Node

/-
Model of the file layer: /repo/src/couch_file_write.cc, /repo/src/couch_file_read.cc, the
parts of internal.h, crypto.h and crc32.cc they use, and the contract of the raw file
operations (`FileOpsInterface::pwrite`, `pread`, `sync`).
-/

namespace Couchstore

/-- internal.h:30 `COUCH_BLOCK_SIZE`. -/
def blockSize : Nat := 4096

/-- Outcomes other than success.  `io` carries the code of a failed raw operation; the named
ones are the `COUCHSTORE_ERROR_*` codes used by the modelled functions, `logicError` a C++ exception
(`std::logic_error`, `std::invalid_argument`).  The last four are
not codes of the library: `formatLimit` is the point where the real code would silently
truncate a number that does not fit its field on disk (chunk of 2^31 bytes or more, file
position of 2^47 or more) and carry on; `diverge` is a loop that never ends; `assertFail` an
assertion failure (abort); `overrun` the use of memory outside of what was set aside for it. -/
inductive Err where
  | io (code : Int)
  | openFile | corrupt | allocFail | read | docNotFound | noHeader | headerVersion
  | checksumFail | invalidArguments | noSuchFile | cancel | wrongVersion | fileClosed
  | dbNoLongerValid | encrypt | decrypt | noEncryptionKey | notSupported | logicError | rewind
  | callback (code : Int)
  | reductionTooLarge | reducerFailure
  | formatLimit | diverge | assertFail | overrun
deriving DecidableEq, Repr

/-- error.h:24-66, the number of an error; `none` for outcomes that are not error codes. -/
def Err.code : Err → Option Int
  | .io c => some c
  | .callback c => some c
  | .openFile => some (-1)
  | .corrupt => some (-2)
  | .allocFail => some (-3)
  | .read => some (-4)
  | .docNotFound => some (-5)
  | .noHeader => some (-6)
  | .headerVersion => some (-8)
  | .checksumFail => some (-9)
  | .invalidArguments => some (-10)
  | .noSuchFile => some (-11)
  | .cancel => some (-12)
  | .fileClosed => some (-15)
  | .dbNoLongerValid => some (-16)
  | .notSupported => some (-18)
  | .noEncryptionKey => some (-21)
  | .encrypt => some (-22)
  | .decrypt => some (-23)
  | .reductionTooLarge => some (-13)
  | .reducerFailure => some (-14)
  | .wrongVersion | .rewind | .logicError | .formatLimit | .diverge | .assertFail | .overrun => none

/-- crc32.h `crc_mode_e`. -/
inductive CrcMode where
  | unknown | crc32 | crc32c
deriving DecidableEq, Repr

/-- External libraries: Snappy (platform/compress.h), CRC-32C (platform/crc32c.h), the legacy
CRC-32 (modelled concretely in Model/Crc.lean) and AES-256-GCM (cbcrypto/symmetric.h).
Keys are opaque numbers. -/
structure Env where
  deflate : Bytes → Bytes
  inflate : Bytes → Option Bytes
  crc32c : Bytes → UInt32
  crc32 : Bytes → UInt32
  /-- `encrypt key nonce plaintext = (ciphertext, mac)` -/
  encrypt : Nat → Nat → Bytes → Bytes × Bytes
  /-- `decrypt key nonce ciphertext mac`, `none` is `MacVerificationError` -/
  decrypt : Nat → Nat → Bytes → Bytes → Option Bytes
  macSize : Nat

/-- What is assumed of the external libraries. -/
structure Env.Laws (E : Env) : Prop where
  inflate_deflate : ∀ b, E.inflate (E.deflate b) = some b
  decrypt_encrypt : ∀ k n b, E.decrypt k n (E.encrypt k n b).1 (E.encrypt k n b).2 = some b
  cipher_length : ∀ k n b, (E.encrypt k n b).1.length = b.length
  mac_length : ∀ k n b, (E.encrypt k n b).2.length = E.macSize

/-- The behaviour injected into one raw `pwrite`/`pread`: complete, short (at most `n` bytes
transferred), or failing with an error code. -/
inductive Fault where
  | none
  | short (n : Nat)
  | err (code : Int)
deriving DecidableEq, Repr

/-- Trace of what reached the file system, newest first in `File.log`; `encrypted` records a
use of the cipher (key, nonce, plaintext). -/
inductive Event where
  | write (off : Nat) (data : Bytes)
  | sync
  | encrypted (key nonce : Nat) (plain : Bytes)
deriving DecidableEq, Repr

/-- The per-file settings that writes do not change: internal.h:75-122
`tree_file_options` (node sizes), `crc_mode`, `cipher`. -/
structure Cfg where
  crcMode : CrcMode
  cipher : Option Nat
  kvThr : Nat
  kpThr : Nat
deriving DecidableEq, Repr

/-- internal.h:99-122 `tree_file`, together with the content of the file itself, the
remaining injected faults and the event log. -/
structure File where
  disk : Bytes
  pos : Nat
  cfg : Cfg
  faults : List Fault
  log : List Event
deriving DecidableEq, Repr

/-- Functions of the library: the file state survives errors. -/
abbrev M := EStateM Err File

/-- Next injected fault; when the finite list is used up all operations succeed. -/
def popFault : M Fault := fun f =>
  match f.faults with
  | [] => .ok .none f
  | x :: xs => .ok x { f with faults := xs }

/-- Effect of POSIX `pwrite` of all of `b` at `off`: a gap after the old end reads as zeros,
writing nothing changes nothing. -/
def pwriteDisk (d : Bytes) (off : Nat) (b : Bytes) : Bytes :=
  if b = [] then d
  else d.take off ++ List.replicate (off - d.length) 0 ++ b ++ d.drop (off + b.length)

/-- Store `b` at `off` and log it. -/
def doWrite (b : Bytes) (off : Nat) : M Unit := fun f =>
  .ok () { f with disk := pwriteDisk f.disk off b, log := .write off b :: f.log }

/-- `FileOpsInterface::pwrite` (os.cc): may be short, may fail; returns the number of bytes
written. -/
def pwrite (b : Bytes) (off : Nat) : M Nat := do
  match ← popFault with
  | .none => doWrite b off; pure b.length
  | .short k => doWrite (b.take k) off; pure (b.take k).length
  | .err e => throw (.io e)

/-- `FileOpsInterface::pread` (os.cc): fewer bytes at end of file, may be short, may fail. -/
def pread (off n : Nat) : M Bytes := do
  match ← popFault with
  | .none => pure (slice (← get).disk off n)
  | .short k => pure (slice (← get).disk off (min k n))
  | .err e => throw (.io e)

/-- `FileOpsInterface::sync`. -/
def syncFile : M Unit := do
  match ← popFault with
  | .err e => throw (.io e)
  | _ => modify fun f => { f with log := .sync :: f.log }

/-- couch_file_write.cc:49-58, the loop of `write_entire_buffer`.  The model's fault list is
finite, so the loop ends; with a file system whose `pwrite` returned 0 for ever the real loop
would not.  Tracing omitted. -/
def writeEntireLoop : Nat → Bytes → Nat → M Unit
  | 0, _, _ => throw .diverge
  | fuel + 1, b, off =>
    if b = [] then pure ()
    else do
      let w ← pwrite b off
      writeEntireLoop fuel (b.drop w) (off + w)

/-- couch_file_write.cc:30-60 `write_entire_buffer`. -/
def writeEntire (b : Bytes) (off : Nat) : M Unit := fun f =>
  writeEntireLoop (f.faults.length + 2) b off f

/-- internal.h:164 `DiskBlockType`. -/
def btData : UInt8 := 0
/-- internal.h:164 `DiskBlockType::Header`. -/
def btHeader : UInt8 := 1
/-- internal.h:164 `DiskBlockType::Meta`. -/
def btMeta : UInt8 := 2

/-- couch_file_write.cc:72-92, the loop of `raw_write`; returns the final `write_pos`. -/
def rawWriteLoop (t : UInt8) : Nat → Bytes → Nat → M Nat
  | 0, b, wpos => if b = [] then pure wpos else throw .diverge
  | fuel + 1, b, wpos =>
    if b = [] then pure wpos
    else if wpos % blockSize = 0 then do
      writeEntire [t] wpos
      rawWriteLoop t fuel b (wpos + 1)
    else do
      let blockRemain := min (blockSize - wpos % blockSize) b.length
      writeEntire (b.take blockRemain) wpos
      rawWriteLoop t fuel (b.drop blockRemain) (wpos + blockRemain)

/-- couch_file_write.cc:62-95 `raw_write`; returns the number of bytes of the file used
(data and block prefixes). -/
def rawWrite (t : UInt8) (b : Bytes) (pos : Nat) : M Nat := do
  let wpos ← rawWriteLoop t (2 * b.length) b pos
  pure (wpos - pos)

/-- util.cc:137-143 `align_to_next_block`. -/
def alignToNextBlock (off : Nat) : Nat :=
  if off % blockSize ≠ 0 then off + blockSize - off % blockSize else off

/-- crc32.cc:120-131 `get_checksum`; mode `unknown` is an assertion failure. -/
def getChecksum (E : Env) (b : Bytes) : CrcMode → M UInt32
  | .crc32c => pure (E.crc32c b)
  | .crc32 => pure (E.crc32 b)
  | .unknown => throw .assertFail

/-- crc32.cc:103-118 `perform_integrity_check`. -/
def integrityCheck (E : Env) (b : Bytes) (checksum : Nat) : CrcMode → Bool
  | .unknown => checksum == (E.crc32c b).toNat || checksum == (E.crc32 b).toNat
  | .crc32c => checksum == (E.crc32c b).toNat
  | .crc32 => checksum == (E.crc32 b).toNat

/-- Move the append position (`file->pos = ...`). -/
def setPos (p : Nat) : M Unit := modify fun f => { f with pos := p }

/-- couch_file_write.cc:97-137 `write_header`; returns the position of the header. -/
def writeHeader (E : Env) (t : UInt8) (b : Bytes) : M Nat := do
  let f ← get
  let writePos := alignToNextBlock f.pos
  if b.length + 4 ≥ 2 ^ 32 then throw .formatLimit else
  let crc ← getChecksum E b f.cfg.crcMode
  writeEntire (t :: (enc32 (b.length + 4) ++ enc32 crc.toNat)) writePos
  let written ← rawWrite t b (writePos + 9)
  setPos (writePos + 9 + written)
  pure writePos

/-- crypto.h:26-29 `offset2nonce`. -/
def offset2nonce (off : Nat) : Nat := if off % blockSize ≠ 0 then off else off + 1

/-- Record a use of the cipher. -/
def logEncrypt (k n : Nat) (b : Bytes) : M Unit :=
  modify fun f => { f with log := .encrypted k n b :: f.log }

/-- couch_file_write.cc:139-180 `write_encrypted`; returns position and size on disk. -/
def writeEncrypted (E : Env) (k : Nat) (b : Bytes) : M (Nat × Nat) := do
  let writePos := (← get).pos
  let chunkLen := b.length + E.macSize
  -- `gsl::narrow<uint32_t>` throws above 2^32; from 2^31 the reader rejects the length
  if chunkLen ≥ 2 ^ 31 ∨ writePos ≥ 2 ^ 47 then throw .formatLimit else
  logEncrypt k (offset2nonce writePos) b
  let (ct, mac) := E.encrypt k (offset2nonce writePos) b
  let chunk := enc32 chunkLen ++ (ct ++ mac)
  let written ← rawWrite btData chunk writePos
  setPos (writePos + written)
  pure (writePos, chunk.length)

/-- couch_file_write.cc:182-236 `db_write_buf`; returns position and size on disk.
`formatLimit`: the length is stored in 31 bits, positions are stored in 47 or 48 bits. -/
def dbWriteBuf (E : Env) (b : Bytes) : M (Nat × Nat) := do
  let f ← get
  match f.cfg.cipher with
  | some k => writeEncrypted E k b
  | none =>
    let writePos := f.pos
    if b.length ≥ 2 ^ 31 ∨ writePos ≥ 2 ^ 47 then throw .formatLimit else
    let crc ← getChecksum E b f.cfg.crcMode
    -- `buf->size | 0x80000000`, the length having its top bit clear
    let hdr := enc32 (b.length + 2 ^ 31) ++ enc32 crc.toNat
    let w1 ← rawWrite btData hdr writePos
    let w2 ← rawWrite btData b (writePos + w1)
    setPos (writePos + w1 + w2)
    pure (writePos, hdr.length + b.length)

/-- couch_file_write.cc:238-259 `db_write_buf_compressed`. -/
def dbWriteBufCompressed (E : Env) (b : Bytes) : M (Nat × Nat) := dbWriteBuf E (E.deflate b)

/-- couch_file_read.cc:127-145, the loop of `read_skipping_prefixes`; returns the bytes and
the position after them. -/
def readSkipLoop : Nat → Nat → Nat → Bytes → M (Bytes × Nat)
  | _, pos, 0, acc => pure (acc, pos)
  | 0, _, _ + 1, _ => throw .diverge
  | fuel + 1, pos, len, acc => do
    let readSize := min (blockSize - pos % blockSize) len
    let got ← pread pos readSize
    if got = [] then throw .read else
    let pos' := pos + got.length
    readSkipLoop fuel (if pos' % blockSize = 0 then pos' + 1 else pos')
      (len - got.length) (acc ++ got)

/-- couch_file_read.cc:120-147 `read_skipping_prefixes`. -/
def readSkip (pos len : Nat) : M (Bytes × Nat) :=
  readSkipLoop len (if pos % blockSize = 0 then pos + 1 else pos) len []

/-- couch_file_read.cc:158-216 `pread_encrypted`. -/
def preadEncrypted (E : Env) (k : Nat) (pos : Nat) : M Bytes := do
  let (h, pos1) ← readSkip pos 4
  let chunkLen := beDec h
  if chunkLen ≥ 2 ^ 31 ∨ chunkLen < E.macSize then throw .corrupt else
  let (buf, _) ← readSkip pos1 chunkLen
  let msgSize := chunkLen - E.macSize
  match E.decrypt k (offset2nonce pos) (buf.take msgSize) (buf.drop msgSize) with
  | some b => pure b
  | none => throw .checksumFail

/-- couch_file_read.cc:233-298, `pread_bin_internal` for an unencrypted data chunk
(`max_header_size = 0`). -/
def preadPlain (E : Env) (pos : Nat) : M Bytes := do
  let mode := (← get).cfg.crcMode
  let (info, pos1) ← readSkip pos 8
  let len := beDec (info.take 4)
  -- high bit must be set for data chunks
  if len < 2 ^ 31 then throw .corrupt else
  let crc := beDec (info.drop 4)
  let (buf, _) ← readSkip pos1 (len % 2 ^ 31)
  if integrityCheck E buf crc mode then pure buf else throw .checksumFail

/-- couch_file_read.cc:348-351 `pread_bin` (`pread_bin_internal` with `max_header_size = 0`). -/
def preadBin (E : Env) (pos : Nat) : M Bytes := do
  match (← get).cfg.cipher with
  | some k => preadEncrypted E k pos
  | none => preadPlain E pos

/-- couch_file_read.cc:300-311 `pread_header`, with `pread_bin_internal`'s branch for headers:
the stored length has its top bit clear, includes 4 for the checksum and is bounded by
`maxHeaderSize`.  The header is never encrypted. -/
def preadHeader (E : Env) (pos maxHeaderSize : Nat) : M Bytes := do
  if maxHeaderSize = 0 then throw .invalidArguments else
  let mode := (← get).cfg.crcMode
  let (info, pos1) ← readSkip (pos + 1) 8
  let len := beDec (info.take 4)
  if len ≥ 2 ^ 31 then throw .corrupt else
  if len < 4 ∨ len > maxHeaderSize then throw .corrupt else
  let crc := beDec (info.drop 4)
  let (buf, _) ← readSkip pos1 (len - 4)
  if integrityCheck E buf crc mode then pure buf else throw .checksumFail

/-- couch_file_read.cc:313-346 `pread_compressed`. -/
def preadCompressed (E : Env) (pos : Nat) : M Bytes := do
  let c ← preadBin E pos
  match E.inflate c with
  | some b => pure b
  | none => throw .corrupt

end Couchstore
