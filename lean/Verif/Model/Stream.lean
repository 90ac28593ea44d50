import Verif.Model.Open

/-
Model of /repo/src/stream.cc (streams over the raw file operations, in checksummed or encrypted chunks) and of the record
functions of /repo/src/tree_writer.cc.

A stream on the C library's `FILE` (`FileStream`) is not modelled: the library uses only the other ones.  Exceptions are
errors: `cb::couchstore::Exception` carries its code, `std::logic_error` and a failed `Expects` are outcomes of their own,
`MacVerificationError` is `decrypt`, `std::runtime_error` is `logicError` too.  Memory is allocated without failure.
-/

namespace Couchstore

/-- What a stream uses of `cb::crypto::SymmetricCipher`: `lock i b` is the message (nonce, ciphertext and code) for the
`i`-th use of the cipher, `unlock` decrypts one or throws, `overhead` is the size of nonce and code. -/
structure Sealer where
  lock : Nat → Bytes → Bytes
  unlock : Bytes → Option Bytes
  overhead : Nat

/-- stream.cc:154-172, 178-203: the two kinds of chunks. -/
inductive StreamKind where
  | checksum
  | encrypted (S : Sealer)

/-- A `FileOpsStream` (stream.cc:62-108) and the `ChunkedStream` on it (stream.cc:114-145).  `readPos` is `none` for -1;
`used` counts the uses of the cipher. -/
structure Strm where
  file : File
  pos : Nat
  chunk : Bytes
  readPos : Option Nat
  used : Nat
deriving DecidableEq, Repr

/-- Functions on a stream. -/
abbrev SM := EStateM Err Strm

/-- A raw operation on the file of a stream. -/
def liftS {α : Type} (m : M α) : SM α := fun s =>
  match m s.file with
  | .ok a f => .ok a { s with file := f }
  | .error e f => .error e { s with file := f }

/-- `pos += n`. -/
def Strm.skip (n : Nat) : SM Unit := modify fun s => { s with pos := s.pos + n }

/-- A stream that was just opened (stream.cc:64-82, 116-122). -/
def Strm.open (f : File) : Strm := { file := f, pos := 0, chunk := [], readPos := some 0, used := 0 }

/-- stream.cc:276-289, the loop of `FileOpsStream::read`; `none`: end of file.  Each round reads at least one byte. -/
def rawReadLoop : Nat → Nat → Bytes → SM (Option Bytes)
  | _, 0, acc => pure (some acc)
  | 0, _ + 1, _ => throw .diverge
  | fuel + 1, n + 1, acc => do
    let got ← liftS (pread (← get).pos (n + 1))
    if got = [] then pure none else
    Strm.skip got.length
    rawReadLoop fuel (n + 1 - got.length) (acc ++ got)

/-- stream.cc:273-290 `FileOpsStream::read`. -/
def rawRead (n : Nat) : SM (Option Bytes) := rawReadLoop n n []

/-- stream.cc:295-304, the loop of `FileOpsStream::write`.  The list of faults is finite, so the loop ends; with a file
system whose `pwrite` returned 0 for ever it would not. -/
def rawWriteBufLoop : Nat → Bytes → SM Unit
  | 0, b => if b = [] then pure () else throw .diverge
  | fuel + 1, b =>
    if b = [] then pure ()
    else do
      let w ← liftS (pwrite b (← get).pos)
      Strm.skip w
      rawWriteBufLoop fuel (b.drop w)

/-- stream.cc:292-305 `FileOpsStream::write`. -/
def rawWriteBuf (b : Bytes) : SM Unit := fun s => rawWriteBufLoop (s.file.faults.length + 1) b s

/-- stream.cc:384-411 `ChecksumStream::read_chunk` and stream.cc:425-445 `EncryptedStream::read_chunk`; false: end of file.
Simplified: if the second read fails or meets the end of the file, the buffer keeps its contents here; in the code it has the
new length already. -/
def readChunk (E : Env) : StreamKind → SM Bool
  | .checksum => do
    match ← rawRead 8 with
    | none => pure false
    | some h =>
      let len := beDec (h.take 4)
      let crc := beDec (h.drop 4)
      if len < 4 then throw .corrupt else
      -- `chunk.resize` and reading into it
      match ← rawRead (len - 4) with
      | none => throw .read
      | some b =>
        modify fun s => { s with chunk := b }
        if integrityCheck E b crc .crc32c then pure true else throw .checksumFail
  | .encrypted S => do
    match ← rawRead 4 with
    | none => pure false
    | some h =>
      let len := beDec h
      if len < S.overhead + 1 then throw .corrupt else
      match ← rawRead len with
      | none => throw .read
      | some b =>
        modify fun s => { s with chunk := b }
        match S.unlock b with
        | none => throw .decrypt
        | some p => modify fun s => { s with chunk := p }; pure true

/-- stream.cc:413-423 `ChecksumStream::write_chunk` and stream.cc:447-456 `EncryptedStream::write_chunk`; lengths are cut to
32 bits. -/
def writeChunk (E : Env) : StreamKind → SM Unit
  | .checksum => do
    let b := (← get).chunk
    rawWriteBuf (enc32 (b.length + 4) ++ enc32 (E.crc32c b).toNat)
    rawWriteBuf b
  | .encrypted S => do
    let s ← get
    if s.chunk = [] then pure () else
    let m := S.lock s.used s.chunk
    modify fun s => { s with used := s.used + 1 }
    rawWriteBuf (enc32 m.length)
    rawWriteBuf m

/-- stream.cc:329-343, the loop of `ChunkedStream::read`; each round copies a byte or reads a chunk. -/
def chunkReadLoop (E : Env) (K : StreamKind) : Nat → Nat → Bytes → SM (Option Bytes)
  | _, 0, acc => pure (some acc)
  | 0, _ + 1, _ => throw .diverge
  | fuel + 1, n + 1, acc => do
    let s ← get
    let r := s.readPos.getD 0
    if s.chunk.length < r then throw .assertFail else
    let c := min (n + 1) (s.chunk.length - r)
    if c = 0 then do
      if ← readChunk E K then
        modify fun s => { s with readPos := some 0 }
        chunkReadLoop E K fuel (n + 1) acc
      else pure none
    else do
      set { s with readPos := some (r + c) }
      chunkReadLoop E K fuel (n + 1 - c) (acc ++ (s.chunk.drop r).take c)

/-- stream.cc:320-345 `ChunkedStream::read`: the bytes, or `none` for false. -/
def chunkRead (E : Env) (K : StreamKind) (n : Nat) : SM (Option Bytes) := do
  let s ← get
  if s.readPos = none then throw .logicError else
  chunkReadLoop E K (2 * n + s.file.disk.length + 2) n []

/-- stream.cc:352-362, the loop of `ChunkedStream::write`. -/
def chunkWriteLoop (E : Env) (K : StreamKind) (maxWrite : Nat) : Nat → Bytes → SM Unit
  | 0, b => if b = [] then pure () else throw .diverge
  | fuel + 1, b =>
    if b = [] then pure ()
    else do
      let s ← get
      if maxWrite < s.chunk.length then throw .assertFail else
      let c := min b.length (maxWrite - s.chunk.length)
      if c = 0 then do
        writeChunk E K
        modify fun s => { s with chunk := [] }
        chunkWriteLoop E K maxWrite fuel b
      else do
        set { s with chunk := s.chunk ++ b.take c }
        chunkWriteLoop E K maxWrite fuel (b.drop c)

/-- stream.cc:347-363 `ChunkedStream::write`. -/
def chunkWrite (E : Env) (K : StreamKind) (maxWrite : Nat) (b : Bytes) : SM Unit := do
  let s ← get
  if s.readPos ≠ none then set { s with chunk := [], readPos := none }
  chunkWriteLoop E K maxWrite (2 * b.length + 1) b

/-- stream.cc:365-372 `ChunkedStream::flush`; the stream below does not buffer (stream.cc:94-96). -/
def chunkFlush (E : Env) (K : StreamKind) : SM Unit := do
  let s ← get
  if s.readPos = none ∧ s.chunk ≠ [] then writeChunk E K
  modify fun s => { s with chunk := [], readPos := some 0 }

/-- stream.cc:374-377, 307-309 `seek_begin`. -/
def chunkSeekBegin (E : Env) (K : StreamKind) : SM Unit := do
  chunkFlush E K
  modify fun s => { s with pos := 0 }

/-- stream.cc:379-382, 311-318 `seek_end`. -/
def chunkSeekEnd (E : Env) (K : StreamKind) : SM Unit := do
  chunkFlush E K
  let e ← liftS gotoEof
  modify fun s => { s with pos := e }

/-- tree_writer.cc:57-66 `TreeWriter::write_record`; lengths are cut to 32 bits. -/
def treeWriteRecord (E : Env) (K : StreamKind) (maxWrite : Nat) (key value : Bytes) : SM Unit := do
  chunkWrite E K maxWrite (enc32 key.length ++ enc32 value.length)
  chunkWrite E K maxWrite key
  chunkWrite E K maxWrite value

/-- tree_writer.cc:42-55 `TreeWriter::read_record`; `none`: there are no more. -/
def treeReadRecord (E : Env) (K : StreamKind) : SM (Option (Bytes × Bytes)) := do
  match ← chunkRead E K 8 with
  | none => pure none
  | some h =>
    match ← chunkRead E K (beDec (h.take 4)) with
    | none => throw .logicError
    | some k =>
      match ← chunkRead E K (beDec (h.drop 4)) with
      | none => throw .logicError
      | some v => pure (some (k, v))

end Couchstore
