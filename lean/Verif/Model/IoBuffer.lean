import Verif.Model.Disk

/-! The I/O buffer, src/iobuffer.cc: a write buffer and a cache of read buffers in front of the
raw file operations (`pread`, `pwrite`, `syncFile` of `Model/Disk.lean`).  Tracing, write
validation and memory protection are left out, and so are `open`, `advise` and the settings, which
are handed to the raw operations unchanged. -/

namespace Couchstore

/-- iobuffer.cc:78-174 `FileBuffer`.  `data` is the used part of the memory of the buffer, that
is `bytes[0 .. length)`; the rest of the memory is never read.  `offset` is `-1` in a new
buffer. -/
structure FileBuf where
  cap : Nat
  off : Int
  dirty : Bool
  data : Bytes
deriving DecidableEq, Repr

/-- iobuffer.cc:79-100, the constructor. -/
def FileBuf.new (cap : Nat) : FileBuf := { cap := cap, off := -1, dirty := false, data := [] }

/-- iobuffer.h:25-44 `buffered_file_ops_params`; `writeCap` is the constant
`WRITE_BUFFER_CAPACITY` (internal.h:48). -/
structure BufParams where
  readOnly : Bool
  readCap : Nat
  maxRead : Nat
  writeCap : Nat
deriving DecidableEq, Repr

/-- iobuffer.cc:225-236 `BufferedFileHandle`, with the file below.  `rbufs` are the read buffers
in the order of the LRU list, most recently used first; the hash map of the code finds a buffer by
its offset, and `nBuffers` is the length of the list. -/
structure BFile where
  raw : File
  params : BufParams
  wbuf : Option FileBuf
  rbufs : Option (List FileBuf)

/-- iobuffer.cc:545-566, a handle just opened: no buffers yet. -/
def BFile.open (f : File) (p : BufParams) : BFile :=
  { raw := f, params := p, wbuf := none, rbufs := none }

/-- iobuffer.cc:248-299 `findBuffer`, for the offset `off` rounded down to a multiple of the
buffer size.  The result is the list afterwards and the position of the buffer in it.  A buffer
found is moved to the front, a new one is put there.  When there are as many buffers as allowed,
the last one is used; the code means to move it to the front too, but passes
`readLRU.rbegin().base()`, that is `end()`, to `splice`, which changes nothing.  With room for no
buffer at all the code takes the last element of an empty list (undefined behaviour, here
`assertFail`). -/
def findBuffer (p : BufParams) (bufs : List FileBuf) (off : Nat) :
    Except Err (List FileBuf × Nat) :=
  let blk : Int := (off - off % p.readCap : Nat)
  match bufs.findIdx? (fun b => b.off = blk) with
  | some i =>
    match bufs[i]? with
    | some b => .ok (b :: bufs.eraseIdx i, 0)
    | none => .error .assertFail
  | none =>
    if bufs.length < p.maxRead then .ok (FileBuf.new p.readCap :: bufs, 0)
    else if bufs = [] then .error .assertFail
    else .ok (bufs, bufs.length - 1)

/-- iobuffer.cc:301-313 `relocateBuffer`. -/
def relocateBuffer (bufs : List FileBuf) (old new : Int) : List FileBuf :=
  match bufs.findIdx? (fun b => b.off = old) with
  | some i => bufs.modify i (fun b => { b with off := new, data := [] })
  | none => bufs

/-- iobuffer.cc:315-329 `invalidateRange`: the loop over the blocks of the range, written as a
condition on the offset of a buffer. -/
def invalidateRange (bufs : List FileBuf) (off n cap : Nat) : List FileBuf :=
  if n = 0 ∨ cap = 0 then bufs
  else bufs.map fun b =>
    if Int.ofNat (off - off % cap) ≤ b.off ∧ b.off < Int.ofNat (off + n) ∧ b.off % Int.ofNat cap = 0
    then { b with data := [] } else b

/-- iobuffer.cc:335-372 `write_to_buffer`; the number is that of the bytes taken. -/
def writeToBuffer (buf : FileBuf) (b : Bytes) (off : Nat) : FileBuf × Nat :=
  if buf.data = [] then
    let k := min buf.cap b.length
    ({ buf with off := off, dirty := true, data := b.take k }, k)
  else if (off : Int) < buf.off ∨ buf.off + buf.data.length < off then (buf, 0)
  else
    let i := (off - buf.off).toNat
    let k := min (buf.cap - i) b.length
    ({ buf with dirty := true, data := buf.data.take i ++ b.take k ++ buf.data.drop (i + k) }, k)

/-- iobuffer.cc:375-429 `flush_buffer`: the error if there was one, the buffer and the file
afterwards.  `fuel`: the raw writes of the model transfer everything once the injected faults are
used up, so the loop ends; the real one would not if `pwrite` returned 0 for ever. -/
def flushLoop : Nat → FileBuf → File → Option Err × FileBuf × File
  | 0, buf, f => (some .diverge, buf, f)
  | fuel + 1, buf, f =>
    if buf.data ≠ [] ∧ buf.dirty = true then
      match pwrite buf.data buf.off.toNat f with
      | .error e f' => (some e, buf, f')
      | .ok w f' => flushLoop fuel { buf with data := buf.data.drop w, off := buf.off + w } f'
    else (none, { buf with dirty := false }, f)

/-- iobuffer.cc:375-429 `flush_buffer`. -/
def flushBuffer (buf : FileBuf) (f : File) : Option Err × FileBuf × File :=
  flushLoop (f.faults.length + 2) buf f

/-- iobuffer.cc:433-446 `read_from_buffer`: the bytes copied. -/
def readFromBuffer (buf : FileBuf) (n off : Nat) : Bytes :=
  if (off : Int) < buf.off ∨ buf.off + buf.data.length ≤ off then []
  else slice buf.data (off - buf.off).toNat n

/-- iobuffer.cc:467-493, the loop of `load_buffer_from`.  Each round reads at least one byte, so
`cap` rounds are enough. -/
def loadLoop : Nat → FileBuf → File → Option Err × FileBuf × File
  | 0, buf, f => (some .diverge, buf, f)
  | fuel + 1, buf, f =>
    match pread (buf.off + buf.data.length).toNat (buf.cap - buf.data.length) f with
    | .error e f' => (some e, buf, f')
    | .ok bs f' =>
      if bs = [] then (none, buf, f')
      else
        let buf' := { buf with data := buf.data ++ bs }
        if buf'.data.length < buf'.cap then loadLoop fuel buf' f' else (none, buf', f')

/-- iobuffer.cc:448-494 `load_buffer_from`. -/
def loadBufferFrom (buf : FileBuf) (off n : Nat) (f : File) : Option Err × FileBuf × File :=
  let (e, buf, f) := if buf.dirty then flushBuffer buf f else (none, buf, f)
  match e with
  | some e => (some e, buf, f)
  | none =>
    let buf := if (off : Int) < buf.off ∨ buf.off + buf.cap < (off + n : Nat)
      then { buf with off := off, data := [] } else buf
    loadLoop (buf.cap + 1) buf f

/-- iobuffer.cc:662-691, the loop of `pread`.  Each round but the last delivers at least one
byte, so `n + 1` rounds are enough. -/
def bufReadLoop : Nat → List FileBuf → Nat → Nat → Bytes → BFile → EStateM.Result Err BFile Bytes
  | 0, _, _, _, _, h => .error .diverge h
  | fuel + 1, bufs, n, off, acc, h =>
    if n = 0 then .ok acc { h with rbufs := some bufs }
    else if h.params.readCap = 0 then .error .assertFail h
    else
      match findBuffer h.params bufs off with
      | .error e => .error e { h with rbufs := some bufs }
      | .ok (bufs, i) =>
        match bufs[i]? with
        | none => .error .assertFail { h with rbufs := some bufs }
        | some buf =>
          let got := readFromBuffer buf n off
          if got ≠ [] then
            bufReadLoop fuel bufs (n - got.length) (off + got.length) (acc ++ got) h
          else
            let start := off - off % h.params.readCap
            let bufs := relocateBuffer bufs buf.off start
            match bufs[i]? with
            | none => .error .assertFail { h with rbufs := some bufs }
            | some buf =>
              match loadBufferFrom buf start (off + n - start) h.raw with
              | (some e, buf, f) => .error e { h with raw := f, rbufs := some (bufs.set i buf) }
              | (none, buf, f) =>
                let h := { h with raw := f }
                let bufs := bufs.set i buf
                let got := readFromBuffer buf n off
                if got = [] then .ok acc { h with rbufs := some bufs }
                else bufReadLoop fuel bufs (n - got.length) (off + got.length) (acc ++ got) h

/-- iobuffer.cc:639-692 `BufferedFileOps::pread`: everything buffered is written out first. -/
def bufPread (off n : Nat) (h : BFile) : EStateM.Result Err BFile Bytes :=
  let (e, h) := match h.wbuf with
    | none => (none, h)
    | some b =>
      let (e, b, f) := flushBuffer b h.raw
      (e, { h with wbuf := some b, raw := f })
  match e with
  | some e => .error e h
  | none =>
    let h := { h with rbufs := some (h.rbufs.getD []) }
    bufReadLoop (n + 1) (h.rbufs.getD []) n off [] h

/-- iobuffer.cc:694-757 `BufferedFileOps::pwrite`. -/
def bufPwrite (b : Bytes) (off : Nat) (h : BFile) : EStateM.Result Err BFile Nat :=
  if b = [] then .ok 0 h
  else
    let h := { h with
      rbufs := h.rbufs.map (fun bufs => invalidateRange bufs off b.length h.params.readCap) }
    let buf := h.wbuf.getD (FileBuf.new (if h.params.readOnly then 0 else h.params.writeCap))
    let (buf, k) := writeToBuffer buf b off
    let (e, buf, f) := if buf.data.length = buf.cap ∨ k = 0 then flushBuffer buf h.raw
      else (none, buf, h.raw)
    match e with
    | some e => .error e { h with wbuf := some buf, raw := f }
    | none =>
      let rest := b.drop k
      if rest = [] then .ok k { h with wbuf := some buf, raw := f }
      else if rest.length ≤ buf.cap - buf.data.length then
        let (buf, w) := writeToBuffer buf rest (off + k)
        .ok (k + w) { h with wbuf := some buf, raw := f }
      else
        match pwrite rest (off + k) f with
        | .error e f => .error e { h with wbuf := some buf, raw := f }
        | .ok w f => .ok (k + w) { h with wbuf := some buf, raw := f }

/-- iobuffer.cc:766-780 `BufferedFileOps::sync`. -/
def bufSync (h : BFile) : EStateM.Result Err BFile Unit :=
  let (e, h) := match h.wbuf with
    | none => (none, h)
    | some b =>
      let (e, b, f) := flushBuffer b h.raw
      (e, { h with wbuf := some b, raw := f })
  match e with
  | some e => .error e h
  | none =>
    match syncFile h.raw with
    | .error e f => .error e { h with raw := f }
    | .ok () f => .ok () { h with raw := f }

/-- iobuffer.cc:601-608 `BufferedFileOps::free_buffers`. -/
def bufFree (h : BFile) : BFile := { h with wbuf := none, rbufs := none }

/-- iobuffer.cc:759-764 `BufferedFileOps::goto_eof`: the end of the raw file. -/
def bufGotoEof (h : BFile) : Nat := h.raw.disk.length

/-- iobuffer.cc:568-580 `BufferedFileOps::close`: an error of writing out the buffer is not
reported. -/
def bufClose (h : BFile) : BFile :=
  match h.wbuf with
  | none => h
  | some b =>
    let (_, b, f) := flushBuffer b h.raw
    { h with wbuf := some b, raw := f }

end Couchstore
