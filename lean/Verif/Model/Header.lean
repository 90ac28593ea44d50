import Verif.Model.Db

/-
Model of the database header: reading, searching and writing it, and commit
(/repo/src/couch_db.cc:40-380, 674-777).

Simplifications, common to the file: latency collection, file tags, error logging, `malloc`
returning null and the buffers of the file operations (`free_buffers`) are not modelled.
-/

namespace Couchstore

/-- internal.h:59 `NO_PREV_HEADER_POS`. -/
def noPrevHeaderPos : Nat := 2 ^ 47 - 1
/-- internal.h:55 `UNKNOWN_PREV_HEADER_POS`. -/
def unknownPrevHeaderPos : Nat := 2 ^ 64 - 1
/-- internal.h:44 `MAX_DB_HEADER_SIZE`. -/
def maxDbHeaderSize : Nat := 1024

/-- Size of the fixed part of a header of the given version: node_types.h:19-56
`raw_file_header_v12` (also used for version 11), `raw_file_header_v13`, `raw_file_header_v14`;
`none` for an unknown version. -/
def headerFixedSize : Nat → Option Nat
  | 11 => some 25
  | 12 => some 25
  | 13 => some 33
  | 14 => some 39
  | _ => none

/-- couch_db.cc:64-113 `raw_header_to_internal_header` (three overloads), except for the sizes of
the roots. -/
def decodeFixed (v : Nat) (b : Bytes) (h : Header) : Header :=
  { h with
    diskVersion := v
    updateSeq := beDec (slice b 1 6)
    purgeSeq := beDec (slice b 7 6)
    purgePtr := beDec (slice b 13 6)
    timestamp := if 13 ≤ v then beDec (slice b 25 8) else 0
    prevHeaderPos := if 14 ≤ v then beDec (slice b 33 6) / 2 else unknownPrevHeaderPos
    haveMeta := if 14 ≤ v then beDec (slice b 33 6) % 2 == 1 else false }

/-- couch_db.cc:47-62 `read_db_root`; `set` assigns the root of the handle. -/
def readDbRoot (set : Option NodePointer → Header → Header) (b : Bytes) : DbM Unit :=
  if b.length > 0 then
    if b.length < 12 then throw .corrupt
    else
      match readRoot b with
      | none => throw .allocFail
      | some p => do
        setHeader (set (some p))
        if p.pointer < (← get).header.position then pure () else throw .corrupt
  else setHeader (set none)

/-- couch_db.cc:162-177: failing to read a header at the beginning of the file counts as not
finding one. -/
def preadDbHeader (E : Env) (pos : Nat) : DbM Bytes := fun db =>
  match liftF (preadHeader E pos maxDbHeaderSize) db with
  | .ok b db' => .ok b db'
  | .error e db' => .error (if pos = 0 then .noHeader else e) db'

/-- couch_db.cc:179-235, the part of `find_header_at_pos` after the header was read: it is
decoded into the handle.  An empty header is read out of bounds (`assertFail`). -/
def loadHeader (pos : Nat) (b : Bytes) : DbM Unit :=
  match b with
  | [] => throw .assertFail
  | v :: _ => do
    setHeader fun h => { h with position := pos, diskVersion := v.toNat }
    match headerFixedSize v.toNat with
    | none => throw .headerVersion
    | some size =>
      if b.length < size then throw .corrupt else
      setHeader (decodeFixed v.toNat b)
      let seqSize := beDec (slice b 19 2)
      let idSize := beDec (slice b 21 2)
      let locSize := beDec (slice b 23 2)
      if (← get).header.purgePtr > pos then throw .corrupt else
      if b.length ≠ size + seqSize + idSize + locSize then throw .corrupt else
      readDbRoot (fun r h => { h with bySeqRoot := r }) (slice b size seqSize)
      readDbRoot (fun r h => { h with byIdRoot := r }) (slice b (size + seqSize) idSize)
      readDbRoot (fun r h => { h with localRoot := r }) (slice b (size + seqSize + idSize) locSize)

/-- couch_db.cc:115-239 `find_header_at_pos`. -/
def findHeaderAtPos (E : Env) (pos : Nat) : DbM Unit := do
  match ← liftF (pread pos 1) with
  | [t] =>
    if t = btData ∨ t = btMeta then throw .noHeader else
    if t ≠ btHeader then throw .corrupt else
    let b ← preadDbHeader E pos
    loadHeader pos b
  | _ => throw .read

/-- couch_db.cc:253-277, the loop of `find_header`, at block number `n`; `last` is
`last_header_errcode`. -/
def findHeaderLoop (E : Env) (skipCorrupt : Bool) : Nat → Err → DbM Unit
  | n, last => fun db =>
    match findHeaderAtPos E (n * blockSize) db with
    | .ok () db' => .ok () db'
    | .error e db' =>
      let next (last : Err) : EStateM.Result Err Db Unit :=
        match n with
        | 0 => .error last db'
        | n + 1 => findHeaderLoop E skipCorrupt n last db'
      if e.code = Err.noHeader.code then next last
      else if e.code = Err.checksumFail.code ∨ e.code = Err.corrupt.code ∨ e.code = Err.read.code then
        if skipCorrupt then next e else .error e db'
      else .error e db'

/-- couch_db.cc:241-278 `find_header`, for a start position that is not negative. -/
def findHeader (E : Env) (start : Nat) (skipCorrupt : Bool) : DbM Unit :=
  findHeaderLoop E skipCorrupt (start / blockSize) .noHeader

/-- `find_header(db, p - 2)` with an unsigned `p`; a negative position is no header. -/
def findHeaderBefore (E : Env) (p : Nat) (skipCorrupt : Bool) : DbM Unit :=
  if p < 2 then throw .noHeader else findHeader E (p - 2) skipCorrupt

/-! ### Writing -/

/-- couch_db.cc:313-349, the encoding part of `db_write_header_impl` (with
`calculate_header_size`, 280-311).  Numbers are truncated to their fields. -/
def encodeHeader (h : Header) : Bytes :=
  let seq := encodeRoot h.bySeqRoot
  let id := encodeRoot h.byIdRoot
  let loc := encodeRoot h.localRoot
  enc8 h.diskVersion ++ enc48 h.updateSeq ++ enc48 h.purgeSeq ++ enc48 h.purgePtr ++
    enc16 seq.length ++ enc16 id.length ++ enc16 loc.length ++
    (if 13 ≤ h.diskVersion then beEnc 8 h.timestamp else []) ++
    (if 14 ≤ h.diskVersion then enc48 (2 * h.prevHeaderPos + (if h.haveMeta then 1 else 0)) else []) ++
    seq ++ id ++ loc

/-- Do the numbers in a root fit their fields? -/
def rootFits : Option NodePointer → Bool
  | none => true
  | some p => p.pointer < 2 ^ 48 && p.subtreesize < 2 ^ 48 && 12 + p.reduceValue.length < 2 ^ 16

/-- Do all numbers fit their fields in the header? -/
def headerFits (h : Header) : Bool :=
  h.updateSeq < 2 ^ 48 && h.purgeSeq < 2 ^ 48 && h.purgePtr < 2 ^ 48 && h.timestamp < 2 ^ 64 &&
    (h.diskVersion < 14 || h.prevHeaderPos < 2 ^ 47) &&
    rootFits h.byIdRoot && rootFits h.bySeqRoot && rootFits h.localRoot

/-- couch_db.cc:313-358 `db_write_header_impl`.  `formatLimit`: the real code would truncate a
number. -/
def dbWriteHeaderImpl (E : Env) (t : UInt8) : DbM Unit := do
  let h := (← get).header
  if headerFits h = false then throw .formatLimit else
  let pos ← liftF (writeHeader E t (encodeHeader h))
  setHeader fun h => { h with position := pos }

/-- couch_db.cc:360-380 `db_write_header`. -/
def dbWriteHeader (E : Env) (t : UInt8) : DbM Unit := do
  let v := (← get).header.diskVersion
  if v = 11 ∨ v = 12 then
    setHeader fun h => { h with timestamp := 0, prevHeaderPos := unknownPrevHeaderPos, haveMeta := false }
    dbWriteHeaderImpl E t
  else if v = 13 then
    setHeader fun h => { h with prevHeaderPos := unknownPrevHeaderPos, haveMeta := false }
    dbWriteHeaderImpl E t
  else if v = 14 then dbWriteHeaderImpl E t
  else throw .headerVersion

/-- couch_db.cc:692-699, the loop of `write_disk_block_type`. -/
def writeBlockTypeLoop (pos : Nat) (t : UInt8) : Nat → M Unit
  | 0 => throw .diverge
  | fuel + 1 => do
    let w ← pwrite [t] pos
    if w = 1 then pure () else writeBlockTypeLoop pos t fuel

/-- couch_db.cc:688-700 `write_disk_block_type`. -/
def writeBlockType (pos : Nat) (t : UInt8) : M Unit := fun f =>
  writeBlockTypeLoop pos t (f.faults.length + 1) f

/-- couch_db.cc:743-768, the loop of `couchstore_commit_ex`: mark the header, sync, and try again
if the callback says so.  `cb n` is the answer of the callback to the `n`-th failure; it is
`false` if there is no callback. -/
def markLoop (cb : Nat → Bool) (pos : Nat) : Nat → Nat → M Unit
  | 0, _ => throw .diverge
  | fuel + 1, n => do
    writeBlockType pos btHeader
    fun f =>
      match syncFile f with
      | .ok () f' => .ok () f'
      | .error e f' => if cb n then markLoop cb pos fuel (n + 1) f' else .error e f'

/-- couch_db.cc:723-776, the body of `couchstore_commit_ex`. -/
def commitBody (E : Env) (timestamp : Nat) (cb : Nat → Bool) : DbM Unit := do
  let preCommitPos := (← get).file.pos
  setHeader fun h => { h with timestamp := timestamp, prevHeaderPos := h.position }
  dbWriteHeader E btData
  liftF syncFile
  liftF fun f => markLoop cb (alignToNextBlock preCommitPos) (f.faults.length + 1) 0 f

/-- couch_db.cc:702-777 `couchstore_commit_ex`; on failure three fields of the header are
restored. -/
def commit (E : Env) (timestamp : Nat) (cb : Nat → Bool) : DbM Unit := fun db =>
  match commitBody E timestamp cb db with
  | .ok () db' => .ok () db'
  | .error e db' => .error e { db' with header := { db'.header with
      position := db.header.position, timestamp := db.header.timestamp,
      prevHeaderPos := db.header.prevHeaderPos } }

end Couchstore
