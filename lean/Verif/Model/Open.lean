import Verif.Model.Header

/-
Model of opening and closing a database (/repo/src/couch_db.cc:382-672, 845-989) and of moving
between its headers (/repo/src/couch_db.cc:991-1096, 2100-2387).

Simplifications, common to the file: the raw `open` and `close` of the file always succeed (the
file exists or was created empty); `O_EXCL` is not modelled; the bit set `couchstore_open_flags`
is a structure (its decoding is modelled in Model/Flags.lean); the cipher of a file is its key.
-/

namespace Couchstore

/-- cb::crypto::KeyDerivationMethod. -/
inductive KdMethod where
  | noDerivation | keyBased | other
deriving DecidableEq, Repr

/-- cb::crypto::KeyDerivationKey, an external library.  `unwrap` decrypts a wrapped file key with
this key (couch_db.cc:544-551), `derive` derives the file key from a context (couch_db.cc:462-470);
`none` is an exception. -/
structure Kdk where
  id : Bytes
  method : KdMethod
  unwrap : Bytes → Option Nat
  derive : Bytes → Option Nat

/-- cb::couchstore::EncryptionKeyGetter; `none`: no callback given. -/
abbrev KeyGetter := Option (Bytes → Option Kdk)

/-- The flags of `couchstore_open_db` and the node sizes they ask for
(couch_db.cc:779-843 `get_tree_file_options_from_flags`). -/
structure OpenFlags where
  create : Bool
  rdonly : Bool
  excl : Bool
  legacyCrc : Bool
  noCommitAtCreate : Bool
  recovery : Bool
  kvThr : Nat
  kpThr : Nat
deriving DecidableEq, Repr

/-- couch_db.cc:382-401 `parse_short_string`; returns the string and the rest. -/
def parseShortString : Bytes → Option (Bytes × Bytes)
  | [] => none
  | n :: rest => if rest.length < n.toNat then none else some (rest.take n.toNat, rest.drop n.toNat)

/-- couch_db.cc:403-460 `read_metadata_header`; returns version, key id and file key context. -/
def readMetadataHeader (E : Env) : M (Nat × Bytes × Bytes) := do
  match ← pread 0 1 with
  | [t] =>
    if t ≠ btMeta then throw .noHeader else
    let b ← preadHeader E 0 blockSize
    match b with
    | [] => throw .notSupported
    | v :: rest =>
      if v.toNat > 1 then throw .notSupported else
      match parseShortString rest with
      | none => throw .corrupt
      | some (keyId, rest) =>
        match parseShortString rest with
        | none => throw .corrupt
        | some (ctx, _) => pure (v.toNat, keyId, ctx)
  | _ => throw .read

/-- Assign the cipher of the file. -/
def setCipher (k : Nat) : DbM Unit :=
  modify fun db => { db with file := { db.file with cfg := { db.file.cfg with cipher := some k } } }

/-- couch_db.cc:505-510: no metadata header where there should be one means no key. -/
def metadataOrNoKey (E : Env) : DbM (Nat × Bytes × Bytes) := fun db =>
  match liftF (readMetadataHeader E) db with
  | .ok r db' => .ok r db'
  | .error e db' => .error (if e.code = Err.noHeader.code then .noEncryptionKey else e) db'

/-- couch_db.cc:472-570 `read_and_set_encryption_key`.  The callback does not throw. -/
def readAndSetEncryptionKey (E : Env) (getKey : KeyGetter) : DbM Unit := do
  let db ← get
  if db.file.cfg.cipher ≠ none then throw .invalidArguments else
  if db.header.diskVersion < 14 then throw .invalidArguments else
  if db.header.haveMeta = false then throw .invalidArguments else
  let (version, keyId, ctx) ← metadataOrNoKey E
  if keyId = [] then pure () else
  match getKey with
  | none => throw .noEncryptionKey
  | some f =>
    match f keyId with
    | none => throw .noEncryptionKey
    | some kdk =>
      if kdk.id ≠ keyId then throw .noEncryptionKey else
      match (if version = 0 then kdk.unwrap ctx else kdk.derive ctx) with
      | none => throw .decrypt
      | some k => setCipher k

/-- couch_db.cc:572-647 `create_metadata_header`.  `ctx` is the file key context to be stored: the
random bytes for key derivation, or the random file key after it was wrapped (so that the file key
is what unwrapping gives back).  `formatLimit`: its length is stored in one byte. -/
def createMetadataHeader (E : Env) (getKey : KeyGetter) (ctx : Bytes) : DbM Unit := do
  setHeader fun h => { h with haveMeta := false }
  match getKey with
  | none => pure ()
  | some f =>
    match f [] with
    | none => pure ()
    | some key =>
      if key.id = [] ∨ key.id.length > 255 then throw .invalidArguments else
      if key.method = .other then throw .invalidArguments else
      match (if key.method = .noDerivation then key.unwrap ctx else key.derive ctx) with
      | none => throw .encrypt
      | some k =>
        setCipher k
        let v : UInt8 := if key.method = .noDerivation then 0 else 1
        if ctx.length > 255 then throw .formatLimit else
        setHeader fun h => { h with haveMeta := true }
        let _ ← liftF (writeHeader E btMeta
          (v :: (enc8 key.id.length ++ key.id ++ (enc8 ctx.length ++ ctx))))
        pure ()

/-- couch_db.cc:649-672 `create_header`. -/
def createHeader (E : Env) (noCommit : Bool) : DbM Unit := do
  let db ← get
  setHeader fun h => { h with
    diskVersion := if db.file.cfg.crcMode = .crc32 then 11 else 14
    updateSeq := 0, byIdRoot := none, bySeqRoot := none, localRoot := none
    purgeSeq := 0, purgePtr := 0, position := 0, timestamp := 0, prevHeaderPos := noPrevHeaderPos }
  if noCommit then pure () else dbWriteHeader E btHeader

/-- `FileOpsInterface::goto_eof`: the size of the file, or an error. -/
def gotoEof : M Nat := do
  match ← popFault with
  | .err e => throw (.io e)
  | _ => pure (← get).disk.length

/-- Assign the checksum mode of the file. -/
def setCrcMode (m : CrcMode) : DbM Unit :=
  modify fun db => { db with file := { db.file with cfg := { db.file.cfg with crcMode := m } } }

/-- The zero-initialised header of a new `Db`. -/
def zeroHeader : Header :=
  { diskVersion := 0, updateSeq := 0, byIdRoot := none, bySeqRoot := none, localRoot := none
    purgeSeq := 0, purgePtr := 0, position := 0, timestamp := 0, prevHeaderPos := 0, haveMeta := false }

/-- A new `Db` whose file was opened (couch_db.cc:890-918, `tree_file_open`): no checksum mode yet,
no cipher. -/
def newHandle (flags : OpenFlags) (f : File) : Db :=
  { file := { f with pos := 0, cfg := ⟨.unknown, none, flags.kvThr, flags.kpThr⟩ }
    header := zeroHeader, dropped := false, readOnly := flags.rdonly }

/-- couch_db.cc:920-966: what `couchstore_open_db_ex` does after the file was opened. -/
def openBody (E : Env) (flags : OpenFlags) (getKey : KeyGetter) (ctx : Bytes) : DbM Unit := do
  let pos ← liftF gotoEof
  liftF (setPos pos)
  if pos = 0 then
    if flags.rdonly then throw .noHeader else
    setCrcMode (if flags.legacyCrc then .crc32 else .crc32c)
    createMetadataHeader E getKey ctx
    createHeader E flags.noCommitAtCreate
    if (← get).file.pos = 0 then
      liftF (writeBlockType 0 btData)
      liftF (setPos 1)
  else
    findHeaderBefore E pos flags.recovery
    setCrcMode (if (← get).header.diskVersion ≤ 11 then .crc32 else .crc32c)
    if (← get).file.cfg.crcMode = .crc32c ∧ flags.legacyCrc then throw .invalidArguments
  let db ← get
  if db.header.haveMeta ∧ db.file.cfg.cipher = none then readAndSetEncryptionKey E getKey

/-- couch_db.cc:867-978 `couchstore_open_db_ex` on the file `f`; an error leaves no handle (only
the file). -/
def openDb (E : Env) (flags : OpenFlags) (getKey : KeyGetter) (ctx : Bytes) (f : File) :
    EStateM.Result Err File Db :=
  if flags.rdonly ∧ flags.create then .error .invalidArguments f
  else if flags.excl ∧ ¬ flags.create then .error .invalidArguments f
  else
    match openBody E flags getKey ctx (newHandle flags f) with
    | .ok () db => .ok db db.file
    | .error e db => .error e db.file

/-- couch_db.cc:980-989 `couchstore_close_file`. -/
def closeFile : DbM Unit := modify fun db => { db with dropped := true }

/-! ### Moving between headers -/

/-- internal.h:143-150 `db_header::reset`. -/
def resetHeader : DbM Unit :=
  setHeader fun h => { h with byIdRoot := none, bySeqRoot := none, localRoot := none }

/-- couch_db.cc:1025-1029: search backwards from the current header. -/
def rewindScan (E : Env) : DbM Unit := do
  let p := (← get).header.position
  if p < blockSize then throw .dbNoLongerValid else findHeaderBefore E p false

/-- couch_db.cc:1016-1029: go to the previous header; search if that fails (unless it failed for
lack of memory). -/
def rewindPrev (E : Env) (prev : Nat) : DbM Unit := fun db =>
  match findHeaderAtPos E prev db with
  | .ok () db' => .ok () db'
  | .error e db' => if e.code = Err.allocFail.code then .error e db' else rewindScan E db'

/-- couch_db.cc:991-1033 `couchstore_rewind_db_header_impl`. -/
def rewindImpl (E : Env) : DbM Unit := do
  if (← get).dropped then throw .fileClosed else
  resetHeader
  let h := (← get).header
  if 14 ≤ h.diskVersion then
    if h.prevHeaderPos = noPrevHeaderPos then throw .dbNoLongerValid else
    if h.prevHeaderPos ≠ unknownPrevHeaderPos ∧ h.prevHeaderPos < h.position then
      rewindPrev E h.prevHeaderPos
    else rewindScan E
  else rewindScan E

/-- couch_db.cc:1035-1045 `couchstore_rewind_db_header`: a failure closes (and frees) the
handle. -/
def rewindDbHeader (E : Env) : DbM Unit := fun db =>
  match rewindImpl E db with
  | .ok () db' => .ok () db'
  | .error _ db' => .error .dbNoLongerValid { db' with dropped := true }

/-- couch_db.cc:1055-1059, the loop of `couchstore_fastforward_db_header_impl`; `fuel` bounds the
number of blocks before the append position. -/
def fastForwardLoop (E : Env) : Nat → Nat → DbM Unit
  | 0, _ => throw .noHeader
  | fuel + 1, pos => fun db =>
    if pos < db.file.pos then
      match findHeaderAtPos E pos db with
      | .ok () db' => .ok () db'
      | .error e db' =>
        if e.code = Err.noHeader.code then fastForwardLoop E fuel (pos + blockSize) db' else .error e db'
    else .error .noHeader db

/-- couch_db.cc:1047-1063 `couchstore_fastforward_db_header_impl`. -/
def fastForwardImpl (E : Env) : DbM Unit := do
  let db ← get
  if db.dropped then throw .fileClosed else
  resetHeader
  fastForwardLoop E (db.file.pos / blockSize + 1) (db.header.position + blockSize)

/-- couch_db.cc:1065-1078 `couchstore_fastforward_db_header`: as for rewind. -/
def fastForwardDbHeader (E : Env) : DbM Unit := fun db =>
  match fastForwardImpl E db with
  | .ok () db' => .ok () db'
  | .error _ db' => .error .dbNoLongerValid { db' with dropped := true }

/-- couch_db.cc:2168-2181 and 2231-2242: go back to the header the handle had before; the file is
closed if that fails. -/
def reloadOr (E : Env) (current : Nat) (e : Err) : DbM Unit := fun db =>
  match findHeaderAtPos E current db with
  | .ok () db' => .error e db'
  | .error _ db' => .error .dbNoLongerValid { db' with dropped := true }

/-- couch_db.cc:2141-2182 `seek(Db&, cs_off_t)`, for an offset that is not negative. -/
def seekOffset (E : Env) (offset : Nat) : DbM Unit := fun db =>
  if db.dropped then .error .fileClosed db
  else if offset % blockSize ≠ 0 then .error .invalidArguments db
  else if offset ≥ db.file.pos then .error .noHeader db
  else
    match (do resetHeader; findHeaderAtPos E offset : DbM Unit) db with
    | .ok () db' => .ok () db'
    | .error e db' => reloadOr E db.header.position e db'

/-- couch_db.h `cb::couchstore::Direction`. -/
inductive Direction where
  | forward | backward | «end»
deriving DecidableEq, Repr

/-- couch_db.cc:2195-2207, the `End` case of `seek(Db&, Direction)`. -/
def seekEnd (E : Env) : DbM Unit := do
  let off ← liftF gotoEof
  liftF (setPos off)
  -- `db.file.pos - 2` and the `- 2` of the search, both unsigned
  if off < 2 then throw .noHeader else
  setHeader fun h => { h with position := off - 2, prevHeaderPos := unknownPrevHeaderPos }
  rewindImpl E

/-- couch_db.cc:2194-2221, the switch of `seek(Db&, Direction)`. -/
def seekStep (E : Env) : Direction → DbM Unit
  | .end => seekEnd E
  | .forward => fastForwardImpl E
  | .backward => rewindImpl E

/-- couch_db.cc:2184-2243 `seek(Db&, Direction)`. -/
def seekDir (E : Env) (d : Direction) : DbM Unit := fun db =>
  if db.dropped then .error .fileClosed db
  else if d = .backward ∧ db.header.position = 0 then .error .noHeader db
  else
    match seekStep E d db with
    | .ok () db' => .ok () db'
    | .error e db' =>
      let db'' := { db' with file := { db'.file with pos := db.file.pos } }
      if e.code = Err.invalidArguments.code then .error e db''
      else reloadOr E db.header.position e db''

end Couchstore
