/-
Model of the map of a file that is printed by couch_dbdump, /repo/src/tracking_file_ops.cc.  What is handed to the file
operations below is not changed, and is not modelled.  The vector of blocks is a list; a block after its end has
the default value.
-/

namespace Couchstore

/-- couch_common.h:68-74 `FileTag`: what a part of couchstore says it is reading. -/
inductive FileTag where
  | empty | fileHeader | btree | document | unknown
  deriving DecidableEq

/-- tracking_file_ops.h:26 `Tree`. -/
inductive MapTree where
  | unknown | sequence | id | local
  deriving DecidableEq

/-- tracking_file_ops.cc:44-52 `BlockTag`. -/
inductive BlockTag where
  | empty | fileHeader | btreeById | btreeBySequence | btreeByLocal | document | unknown
  deriving DecidableEq

/-- tracking_file_ops.cc:55-73 `BlockInfo`. -/
structure BlockInfo where
  accessSize : Nat := 0
  tag : BlockTag := .empty
  historic : Bool := false
  deriving DecidableEq

/-- tracking_file_ops.cc:93 `blockSize`. -/
def mapBlock : Nat := 64

/-- tracking_file_ops.cc:70-72 `isFull`. -/
def BlockInfo.isFull (b : BlockInfo) : Bool := b.accessSize == mapBlock

/-- tracking_file_ops.cc:40-112 `TrackingFileOps::File`. -/
structure MapFile where
  currentTag : FileTag := .unknown
  currentTree : MapTree := .unknown
  currentHistoric : Bool := false
  blockInfo : List BlockInfo := []

/-- tracking_file_ops.cc:232-259 `encodeTag`. -/
def encodeTag : FileTag → MapTree → BlockTag
  | .empty, _ => .empty
  | .fileHeader, _ => .fileHeader
  | .btree, .unknown => .unknown
  | .btree, .sequence => .btreeBySequence
  | .btree, .id => .btreeById
  | .btree, .local => .btreeByLocal
  | .document, _ => .document
  | .unknown, _ => .unknown

/-- tracking_file_ops.cc:289-300: `accessSize` bytes of the block are accessed. -/
def tagBlock (tag : BlockTag) (historic : Bool) (accessSize : Nat) (b : BlockInfo) : BlockInfo :=
  if accessSize > b.accessSize then
    { accessSize := if b.tag = tag ∧ b.historic = historic then b.accessSize + accessSize else accessSize
      tag := tag, historic := historic }
  else b

/-- tracking_file_ops.cc:275-307: the blocks from `id` on, `n` of them.  If a block is skipped (`continue`), `offset` and
`size` stay as they are. -/
def tagBlocks (tag : BlockTag) (historic : Bool) : Nat → Nat → Nat → Nat → List BlockInfo → List BlockInfo
  | 0, _, _, _, bs => bs
  | n + 1, id, offset, size, bs =>
    let accessSize := min (mapBlock - offset % mapBlock) size
    let b := bs.getD id {}
    if historic = true ∧ (b.historic = false ∧ b.tag ≠ .empty) then tagBlocks tag historic n (id + 1) offset size bs
    else tagBlocks tag historic n (id + 1) 0 (size - accessSize) (bs.set id (tagBlock tag historic accessSize b))

/-- tracking_file_ops.cc:261-308 `recordAccess`. -/
def MapFile.recordAccess (f : MapFile) (offset size : Nat) : MapFile :=
  let first := offset / mapBlock
  let last := (offset + size) / mapBlock
  let bs := f.blockInfo ++ List.replicate (last + 1 - f.blockInfo.length) ({} : BlockInfo)
  { f with blockInfo := tagBlocks (encodeTag f.currentTag f.currentTree) f.currentHistoric (last + 1 - first) first offset size bs }

/-- What is called. -/
inductive MapCall where
  /-- tracking_file_ops.cc:183-186 `tag` -/
  | tag (t : FileTag)
  /-- tracking_file_ops.cc:390-393 `setTree` -/
  | tree (t : MapTree)
  /-- tracking_file_ops.cc:395-398 `setHistoricData` -/
  | historic (h : Bool)
  /-- tracking_file_ops.cc:140-149 `pread` -/
  | read (offset size : Nat)

/-- One call, tracking_file_ops.cc:140-398. -/
def MapFile.call (f : MapFile) : MapCall → MapFile
  | .tag t => { f with currentTag := t }
  | .tree t => { f with currentTree := t }
  | .historic h => { f with currentHistoric := h }
  | .read offset size => f.recordAccess offset size

/-- The calls from the beginning. -/
def mapAfter (calls : List MapCall) : MapFile := calls.foldl MapFile.call {}

/-- What is shown for block `i`: `~File`, tracking_file_ops.cc:197-230; a block after the last one is not shown. -/
def MapFile.shown (f : MapFile) (i : Nat) : BlockInfo := f.blockInfo.getD i {}

end Couchstore
