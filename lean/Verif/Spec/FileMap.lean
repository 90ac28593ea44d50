import Verif.Model.FileMap

/-! What a map of a file is meant to show. -/

namespace Couchstore

/-- What a read is for: for a tree it depends on which tree was named last. -/
def purpose (t : FileTag) (tree : MapTree) : BlockTag :=
  if t = .btree then
    if tree = .id then .btreeById else if tree = .sequence then .btreeBySequence
    else if tree = .local then .btreeByLocal else .unknown
  else if t = .document then .document
  else if t = .fileHeader then .fileHeader
  else if t = .empty then .empty
  else .unknown

/-- A read, and what it was for. -/
structure MapRead where
  tag : BlockTag
  historic : Bool
  offset : Nat
  size : Nat

/-- The reads among the calls, with what was last said about them. -/
def mapReads (t : FileTag) (tree : MapTree) (historic : Bool) : List MapCall → List MapRead
  | [] => []
  | .tag t' :: cs => mapReads t' tree historic cs
  | .tree tree' :: cs => mapReads t tree' historic cs
  | .historic h :: cs => mapReads t tree h cs
  | .read o n :: cs => ⟨purpose t tree, historic, o, n⟩ :: mapReads t tree historic cs

/-- The read includes a byte of block `i` (of 64 bytes). -/
def MapRead.Touches (r : MapRead) (i : Nat) : Prop := ∃ p, r.offset ≤ p ∧ p < r.offset + r.size ∧ p / 64 = i

/-- The number of bytes of block `i` among `s` bytes from `o` on. -/
def overlap (o s i : Nat) : Nat := min (o + s) (64 * (i + 1)) - max o (64 * i)

/-- How many bytes of block `i` were read for this purpose, if a byte that is read again is counted again. -/
def bytesRead (reads : List MapRead) (t : BlockTag) (i : Nat) : Nat :=
  ((reads.filter fun r => r.tag = t).map fun r => overlap r.offset r.size i).sum

/-- Only what the newest header refers to is read: `setHistoricData(true)` is not called. -/
def OnlyCurrent (calls : List MapCall) : Prop := .historic true ∉ calls

end Couchstore
