/-
Model of /repo/src/arena.cc: memory that is handed out in pieces of larger chunks.

Pointers are numbers, 0 is the null pointer.  What `cb_malloc` returns is an argument of each allocation.  The struct `arena`
itself is allocated without failure, `size_t` and pointers do not overflow, a header of a chunk has 16 bytes.  The counters
and checks of a debug build (`#ifdef DEBUG`) are not modelled, nor is `arena_free`, which does nothing without them.
-/

namespace Couchstore

/-- arena.cc:22-25 `arena_chunk`: where it is and the size of its contents; the list of chunks replaces the links. -/
structure AChunk where
  addr : Nat
  size : Nat
deriving DecidableEq, Repr

/-- arena.cc:41-44 `chunk_start`. -/
def AChunk.start (c : AChunk) : Nat := c.addr + 16

/-- arena.cc:47-50 `chunk_end`. -/
def AChunk.stop (c : AChunk) : Nat := c.start + c.size

/-- arena.cc:28-37 `struct arena`; the current chunk is the first. -/
structure Arena where
  next : Nat
  stop : Nat
  chunks : List AChunk
  chunkSize : Nat
deriving DecidableEq, Repr

/-- arena.cc:75-88 `new_arena`. -/
def newArena (chunkSize : Nat) : Arena :=
  { next := 0, stop := 0, chunks := [],
    chunkSize := (if chunkSize = 0 then 32768 else (chunkSize + 16 + 4096) / 4096 * 4096) - 16 }

/-- arena.cc:53-73 `add_chunk`; `m` is what `cb_malloc` returned. -/
def addChunk (a : Arena) (size : Nat) (m : Option Nat) : Nat × Arena :=
  let n := if size > a.chunkSize then size else a.chunkSize
  match m with
  | none => (0, a)
  | some addr =>
    let c : AChunk := ⟨addr, n⟩
    (c.start, { a with next := c.start + size, stop := c.stop, chunks := c :: a.chunks })

/-- arena.cc:112-133 `arena_alloc_unaligned`. -/
def allocUnaligned (a : Arena) (size : Nat) (m : Option Nat) : Nat × Arena :=
  if a.next ≠ 0 then
    let a' := { a with next := a.next + size }
    if a'.next > a'.stop ∨ size > a'.chunkSize then addChunk a' size m
    else (a.next, a')
  else addChunk a size m

/-- arena.cc:135-143 `arena_alloc`. -/
def arenaAlloc (a : Arena) (size : Nat) (m : Option Nat) : Nat × Arena :=
  if a.next % 4 = 0 then allocUnaligned a size m
  else
    let p := 4 - a.next % 4
    let (r, a') := allocUnaligned a (size + p) m
    (r + p, a')

/-- arena.cc:165-168 `arena_mark`. -/
def arenaMark (a : Arena) : Nat := a.next

/-- arena.cc:173-177, the loop of `arena_free_from_mark`: chunks are freed until the mark is in one. -/
def freeChunks (mark : Nat) : List AChunk → List AChunk
  | [] => []
  | c :: cs => if mark < c.start ∨ mark > c.stop then freeChunks mark cs else c :: cs

/-- arena.cc:170-187 `arena_free_from_mark`; `none`: the assertion failed. -/
def freeFromMark (a : Arena) (mark : Nat) : Option Arena :=
  let cs := freeChunks mark a.chunks
  if cs = [] ∧ mark ≠ 0 then none
  else some { a with next := mark, stop := (match cs with | [] => 0 | c :: _ => c.stop), chunks := cs }

/-- arena.cc:189-192 `arena_free_all`. -/
def freeAll (a : Arena) : Option Arena := freeFromMark a 0

end Couchstore
