import Verif.Model.Arena

/-! What an arena is for: blocks of memory that do not overlap. -/

namespace Couchstore

/-- What a client does. -/
inductive ArenaOp where
  /-- `arena_alloc` (or `arena_alloc_unaligned`), with what `malloc` returns if it is called. -/
  | alloc (aligned : Bool) (size : Nat) (m : Option Nat)
  | mark
  /-- `arena_free_from_mark` with the `i`-th newest mark. -/
  | free (i : Nat)
  | freeAll
deriving DecidableEq, Repr

/-- The client's view: the blocks it has, newest first, as address and size, and its marks, each with the number of blocks there
were when it was taken. -/
structure Client where
  arena : Arena
  blocks : List (Nat × Nat)
  marks : List (Nat × Nat)
deriving DecidableEq, Repr

/-- One step; `none`: an assertion failed, or there is no such mark.  Freeing from a mark gives up the blocks, and the marks, that
are newer than it. -/
def Client.step (c : Client) : ArenaOp → Option Client
  | .alloc aligned size m =>
    let (r, a) := if aligned then arenaAlloc c.arena size m else allocUnaligned c.arena size m
    some (if r = 0 then { c with arena := a } else { c with arena := a, blocks := (r, size) :: c.blocks })
  | .mark => some { c with marks := (arenaMark c.arena, c.blocks.length) :: c.marks }
  | .free i =>
    match c.marks.drop i with
    | [] => none
    | (v, k) :: ms =>
      (freeFromMark c.arena v).map fun a =>
        { arena := a, blocks := c.blocks.drop (c.blocks.length - k), marks := (v, k) :: ms }
  | .freeAll => (Couchstore.freeAll c.arena).map fun a => { arena := a, blocks := [], marks := [] }

/-- Two pieces of memory have no byte in common. -/
def BytesApart (p n q m : Nat) : Prop := p + n ≤ q ∨ q + m ≤ p

/-- What `malloc` promises: new memory, not null and apart from the memory that the arena has. -/
def MallocOk (a : Arena) (n : Nat) (m : Option Nat) : Prop :=
  ∀ addr, m = some addr → addr ≠ 0 ∧ addr % 16 = 0 ∧ ∀ c ∈ a.chunks, BytesApart addr (16 + n) c.addr (16 + c.size)

/-- The bytes that an allocation needs, with padding. -/
def padded (a : Arena) (aligned : Bool) (size : Nat) : Nat :=
  if aligned = true ∧ a.next % 4 ≠ 0 then size + (4 - a.next % 4) else size

/-- What is asked of the client and of `malloc`: a padded allocation does not fail, and no mark is taken right after an allocation
that failed. -/
def ArenaOp.Allowed (c : Client) : ArenaOp → Prop
  | .alloc aligned size m =>
    MallocOk c.arena (max (padded c.arena aligned size) c.arena.chunkSize) m ∧ (padded c.arena aligned size ≠ size → m ≠ none)
  | .mark => c.arena.next ≤ c.arena.stop
  | .free i => i < c.marks.length
  | .freeAll => True

/-- The states that clients reach. -/
inductive ArenaRun (chunkSize : Nat) : Client → Prop
  | new : ArenaRun chunkSize ⟨newArena chunkSize, [], []⟩
  | step {c c' : Client} (op : ArenaOp) : ArenaRun chunkSize c → op.Allowed c → c.step op = some c' → ArenaRun chunkSize c'

end Couchstore
