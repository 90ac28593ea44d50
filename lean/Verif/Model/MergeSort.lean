import Verif.Model.Db

/-
Model of /repo/src/merge_sort.h.

A stream is the list of the elements that are still to be read from it; writing appends, rewinding goes
to the front (the tapes are written completely before they are rewound and read).  The functions that
read, write and create streams do not throw here: an exception leaves `merge_sort` without a result.
Numbers are unbounded; the code's `unsigned long long` could overflow only with more than 2^63 elements.
-/

namespace Couchstore

/-- merge_sort.h:52-84 `struct Tape`. -/
structure Tape (α : Type) where
  stream : List α
  size : Nat
deriving DecidableEq, Repr

/-- merge_sort.h:95-96: a tape with a new stream. -/
def Tape.new {α : Type} : Tape α := ⟨[], 0⟩

/-- merge_sort.h:69-75 `Tape::pop`; `none`: the stream is read past its end (where it should not be: the
size is not 0), an outcome of its own. -/
def Tape.pop {α : Type} (t : Tape α) : Option (Option α × Tape α) :=
  if t.size = 0 then some (none, t)
  else
    match t.stream with
    | [] => none
    | x :: xs => some (some x, ⟨xs, t.size - 1⟩)

/-- merge_sort.h:77-80 `Tape::push`. -/
def Tape.push {α : Type} (t : Tape α) (x : α) : Tape α := ⟨t.stream ++ [x], t.size + 1⟩

/-- merge_sort.h:106-117: read up to `blockSize` elements (`n` were read); the elements read, newest
first, the rest of the source and `continue_reading`. -/
def readBlock {α : Type} (blockSize : Nat) : List α → List α → Nat → List α × List α × Bool
  | [], list, _ => (list, [], false)
  | x :: src, list, n =>
    if n + 1 = blockSize then (x :: list, src, true) else readBlock blockSize src (x :: list) (n + 1)

/-- The order `list.sort(less)` establishes. -/
def leOf {α : Type} (less : α → α → Bool) (a b : α) : Bool := !less b a

/-- merge_sort.h:122-126: write the list to a tape. -/
def pushAll {α : Type} (t : Tape α) (l : List α) : Tape α := l.foldl Tape.push t

/-- merge_sort.h:98-129: distribute sorted blocks to the two tapes.  Returns the tapes and the number of
elements.  `fuel`: the number of blocks is at most one more than that of elements. -/
def distribute {α : Type} (less : α → α → Bool) (blockSize : Nat) :
    Nat → List α → Tape α → Tape α → Bool → Nat → Option (Tape α × Tape α × Nat)
  | 0, _, _, _, _, _ => none
  | fuel + 1, src, d0, d1, target, count =>
    match readBlock blockSize src [] 0 with
    | (list, src', cont) =>
      if list.isEmpty then some (d0, d1, count)
      else
        let sorted := sortBy (leOf less) list
        let d0' := if target then d0 else pushAll d0 sorted
        let d1' := if target then pushAll d1 sorted else d1
        if cont then distribute less blockSize fuel src' d0' d1' (!target) (count + list.length)
        else some (d0', d1', count + list.length)

/-- merge_sort.h:145-163: the variables of one pass. -/
structure MergeState (α : Type) where
  s0 : Tape α
  s1 : Tape α
  d0 : Tape α
  d1 : Tape α
  left : Option α
  right : Option α
  rem0 : Nat
  rem1 : Nat
  destRem : Nat
  target : Bool
deriving DecidableEq, Repr

/-- Push to the destination tape that is the target. -/
def MergeState.push {α : Type} (s : MergeState α) (x : α) : MergeState α :=
  if s.target then { s with d1 := s.d1.push x } else { s with d0 := s.d0.push x }

/-- merge_sort.h:169-175: start a new block. -/
def MergeState.newBlock {α : Type} (blockSize : Nat) (s : MergeState α) : MergeState α :=
  if s.destRem = 0 then
    { s with rem0 := min s.s0.size (blockSize / 2), rem1 := min s.s1.size (blockSize / 2)
             destRem := blockSize, target := !s.target }
  else s

/-- merge_sort.h:176-179. -/
def MergeState.fillLeft {α : Type} (s : MergeState α) : Option (MergeState α) :=
  if s.rem0 ≠ 0 ∧ s.left.isNone then
    s.s0.pop.map fun (x, t) => { s with left := x, s0 := t, rem0 := s.rem0 - 1 }
  else some s

/-- merge_sort.h:180-183. -/
def MergeState.fillRight {α : Type} (s : MergeState α) : Option (MergeState α) :=
  if s.rem1 ≠ 0 ∧ s.right.isNone then
    s.s1.pop.map fun (x, t) => { s with right := x, s1 := t, rem1 := s.rem1 - 1 }
  else some s

/-- merge_sort.h:184-204: write the smaller one; `none`: `runtime_error`. -/
def MergeState.emit {α : Type} (less : α → α → Bool) (s : MergeState α) : Option (MergeState α) :=
  match s.left, s.right with
  | some l, some r =>
    if less r l then some { s.push r with right := none } else some { s.push l with left := none }
  | some l, none => some { s.push l with left := none }
  | none, some r => some { s.push r with right := none }
  | none, none => none

/-- merge_sort.h:168-206: one round of the inner loop. -/
def MergeState.step {α : Type} (less : α → α → Bool) (blockSize : Nat) (s : MergeState α) : Option (MergeState α) :=
  ((s.newBlock blockSize).fillLeft.bind fun s => s.fillRight.bind fun s => s.emit less).map
    fun s => { s with destRem := s.destRem - 1 }

/-- merge_sort.h:168-206 `do … while (--elems_rem)`, `elems_rem` rounds (at least one element is there:
137 returns otherwise). -/
def mergeLoop {α : Type} (less : α → α → Bool) (blockSize : Nat) : Nat → MergeState α → Option (MergeState α)
  | 0, s => some s
  | n + 1, s =>
    match s.step less blockSize with
    | none => none
    | some s' => mergeLoop less blockSize n s'

/-- merge_sort.h:141-209: the passes; the block size given is that before the pass.  `fuel`: the block
size doubles in each pass. -/
def mergePasses {α : Type} (less : α → α → Bool) (count : Nat) : Nat → Nat → Tape α → Tape α → Option (List α)
  | 0, _, _, _ => none
  | fuel + 1, blockSize, d0, d1 =>
    let bs := blockSize * 2
    match mergeLoop less bs count ⟨d0, d1, .new, .new, none, none, 0, 0, 0, true⟩ with
    | none => none
    | some s =>
      if bs < count then mergePasses less count fuel bs s.d0 s.d1
      else some (if s.target then s.d1.stream else s.d0.stream)

/-- merge_sort.h:43-214 `merge_sort`; `none`: an exception, a read past the end of a tape, or no termination. -/
def mergeSortStream {α : Type} (less : α → α → Bool) (blockSize : Nat) (source : List α) : Option (List α) :=
  match distribute less blockSize (source.length + 2) source .new .new false 0 with
  | none => none
  | some (d0, d1, count) =>
    if count ≤ blockSize then some d0.stream
    else mergePasses less count (count + 1) blockSize d0 d1

end Couchstore
