import Verif.Model.Bytes

/-!
Model of what the command line tools of the view engine read from their standard input:
/repo/src/views/view_group.cc (`couchstore_read_view_group_info`), /repo/src/views/util.cc and the `main`
functions in /repo/src/views/bin.  The standard input is the list of the bytes that are left; it ends where
the list ends.  Reading does not fail otherwise.  Memory is available, but not for 2^63 bytes; memory of size
0 is not a null pointer.  An `int` has 32 bits, a `size_t` 64.  What the tools print is not modelled, nor the
thread that waits for the end of the input after the arguments have been read.
-/

namespace Couchstore.ViewTools

/-- Why a reading function does not return. -/
inductive Stop where
  /-- it reports an error; in `main`, the program exits with this status -/
  | fail (status : Int)
  /-- the behaviour is undefined -/
  | undefined
deriving DecidableEq, Repr

/-- Functions that read the standard input. -/
abbrev In (α : Type) := Bytes → Except Stop (α × Bytes)

namespace In

def pure {α : Type} (a : α) : In α := fun i => .ok (a, i)
def fail {α : Type} (status : Int) : In α := fun _ => .error (.fail status)
def undefined {α : Type} : In α := fun _ => .error .undefined
def bind {α β : Type} (m : In α) (k : α → In β) : In β := fun i =>
  match m i with
  | .ok (a, i) => k a i
  | .error e => .error e

instance : Monad In where
  pure := In.pure
  bind := In.bind

/-- Reports another status. -/
def orFail {α : Type} (m : In α) (status : Int) : In α := fun i =>
  match m i with
  | .error (.fail _) => .error (.fail status)
  | r => r

end In

/-- include/libcouchstore/error.h:27-34. -/
def errAlloc : Int := -3
def errRead : Int := -4
def errArgs : Int := -10

/-- C `fgets` with a buffer of `size` bytes: at most `size - 1` bytes, up to and with the first newline. -/
def fgets : Nat → Bytes → Bytes × Bytes
  | 0, i => ([], i)
  | _ + 1, [] => ([], [])
  | n + 1, b :: i => if b = 10 then ([b], i) else let r := fgets n i; (b :: r.1, r.2)

/-- The string that begins at the start of a buffer. -/
def cstr (b : Bytes) : Bytes := b.takeWhile (· ≠ 0)

/-- views/util.cc:202-216 `couchstore_read_line`. -/
def readLine (size : Nat) : In Bytes := fun i =>
  let (l, i) := fgets (size - 1) i
  if l = [] then .error (.fail errRead)
  else
    let s := cstr l
    .ok (if s.getLast? = some 10 then s.dropLast else s, i)

def isSpace (b : UInt8) : Bool := b = 32 ∨ 9 ≤ b ∧ b ≤ 13
def isDigit (b : UInt8) : Bool := 48 ≤ b ∧ b ≤ 57

/-- The number that a list of digits means. -/
def digitsVal (l : Bytes) : Nat := l.foldl (fun a b => a * 10 + (b.toNat - 48)) 0

/-- A sign at the start of a number: is it a minus, and what follows. -/
def splitSign : Bytes → Bool × Bytes
  | 45 :: s => (true, s)
  | 43 :: s => (false, s)
  | s => (false, s)

/-- `sscanf(buf, "%" SCNu64, &val)`: white space, a sign, digits; a number that does not fit is undefined
behaviour (C11 7.21.6.2:10), a negative one wraps around. -/
def scanU64 (s : Bytes) : Except Stop Nat :=
  let s := s.dropWhile isSpace
  let ds := (splitSign s).2.takeWhile isDigit
  if ds = [] then .error (.fail errRead)
  else
    let v := digitsVal ds
    if 2 ^ 64 ≤ v then .error .undefined else .ok (if (splitSign s).1 then (2 ^ 64 - v) % 2 ^ 64 else v)

/-- views/util.cc:218-235 `couchstore_read_int`. -/
def readInt (size : Nat) : In Nat := do
  let l ← readLine size
  fun i => match scanU64 l with
    | .ok v => .ok (v, i)
    | .error e => .error e

/-- The conversion of `uint64_t` to `int`. -/
def toInt32 (n : Nat) : Int := if n % 2 ^ 32 < 2 ^ 31 then (n % 2 ^ 32 : Nat) else (n % 2 ^ 32 : Nat) - 2 ^ 32

/-- `fread(p, size, 1, stdin)` with 0 < size. -/
def fread (size : Nat) (status : Int) : In Bytes := fun i =>
  if size ≤ i.length then .ok (i.take size, i.drop size) else .error (.fail status)

/-- A view: its name and its reduce function. -/
structure ViewDef where
  name : Bytes
  reducer : Bytes
deriving DecidableEq, Repr

/-- A spatial view: the number of dimensions, and the box as it is in memory (8 bytes a number, two numbers a
dimension). -/
structure SpatialDef where
  dimension : Nat
  mbb : Bytes
deriving DecidableEq, Repr

/-- The indexes of a group, in the order of their ids: one list of views for each b-tree, or spatial views. -/
inductive GroupViews where
  | mapreduce (btrees : List (List ViewDef))
  | spatial (views : List SpatialDef)
deriving DecidableEq, Repr

/-- `view_group_info_t`, view_group.h:63-70. -/
structure GroupInfo where
  filepath : Bytes
  headerPos : Nat
  views : GroupViews
deriving DecidableEq, Repr

/-- `num_btrees`. -/
def GroupInfo.numBtrees (g : GroupInfo) : Nat :=
  match g.views with
  | .mapreduce l => l.length
  | .spatial l => l.length

/-- `n` times the body of a loop. -/
def times {α : Type} (m : In α) : Nat → In (List α)
  | 0 => In.pure []
  | n + 1 => do
    let a ← m
    let l ← times m n
    In.pure (a :: l)

/-- view_group.cc:320-367, the body of the inner loop of `read_btree_info`.  `reduce_len` is an `int`: if
it is -1, then 2^64-1 bytes are read into memory of size 0; if it is 2^31-1, then adding 1 overflows; for the
other negative numbers there is no memory.  `fread` of 0 bytes returns 0. -/
def readViewDef : In ViewDef := do
  let name ← (readLine 4096).orFail errArgs
  let len ← (readInt 4096).orFail errArgs
  let len := toInt32 len
  if len = -1 ∨ len = 2 ^ 31 - 1 then In.undefined
  else if len < 0 then In.fail errAlloc
  else if len = 0 then In.fail errArgs
  else do
    let r ← fread len.toNat errArgs
    In.pure ⟨name, cstr r⟩

/-- view_group.cc:290-318, the body of the outer loop. -/
def readBtreeDef : In (List ViewDef) := do
  let n ← (readInt 4096).orFail errArgs
  let n := toInt32 n
  if n < 0 then In.fail errAlloc else times readViewDef n.toNat

/-- view_group.cc:392-422, the body of the loop of `read_spatial_info`. -/
def readSpatialDef : In SpatialDef := do
  let n ← (readInt 24).orFail errArgs
  let n := n % 2 ^ 16
  if n = 0 then In.pure ⟨0, []⟩
  else do
    let b ← fread (n * 2 * 8) errArgs
    In.pure ⟨n, b⟩

/-- view_group.cc:195-272 `couchstore_read_view_group_info`, with `read_btree_info` (:276-371) and
`read_spatial_info` (:375-424).  Null is returned as a failure (its status is not looked at). -/
def readGroupInfo : In GroupInfo := do
  let type ← readInt 4096
  if type ≠ 0 ∧ type ≠ 1 then In.fail errArgs
  else do
    let path ← readLine 4096
    let pos ← readInt 4096
    let n ← readInt 4096
    let n := toInt32 n
    if n < 0 then In.fail errAlloc
    else if type = 0 then do
      let l ← times readBtreeDef n.toNat
      In.pure ⟨path, pos, .mapreduce l⟩
    else do
      let l ← times readSpatialDef n.toNat
      In.pure ⟨path, pos, .spatial l⟩

/-- How a tool goes on. -/
inductive ToolRun (α : Type) where
  /-- it calls the function of the library with these arguments -/
  | call (args : α)
  /-- it exits without -/
  | exit (status : Int)
  | undefined
deriving DecidableEq, Repr

/-- The end of each `main`: `ret = (ret < 0) ? (100 + ret) : ret`. -/
def runTool {α : Type} (m : In α) (input : Bytes) : ToolRun α :=
  match m input with
  | .ok (a, _) => .call a
  | .error (.fail s) => .exit (if s < 0 then 100 + s else s)
  | .error .undefined => .undefined

/-- bin/couch_view_group_cleanup.cc:35-66. -/
def cleanupArgs : In GroupInfo := readGroupInfo.orFail errAlloc

structure BuilderArgs where
  group : GroupInfo
  tmpDir : Bytes
  dest : Bytes
  /-- for the id b-tree and for each view -/
  sources : List Bytes
deriving DecidableEq, Repr

/-- bin/couch_view_index_builder.cc:35-121. -/
def builderArgs : In BuilderArgs := do
  let group ← readGroupInfo.orFail errAlloc
  let tmpDir ← (readLine 8192).orFail errArgs
  if group.numBtrees + 1 = 2 ^ 31 then In.undefined
  else do
    let dest ← (readLine 8192).orFail errArgs
    let sources ← times ((readLine 8192).orFail errArgs) (group.numBtrees + 1)
    In.pure ⟨group, tmpDir, dest, sources⟩

structure UpdaterArgs where
  tmpDir : Bytes
  group : GroupInfo
  sorted : Bool
  sources : List Bytes
  batchSize : Int
  header : Bytes
deriving DecidableEq, Repr

/-- bin/couch_view_index_updater.cc:66-143.  When the header cannot be read, `ret` is still
COUCHSTORE_SUCCESS from reading its size. -/
def updaterArgs : In UpdaterArgs := do
  let tmpDir ← (readLine 8192).orFail errArgs
  let group ← readGroupInfo.orFail errAlloc
  let flag ← (readLine 8192).orFail errArgs
  if group.numBtrees + 1 = 2 ^ 31 then In.undefined
  else do
    let sources ← times ((readLine 8192).orFail errArgs) (group.numBtrees + 1)
    let batch ← (readInt 8192).orFail errArgs
    let size ← readInt 8192
    if 2 ^ 63 ≤ size then In.fail errAlloc
    else if size = 0 then In.fail 0
    else do
      let header ← fread size 0
      In.pure ⟨tmpDir, group, flag.head? = some 115, sources, toInt32 batch, header⟩

structure CompactorArgs where
  target : Bytes
  totalChanges : Nat
  group : GroupInfo
  header : Bytes
deriving DecidableEq, Repr

/-- view_group.h:31. -/
def maxViewHeaderSize : Nat := 20 * 1024 * 1024

/-- bin/couch_view_group_compactor.cc:69-125. -/
def compactorArgs : In CompactorArgs := do
  let target ← (readLine 8192).orFail errArgs
  let total ← (readInt 8192).orFail errArgs
  let group ← readGroupInfo.orFail errAlloc
  let size ← (readInt 8192).orFail errArgs
  if maxViewHeaderSize < size then In.fail errArgs
  else if size = 0 then In.fail errArgs
  else do
    let header ← fread size errArgs
    In.pure ⟨target, total, group, header⟩

structure MergerArgs where
  /-- `i`, `v` or `s` -/
  type : UInt8
  /-- for spatial views -/
  tmpDir : Bytes
  sources : List Bytes
  dest : Bytes
deriving DecidableEq, Repr

/-- `fscanf(stdin, "%d\n", &n)`: as `scanU64`, on the input; then white space is skipped. -/
def fscanInt : In Int := fun i =>
  let i := i.dropWhile isSpace
  let ds := (splitSign i).2.takeWhile isDigit
  if ds = [] then .error (.fail 1)
  else
    let v : Int := if (splitSign i).1 then - (digitsVal ds : Int) else digitsVal ds
    if v < - 2 ^ 31 ∨ 2 ^ 31 ≤ v then .error .undefined
    else .ok (v, ((splitSign i).2.dropWhile isDigit).dropWhile isSpace)

/-- `fscanf(stdin, "%c\n", &view_file_type)`: one byte; then white space is skipped. -/
def scanType : In UInt8
  | [] => .error (.fail 1)
  | b :: i => .ok (b, i.dropWhile isSpace)

/-- bin/couch_view_file_merger.cc:45-136. -/
def mergerArgs : In MergerArgs := do
  let type ← scanType
  if type ≠ 105 ∧ type ≠ 118 ∧ type ≠ 115 then In.fail 1
  else do
    let tmpDir ← if type = 115 then (readLine 8192).orFail 1 else In.pure []
    let n ← fscanInt
    if n ≤ 0 then In.fail 1
    else do
      let sources ← times ((readLine 8192).orFail 1) n.toNat
      let dest ← (readLine 8192).orFail 1
      In.pure ⟨type, tmpDir, sources, dest⟩

end Couchstore.ViewTools
