import Verif.Model.Disk

/-!
Model of /repo/src/os_win.cc: the file operations on top of the calls of Windows.

What the calls of the system answer are arguments; nothing is assumed about them.  Sizes that are given to the system are
32-bit numbers there, so the lowest 32 bits of a size are used.  Offsets are natural numbers.  Handles are numbers.
-/

namespace Couchstore

/-- What was asked of the system, and what it answered. -/
inductive WinEvent where
  /-- `ReadFile` of `n` bytes at an offset given by two numbers -/
  | read (n low high : Nat) (answer : Except Nat Bytes)
  /-- `WriteFile` -/
  | write (buf : Bytes) (low high : Nat) (answer : Except Nat Nat)
  /-- `FlushFileBuffers` -/
  | flush (answer : Except Nat Unit)

/-- os_win.cc:72-87 `File`; without a handle it is `INVALID_HANDLE_VALUE`. -/
structure WinFile where
  fh : Option Nat
  period : Nat := 0
  sinceSync : Nat := 0
deriving DecidableEq, Repr

/-- A file, what was asked so far, and the error code for the caller. -/
structure WinState where
  file : WinFile
  log : List WinEvent := []
  errinfo : Option Nat := none

/-- os_win.cc:110-111, 139-140: the two halves of an offset. -/
def winOffset (off : Nat) : Nat × Nat := (off % 2 ^ 32, off / 2 ^ 32 % 2 ^ 31)

/-- `ERROR_HANDLE_EOF` -/
def winEof : Nat := 38

/-- os_win.cc:95-122 `pread`; `answer` is that of `ReadFile`.  At the end of the file nothing has been read. -/
def winPread (s : WinState) (n off : Nat) (answer : Except Nat Bytes) : Except Err Bytes × WinState :=
  let (low, high) := winOffset off
  let s := { s with log := s.log ++ [WinEvent.read (n % 2 ^ 32) low high answer] }
  match answer with
  | .ok bs => (.ok bs, s)
  | .error e =>
    let s := { s with errinfo := some e }
    if e = winEof then (.ok [], s) else (.error .read, s)

/-- os_win.cc:245-255 `sync`. -/
def winSync (s : WinState) (answer : Except Nat Unit) : Except Err Unit × WinState :=
  let s := { s with log := s.log ++ [.flush answer] }
  match answer with
  | .ok _ => (.ok (), s)
  | .error e => (.error (.io (-7)), { s with errinfo := some e })

/-- os_win.cc:124-158 `pwrite`; `answer` is that of `WriteFile`, `flush` that of `FlushFileBuffers`, if it is called.  What is added to the
amount that is not synchronised (:147) is the result of `WriteFile`, which is 1. -/
def winPwrite (s : WinState) (buf : Bytes) (off : Nat) (answer : Except Nat Nat) (flush : Except Nat Unit) : Except Err Nat × WinState :=
  let (low, high) := winOffset off
  let s := { s with log := s.log ++ [WinEvent.write (buf.take (buf.length % 2 ^ 32)) low high answer] }
  match answer with
  | .error e => (.error (.io (-7)), { s with errinfo := some e })
  | .ok n =>
    let s := { s with file := { s.file with sinceSync := s.file.sinceSync + 1 } }
    if s.file.period > 0 ∧ s.file.sinceSync ≥ s.file.period then
      let (r, s) := winSync s flush
      let s := { s with file := { s.file with sinceSync := 0 } }
      match r with
      | .error e => (.error e, s)
      | .ok _ => (.ok n, s)
    else (.ok n, s)

/-- os_win.cc:160-209 `open`: `none` is a failed assertion.  `answer` is that of `CreateFileA`. -/
def winOpen (s : WinState) (answer : Except Nat Nat) : Option (Except Err Unit × WinState) :=
  if s.file.fh.isSome then none
  else
    match answer with
    | .ok fh => some (.ok (), { s with file := { fh := some fh } })
    | .error e => some (.error (if e = 2 ∨ e = 0 then .noSuchFile else .openFile), { s with errinfo := some e })

/-- os_win.cc:211-223 `close`: the file keeps its handle. -/
def winClose (s : WinState) (answer : Except Nat Unit) : Except Err Unit × WinState :=
  match answer with
  | .ok _ => (.ok (), s)
  | .error e => (.error (.io (-17)), { s with errinfo := some e })

/-- os_win.cc:225-230 `set_periodic_sync`. -/
def winSetPeriod (s : WinState) (n : Nat) : WinState := { s with file := { s.file with period := n } }

end Couchstore
