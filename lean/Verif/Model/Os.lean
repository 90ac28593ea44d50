import Verif.Model.Disk

/-!
Model of /repo/src/os.cc: the file operations on top of the system calls of POSIX.

What the system calls answer is a list that the model consumes; nothing is assumed about it.  A run for which the list ends, or
whose next answer is not one of the call that is made, is not described by the list and has no result (`diverge`); so a loop
that goes on forever is `diverge` for all lists.  The calls are recorded with their answers.  Tracing has no effect except
where the code tests for it, and file descriptors and offsets are unbounded numbers.
-/

namespace Couchstore

/-- A system call. -/
inductive SysCall where
  | pread (n off : Nat)
  | pwrite (buf : Bytes) (off : Nat)
  | fdatasync
  | opn (noatime : Bool)
  | close (fd : Nat)
  | lseek
  | fadvise
deriving DecidableEq, Repr

/-- Its answer. -/
inductive SysAns where
  | read (bs : Bytes)
  | wrote (n : Nat)
  | did (v : Nat)
  | fail (errno : Nat)
deriving DecidableEq, Repr

/-- The answers that a call may give: not more bytes than asked for. -/
def SysCall.fits : SysCall → SysAns → Bool
  | _, .fail _ => true
  | .pread n _, .read bs => bs.length ≤ n
  | .pwrite buf _, .wrote n => n ≤ buf.length
  | .fdatasync, .did _ | .opn _, .did _ | .close _, .did _ | .lseek, .did _ | .fadvise, .did _ => true
  | _, _ => false

/-- `errno.h`. -/
def EPERM : Nat := 1
def ENOENT : Nat := 2
def EINTR : Nat := 4
def EBADF : Nat := 9
def EINVAL : Nat := 22
def ESPIPE : Nat := 29

/-- os.cc:81-98 `PosixFileOps::File`, without `mprotect_enabled`, which is not used; a closed file has no descriptor. -/
structure OsFile where
  fd : Option Nat
  period : Nat := 0
  tracing : Bool := false
  validate : Bool := false
  sinceSync : Nat := 0
deriving DecidableEq, Repr

/-- A file, what the system calls will answer, the calls made so far with their answers, and the error code for the caller. -/
structure OsState where
  file : OsFile
  answers : List SysAns
  log : List (SysCall × SysAns) := []
  errinfo : Option Nat := none
deriving DecidableEq, Repr

abbrev OsM := EStateM Err OsState

/-- A system call. -/
def sysCall (c : SysCall) : OsM SysAns := do
  let s ← get
  match s.answers with
  | [] => throw .diverge
  | a :: rest =>
    if c.fits a then
      set { s with answers := rest, log := s.log ++ [(c, a)] }
      pure a
    else throw .diverge

/-- The loops `do … while (rv == -1 && errno == EINTR)`, os.cc:119-121, 142-144, 270-273. -/
def retryGo (c : SysCall) : Nat → OsM SysAns
  | 0 => throw .diverge
  | n + 1 => do
    let a ← sysCall c
    if a = .fail EINTR then retryGo c n else pure a

/-- The same, as often as there are answers. -/
def retry (c : SysCall) : OsM SysAns := do retryGo c (← get).answers.length

/-- os.cc:41-45 `save_errno`. -/
def saveErrno (e : Nat) : OsM Unit := modify fun s => { s with errinfo := some e }

/-- os.cc:107-128 `pread`: the bytes, or an error code. -/
def osPread (n off : Nat) : OsM (Except Err Bytes) := do
  match ← retry (.pread n off) with
  | .read bs => pure (.ok bs)
  | .fail e => do saveErrno e; pure (.error .read)
  | _ => throw .diverge

/-- os.cc:322-338 `sync`. -/
def osSync : OsM (Except Err Unit) := do
  match ← sysCall .fdatasync with
  | .fail e => do saveErrno e; pure (.error (.io (-7)))
  | _ => pure (.ok ())

/-- os.cc:162-179, the loop that reads what was written: `tmp` is the buffer, `pos` the position of `read_buf` in it.  A failed
read is subtracted as -1 from what is left, unless tracing is on; then `read_buf` may get in front of the buffer. -/
def readBack : Nat → Bytes → Nat → Nat → Nat → OsM Bytes
  | 0, _, _, _, _ => throw .diverge
  | fuel + 1, tmp, pos, len, off => do
    if len = 0 then return tmp
    let tracing := (← get).file.tracing
    match ← sysCall (.pread len off) with
    | .read bs =>
      if tracing ∧ bs = [] then pure tmp
      else readBack fuel (tmp.take pos ++ bs ++ tmp.drop (pos + bs.length)) (pos + bs.length) (len - bs.length) (off + bs.length)
    | .fail _ =>
      if tracing then pure tmp
      else if pos = 0 then throw .overrun
      else readBack fuel tmp (pos - 1) (len + 1) (off - 1)
    | _ => throw .diverge

/-- os.cc:159-199, the validation of a write of `n` bytes; `tmp` is what the buffer on the stack contains before it is filled.
Answers if the checksums are the same. -/
def validateWrite (E : Env) (tmp buf : Bytes) (n off : Nat) : OsM Bool := do
  let len := if n < 8192 then n else 8192
  let got ← readBack ((← get).answers.length + 1) tmp 0 len off
  pure (E.crc32c (buf.take len) == E.crc32c (got.take len))

/-- os.cc:159, the test whether to validate. -/
def checkWrite (E : Env) (tmp buf : Bytes) (n off : Nat) : OsM Bool := do
  if (← get).file.validate then validateWrite E tmp buf n off else pure true

/-- os.cc:130-210 `pwrite`; `tmp` as above. -/
def osPwrite (E : Env) (tmp buf : Bytes) (off : Nat) : OsM (Except Err Nat) := do
  match ← retry (.pwrite buf off) with
  | .fail e => do saveErrno e; pure (.error (.io (-7)))
  | .wrote n => do
    let valid ← checkWrite E tmp buf n off
    if !valid then return .error .checksumFail
    modify fun s => { s with file := { s.file with sinceSync := s.file.sinceSync + n } }
    let f := (← get).file
    if f.period > 0 ∧ f.sinceSync ≥ f.period then
      let r ← osSync
      modify fun s => { s with file := { s.file with sinceSync := 0 } }
      match r with
      | .error e => pure (.error e)
      | .ok _ => pure (.ok n)
    else pure (.ok n)
  | _ => throw .diverge

/-- os.cc:224-243, the loop of `open`: without the flag `O_NOATIME` if the owner of the file is another user. -/
def openGo : Nat → Bool → OsM SysAns
  | 0, _ => throw .diverge
  | n + 1, noatime => do
    match ← sysCall (.opn noatime) with
    | .fail e =>
      if noatime ∧ e = EPERM then openGo n false
      else if e ≠ EINTR then pure (.fail e)
      else openGo n noatime
    | a => pure a

/-- os.cc:212-257 `open`; `rdwr` is the flag `O_RDWR`. -/
def osOpen (rdwr : Bool) : OsM (Except Err Unit) := do
  let s ← get
  if s.file.fd.isSome then throw .assertFail
  match ← openGo s.answers.length (!rdwr) with
  | .did fd => do
    modify fun s => { s with file := { fd := some fd } }
    pure (.ok ())
  | .fail e => do
    saveErrno e
    pure (.error (if e = ENOENT then .noSuchFile else .openFile))
  | _ => throw .diverge

/-- os.cc:259-281 `close`. -/
def osClose : OsM (Except Err Unit) := do
  match (← get).file.fd with
  | none => pure (.ok ())
  | some fd => do
    if fd < 3 then throw .assertFail
    let a ← retry (.close fd)
    let r : Except Err Unit ← match a with
      | .fail e => do saveErrno e; pure (.error (.io (-17)))
      | _ => pure (.ok ())
    modify fun s => { s with file := { s.file with fd := none } }
    pure r

/-- os.cc:283-288 `set_periodic_sync`. -/
def osSetPeriod (n : Nat) : OsM Unit := modify fun s => { s with file := { s.file with period := n } }

/-- os.cc:290-301 `set_tracing_enabled` and `set_write_validation_enabled`. -/
def osSetTracing : OsM Unit := modify fun s => { s with file := { s.file with tracing := true } }
def osSetValidation : OsM Unit := modify fun s => { s with file := { s.file with validate := true } }

/-- os.cc:309-319 `goto_eof`. -/
def osGotoEof : OsM (Except Err Nat) := do
  match ← sysCall .lseek with
  | .did v => pure (.ok v)
  | .fail e => do saveErrno e; pure (.error .read)
  | _ => throw .diverge

/-- os.cc:351-377 `advise`: `posix_fadvise` returns the error code, what is saved is whatever `errno` was. -/
def osAdvise (errno : Nat) : OsM (Except Err Unit) := do
  match ← sysCall .fadvise with
  | .fail e => do
    saveErrno errno
    pure (if e = EINVAL ∨ e = ESPIPE then .error .invalidArguments else if e = EBADF then .error .openFile else .ok ())
  | _ => pure (.ok ())

end Couchstore
