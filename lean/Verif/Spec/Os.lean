import Verif.Model.Os
import Verif.Spec.Crc

/-!
What the system calls of a run amount to.
-/

namespace Couchstore

/-- How a call changes the amount that is not synchronised. -/
def unsyncedStep (k : Nat) : SysCall × SysAns → Nat
  | (.pwrite _ _, .wrote n) => k + n
  | (.fdatasync, _) => 0
  | _ => k

/-- How much was written since the last `fdatasync`, successful or not. -/
def unsynced (log : List (SysCall × SysAns)) : Nat := log.foldl unsyncedStep 0

/-- How a call changes what was read last from the offset `x`. -/
def lastReadStep (x : Nat) (k : Option UInt8) : SysCall × SysAns → Option UInt8
  | (.pread _ off, .read bs) => if off ≤ x ∧ x < off + bs.length then bs[x - off]? else k
  | _ => k

/-- What was read last from the offset `x`. -/
def lastRead (log : List (SysCall × SysAns)) (x : Nat) : Option UInt8 := log.foldl (lastReadStep x) none

/-- All reads gave something. -/
def ReadsGood (log : List (SysCall × SysAns)) : Prop :=
  ∀ n off a, (SysCall.pread n off, a) ∈ log → ∃ bs, a = .read bs ∧ bs ≠ []

/-- What can be done with an open file. -/
inductive OsOp where
  | pread (n off : Nat)
  | pwrite (tmp buf : Bytes) (off : Nat)
  | sync
  | gotoEof
  | advise (errno : Nat)
  | setPeriod (n : Nat)
  | setTracing
  | setValidation
deriving DecidableEq, Repr

/-- The buffer on the stack has 8192 bytes, whatever they are. -/
def OsOp.Fits : OsOp → Prop
  | .pwrite tmp _ _ => tmp.length = 8192
  | _ => True

/-- Does it, and tells how it failed. -/
def osDo (E : Env) : OsOp → OsM (Except Err Unit)
  | .pread n off => do return (← osPread n off).map fun _ => ()
  | .pwrite tmp buf off => do return (← osPwrite E tmp buf off).map fun _ => ()
  | .sync => osSync
  | .gotoEof => do return (← osGotoEof).map fun _ => ()
  | .advise e => osAdvise e
  | .setPeriod n => do osSetPeriod n; return .ok ()
  | .setTracing => do osSetTracing; return .ok ()
  | .setValidation => do osSetValidation; return .ok ()

/-- The states of a file after it was opened, with any operations that succeed or fail, except that no write was found to be
invalid. -/
inductive OsRun (E : Env) : OsState → Prop
  | opened (fd : Nat) (answers : List SysAns) : OsRun E { file := { fd := some fd }, answers := answers }
  | step {s s' : OsState} {r : Except Err Unit} (op : OsOp) (h : OsRun E s) (ht : op.Fits) (e : osDo E op s = .ok r s')
      (hv : r ≠ .error .checksumFail) : OsRun E s'

end Couchstore
