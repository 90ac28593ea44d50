import Verif.Model.OsWin

/-! What was asked of Windows. -/

namespace Couchstore

/-- The bytes and the number of writes since the last `FlushFileBuffers`, successful or not. -/
def winUnsynced (log : List WinEvent) : Nat × Nat :=
  log.foldl (fun k ev =>
    match ev with
    | .write _ _ _ (.ok n) => (k.1 + n, k.2 + 1)
    | .flush _ => (0, 0)
    | _ => k) (0, 0)

/-- What is done with an open file. -/
inductive WinOp where
  | read (n off : Nat) (answer : Except Nat Bytes)
  | write (buf : Bytes) (off : Nat) (answer : Except Nat Nat) (flush : Except Nat Unit)
  | sync (answer : Except Nat Unit)
  | setPeriod (n : Nat)

/-- Does it. -/
def winDo (s : WinState) : WinOp → WinState
  | .read n off a => (winPread s n off a).2
  | .write buf off a fl => (winPwrite s buf off a fl).2
  | .sync a => (winSync s a).2
  | .setPeriod n => winSetPeriod s n

/-- The states of a file after it was opened. -/
def winAfter (fh : Nat) (ops : List WinOp) : WinState := ops.foldl winDo { file := { fh := some fh } }

end Couchstore
