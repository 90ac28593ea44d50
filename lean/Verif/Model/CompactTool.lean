import Verif.Model.CompactHook
import Verif.Model.DbInfoTool

/-! The program that compacts a file, /repo/src/compactor.cc.  Not modelled: the parsing of the command line, and what it prints. -/

namespace Couchstore

/-- The options (compactor.cc:85-121), with the numbers that were given. -/
structure CompactArgs where
  /-- `--purge-before` -/
  purgeBefore : Option Int
  /-- `--purge-only-upto-seq` -/
  purgeUpto : Option Nat
  /-- `--dropdeletes` -/
  dropDeletes : Bool
  /-- `--upgrade` -/
  upgrade : Bool
deriving DecidableEq, Repr

/-- compactor.cc `time_purge_ctx` (internal.h): three 64 bit numbers. -/
structure TimePurge where
  beforeTs : Nat
  beforeSeq : Nat
  maxPurged : Nat
deriving DecidableEq, Repr

/-- compactor.cc:51-74 `time_purge_hook`.  That the last call sets the purge sequence number is in `toolCompaction`. -/
def timePurgeHook : CompactFilter TimePurge := fun c d _ =>
  match d with
  | none => (c, .keep)
  | some d =>
    if d.deleted = true ∧ 16 ≤ d.revMeta.length then
      if beDec (slice d.revMeta 8 4) < c.beforeTs ∧ (c.beforeSeq = 0 ∨ d.dbSeq ≤ c.beforeSeq) then
        ({ c with maxPurged := if c.maxPurged < d.dbSeq then d.dbSeq else c.maxPurged }, .drop)
      else (c, .keep)
    else (c, .keep)

/-- The context after the options were read: compactor.cc:79, :86-111.  An `int` is converted to 64 bits without sign. -/
def CompactArgs.timePurge (a : CompactArgs) : TimePurge :=
  { beforeTs := ((a.purgeBefore.getD 0) % 2 ^ 64).toNat, beforeSeq := a.purgeUpto.getD 0, maxPurged := 0 }

/-- What the world does: random bytes for the key of the new file, and how raw operations misbehave. -/
structure ToolWorld where
  ctx : Bytes
  faults : List Fault
  bodyFaults : List Fault
  localFaults : List Fault

/-- compactor.cc:140-147, with what `time_purge_hook` does at the end (:54-58). -/
def toolCompaction (getKey : KeyGetter) (a : CompactArgs) (w : ToolWorld) (source : Db) : HookedCompaction TimePurge :=
  { source := source, dropDeletes := a.dropDeletes, upgrade := a.upgrade
    filter := if a.purgeBefore.isSome then some timePurgeHook else none
    user := a.timePurge, getKey := getKey, ctx := w.ctx, faults := w.faults, bodyFaults := w.bodyFaults
    localFaults := w.localFaults
    purge := fun c => if a.purgeBefore.isSome then some c.maxPurged else none
    hook := none }

/-- How the program ends. -/
inductive ToolEnd where
  /-- status 0; the handle of the new file, which is closed -/
  | done (t : Db)
  /-- the error is printed, and the status is not 0 -/
  | failed (e : Err)
  /-- ended by an exception -/
  | aborted

/-- `std::stoi` and `std::stoull` throw if the number does not fit (compactor.cc:89, :104). -/
def CompactArgs.throws (a : CompactArgs) : Bool :=
  (match a.purgeBefore with
    | none => false
    | some v => decide (v < -2 ^ 31) || decide (2 ^ 31 ≤ v)) ||
  (match a.purgeUpto with
    | none => false
    | some n => decide (2 ^ 64 ≤ n))

/-- compactor.cc:76-161 `main`. -/
def compactMain (E : Env) (getKey : KeyGetter) (a : CompactArgs) (w : ToolWorld) (f : File) : ToolEnd :=
  if a.throws then .aborted
  else
    match openDb E infoFlags getKey [] f with
    | .error e _ => .failed e
    | .ok db _ =>
      match compactHooked E (toolCompaction getKey a w db) with
      | .error e => .failed e
      | .ok t => .done t

end Couchstore
