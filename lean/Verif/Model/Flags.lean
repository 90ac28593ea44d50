import Verif.Model.Open

/-
Model of the open flags: /repo/src/couch_db.cc and /repo/include/libcouchstore/couch_db.h.
-/

namespace Couchstore

/-- internal.h:76-96 `struct tree_file_options`. -/
structure TreeFileOptions where
  bufIoEnabled : Bool
  readUnitSize : Nat
  readBuffers : Nat
  kpNodesize : Nat
  kvNodesize : Nat
  periodicSyncBytes : Nat
  tracing : Bool
  writeValidation : Bool
  mprotect : Bool
deriving DecidableEq, Repr

/-- `flags & mask` used as a condition. -/
def flagSet (flags mask : Nat) : Bool := flags &&& mask != 0

/-- couch_db.cc:783-803: the settings of the read buffers (enabled, unit size, count). -/
def bufferOptions (flags : Nat) : Bool × Nat × Nat :=
  if flagSet flags 8 then (false, 4 * 1024, 16)
  else if flagSet flags 0xff00 then
    let unitIndex := (flags >>> 12) &&& 0xf
    let countIndex := (flags >>> 8) &&& 0xf
    (true,
      if unitIndex ≠ 0 then 1024 * (1 <<< (unitIndex - 1)) else 4 * 1024,
      if countIndex ≠ 0 then 8 * (1 <<< (countIndex - 1)) else 16)
  else (true, 4 * 1024, 16)

/-- couch_db.cc:805-820: the node sizes (of interior nodes, of leaves). -/
def nodesizeOptions (flags : Nat) : Nat × Nat :=
  if flagSet flags 0xff0000 then
    let kp := (flags >>> 20) &&& 0xf
    let kv := (flags >>> 16) &&& 0xf
    (if kp ≠ 0 then kp * 1024 else 1279, if kv ≠ 0 then kv * 1024 else 1279)
  else (1279, 1279)

/-- couch_db.cc:822-827: the interval of automatic syncs.  `none`: a shift by a negative number, which is
undefined. -/
def periodicSyncOption (flags : Nat) : Option Nat :=
  if flagSet flags 0x1f000000 then
    let n := (flags >>> 24) &&& 0x1f
    if n = 0 then none else some (1024 <<< (n - 1))
  else some 0

/-- couch_db.cc:778-843 `get_tree_file_options_from_flags` (not on Windows).  The flags are a 64-bit
word.  No setting overflows its type: all indexes have four or five bits. -/
def treeFileOptions (flags : Nat) : Option TreeFileOptions := do
  let (enabled, unit, count) := bufferOptions flags
  let (kp, kv) := nodesizeOptions flags
  let sync ← periodicSyncOption flags
  pure { bufIoEnabled := enabled, readUnitSize := unit, readBuffers := count, kpNodesize := kp, kvNodesize := kv
         periodicSyncBytes := sync, tracing := flagSet flags 0x20000000
         writeValidation := flagSet flags 0x40000000, mprotect := flagSet flags 0x800000000 }

/-- couch_db.cc:867-960: how `couchstore_open_db_ex` reads the other flags. -/
def OpenFlags.ofWord (flags : Nat) : Option OpenFlags := do
  let o ← treeFileOptions flags
  pure { create := flagSet flags 1, rdonly := flagSet flags 2, excl := flagSet flags 16, legacyCrc := flagSet flags 4
         noCommitAtCreate := flagSet flags 32, recovery := flagSet flags 0x1000000000
         kvThr := o.kvNodesize, kpThr := o.kpNodesize }

/-- couch_db.cc:845-857 `couchstore_encode_periodic_sync_flags`.  `std::log2` is the integer part of the
logarithm: below 2^31 the conversion to double is exact and the logarithm cannot be rounded up to an
integer; above, the result is cut off at 30 anyway.  `none`: the logarithm of 0 (minus infinity) is
converted to an unsigned integer, which is undefined. -/
def encodePeriodicSync (bytes : UInt64) : Option Nat :=
  let kilobytes := (bytes + 1023) / 1024
  if kilobytes = 0 then none
  else some ((min (Nat.log2 kilobytes.toNat) 30 + 1) <<< 24)

end Couchstore
