import Verif.Model.Disk

/-! What may be left of a file after a crash (power failure), in terms of what reached the file
system: `File.log`, newest first. -/

namespace Couchstore

/-- The content of a file after some events, if it was `d` before. -/
def replay (d : Bytes) : List Event → Bytes
  | [] => d
  | .write off b :: es => pwriteDisk (replay d es) off b
  | .sync :: es => replay d es
  | .encrypted _ _ _ :: es => replay d es

/-- Is `x` a value that byte `i` may have after a crash?  `d` is what the storage held at the
beginning.  A successful `sync` puts the whole content on storage; of the bytes written since then
each one may or may not have reached it, independently of the others and in any order.  A byte
after the end of the stored content reads as zero. -/
def Poss (d : Bytes) : List Event → Nat → UInt8 → Prop
  | [], i, x => d[i]? = some x ∨ d.length ≤ i ∧ x = 0
  | .write off b :: es, i, x => Poss d es i x ∨ off ≤ i ∧ b[i - off]? = some x
  | .sync :: es, i, x => (replay d es)[i]? = some x ∨ (replay d es).length ≤ i ∧ x = 0
  | .encrypted _ _ _ :: es, i, x => Poss d es i x

/-- The length of the content at the last successful `sync`. -/
def syncedLen (d : Bytes) : List Event → Nat
  | [] => d.length
  | .write _ _ :: es => syncedLen d es
  | .sync :: es => (replay d es).length
  | .encrypted _ _ _ :: es => syncedLen d es

/-- `img` may be found after a crash at a time when exactly the events `log` have happened: its
length is between that of the synced and that of the written content, and each byte has a
possible value. -/
def CrashImage (d : Bytes) (log : List Event) (img : Bytes) : Prop :=
  syncedLen d log ≤ img.length ∧ img.length ≤ (replay d log).length ∧
    ∀ i x, img[i]? = some x → Poss d log i x

end Couchstore
