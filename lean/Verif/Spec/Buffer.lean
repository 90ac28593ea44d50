import Verif.Model.IoBuffer
import Verif.Spec.Crash

/-! Using a file through the I/O buffer and using it directly. -/

namespace Couchstore

/-- What a user of the file operations may ask for. -/
inductive FOp where
  | read (off n : Nat)
  | write (off : Nat) (b : Bytes)
  | sync
  | release
deriving DecidableEq, Repr

/-- What the user sees. -/
inductive FRes where
  | data (b : Bytes)
  | wrote (n : Nat)
  | done
  | failed (e : Err)
deriving DecidableEq, Repr

/-- One operation through the buffer. -/
def bufOp : FOp → BFile → FRes × BFile
  | .read off n, h => match bufPread off n h with
    | .ok b h => (.data b, h)
    | .error e h => (.failed e, h)
  | .write off b, h => match bufPwrite b off h with
    | .ok n h => (.wrote n, h)
    | .error e h => (.failed e, h)
  | .sync, h => match bufSync h with
    | .ok _ h => (.done, h)
    | .error e h => (.failed e, h)
  | .release, h => (.done, bufFree h)

/-- One operation without the buffer: the raw operation.  There is nothing to release. -/
def rawOp : FOp → File → FRes × File
  | .read off n, f => match pread off n f with
    | .ok b f => (.data b, f)
    | .error e f => (.failed e, f)
  | .write off b, f => match pwrite b off f with
    | .ok n f => (.wrote n, f)
    | .error e f => (.failed e, f)
  | .sync, f => match syncFile f with
    | .ok _ f => (.done, f)
    | .error e f => (.failed e, f)
  | .release, f => (.done, f)

/-- A sequence of operations through the buffer: all results, and the handle afterwards. -/
def bufRun : List FOp → BFile → List FRes × BFile
  | [], h => ([], h)
  | op :: ops, h => ((bufOp op h).1 :: (bufRun ops (bufOp op h).2).1, (bufRun ops (bufOp op h).2).2)

/-- A sequence of operations without the buffer. -/
def rawRun : List FOp → File → List FRes × File
  | [], f => ([], f)
  | op :: ops, f => ((rawOp op f).1 :: (rawRun ops (rawOp op f).2).1, (rawRun ops (rawOp op f).2).2)

/-- The buffers are only released while nothing has been written since the last successful
`sync` (`clean`). -/
def ReleasesOk (clean : Bool) : List FOp → List FRes → Prop
  | .release :: ops, _ :: rs => clean = true ∧ ReleasesOk clean ops rs
  | .write _ _ :: ops, _ :: rs => ReleasesOk false ops rs
  | .sync :: ops, r :: rs => ReleasesOk (clean || r = .done) ops rs
  | .read _ _ :: ops, _ :: rs => ReleasesOk clean ops rs
  | _, _ => True

/-- What a file used directly may do when its operations may fail or be cut short.  `d` is the
content at the beginning and `L` are the writes and syncs so far, newest first, so
`replay d L` is the content now.  A read delivers the content, or the beginning of what was asked
for; a write stores all or a part of its bytes and says how many, and when it fails it may have
stored a part of them. -/
inductive Direct (d : Bytes) (L : List Event) : FOp → FRes → List Event → Prop
  | read (off n : Nat) : Direct d L (.read off n) (.data (slice (replay d L) off n)) L
  | readShort (off n k : Nat) (hk : k < n) :
      Direct d L (.read off n) (.data (slice (replay d L) off k)) L
  | readFail (off n : Nat) (e : Err) : Direct d L (.read off n) (.failed e) L
  | write (off : Nat) (b : Bytes) (k : Nat) (hk : k ≤ b.length) :
      Direct d L (.write off b) (.wrote k) (.write off (b.take k) :: L)
  | writeFail (off : Nat) (b : Bytes) (k : Nat) (e : Err) :
      Direct d L (.write off b) (.failed e) (.write off (b.take k) :: L)
  | sync : Direct d L .sync .done (.sync :: L)
  | syncFail (e : Err) : Direct d L .sync (.failed e) L
  | release : Direct d L .release .done L

/-- A sequence of such operations, from `L` to the last argument. -/
inductive DirectRun (d : Bytes) : List Event → List FOp → List FRes → List Event → Prop
  | nil (L : List Event) : DirectRun d L [] [] L
  | cons {L L' L'' : List Event} {op : FOp} {r : FRes} {ops : List FOp} {rs : List FRes} :
      Direct d L op r L' → DirectRun d L' ops rs L'' → DirectRun d L (op :: ops) (r :: rs) L''

end Couchstore
