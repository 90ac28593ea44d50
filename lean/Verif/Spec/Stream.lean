import Verif.Model.Stream

/-! What a stream does: a file of bytes that is written at its end and read from its beginning. -/

namespace Couchstore

/-- The operations of a stream. -/
inductive StreamOp where
  | write (b : Bytes)
  | read (n : Nat)
  | flush
  | seekBegin
  | seekEnd
deriving DecidableEq, Repr

/-- Their results: nothing, the bytes read, or the end of the file. -/
inductive StreamRes where
  | done
  | bytes (b : Bytes)
  | eof
deriving DecidableEq, Repr

/-- An operation of the model. -/
def StreamOp.run (E : Env) (K : StreamKind) (maxWrite : Nat) : StreamOp → SM StreamRes
  | .write b => do chunkWrite E K maxWrite b; pure .done
  | .read n => do
    match ← chunkRead E K n with
    | some b => pure (.bytes b)
    | none => pure .eof
  | .flush => do chunkFlush E K; pure .done
  | .seekBegin => do chunkSeekBegin E K; pure .done
  | .seekEnd => do chunkSeekEnd E K; pure .done

/-- Operations one after the other; the results of those before the first error, and the error. -/
def runStream (E : Env) (K : StreamKind) (maxWrite : Nat) : List StreamOp → Strm → List StreamRes × Option Err
  | [], _ => ([], none)
  | op :: ops, s =>
    match op.run E K maxWrite s with
    | .ok r s' => (r :: (runStream E K maxWrite ops s').1, (runStream E K maxWrite ops s').2)
    | .error e _ => ([], some e)

/-- The file as it should be: its bytes, the place of the next operation, and whether something was written since the last
flush or seek. -/
structure ByteTape where
  data : Bytes
  place : Nat
  dirty : Bool
deriving DecidableEq, Repr

/-- What an operation should do.  `none`: it must not be used there.  Only the end of the file is written; nothing is read
before a seek if something was written. -/
def ByteTape.step (t : ByteTape) : StreamOp → Option (StreamRes × ByteTape)
  | .write b => if t.place = t.data.length then some (.done, ⟨t.data ++ b, (t.data ++ b).length, true⟩) else none
  | .read n =>
    if t.dirty then none
    else if t.place + n ≤ t.data.length then some (.bytes (slice t.data t.place n), { t with place := t.place + n })
    else some (.eof, { t with place := t.data.length })
  | .flush => if t.place = t.data.length then some (.done, { t with dirty := false }) else none
  | .seekBegin => some (.done, { t with place := 0, dirty := false })
  | .seekEnd => some (.done, { t with place := t.data.length, dirty := false })

/-- The results of operations one after the other, if they may be used so. -/
def ByteTape.run : ByteTape → List StreamOp → Option (List StreamRes)
  | _, [] => some []
  | t, op :: ops =>
    match t.step op with
    | none => none
    | some (r, t') => (t'.run ops).map (r :: ·)

/-- What is assumed of the cipher. -/
structure Sealer.Laws (S : Sealer) : Prop where
  unlock_lock : ∀ i b, S.unlock (S.lock i b) = some b
  length_lock : ∀ i b, (S.lock i b).length = S.overhead + b.length

/-- The size of a chunk with the largest contents fits its field. -/
def StreamKind.Fits (maxWrite : Nat) : StreamKind → Prop
  | .checksum => maxWrite + 4 < 2 ^ 32
  | .encrypted S => S.Laws ∧ maxWrite + S.overhead < 2 ^ 32

/-- A chunk in the file with its contents: length and checksum are right, or the message can be decrypted. -/
def Chunk (E : Env) : StreamKind → Bytes → Bytes → Prop
  | .checksum, b, e => b.length + 4 < 2 ^ 32 ∧ e = enc32 (b.length + 4) ++ enc32 (E.crc32c b).toNat ++ b
  | .encrypted S, b, e => ∃ m, m.length < 2 ^ 32 ∧ S.overhead + 1 ≤ m.length ∧ S.unlock m = some b ∧ e = enc32 m.length ++ m

/-- Chunks one after the other in the file, with their contents. -/
inductive Chunks (E : Env) (K : StreamKind) : List Bytes → Bytes → Prop
  | nil : Chunks E K [] []
  | cons {b e bs es} : Chunk E K b e → Chunks E K bs es → Chunks E K (b :: bs) (e ++ es)

/-- Size of the header of a chunk. -/
def StreamKind.hdr : StreamKind → Nat
  | .checksum => 8
  | .encrypted _ => 4

/-- The file has fewer than `n` bytes after `got` in its chunks, and nothing or only a piece of a header after them (or a raw read
returned 0 before the end). -/
def ReadToEnd (E : Env) (K : StreamKind) (f : File) (got : Bytes) (n : Nat) : Prop :=
  ∃ cs e tail, Chunks E K cs e ∧ f.disk = e ++ tail ∧ got <+: cs.flatten ∧ cs.flatten.length < got.length + n ∧
    (tail.length < K.hdr ∨ .short 0 ∈ f.faults)

/-- Records one after the other. -/
def treeWriteRecords (E : Env) (K : StreamKind) (maxWrite : Nat) : List (Bytes × Bytes) → SM Unit
  | [] => pure ()
  | (k, v) :: kvs => do treeWriteRecord E K maxWrite k v; treeWriteRecords E K maxWrite kvs

/-- All records up to the end, at most `fuel`. -/
def treeReadRecords (E : Env) (K : StreamKind) : Nat → SM (List (Bytes × Bytes))
  | 0 => throw .diverge
  | fuel + 1 => do
    match ← treeReadRecord E K with
    | none => pure []
    | some kv => do
      let rest ← treeReadRecords E K fuel
      pure (kv :: rest)

/-- Write and flush. -/
def writeAndFlush (E : Env) (K : StreamKind) (maxWrite : Nat) (b : Bytes) : SM Unit := do
  chunkWrite E K maxWrite b
  chunkFlush E K

/-- Write records, go to the beginning and read all records. -/
def recordTrip (E : Env) (K : StreamKind) (maxWrite fuel : Nat) (kvs : List (Bytes × Bytes)) : SM (List (Bytes × Bytes)) := do
  treeWriteRecords E K maxWrite kvs
  chunkSeekBegin E K
  treeReadRecords E K fuel

end Couchstore
