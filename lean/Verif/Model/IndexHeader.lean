import Verif.Model.ViewCodec
import Verif.Model.Node
import Verif.Model.Disk
import Verif.Model.SortedList
import Verif.Model.Open
import Verif.Model.ViewGroup

/-
Model of the header of an index file of views, /repo/src/views/index_header.cc and the functions of
view_group.cc that read and write it.

Simplifications: allocation does not fail (a group has at least one view, so that `malloc` is not asked for nothing).
Of the two calls of Snappy when a header is read (:61, :70) the model has the second one only; the first is given a
length that is 16 too large.
-/

namespace Couchstore

/-- index_header.h:47-56 `failover_log_t`, `part_version_t`. -/
structure PartVersion where
  partId : Nat
  log : List (Bytes × Nat)
deriving DecidableEq, Repr

/-- index_header.h:58-80 `index_header_t`.  `partVersions` is not used before version 2. -/
structure IndexHeader where
  version : Nat
  signature : Bytes
  numPartitions : Nat
  active : Bytes
  passive : Bytes
  cleanup : Bytes
  seqs : List (Nat × Nat)
  idRoot : Option NodePointer
  views : List (Option NodePointer)
  hasReplica : Bool
  replicas : List Nat
  pendingActive : List Nat
  pendingPassive : List Nat
  pendingUnindexable : List Nat
  unindexable : List (Nat × Nat)
  partVersions : List PartVersion
deriving DecidableEq, Repr

/-! ### Encoding -/

/-- index_header.cc:503-515 `enc_seq_list`. -/
def encPartIds (l : List Nat) : Bytes := enc16 l.length ++ l.flatMap enc16

/-- index_header.cc:518-531 `enc_part_seq_list`. -/
def encPartSeqs (l : List (Nat × Nat)) : Bytes := enc16 l.length ++ l.flatMap fun x => enc16 x.1 ++ enc48 x.2

/-- index_header.cc:534-553 `enc_part_versions_list`; `num_failover_log` has 16 bits. -/
def encPartVersions (l : List PartVersion) : Bytes :=
  enc16 l.length ++ l.flatMap fun x => enc16 x.partId ++ enc16 x.log.length ++
    x.log.flatMap fun y => y.1 ++ enc64 y.2

/-- index_header.cc:375-384, 389-398: the size of a root is kept in 16 bits; after a longer root the next field is
written over it. -/
def encRootField (r : Option NodePointer) : Bytes :=
  enc16 (encodeRoot r).length ++ (encodeRoot r).take ((encodeRoot r).length % 2 ^ 16)

/-- index_header.cc:361-412 the fields. -/
def encodeFields (h : IndexHeader) : Bytes :=
  UInt8.ofNat h.version :: (enc16 h.numPartitions ++ h.active ++ h.passive ++ h.cleanup ++ encPartSeqs h.seqs ++
    encRootField h.idRoot ++ (UInt8.ofNat h.views.length :: h.views.flatMap encRootField) ++
    ((if h.hasReplica then 1 else 0) :: encPartIds h.replicas) ++ encPartIds h.pendingActive ++
    encPartIds h.pendingPassive ++ encPartIds h.pendingUnindexable ++ encPartSeqs h.unindexable ++
    (if h.version ≥ 2 then encPartVersions h.partVersions else []))

/-- index_header.cc:301-441 `encode_index_header`.  The buffer is as large as the fields with roots in full (:313-354);
`junk` is what is in it after the fields. -/
def encodeIndexHeader (E : Env) (junk : Bytes) (h : IndexHeader) : Bytes :=
  h.signature ++ E.deflate (encodeFields h ++ junk)

/-! ### Decoding -/

/-- Reading goes on in the buffer without a look at its length. -/
abbrev Dec (α : Type) := StateT Bytes (Except Err) α

/-- Read `n` bytes; `overrun` is a read beyond the buffer. -/
def decTake (n : Nat) : Dec Bytes := fun b =>
  if b.length < n then .error .overrun else .ok (b.take n, b.drop n)

/-- index_header.cc, `dec_uint16`, `dec_uint48`, `dec_uint64` and the single bytes. -/
def decNat (n : Nat) : Dec Nat := do pure (beDec (← decTake n))

/-- Read a number of things and add each to a sorted list. -/
def decList {α : Type} (d : Dec α) (add : List α → α → List α) : Nat → List α → Dec (List α)
  | 0, l => pure l
  | n + 1, l => do decList d add n (add l (← d))

/-- index_header.cc:562-565 `part_id_cmp`. -/
def partIdCmp (a b : Nat) : Int := a - b

/-- index_header.cc:556-559 `part_seq_cmp`. -/
def partSeqCmp (a b : Nat × Nat) : Int := a.1 - b.1

/-- index_header.cc:568-571 `part_versions_cmp`. -/
def partVersionCmp (a b : PartVersion) : Int := a.partId - b.partId

/-- index_header.cc:146-160, 162-178, 180-196, 198-214. -/
def decPartIds : Dec (List Nat) := do decList (decNat 2) (sortedAdd partIdCmp) (← decNat 2) []

/-- index_header.cc:110-121, 224-235. -/
def decPartSeq : Dec (Nat × Nat) := do
  let p ← decNat 2
  let s ← decNat 6
  pure (p, s)

/-- index_header.cc:102-121, 216-235. -/
def decPartSeqs : Dec (List (Nat × Nat)) := do decList decPartSeq (sortedAdd partSeqCmp) (← decNat 2) []

/-- index_header.cc:260-265. -/
def decLogEntry : Dec (Bytes × Nat) := do
  let u ← decTake 8
  let s ← decNat 8
  pure (u, s)

/-- index_header.cc:246-270. -/
def decPartVersion : Dec PartVersion := do
  let p ← decNat 2
  let n ← decNat 2
  let l ← decList decLogEntry (fun l x => l ++ [x]) n []
  pure ⟨p, l⟩

/-- index_header.cc:238-270. -/
def decPartVersions : Dec (List PartVersion) := do decList decPartVersion (sortedAdd partVersionCmp) (← decNat 2) []

/-- index_header.cc:123-126, 136-141: `read_root` gives no root for less than 12 bytes. -/
def decRoot : Dec (Option NodePointer) := do
  let sz ← decNat 2
  let b ← decTake sz
  pure (readRoot b)

/-- index_header.cc:89-271. -/
def decodeFields (signature : Bytes) : Dec IndexHeader := do
  let version ← decNat 1
  let numPartitions ← decNat 2
  let active ← decTake 128
  let passive ← decTake 128
  let cleanup ← decTake 128
  let seqs ← decPartSeqs
  let idRoot ← decRoot
  let numViews ← decNat 1
  let views ← decList decRoot (fun l x => l ++ [x]) numViews []
  let rep ← decNat 1
  let replicas ← decPartIds
  let pendingActive ← decPartIds
  let pendingPassive ← decPartIds
  let pendingUnindexable ← decPartIds
  let unindexable ← decPartSeqs
  let partVersions ← if version ≥ 2 then decPartVersions else pure []
  pure { version, signature, numPartitions, active, passive, cleanup, seqs, idRoot, views, hasReplica := rep != 0,
         replicas, pendingActive, pendingPassive, pendingUnindexable, unindexable, partVersions }

/-- index_header.cc:47-282 `decode_index_header`. -/
def decodeIndexHeader (E : Env) (b : Bytes) : Except Err IndexHeader :=
  if b.length ≤ 16 then .error .corrupt
  else match E.inflate (b.drop 16) with
    | none => .error .allocFail
    | some fields => match decodeFields (b.take 16) fields with
      | .ok (h, _) => .ok h
      | .error e => .error e

/-! ### Headers in files -/

/-- view_group.h:31 `MAX_VIEW_HEADER_SIZE`. -/
def maxViewHeaderSize : Nat := 20 * 1024 * 1024

/-- view_group.cc:855-857: whatever goes wrong with the read of the first byte is `COUCHSTORE_ERROR_READ`. -/
def readMarker (pos : Nat) : M UInt8 := fun f =>
  match pread pos 1 f with
  | .ok [t] g => .ok t g
  | .ok _ g => .error .read g
  | .error _ g => .error .read g

/-- view_group.cc:841-873 `read_view_group_header`, of an open file. -/
def readViewGroupHeader (E : Env) (pos : Nat) : M IndexHeader := do
  let t ← readMarker pos
  if t = 0 then throw .noHeader else
  if t ≠ 1 then throw .corrupt else
  let b ← preadHeader E pos maxViewHeaderSize
  ofExcept (decodeIndexHeader E b)

/-- view_group.cc:875-904 `write_view_group_header`, of an open file. -/
def writeViewGroupHeader (E : Env) (junk : Bytes) (h : IndexHeader) : M Nat :=
  writeHeader E btHeader (encodeIndexHeader E junk h)

/-- view_group.cc:547-573, for views that are not spatial: the index of each view is built from its sorted records. -/
def buildViews {D : Type} [LinearOrder D] (E : Env) (e : CollateEnv D) (kvThr kpThr : Nat) :
    List (List Reducer × List (Bytes × Bytes)) → M (List (Option NodePointer))
  | [] => pure []
  | (rs, kvs) :: vs => do
    let r ← buildViewBtree E e kvThr kpThr rs kvs
    let out ← buildViews E e kvThr kpThr vs
    pure (r :: out)

/-- view_group.cc:494-595 `couchstore_build_view_group`: the header of the file `old` is taken over into the new file,
with the roots of the new indexes.  Records come sorted, as for `buildBtree`.  The files can
be opened.  The new file is written from its position 0 on. -/
def buildViewGroup {D : Type} [LinearOrder D] (E : Env) (e : CollateEnv D) (kvThr kpThr : Nat) (junk : Bytes) (old : File)
    (pos : Nat) (ids : List (Bytes × Bytes)) (views : List (List Reducer × List (Bytes × Bytes))) : M Nat :=
  match readViewGroupHeader E pos old with
  | .error er _ => throw er
  | .ok h _ => do
    if views.length ≠ h.views.length then throw .assertFail else
    let idRoot ← buildIdBtree E kvThr kpThr ids
    let roots ← buildViews E e kvThr kpThr views
    writeViewGroupHeader E junk { h with idRoot := idRoot, views := roots }

/-- view_group.cc:1050-1166 `couchstore_cleanup_view_group`: the position of the new header and the count.  The file can
be opened.  If the end of the file cannot be found, the code goes on with a position that is the error's number (:1098);
in the model this is an error. -/
def cleanupViewGroup {D : Type} [LinearOrder D] (E : Env) (e : CollateEnv D) (kvThr kpThr : Nat) (junk : Bytes) (pos : Nat)
    (reducers : List (List Reducer)) : M (Nat × Nat) := do
  let h ← readViewGroupHeader E pos
  if reducers.length ≠ h.views.length then throw .assertFail else
  setPos (← gotoEof)
  let (n, idRoot, roots, bm) ← cleanupGroup E e kvThr kpThr h.cleanup h.idRoot (reducers.zip h.views)
  let p ← writeViewGroupHeader E junk { h with idRoot := idRoot, views := roots, cleanup := bm }
  pure (p, n)

end Couchstore
