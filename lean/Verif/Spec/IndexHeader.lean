import Verif.Model.IndexHeader
import Verif.Spec.ViewGroup

/-! What the header of an index file says, and what it means for a view group to be in a file. -/

namespace Couchstore

/-- Partition numbers in ascending order, none twice. -/
def PartIdsOk (l : List Nat) : Prop := l.Pairwise (· < ·) ∧ l.length < 2 ^ 16 ∧ ∀ x ∈ l, x < 2 ^ 16

/-- Partitions with sequence numbers. -/
def PartSeqsOk (l : List (Nat × Nat)) : Prop := PartIdsOk (l.map (·.1)) ∧ ∀ x ∈ l, x.2 < 2 ^ 48

/-- Partitions with failover logs. -/
def PartVersionsOk (l : List PartVersion) : Prop :=
  PartIdsOk (l.map (·.partId)) ∧ ∀ x ∈ l, x.log.length < 2 ^ 16 ∧ ∀ y ∈ x.log, y.1.length = 8 ∧ y.2 < 2 ^ 64

/-- A root that the header has room for. -/
def HeaderRootOk (r : Option NodePointer) : Prop :=
  ∀ p, r = some p → p.key = [] ∧ p.pointer < 2 ^ 48 ∧ p.subtreesize < 2 ^ 48 ∧ p.reduceValue.length + 12 < 2 ^ 16

/-- A header with values that are in range, apart from its roots. -/
structure IndexHeader.Ok (h : IndexHeader) : Prop where
  version : h.version < 256
  signature : h.signature.length = 16
  numPartitions : h.numPartitions < 2 ^ 16
  active : h.active.length = 128
  passive : h.passive.length = 128
  cleanup : h.cleanup.length = 128
  seqs : PartSeqsOk h.seqs
  views : h.views.length < 256
  replicas : PartIdsOk h.replicas
  pendingActive : PartIdsOk h.pendingActive
  pendingPassive : PartIdsOk h.pendingPassive
  pendingUnindexable : PartIdsOk h.pendingUnindexable
  unindexable : PartSeqsOk h.unindexable
  partVersions : PartVersionsOk h.partVersions
  old : h.version < 2 → h.partVersions = []

/-- All roots of a header are such that the header has room for them. -/
def IndexHeader.RootsOk (h : IndexHeader) : Prop := HeaderRootOk h.idRoot ∧ ∀ r ∈ h.views, HeaderRootOk r

/-- At the position `pos` of the file there is the header `h`, all of it. -/
def ViewHeaderAt (E : Env) (f : File) (pos : Nat) (h : IndexHeader) : Prop :=
  f.disk[pos]? = some 1 ∧ ∃ b q, Stored f.disk (pos + 1) (headerChunk E f.cfg.crcMode b) q ∧ q ≤ f.disk.length ∧
    b.length + 4 ≤ maxViewHeaderSize ∧ decodeIndexHeader E b = .ok h

/-- The file with its position at its end: all of it is there to be read. -/
def File.atEnd (f : File) : File := { f with pos := f.disk.length }

/-- There is a view group in the file: a header at `pos` which names an index by document id with the entries `ids` and
the indexes of the views. -/
structure GroupAt (E : Env) (kmax : Nat) (f : File) (pos : Nat) (h : IndexHeader) (ids : List KV) (views : List View) :
    Prop where
  header : ViewHeaderAt E f pos h
  ids : RootAt E (viewIdIdx kmax) f.atEnd h.idRoot ids
  views : List.Forall₂ (fun (v : View) r => v.At E f.atEnd r) views h.views

end Couchstore
