import Verif.Model.IndexHeader
import Verif.Model.BtreeRead
import Verif.Model.ViewReduce
import Verif.Spec.IndexHeader

/-! The program that dumps documents, for the index file of a view group: src/dbdump.cc:1060-1213.

Simplifications: a line is a record, and its layout is left out (also the quotes of JSON); that opening the file or finding its end
fails is not modelled. -/

namespace Couchstore

/-- A line: what is printed as the id and as the data. -/
structure IndexRow where
  id : Bytes
  data : Bytes
deriving DecidableEq, Repr

structure IndexState where
  rows : List IndexRow
  /-- dbdump.cc:1069-1074: bytes outside the buffers were read -/
  beyond : Bool
deriving DecidableEq, Repr

/-- dbdump.cc:1060-1090 `lookup_callback`; five bytes are `sizeof(raw_kv_length)`. -/
def indexRow (st : IndexState) (k : Bytes) : Option Bytes → IndexState × Option Err
  | none => (st, none)
  | some v =>
    if k.length < 2 ∨ k.length < 2 + beDec (k.take 2) ∨ v.length < 5 then ({ st with beyond := true }, none)
    else ({ st with rows := st.rows ++ [⟨(k.drop 2).take (beDec (k.take 2)), v.drop 5⟩] }, none)

/-- dbdump.cc:1092-1115 `find_view_header_at_pos`: only the first byte of the block is looked at. -/
def viewHeaderAtPos (pos : Nat) : M Unit := fun f =>
  match pread pos 1 f with
  | .ok [t] g => if t = 0 then .error .noHeader g else if t ≠ 1 then .error .corrupt g else .ok () g
  | .ok _ g => .error .read g
  | .error e g => .error e g

/-- dbdump.cc:1117-1142 `find_view_header`, from block `n`; `last` is `last_header_errcode`. -/
def findViewHeader (last : Err) : Nat → M Nat
  | 0 => fun f =>
    match viewHeaderAtPos 0 f with
    | .ok _ g => .ok 0 g
    | .error e g => .error (if e = .noHeader then last else e) g
  | n + 1 => fun f =>
    match viewHeaderAtPos ((n + 1) * blockSize) f with
    | .ok _ g => .ok ((n + 1) * blockSize) g
    | .error e g => if e = .allocFail then .error e g else findViewHeader (if e = .noHeader then last else e) n g

/-- How the program ends for an index file. -/
inductive IndexEnd where
  /-- status 0, the rows of each view, and the number that is printed at the end -/
  | done (views : List (List IndexRow)) (total : Nat)
  /-- status 1 -/
  | failed
  /-- a null pointer is dereferenced, or bytes outside a buffer are read -/
  | undefined
deriving DecidableEq, Repr

/-- dbdump.cc:1190-1212: the views, one after the other; `total` is overwritten for each. -/
def dumpViews {D : Type} [LinearOrder D] (E : Env) (e : CollateEnv D) :
    List (Option NodePointer) → List (List IndexRow) → Nat → File → IndexEnd
  | [], shown, total, _ => .done shown total
  | none :: _, _, _, _ => .undefined
  | some p :: rest, shown, _, f =>
    match btreeLookup E ⟨viewBtreeCmp e, false, indexRow, none⟩ true p.pointer [[]] ⟨[], false⟩ f with
    | .ok (st, none) g => if st.beyond then .undefined else dumpViews E e rest (shown ++ [st.rows]) st.rows.length g
    | .ok (_, some _) _ => .failed
    | .error _ _ => .failed

/-- dbdump.cc:38 `MAX_HEADER_SIZE`. -/
def maxDumpHeaderSize : Nat := 64 * 1024

/-- dbdump.cc:1144-1213 `process_view_file`, of a file that is open.  In a file of less than two bytes the search begins at 0. -/
def dumpIndexMain {D : Type} [LinearOrder D] (E : Env) (e : CollateEnv D) (f : File) : IndexEnd :=
  match findViewHeader .noHeader ((f.disk.length - 2) / blockSize) f.atEnd with
  | .error _ _ => .failed
  | .ok pos g =>
    match preadHeader E pos maxDumpHeaderSize g with
    | .error _ _ => .failed
    | .ok b g =>
      match decodeIndexHeader E b with
      | .error _ => .failed
      | .ok h => dumpViews E e h.views [] 0 g

end Couchstore
