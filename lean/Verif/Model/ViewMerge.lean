import Verif.Model.FileMerger
import Verif.Model.ViewCodec

/-
Model of the merging of files with operations on the indexes of a view group, /repo/src/views/file_merger.cc: the general merger of
Model/FileMerger with the records of views/util.cc.  The sorting of files for spatial views, which comes before the merging, is
that of Model/FileSorter.  Errors of the device are not modelled.
-/

namespace Couchstore

/-- views/util.cc:163-177 `compare_view_records`: the keys are compared; only the sign of the result is used. -/
def compareRecs (cmp : Bytes → Bytes → Ordering) (a b : ViewRec) : Int :=
  match cmp a.key b.key with
  | .lt => -1
  | .eq => 0
  | .gt => 1

/-- What views/util.cc:79-129 `read_view_record` gives for a file, call after call, up to `n` times; `none`: a record whose key and
value are not in the bytes read for it (wherever it is in the file). -/
def recsOfFile : Nat → Bytes → Option (Source ViewRec)
  | 0, _ => some ⟨[], none⟩
  | n + 1, b =>
    match readViewRecord true b with
    | .eof => some ⟨[], none⟩
    | .fail => some ⟨[], some (-2)⟩
    | .garbage => none
    | .record r rest => (recsOfFile n rest).map fun s => { s with recs := r :: s.recs }

/-- views/file_merger.cc:81-99 `merge_view_files`: what is given to the merger; views/util.cc:180-193
`dedup_view_records_merger`. -/
def viewMergeArgs (cmp : Bytes → Bytes → Ordering) : MergeFilesArgs ViewRec where
  cmp := compareRecs cmp
  dedup := some fun g => dedupPick (g.map (·.2))
  feed := none
  write := fun _ r => if (writeViewRecord true r).2 then 0 else -3
  skipWriteback := false

/-- views/file_merger.cc:31-53, 81-99 `merge_view_kvs_ops_files`, `merge_view_ids_ops_files`: the result, and what is in the destination
file.  It is opened for appending (file_merger.cc:116): `dest` is what was in it.  `none`: undefined behaviour, see
`recsOfFile`. -/
def mergeViewFiles (cmp : Bytes → Bytes → Ordering) (sources : List Bytes) (dest : Bytes) : Option (MergerResult × Bytes) :=
  match sources.mapM fun b => recsOfFile (b.length + 1) b with
  | none => none
  | some files =>
    let (r, s) := mergeFiles (viewMergeArgs cmp) files
    some (r, dest ++ s.written.flatMap fun r => (writeViewRecord true r).1)

end Couchstore
