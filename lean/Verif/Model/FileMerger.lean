/-
Model of /repo/src/file_merger.cc.

A source file is the list of the records that are still to be read from it and how the reading ends.
Records are of any type; the callbacks are parameters.  Allocation failures and failures to open a file
are not modelled, nor is the freeing of records.  `fclose` of the destination ignores errors in the code,
here it has none: a record is written when `write_record` says so.
-/

namespace Couchstore

/-- file_merger.h:27-35: the result.  `ub`: undefined behaviour (a closed file is read, an index out of
bounds); `assertFail`: `cb_assert`; `diverge`: the loop does not end. -/
inductive MergerResult where
  | success
  | error (code : Int)
  | ub
  | assertFail
  | diverge
deriving DecidableEq, Repr

/-- A source file as `read_record` sees it: records, then 0 (the end of the file) or a negative error. -/
structure Source (α : Type) where
  recs : List α
  fail : Option Int
deriving DecidableEq, Repr

/-- file_merger.cc:53-75: the callbacks.  The feed and write callbacks have a state of their own: the
result may depend on the number of the call.  Without `feed` there is no feed callback, without `write`
no destination file. -/
structure Merger (α : Type) where
  cmp : α → α → Int
  dedup : Option (List (α × Nat) → Nat)
  feed : Option (Nat → α → Int)
  write : Option (Nat → α → Int)

/-- file_merger.cc:53-75: the changing parts, and the records fed and written so far. -/
structure MergerState (α : Type) where
  files : List (Option (Source α))
  vec : List (α × Nat)
  fed : List α
  written : List α
deriving DecidableEq, Repr

/-- file_merger.cc:345-355: the search for the place of a record. -/
def searchPlace {α : Type} (cmp : α → α → Int) (v : List (α × Nat)) (x : α) (l r : Nat) : Nat × Nat :=
  if r - l > 1 then
    match v[(l + r) / 2]? with
    | none => (l, r)
    | some y => if cmp x y.1 < 0 then searchPlace cmp v x l ((l + r) / 2) else searchPlace cmp v x ((l + r) / 2) r
  else (l, r)
termination_by r - l
decreasing_by all_goals omega

/-- file_merger.cc:345-361: where the record is put. -/
def placeOf {α : Type} (cmp : α → α → Int) (v : List (α × Nat)) (x : α) : Nat :=
  let (l, r) := searchPlace cmp v x 0 v.length
  if l = 0 ∧ r ≠ 0 then
    match v.head? with
    | none => r
    | some y => if cmp x y.1 < 0 then 0 else r
  else r

/-- file_merger.cc:336-374 `sorted_vector_add`; `none`: the vector is full. -/
def sortedVectorAdd {α : Type} (cmp : α → α → Int) (cap : Nat) (v : List (α × Nat)) (x : α × Nat) : Option (List (α × Nat)) :=
  if v.length = cap then none
  else
    let r := placeOf cmp v x.1
    some (v.take r ++ x :: v.drop r)

/-- file_merger.cc:306-313: how many records from the front have the key of the first one (1 without
deduplication). -/
def dupCount {α : Type} (m : Merger α) (head : α × Nat) (rest : List (α × Nat)) : Nat :=
  match m.dedup with
  | none => 1
  | some _ => 1 + (rest.takeWhile fun y => m.cmp head.1 y.1 = 0).length

/-- file_merger.cc:321-328: let the winner change places with the first one; `none`: index out of bounds. -/
def winnerFirst {α : Type} (m : Merger α) (g : List (α × Nat)) : Option (List (α × Nat)) :=
  match m.dedup with
  | none => some g
  | some d =>
    if 1 < g.length then
      match g[0]?, g[d g]? with
      | some a, some b => some ((g.set 0 b).set (d g) a)
      | _, _ => none
    else some g

/-- file_merger.cc:159-184 and 223-244: read a record from the file `i` and add it to the vector.
`Except.error`: what `do_merge_files` returns. -/
def refill {α : Type} (m : Merger α) (s : MergerState α) (i : Nat) : Except MergerResult (MergerState α) :=
  match s.files[i]? with
  | some (some src) =>
    match src.recs with
    | [] =>
      match src.fail with
      | none => .ok { s with files := s.files.set i none }
      | some code => .error (.error code)
    | x :: rest =>
      match sortedVectorAdd m.cmp s.files.length s.vec (x, i) with
      | none => .error (.error (-6))
      | some v => .ok { s with files := s.files.set i (some ⟨rest, src.fail⟩), vec := v }
  | _ => .error .ub

/-- The loops over the files (158-185) and over the popped records (222-245). -/
def refillAll {α : Type} (m : Merger α) : MergerState α → List Nat → Except MergerResult (MergerState α)
  | s, [] => .ok s
  | s, i :: is =>
    match refill m s i with
    | .error e => .error e
    | .ok s' => refillAll m s' is

/-- file_merger.cc:204-220: hand a record to the callbacks. -/
def putRecord {α : Type} (m : Merger α) (s : MergerState α) (x : α) : Except (MergerResult × MergerState α) (MergerState α) :=
  match m.feed, m.write with
  | none, none => .error (.assertFail, s)
  | none, some w =>
    if w s.written.length x = 0 then .ok { s with written := s.written ++ [x] } else .error (.error (w s.written.length x), s)
  | some f, none =>
    if f s.fed.length x = 0 then .ok { s with fed := s.fed ++ [x] } else .error (.error (f s.fed.length x), s)
  | some f, some w =>
    if f s.fed.length x = 0 then
      if w s.written.length x = 0 then .ok { s with fed := s.fed ++ [x], written := s.written ++ [x] }
      else .error (.error (w s.written.length x), { s with fed := s.fed ++ [x] })
    else .error (.error (f s.fed.length x), s)

/-- file_merger.cc:187-248: the main loop. -/
def mergerLoop {α : Type} (m : Merger α) : Nat → MergerState α → MergerResult × MergerState α
  | 0, s => (.diverge, s)
  | fuel + 1, s =>
    match s.vec with
    | [] => (.success, s)
    | head :: rest =>
      let n := dupCount m head rest
      match winnerFirst m (s.vec.take n) with
      | none => (.ub, s)
      | some [] => (.ub, s)
      | some (w :: g) =>
        match putRecord m { s with vec := s.vec.drop n } w.1 with
        | .error (e, s') => (e, s')
        | .ok s' =>
          match refillAll m s' ((w :: g).map (·.2)) with
          | .error e => (e, s')
          | .ok s'' => mergerLoop m fuel s''

/-- The number of records in the files. -/
def recordCount {α : Type} (files : List (Source α)) : Nat := (files.map (·.recs.length)).sum

/-- file_merger.cc:156-250 `do_merge_files`: the result, and the records fed and written. -/
def doMergeFiles {α : Type} (m : Merger α) (files : List (Source α)) : MergerResult × MergerState α :=
  let s : MergerState α := ⟨files.map some, [], [], []⟩
  match refillAll m s (List.range files.length) with
  | .error e => (e, s)
  | .ok s' => mergerLoop m (recordCount files + 1) s'

/-- file_merger.cc:91-153 `merge_files`: what is given to it. -/
structure MergeFilesArgs (α : Type) where
  cmp : α → α → Int
  dedup : Option (List (α × Nat) → Nat)
  feed : Option (Nat → α → Int)
  write : Nat → α → Int
  skipWriteback : Bool

/-- file_merger.cc:91-153 `merge_files`. -/
def mergeFiles {α : Type} (a : MergeFilesArgs α) (files : List (Source α)) : MergerResult × MergerState α :=
  if files.length = 0 then (.error (-4), ⟨[], [], [], []⟩)
  else doMergeFiles ⟨a.cmp, a.dedup, a.feed, if a.feed.isSome && a.skipWriteback then none else some a.write⟩ files

end Couchstore
