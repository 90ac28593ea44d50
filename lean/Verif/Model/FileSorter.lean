import Verif.Model.FileMerger

/-
Model of /repo/src/file_sorter.cc: sorting a file of records with two worker threads.

The program is a transition system.  A step of a thread is what it does while it holds the mutex, or one
operation on a file; the steps of the three threads are interleaved in any way.  A thread that waits on the
condition variable takes no step until it is notified, or wakes up without reason.

Records are of any type; reading and writing them, comparing them and their sizes are parameters.  A file is a
list of records.  Allocation failures are not modelled, nor is the freeing of records.  Data are in the file when
`write_record` succeeds (the code ignores the result of `fclose`).
-/

namespace Couchstore

/-- The paths in use: the file to sort, and the temporary file with the number `n` in its name. -/
inductive SortPath where
  | source
  | tmp (n : Nat)
deriving DecidableEq, Repr

/-- file_sorter.cc:40-43 `tmp_file_t`. -/
structure TmpFile where
  name : Nat
  level : Nat
deriving DecidableEq, Repr

/-- file_sorter.cc:64-68 `sort_job_t`. -/
structure SortJob (α : Type) where
  recs : List α
  name : Nat
deriving DecidableEq, Repr

/-- file_sorter.cc:45-61 `file_sort_ctx_t`, the part that does not change.  `sort`: what quicksort.c does to an
array of records; `order`: what `qsort` with `tmp_file_cmp` (647-660) does to the array of temporary files, where
only files in use (level at least 1) are looked at. -/
structure SortCfg (α : Type) where
  cmp : α → α → Int
  size : α → Nat
  sort : List α → List α
  order : List TmpFile → List TmpFile
  numTmp : Nat
  maxBuf : Nat
  feed : Bool
  skip : Bool

/-- Where the thread that called `sort_file` is; the arguments are its local variables. -/
inductive MainPc (α : Type) where
  /-- 434-436: read the next record. -/
  | read (recs : List α) (buf : Nat)
  /-- 342-351: in `parallel_sorter_add_job`, before the mutex is taken; `last`: called in line 514. -/
  | post (job : SortJob α) (last : Bool)
  /-- 352-354: wait until the job is picked up. -/
  | posted (last : Bool)
  /-- 476: `parallel_sorter_wait` for one worker. -/
  | wait1
  /-- 487: are all temporary files in use? -/
  | check (recs : List α) (buf : Nat)
  /-- 490: `parallel_sorter_wait` for both workers. -/
  | wait2 (recs : List α) (buf : Nat)
  /-- 495-500: merge some of the temporary files. -/
  | merge (recs : List α) (buf : Nat)
  /-- 504-514: the end of the file has been reached. -/
  | eof (recs : List α) (buf : Nat)
  /-- 520, 389-392: tell the workers to end. -/
  | finish
  /-- 393. -/
  | finishNotify
  /-- 395-401: wait for the workers to end. -/
  | join
  /-- 525-530: remove the source file. -/
  | remove
  /-- 533-557: make the output. -/
  | output
  /-- 561-563, 83-88: `delete sorter` on the way out. -/
  | stop (ret : Int)
  /-- 89. -/
  | stopNotify (ret : Int)
  /-- 90-94. -/
  | stopJoin (ret : Int)
  /-- 216-225: remove the temporary files. -/
  | cleanup (ret : Int)
  /-- 227: `sort_file` has returned. -/
  | done (ret : Int)
  /-- `cb_assert` failed, or undefined behaviour. -/
  | crashed
deriving DecidableEq, Repr

/-- Where a worker is. -/
inductive WorkerPc (α : Type) where
  /-- 280-286: at the top of the loop. -/
  | idle
  /-- 294, 575-590: before the temporary file is opened. -/
  | opening (job : SortJob α)
  /-- 593-605: writing the records. -/
  | writing (name : Nat) (todo : List α)
  /-- 295-296, 304-305: the job is done. -/
  | ready
  /-- 295-302: the job has failed. -/
  | failing (ret : Int)
  /-- The thread has ended. -/
  | exited
deriving DecidableEq, Repr

/-- A worker, and whether it waits on the condition variable. -/
structure SortWorker (α : Type) where
  pc : WorkerPc α
  waiting : Bool
deriving DecidableEq, Repr

/-- All that changes.  `src`: the records of the source that have not been read yet; `counter`: the static
variable of line 829. -/
structure SortState (α : Type) where
  fs : SortPath → Option (List α)
  src : List α
  fed : List α
  counter : Nat
  tmp : List TmpFile
  free : Nat
  finished : Bool
  error : Int
  job : Option (SortJob α)
  main : MainPc α
  mainWaiting : Bool
  worker : Bool → SortWorker α

/-- What happens to the operations of the main thread in one step.  `fail := some n`: the operation fails, the error
code is `-(n + 1)`; `read i`: reading the `i`-th source of a merge fails after so many records; `write`, `feed`: the
results of the callbacks. -/
structure SortIo (α : Type) where
  fail : Option Nat
  read : Nat → Option (Nat × Nat)
  write : Nat → α → Int
  feed : Nat → α → Int

/-- A step: of which thread, and what happens in it. -/
inductive SortChoice (α : Type) where
  | main (io : SortIo α)
  | worker (i : Bool) (fail : Option Nat)
  /-- A waiting thread wakes up without having been notified. -/
  | wakeMain
  | wakeWorker (i : Bool)

section

variable {α : Type}

/-- An error code: negative. -/
def sortErr (n : Nat) : Int := -(n + 1 : Int)

/-- The number of decimal digits. -/
def decimalLength (v : Nat) : Nat := if v < 10 then 1 else decimalLength (v / 10) + 1

/-- file_sorter.cc:828-841 `sorter_random_name`, 843-867 `sorter_tmp_file_path`: the next temporary file name and
the new value of the counter.  The number is printed, after a dot, into a buffer of 7 bytes, with a zero byte at the end. -/
def nextTmpName (value : Nat) : Option (Nat × Nat) :=
  if 7 ≤ 1 + decimalLength value then none
  else some (value, if 524288 < value + 1 then 0 else value + 1)

/-- A file gets new contents, or is removed. -/
def SortState.put (s : SortState α) (p : SortPath) (c : Option (List α)) : SortState α :=
  { s with fs := fun q => if q = p then c else s.fs q }

/-- The main thread goes on at `pc`. -/
def SortState.goto (s : SortState α) (pc : MainPc α) : SortState α := { s with main := pc }

/-- `cond.notify_all()`. -/
def SortState.notify (s : SortState α) : SortState α :=
  { s with mainWaiting := false, worker := fun i => { s.worker i with waiting := false } }

/-- A worker goes on at another place. -/
def SortState.setWorker (s : SortState α) (i : Bool) (w : SortWorker α) : SortState α :=
  { s with worker := fun j => if j = i then w else s.worker j }

/-- file_sorter.cc:611-629 `create_tmp_file` and 327-340, the beginning of `parallel_sorter_add_job`. -/
def createJob (cfg : SortCfg α) (s : SortState α) (recs : List α) (last : Bool) : SortState α :=
  if s.tmp.length < cfg.numTmp then
    match nextTmpName s.counter with
    | none => s.goto (.stop (sortErr 11))
    | some (n, c) => { s with counter := c, tmp := s.tmp ++ [⟨n, 1⟩], main := .post ⟨recs, n⟩ last }
  else s.goto .crashed

/-- file_sorter.cc:672-691: the first group of at least two files with the same level; the start, the end, and the next
level. -/
def pickGroup : List TmpFile → Nat → Option (Nat × Nat × Nat)
  | [], _ => none
  | [_], _ => none
  | a :: b :: rest, i =>
    if b.level = a.level then
      let n := 2 + (rest.takeWhile fun t => t.level = a.level).length
      some (i, i + n, n * a.level)
    else pickGroup (b :: rest) (i + 1)

/-- file_sorter.cc:663-699 `pick_merge_files`, after the sorting. -/
def pickMergeFiles (tmp : List TmpFile) : Option (Nat × Nat × Nat) :=
  match pickGroup tmp 0 with
  | some r => some r
  | none =>
    match tmp with
    | a :: b :: _ => some (0, 2, a.level + b.level)
    | _ => none

/-- What a merge reads: the contents of the files, and where reading fails. -/
def mergeSources (io : SortIo α) (contents : List (List α)) : List (Source α) :=
  contents.mapIdx fun i recs =>
    match io.read i with
    | none => ⟨recs, none⟩
    | some (k, n) => ⟨recs.take k, some (sortErr n)⟩

/-- The contents of temporary files; `none`: one does not exist. -/
def contentsOf (fs : SortPath → Option (List α)) : List TmpFile → Option (List (List α))
  | [] => some []
  | t :: ts => do
    let c ← fs (.tmp t.name)
    let cs ← contentsOf fs ts
    return c :: cs

/-- Remove temporary files. -/
def removeFiles (fs : SortPath → Option (List α)) (files : List TmpFile) : SortPath → Option (List α) :=
  fun p => if ∃ t ∈ files, p = .tmp t.name then none else fs p

/-- The arguments of `merge_files` in line 740. -/
def sortMergeArgs (cfg : SortCfg α) (io : SortIo α) (feed : Bool) : MergeFilesArgs α :=
  { cmp := cfg.cmp, dedup := none, feed := if feed then some io.feed else none, write := io.write, skipWriteback := cfg.skip }

/-- file_sorter.cc:702-787 `merge_tmp_files` with a next level: the files `[start, end)` of the array are merged
into a new temporary file, which is opened for appending.  If a file to merge cannot be removed afterwards, it is the
first one (a simplification). -/
def mergeStep (cfg : SortCfg α) (io : SortIo α) (s : SortState α) (tmp : List TmpFile) (start stop level : Nat) (pc : MainPc α) :
    SortState α :=
  let files := (tmp.drop start).take (stop - start)
  match nextTmpName s.counter with
  | none => { s with tmp := tmp, main := .stop (sortErr 11) }
  | some (n, c) =>
    let s := { s with tmp := tmp, counter := c }
    match contentsOf s.fs files with
    | none => s.goto (.stop (sortErr 0))
    | some contents =>
      match mergeFiles (sortMergeArgs cfg io false) (mergeSources io contents) with
      | (.error e, _) => (s.put (.tmp n) none).goto (.stop e)
      | (.success, r) =>
        let s := s.put (.tmp n) (some ((s.fs (.tmp n)).getD [] ++ r.written))
        match io.fail with
        | some k => s.goto (.stop (sortErr k))
        | none =>
          { s with fs := removeFiles s.fs files,
                   tmp := tmp.take start ++ cfg.order (tmp.drop stop) ++ [⟨n, level⟩],
                   main := pc }
      | _ => s.goto .crashed

/-- file_sorter.cc:702-787 `merge_tmp_files` without a next level: the final merge, into the source file (which has been
removed before) or to the feed callback. -/
def finalMerge (cfg : SortCfg α) (io : SortIo α) (s : SortState α) : SortState α :=
  match contentsOf s.fs s.tmp with
  | none => s.goto (.cleanup (sortErr 0))
  | some contents =>
    match mergeFiles (sortMergeArgs cfg io cfg.feed) (mergeSources io contents) with
    | (r, out) =>
      let s := { s with fed := out.fed }
      let s := if cfg.skip then s else s.put .source (some ((s.fs .source).getD [] ++ out.written))
      match r with
      | .error e => s.goto (.cleanup e)
      | .success =>
        match io.fail with
        | some k => s.goto (.cleanup (sortErr k))
        | none => { s with fs := removeFiles s.fs s.tmp, tmp := [], main := .cleanup 0 }
      | _ => s.goto .crashed

/-- file_sorter.cc:789-826 `iterate_records_file`: feed the records; the result and the records fed. -/
def iterateRecords (feed : Nat → α → Int) : Nat → List α → Int × List α
  | _, [] => (0, [])
  | n, x :: xs =>
    if feed n x = 0 then
      let (r, fed) := iterateRecords feed (n + 1) xs
      (r, x :: fed)
    else (feed n x, [])

/-- file_sorter.cc:535-539: feed the records of the only temporary file, if there is a callback. -/
def feedSingle (cfg : SortCfg α) (io : SortIo α) (recs : List α) : Int × List α :=
  if cfg.feed then
    match io.read 0 with
    | none => iterateRecords io.feed 0 recs
    | some (k, n) =>
      let (r, fed) := iterateRecords io.feed 0 (recs.take k)
      (if r = 0 then sortErr n else r, fed)
  else (0, [])

/-- file_sorter.cc:534-551: the output if there is one temporary file. -/
def singleOutput (cfg : SortCfg α) (io : SortIo α) (s : SortState α) (t : TmpFile) : SortState α :=
  match s.fs (.tmp t.name) with
  | none => s.goto (.cleanup (sortErr 0))
  | some recs =>
    let s := { s with fed := (feedSingle cfg io recs).2 }
    if (feedSingle cfg io recs).1 = 0 then
      match io.fail with
      | some k => s.goto (.cleanup (sortErr k))
      | none =>
        if cfg.skip then (s.put (.tmp t.name) none).goto (.cleanup 0)
        else ((s.put .source (some recs)).put (.tmp t.name) none).goto (.cleanup 0)
    else s.goto (.cleanup (feedSingle cfg io recs).1)

/-- Wait on the condition variable until `c` holds; then go on with `k`. -/
def waitMain (s : SortState α) (c : Bool) (k : SortState α) : SortState α :=
  if c then k else { s with mainWaiting := true }

/-- All workers have ended. -/
def allExited (s : SortState α) : Bool :=
  match (s.worker false).pc, (s.worker true).pc with
  | .exited, .exited => true
  | _, _ => false

/-- One step of the thread that called `sort_file`; `none`: it cannot go on (it waits for the workers to end, or has
returned). -/
def mainStep (cfg : SortCfg α) (io : SortIo α) (s : SortState α) : Option (SortState α) :=
  if s.mainWaiting then none
  else
    match s.main with
    | .read recs buf =>
      match io.fail with
      | some k => some (s.goto (.stop (sortErr k)))
      | none =>
        match s.src with
        | [] => some (s.goto (.eof recs buf))
        | x :: src =>
          let recs := recs ++ [x]
          let buf := (buf + cfg.size x) % 4294967296
          let s := { s with src := src }
          if cfg.maxBuf ≤ buf then some (createJob cfg s recs false) else some (s.goto (.check recs buf))
    | .post job last =>
      if s.finished then some (s.goto (.stop s.error))
      else some (({ s with job := some job }.notify).goto (.posted last))
    | .posted last => some (waitMain s s.job.isNone (s.goto (if last then .finish else .wait1)))
    | .wait1 =>
      if s.finished then some (if s.error = 0 then s.goto (.check [] 0) else s.goto (.stop s.error))
      else some (waitMain s (1 ≤ s.free) (s.goto (.check [] 0)))
    | .check recs buf => some (s.goto (if cfg.numTmp ≤ s.tmp.length then .wait2 recs buf else .read recs buf))
    | .wait2 recs buf =>
      if s.finished then some (if s.error = 0 then s.goto (.merge recs buf) else s.goto (.stop s.error))
      else some (waitMain s (2 ≤ s.free) (s.goto (.merge recs buf)))
    | .merge recs buf =>
      match pickMergeFiles (cfg.order s.tmp) with
      | none => some (s.goto .crashed)
      | some (start, stop, level) =>
        if 1 < level then some (mergeStep cfg io s (cfg.order s.tmp) start stop level (.read recs buf))
        else some (s.goto .crashed)
    | .eof recs buf =>
      if s.tmp = [] ∧ buf = 0 then some (s.goto (.stop 0))
      else if 0 < buf then some (createJob cfg s recs true)
      else some (s.goto .finish)
    | .finish => some ({ s with finished := true }.goto .finishNotify)
    | .finishNotify => some (s.notify.goto .join)
    | .join => if allExited s then some (s.goto .remove) else none
    | .remove =>
      if s.tmp = [] then some (s.goto .crashed)
      else if cfg.skip then some (s.goto .output)
      else
        match io.fail with
        | some k => some (s.goto (.cleanup (sortErr k)))
        | none => some ((s.put .source none).goto .output)
    | .output =>
      match s.tmp with
      | [t] => some (singleOutput cfg io s t)
      | _ => some (finalMerge cfg io s)
    | .stop ret => some ({ s with finished := true }.goto (.stopNotify ret))
    | .stopNotify ret => some (s.notify.goto (.stopJoin ret))
    | .stopJoin ret => if allExited s then some (s.goto (.cleanup ret)) else none
    | .cleanup ret => some { s with fs := removeFiles s.fs s.tmp, main := .done ret }
    | .done _ => none
    | .crashed => none

/-- file_sorter.cc:268-310 `sort_worker`, 567-608 `write_record_list`: one step of a worker. -/
def workerStep (cfg : SortCfg α) (i : Bool) (fail : Option Nat) (s : SortState α) : Option (SortState α) :=
  if (s.worker i).waiting then none
  else
    match (s.worker i).pc with
    | .idle =>
      if s.finished then some (s.setWorker i ⟨.exited, false⟩)
      else
        match s.job with
        | some job => some (({ s with job := none, free := s.free - 1 }.notify).setWorker i ⟨.opening job, false⟩)
        | none => some (s.setWorker i ⟨.idle, true⟩)
    | .opening job =>
      match fail with
      | some k => some (s.setWorker i ⟨.failing (sortErr k), false⟩)
      | none => some ((s.put (.tmp job.name) (some [])).setWorker i ⟨.writing job.name (cfg.sort job.recs), false⟩)
    | .writing name todo =>
      match todo with
      | [] => some (s.setWorker i ⟨.ready, false⟩)
      | x :: xs =>
        match fail with
        | some k => some (s.setWorker i ⟨.failing (sortErr k), false⟩)
        | none => some ((s.put (.tmp name) (some ((s.fs (.tmp name)).getD [] ++ [x]))).setWorker i ⟨.writing name xs, false⟩)
    | .ready => some ({ s with free := s.free + 1 }.notify.setWorker i ⟨.idle, false⟩)
    | .failing ret => some ({ s with error := ret }.notify.setWorker i ⟨.exited, false⟩)
    | .exited => none

/-- One step of the program; `none`: there is no such step. -/
def sortStep (cfg : SortCfg α) (c : SortChoice α) (s : SortState α) : Option (SortState α) :=
  match c with
  | .main io => mainStep cfg io s
  | .worker i fail => workerStep cfg i fail s
  | .wakeMain => if s.mainWaiting then some { s with mainWaiting := false } else none
  | .wakeWorker i => if (s.worker i).waiting then some (s.setWorker i { s.worker i with waiting := false }) else none

/-- A run: one step after the other. -/
def sortRun (cfg : SortCfg α) : List (SortChoice α) → SortState α → Option (SortState α)
  | [], s => some s
  | c :: cs, s => (sortStep cfg c s).bind (sortRun cfg cs)

/-- file_sorter.cc:154-212 `sort_file`, up to the loop of `do_sort_file`: the file holds `src`, the other files are those of
`fs`, and `counter` names have been used. -/
def sortStart (cfg : SortCfg α) (fs : SortPath → Option (List α)) (counter : Nat) (src : List α) : SortState α :=
  { fs := fun p => if p = .source then some src else fs p
    src := src, fed := [], counter := counter, tmp := [], free := 2, finished := false, error := 0, job := none
    main := if cfg.numTmp ≤ 1 then .done (sortErr 3) else if cfg.skip && !cfg.feed then .done (sortErr 14) else .read [] 0
    mainWaiting := false, worker := fun _ => ⟨.idle, false⟩ }

end

end Couchstore
