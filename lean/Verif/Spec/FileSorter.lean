import Verif.Model.FileSorter
import Verif.Spec.Merge

/-! What C39 says about sorting a file, without reference to how it is done. -/

namespace Couchstore

variable {α : Type}

/-- What is asked of the arguments of `sort_file` and of the sorting in memory: the comparison is a total preorder,
`sort` sorts, `order` only changes places, a record is at least one byte long, and the buffer cannot get as long as
4 GiB. -/
structure SortCfg.Ok (cfg : SortCfg α) : Prop where
  cmp : CmpOk cfg.cmp
  sort_perm : ∀ l, (cfg.sort l).Perm l
  sort_sorted : ∀ l, SortedRecs cfg.cmp (cfg.sort l)
  order_perm : ∀ l, (cfg.order l).Perm l
  size_pos : ∀ x, 0 < cfg.size x
  size_small : ∀ x, cfg.maxBuf + cfg.size x < 4294967296
  numTmp : 2 ≤ cfg.numTmp
  callback : cfg.skip = true → cfg.feed = true

/-- No operation of the main thread fails. -/
def SortIo.Ok (io : SortIo α) : Prop :=
  io.fail = none ∧ (∀ i, io.read i = none) ∧ (∀ n x, io.write n x = 0) ∧ ∀ n x, io.feed n x = 0

/-- Nothing fails in a worker. -/
def SortChoice.WorkerOk : SortChoice α → Prop
  | .worker _ fail => fail = none
  | _ => True

/-- Nothing fails. -/
def SortChoice.Ok : SortChoice α → Prop
  | .main io => io.Ok
  | .worker _ fail => fail = none
  | _ => True

/-- A thread wakes up without reason. -/
def SortChoice.isWake : SortChoice α → Bool
  | .wakeMain => true
  | .wakeWorker _ => true
  | _ => false

/-- No temporary file with a number from `counter` on is there. -/
def NoStale (fs : SortPath → Option (List α)) (counter : Nat) : Prop := ∀ n, counter ≤ n → fs (.tmp n) = none

/-- The records `src` have been sorted: they are in the source file in order, or the source file is as it was, as asked for;
the callback, if there is one, has been given them in order; and the temporary files are as before. -/
def SortedOutput (cfg : SortCfg α) (fs0 : SortPath → Option (List α)) (src : List α) (fs : SortPath → Option (List α))
    (fed : List α) : Prop :=
  ∃ out, out.Perm src ∧ SortedRecs cfg.cmp out ∧ (cfg.feed = true → fed = out) ∧
    fs .source = some (if cfg.skip then src else out) ∧ ∀ n, fs (.tmp n) = fs0 (.tmp n)

/-- The state can be reached by some interleaving of the threads in which every step satisfies `P`. -/
def SortReach (cfg : SortCfg α) (P : SortChoice α → Prop) (s0 s : SortState α) : Prop :=
  ∃ cs : List (SortChoice α), (∀ c ∈ cs, P c) ∧ sortRun cfg cs s0 = some s

end Couchstore
