import Verif.Model.FileMerger

/-! What C28 says about merging files, without reference to how it is done. -/

namespace Couchstore

variable {α : Type}

/-- A comparison of records by their keys: negative, zero or positive, as `memcmp`; a total preorder. -/
structure CmpOk (cmp : α → α → Int) : Prop where
  flip : ∀ a b, cmp a b < 0 ↔ 0 < cmp b a
  trans : ∀ a b c, cmp a b ≤ 0 → cmp b c ≤ 0 → cmp a c ≤ 0

/-- Records in non-decreasing order. -/
def SortedRecs (cmp : α → α → Int) (l : List α) : Prop := l.Pairwise fun x y => cmp x y ≤ 0

/-- Records in increasing order: no two of them have the same key. -/
def IncreasingRecs (cmp : α → α → Int) (l : List α) : Prop := l.Pairwise fun x y => cmp x y < 0

/-- Two records have the same key. -/
def sameKey (cmp : α → α → Int) (k x : α) : Bool := decide (cmp k x ≤ 0 ∧ cmp x k ≤ 0)

/-- How many records have the key of `k`. -/
def countKey (cmp : α → α → Int) (k : α) (l : List α) : Nat := (l.filter (sameKey cmp k)).length

/-- All records of all files. -/
def allRecs (files : List (Source α)) : List α := (files.map (·.recs)).flatten

/-- The destination file is written. -/
def MergeFilesArgs.writes (a : MergeFilesArgs α) : Prop := a.feed = none ∨ a.skipWriteback = false

/-- `out` is what was handed on: to the feed callback if there is one, to the destination file if it is written. -/
def HandedOn (a : MergeFilesArgs α) (s : MergerState α) (out : List α) : Prop :=
  (a.feed.isSome = true → s.fed = out) ∧ (a.writes → s.written = out)

/-- A callback returned `c`, which is not the result for success. -/
def CallbackFailed (a : MergeFilesArgs α) (c : Int) : Prop :=
  c ≠ 0 ∧ ((∃ f n x, a.feed = some f ∧ f n x = c) ∨ ∃ n x, a.write n x = c)

/-- The deduplication callback returns an index of the array it is given. -/
def MergeFilesArgs.DedupInRange (a : MergeFilesArgs α) : Prop :=
  ∀ d, a.dedup = some d → ∀ g : List (α × Nat), 1 < g.length → d g < g.length

end Couchstore
