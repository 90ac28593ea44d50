import Verif.Lemmas.Quicksort
import Verif.Spec.FileSorter

/-! C40: the sort used where the system has none sorts, for every comparison it ends, and it stays within the array. -/

namespace Couchstore.Props

open Couchstore

variable {α : Type}

/-- C40: if the comparison is a total preorder, the sort ends, and its result has the same elements, each as often, in
non-decreasing order.  No element outside of the array is read or written (`some`). -/
theorem C40_sorts (cmp : α → α → Int) (h : CmpOk cmp) (a : Array α) :
    ∃ a', quicksort cmp a = some a' ∧ a'.toList.Perm a.toList ∧ SortedRecs cmp a'.toList := by
  obtain ⟨a', h1, h2, h3⟩ := quicksort_spec (cmp := cmp) a
  exact ⟨a', h1, h2, h3 h⟩

/-- C40: whatever the comparison answers, however inconsistent, the sort ends, stays within the array, and loses and
duplicates no element. -/
theorem C40_any_comparison (cmp : α → α → Int) (a : Array α) :
    ∃ a', quicksort cmp a = some a' ∧ a'.toList.Perm a.toList := by
  obtain ⟨a', h1, h2, _⟩ := quicksort_spec (cmp := cmp) a
  exact ⟨a', h1, h2⟩

/-- C40: a sort of a part of an array sorts that part and leaves the rest as it is. -/
theorem C40_part (cmp : α → α → Int) (h : CmpOk cmp) (a : Array α) (lo n : Nat) (hn : lo + n ≤ a.size) :
    ∃ a', qsortFallback cmp (n + 1) a lo n = some a' ∧ a'.size = a.size ∧ a'.toList.Perm a.toList ∧
      (∀ k, k < lo ∨ lo + n ≤ k → a'[k]? = a[k]?) ∧
      ∀ i j x y, lo ≤ i → i < j → j < lo + n → a'[i]? = some x → a'[j]? = some y → cmp x y ≤ 0 := by
  obtain ⟨a', h1, h2, h3⟩ := qsortFallback_spec (cmp := cmp) (n + 1) a lo n (by omega) hn
  exact ⟨a', h1, h2.size, h2.perm, h2.outside, h3 h⟩

/-- C40: the file sorter of C39 may use it: what C39 assumes of the sort of the records in memory is true of it. -/
theorem C40_serves_file_sorter (cmp : α → α → Int) (h : CmpOk cmp) (sort : List α → List α)
    (hs : ∀ l, some (sort l) = (quicksort cmp l.toArray).map (·.toList)) :
    (∀ l, (sort l).Perm l) ∧ ∀ l, SortedRecs cmp (sort l) := by
  refine ⟨fun l => ?_, fun l => ?_⟩ <;>
    (obtain ⟨a', h1, h2, h3⟩ := C40_sorts cmp h l.toArray
     have := hs l
     rw [h1] at this
     have he : sort l = a'.toList := Option.some.inj this
     rw [he])
  · exact h2
  · exact h3

/-! The hypotheses are met, in a run through the division of the elements and its recursive calls. -/

/-- Records of a number and a mark; compared by the number. -/
private def byNumber (x y : Nat × Nat) : Int := (x.1 : Int) - y.1

private theorem byNumber_ok : CmpOk byNumber :=
  ⟨fun a b => by unfold byNumber; omega, fun a b c => by unfold byNumber; omega⟩

example : CmpOk byNumber ∧ quicksort byNumber #[(5, 0), (3, 1), (9, 2), (3, 3), (7, 4), (1, 5), (5, 6), (8, 7), (2, 8)] =
    some #[(1, 5), (2, 8), (3, 1), (3, 3), (5, 0), (5, 6), (7, 4), (8, 7), (9, 2)] :=
  ⟨byNumber_ok, by decide +kernel⟩

/-- A comparison that is no order at all. -/
example : ∃ a', quicksort (fun _ _ : Nat => 1) #[5, 3, 9, 3, 7, 1, 5, 8, 2] = some a' ∧ a' ≠ #[5, 3, 9, 3, 7, 1, 5, 8, 2] := by
  refine ⟨((quicksort (fun _ _ : Nat => 1) #[5, 3, 9, 3, 7, 1, 5, 8, 2]).getD #[]), ?_, ?_⟩ <;> decide +kernel

/-- C40: the order of elements that compare equal is not kept. -/
theorem C40_not_stable : ∃ (cmp : Nat × Nat → Nat × Nat → Int) (a a' : Array (Nat × Nat)), CmpOk cmp ∧
    quicksort cmp a = some a' ∧ a.toList.filter (fun x => x.1 = 1) = [(1, 0), (1, 1)] ∧
    a'.toList.filter (fun x => x.1 = 1) = [(1, 1), (1, 0)] := by
  refine ⟨byNumber, #[(1, 0), (1, 1), (2, 0), (0, 0), (3, 0), (4, 0), (5, 0)],
    ((quicksort byNumber #[(1, 0), (1, 1), (2, 0), (0, 0), (3, 0), (4, 0), (5, 0)]).getD #[]), byNumber_ok, ?_, ?_, ?_⟩ <;>
    decide +kernel

end Couchstore.Props
