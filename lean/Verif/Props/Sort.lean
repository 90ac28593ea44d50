import Verif.Lemmas.MergeSort

/-!
# C27 — the external merge sort

`mergeSortStream less blockSize source` is the content of the stream `merge_sort` returns.  There is no
result if it throws, or reads a tape past its end.
-/

namespace Couchstore

/-- A comparison the standard library accepts: a strict weak order. -/
structure StrictWeakOrder {α : Type} (less : α → α → Bool) : Prop where
  asymm : ∀ a b, less a b = true → less b a = false
  weak : ∀ a b c, less a c = true → less a b = true ∨ less b c = true

/-- No record is followed, anywhere, by a smaller one. -/
def NonDecreasing {α : Type} (less : α → α → Bool) (l : List α) : Prop :=
  l.Pairwise fun x y => less y x = false

private theorem StrictWeakOrder.ok {α : Type} {less : α → α → Bool} (H : StrictWeakOrder less) : LessOk less := by
  refine ⟨fun a b c h1 h2 => ?_, H.asymm⟩
  simp only [leOf, Bool.not_eq_true'] at *
  cases h : less c a with
  | false => rfl
  | true =>
    cases H.weak c b a h with
    | inl h' => rw [h'] at h2; cases h2
    | inr h' => rw [h'] at h1; cases h1

/-- C27: with every strict weak order and every block size but 0, every sequence of records is sorted:
the result has the same records, in non-decreasing order.  No exception, no read past the end of a tape. -/
theorem C27_merge_sort_sorts {α : Type} (less : α → α → Bool) (H : StrictWeakOrder less) (blockSize : Nat)
    (hb : 1 ≤ blockSize) (source : List α) :
    ∃ result, mergeSortStream less blockSize source = some result ∧ result.Perm source ∧ NonDecreasing less result := by
  obtain ⟨out, h1, h2, h3⟩ := mergeSortStream_spec H.ok hb source
  refine ⟨out, h1, h3, h2.imp ?_⟩
  intro a b h
  simpa [leOf] using h

/-- The block size 0 is not the same as "no limit" for a tape: everything is read into one block, and the first
pass then fails, if there is a record at all. -/
theorem C27_block_size_zero {α : Type} (less : α → α → Bool) (x : α) (source : List α) :
    mergeSortStream less 0 (x :: source) = none := by
  have hrb : ∀ (src list : List α) (n : Nat), readBlock 0 src list n = (src.reverse ++ list, [], false) := by
    intro src
    induction src with
    | nil => intro list n; rfl
    | cons y src ih =>
      intro list n
      unfold readBlock
      rw [if_neg (by omega), ih]
      simp
  unfold mergeSortStream distribute
  rw [hrb]
  simp only [List.append_nil]
  rw [if_neg (by simp)]
  simp only [Bool.false_eq_true, if_false, Nat.zero_add]
  rw [if_neg (by simp)]
  simp only [List.length_reverse, List.length_cons]
  unfold mergePasses mergeLoop MergeState.step MergeState.newBlock
  simp [MergeState.fillLeft, MergeState.fillRight, MergeState.emit]

section Example

/-- Records compared by a key only, as the tree writer does. -/
private def byKey (a b : Nat × Nat) : Bool := decide (a.1 < b.1)

private theorem byKey_ok : StrictWeakOrder byKey := by
  constructor
  · intro a b h; simp [byKey] at *; omega
  · intro a b c h; simp [byKey] at *; omega

/-- The hypotheses can be met, by an order in which different records are equivalent. -/
example : ∃ result, mergeSortStream byKey 2 [(5, 0), (3, 1), (9, 2), (3, 3), (1, 4)] = some result ∧
    result.Perm [(5, 0), (3, 1), (9, 2), (3, 3), (1, 4)] ∧ NonDecreasing byKey result :=
  C27_merge_sort_sorts byKey byKey_ok 2 (by omega) _

/-- What is computed: two passes; records with equal keys change places. -/
example : mergeSortStream byKey 2 [(5, 0), (3, 1), (9, 2), (3, 3), (1, 4)] = some [(1, 4), (3, 1), (3, 3), (5, 0), (9, 2)] ∧
    mergeSortStream byKey 2 [(3, 1), (3, 3), (1, 4)] = some [(1, 4), (3, 3), (3, 1)] := by
  decide +kernel

end Example

end Couchstore
