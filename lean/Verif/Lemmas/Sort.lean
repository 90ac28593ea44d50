import Verif.Model.Db

/-! Helper lemmas about sorting. -/

namespace Couchstore

variable {α β : Type}

theorem insertBy_perm (le : α → α → Bool) (x : α) (l : List α) : (insertBy le x l).Perm (x :: l) := by
  induction l with
  | nil => exact List.Perm.refl _
  | cons y ys ih =>
    unfold insertBy
    split
    · exact List.Perm.refl _
    · exact (List.Perm.cons y ih).trans (List.Perm.swap x y ys)

theorem sortBy_perm (le : α → α → Bool) (l : List α) : (sortBy le l).Perm l := by
  induction l with
  | nil => exact List.Perm.refl _
  | cons x xs ih => exact (insertBy_perm le x _).trans (List.Perm.cons x ih)

theorem mem_sortBy {le : α → α → Bool} {l : List α} {x : α} : x ∈ sortBy le l ↔ x ∈ l :=
  (sortBy_perm le l).mem_iff

theorem length_sortBy (le : α → α → Bool) (l : List α) : (sortBy le l).length = l.length :=
  (sortBy_perm le l).length_eq

/-- `le` is total and transitive on the elements satisfying `P`. -/
structure LeOk (le : α → α → Bool) (P : α → Prop) : Prop where
  total : ∀ a b, P a → P b → le a b = true ∨ le b a = true
  trans : ∀ a b c, P a → P b → P c → le a b = true → le b c = true → le a c = true

theorem insertBy_sorted {le : α → α → Bool} {P : α → Prop} (H : LeOk le P) (x : α) (l : List α)
    (hx : P x) (hl : ∀ y ∈ l, P y) (hs : l.Pairwise fun a b => le a b = true) :
    (insertBy le x l).Pairwise fun a b => le a b = true := by
  induction l with
  | nil => simp [insertBy]
  | cons y ys ih =>
    have hy := hl y (by simp)
    have hys : ∀ z ∈ ys, P z := fun z hz => hl z (by simp [hz])
    obtain ⟨h1, h2⟩ := List.pairwise_cons.mp hs
    unfold insertBy
    split
    · rename_i hle
      refine List.pairwise_cons.mpr ⟨?_, hs⟩
      intro z hz
      rcases List.mem_cons.mp hz with rfl | hz
      · exact hle
      · exact H.trans x y z hx hy (hys z hz) hle (h1 z hz)
    · rename_i hle
      refine List.pairwise_cons.mpr ⟨?_, ih hys h2⟩
      intro z hz
      rcases List.mem_cons.mp ((insertBy_perm le x ys).mem_iff.mp hz) with rfl | hz
      · exact (H.total y z hy hx).resolve_right hle
      · exact h1 z hz

theorem sortBy_sorted {le : α → α → Bool} {P : α → Prop} (H : LeOk le P) (l : List α)
    (hl : ∀ y ∈ l, P y) : (sortBy le l).Pairwise fun a b => le a b = true := by
  induction l with
  | nil => exact List.Pairwise.nil
  | cons x xs ih =>
    exact insertBy_sorted H x _ (hl x (by simp)) (fun y hy => hl y (by simp [mem_sortBy.mp hy]))
      (ih fun y hy => hl y (by simp [hy]))

theorem insertBy_map {le : α → α → Bool} {le' : β → β → Bool} {g : α → β}
    (h : ∀ a b, le' (g a) (g b) = le a b) (x : α) (l : List α) :
    insertBy le' (g x) (l.map g) = (insertBy le x l).map g := by
  induction l with
  | nil => rfl
  | cons y ys ih =>
    simp only [List.map_cons, insertBy, h, ih]
    split <;> rfl

theorem sortBy_map {le : α → α → Bool} {le' : β → β → Bool} {g : α → β}
    (h : ∀ a b, le' (g a) (g b) = le a b) (l : List α) :
    sortBy le' (l.map g) = (sortBy le l).map g := by
  induction l with
  | nil => rfl
  | cons x xs ih => simp only [List.map_cons, sortBy, ih, insertBy_map h]

/-- Any sorted permutation of a list is the one `sortBy` returns, if no two different elements of
the list are equivalent: the choice of sorting algorithm does not matter. -/
theorem sortBy_unique {le : α → α → Bool} {P : α → Prop} (H : LeOk le P) (l l' : List α)
    (hl : ∀ y ∈ l, P y) (anti : ∀ a ∈ l, ∀ b ∈ l, le a b = true → le b a = true → a = b)
    (hp : l'.Perm l) (hs : l'.Pairwise fun a b => le a b = true) : l' = sortBy le l := by
  refine List.Perm.eq_of_pairwise ?_ hs (sortBy_sorted H l hl) (hp.trans (sortBy_perm le l).symm)
  intro a b ha hb h1 h2
  exact anti a (hp.mem_iff.mp ha) b (mem_sortBy.mp hb) h1 h2

end Couchstore
