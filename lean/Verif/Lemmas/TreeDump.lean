import Verif.Spec.TreeDump
import Verif.Lemmas.Walk
import Verif.Lemmas.DbDump

/-! The dump of a tree. -/

namespace Couchstore

/-- The documents among the calls of a walk. -/
def callDocs (l : List (Nat × WalkItem)) : List DocInfo :=
  l.filterMap fun c => match c.2 with
    | .node _ _ => none
    | .doc d => some d

theorem callDocs_below {α : Type} {R : List α → Bytes → Prop} {show' : α → DocInfo} {reached wanted : α → Bool}
    (hr : ∀ x, reached x = true) (hw : ∀ x, wanted x = true) :
    ∀ (h d size : Nat) (docs : List α) (calls : List (Nat × WalkItem)),
      ShownBelow R reached wanted show' h d size docs calls → callDocs calls = docs.map show'
  | 0, d, size, docs, calls, hs => by
    have hs : calls = _ := hs
    subst hs
    rw [List.filter_eq_self.mpr fun x _ => by simp [hr, hw]]
    unfold callDocs
    rw [List.filterMap_map]
    induction docs with
    | nil => rfl
    | cons x l ih => simp_all
  | h + 1, d, size, docs, calls, hs => by
    obtain ⟨below, -, hd, hb, -, hc⟩ := hs
    subst hd hc
    induction below with
    | nil => rfl
    | cons b l ih =>
      have h1 := hb b List.mem_cons_self
      have h2 := ih fun x hx => hb x (List.mem_cons_of_mem _ hx)
      have h3 := callDocs_below hr hw h (d + 1) b.1 b.2.2.1 b.2.2.2 h1.2.2
      have ha : b.2.2.1.any reached = true := by
        obtain ⟨x, hx⟩ := List.exists_mem_of_ne_nil _ h1.1
        exact List.any_eq_true.mpr ⟨x, hx, hr x⟩
      rw [List.flatMap_cons, List.flatMap_cons, List.map_append, ← h2, ← h3, if_pos ha]
      unfold callDocs
      rw [List.filterMap_append]
      rfl

theorem callDocs_tree {α : Type} {R : List α → Bytes → Prop} {show' : α → DocInfo} {reached wanted : α → Bool}
    (hr : ∀ x, reached x = true) (hw : ∀ x, wanted x = true) {size : Nat} {docs : List α} {calls : List (Nat × WalkItem)}
    (hs : ShownTree R reached wanted show' size docs calls) : callDocs calls = docs.map show' := by
  rcases hs with ⟨rfl, rfl⟩ | ⟨-, h, r, below, -, hb, rfl⟩
  · rfl
  · rw [← callDocs_below hr hw h 0 size docs below hb]
    rfl

/-- All calls of a dump that meets no exception. -/
theorem callAll_visit {showId : Bytes → Option Bytes} {ns : Bool} {mode : TreeMode} :
    ∀ (calls : List (Nat × WalkItem)) (st : TreeState), st.thrown = false →
      (∀ d ∈ callDocs calls, mode = .locals ∨
        ((0 < d.bp ∨ (d.bp = 0 ∧ d.deleted = true)) ∧ (ns = true → showId d.id ≠ none))) →
      callAll (visitNode showId ns mode) calls st =
        (⟨st.lines ++ calls.map (TreeLine.of (if mode = .locals then id else treeName showId ns) (decide (mode = .bySeq))),
          st.count + (callDocs calls).length, false⟩, none)
  | [], st, ht, _ => by
    obtain ⟨l, n, t⟩ := st
    cases ht
    simp [callAll, callDocs]
  | (depth, .node size reduce) :: l, st, ht, h => by
    have ih := callAll_visit l { st with lines := st.lines ++ [.node depth size reduce] } ht h
    have hv : visitNode showId ns mode st depth (.node size reduce) = ({ st with lines := st.lines ++ [.node depth size reduce] }, none) := by
      unfold visitNode
      rw [ht]
      rfl
    rw [callAll, hv]
    dsimp only
    rw [ih]
    simp [callDocs, TreeLine.of]
  | (depth, .doc d) :: l, st, ht, h => by
    have hd := h d (by simp [callDocs])
    have hl : ∀ x ∈ callDocs l, _ := fun x hx => h x (by
      have : callDocs ((depth, .doc d) :: l) = d :: callDocs l := rfl
      rw [this]
      exact List.mem_cons_of_mem _ hx)
    have hc : callDocs ((depth, .doc d) :: l) = d :: callDocs l := rfl
    have hname : (if mode ≠ .locals ∧ ns = true then showId d.id else some d.id) =
        some ((if mode = .locals then id else treeName showId ns) d.id) := by
      rcases hd with rfl | ⟨-, hd⟩
      · simp
      · by_cases hm : mode = .locals
        · simp [hm]
        · cases ns with
          | false => simp [hm, treeName]
          | true =>
            obtain ⟨x, hx⟩ := Option.ne_none_iff_exists'.mp (hd rfl)
            simp [hm, treeName, hx]
    have hv : visitNode showId ns mode st depth (.doc d) =
        ({ st with
            lines := st.lines ++ [TreeLine.of (if mode = .locals then id else treeName showId ns) (decide (mode = .bySeq)) (depth, .doc d)]
            count := st.count + 1 }, none) := by
      unfold visitNode
      rw [ht, if_neg (by simp)]
      dsimp only
      rw [hname]
      have hcond : 0 < d.bp ∨ (d.bp = 0 ∧ d.deleted = true) ∨ mode = .locals := by
        rcases hd with hd | ⟨hd | hd, -⟩
        · exact Or.inr (Or.inr hd)
        · exact Or.inl hd
        · exact Or.inr (Or.inl hd)
      simp [hcond, TreeLine.of]
    have ih := callAll_visit l { st with
      lines := st.lines ++ [TreeLine.of (if mode = .locals then id else treeName showId ns) (decide (mode = .bySeq)) (depth, .doc d)]
      count := st.count + 1 } ht hl
    rw [callAll, hv]
    dsimp only
    rw [ih, hc]
    simp
    omega

theorem visitNode_none {showId : Bytes → Option Bytes} {ns : Bool} {mode : TreeMode} (u : TreeState) (d : Nat) (x : WalkItem) :
    (visitNode showId ns mode u d x).2 = none := by
  unfold visitNode
  split
  · rfl
  · cases x with
    | node s r => rfl
    | doc i =>
      dsimp only
      split
      · split <;> rfl
      · rfl

end Couchstore
