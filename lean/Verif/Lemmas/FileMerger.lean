import Verif.Model.FileMerger
import Verif.Spec.Merge

/-! Helper lemmas about the file merger. -/

namespace Couchstore

variable {α : Type}

theorem CmpOk.le_of_not_lt {cmp : α → α → Int} (H : CmpOk cmp) {a b : α} (h : ¬ cmp a b < 0) : cmp b a ≤ 0 := by
  have := H.flip a b; omega

theorem CmpOk.refl {cmp : α → α → Int} (H : CmpOk cmp) (a : α) : cmp a a ≤ 0 := by
  have := H.flip a a; omega

theorem CmpOk.lt_le {cmp : α → α → Int} (H : CmpOk cmp) {a b c : α} (h1 : cmp a b < 0) (h2 : cmp b c ≤ 0) : cmp a c < 0 := by
  cases Int.lt_or_le (cmp a c) 0 with
  | inl h => exact h
  | inr h =>
    have h3 : cmp c a ≤ 0 := H.le_of_not_lt (by omega)
    have h4 := H.trans b c a h2 h3
    have := H.flip a b
    omega

theorem CmpOk.le_lt {cmp : α → α → Int} (H : CmpOk cmp) {a b c : α} (h1 : cmp a b ≤ 0) (h2 : cmp b c < 0) : cmp a c < 0 := by
  cases Int.lt_or_le (cmp a c) 0 with
  | inl h => exact h
  | inr h =>
    have h3 : cmp c a ≤ 0 := H.le_of_not_lt (by omega)
    have h4 := H.trans c a b h3 h1
    have := H.flip b c
    omega

/-! ### The sorted vector -/

theorem searchPlace_spec (cmp : α → α → Int) (v : List (α × Nat)) (x : α) (l r : Nat) (hlr : l < r) (hr : r ≤ v.length)
    (hl : l = 0 ∨ ∃ y, v[l]? = some y ∧ ¬ cmp x y.1 < 0) (hrr : r = v.length ∨ ∃ y, v[r]? = some y ∧ cmp x y.1 < 0) :
    ∃ l' r', searchPlace cmp v x l r = (l', r') ∧ r' = l' + 1 ∧ r' ≤ v.length ∧
      (l' = 0 ∨ ∃ y, v[l']? = some y ∧ ¬ cmp x y.1 < 0) ∧ (r' = v.length ∨ ∃ y, v[r']? = some y ∧ cmp x y.1 < 0) := by
  unfold searchPlace
  by_cases h : r - l > 1
  · rw [if_pos h]
    have hm : (l + r) / 2 < v.length := by omega
    rw [List.getElem?_eq_getElem hm]
    dsimp only
    by_cases hc : cmp x (v[(l + r) / 2]).1 < 0
    · rw [if_pos hc]
      exact searchPlace_spec cmp v x l ((l + r) / 2) (by omega) (by omega) hl (.inr ⟨_, List.getElem?_eq_getElem hm, hc⟩)
    · rw [if_neg hc]
      exact searchPlace_spec cmp v x ((l + r) / 2) r (by omega) hr (.inr ⟨_, List.getElem?_eq_getElem hm, hc⟩) hrr
  · rw [if_neg h]
    exact ⟨l, r, rfl, by omega, hr, hl, hrr⟩
termination_by r - l

/-- Vectors sorted by the comparison. -/
def VecSorted (cmp : α → α → Int) (v : List (α × Nat)) : Prop := v.Pairwise fun a b => cmp a.1 b.1 ≤ 0

theorem placeOf_spec {cmp : α → α → Int} (H : CmpOk cmp) {v : List (α × Nat)} (hv : VecSorted cmp v) (x : α) :
    (∀ y ∈ v.take (placeOf cmp v x), cmp y.1 x ≤ 0) ∧ (∀ y ∈ v.drop (placeOf cmp v x), cmp x y.1 ≤ 0) := by
  have key : ∀ r, r ≤ v.length → (r = 0 ∨ ∃ y, v[r - 1]? = some y ∧ ¬ cmp x y.1 < 0) →
      (r = v.length ∨ ∃ y, v[r]? = some y ∧ cmp x y.1 < 0) →
      (∀ y ∈ v.take r, cmp y.1 x ≤ 0) ∧ (∀ y ∈ v.drop r, cmp x y.1 ≤ 0) := by
    intro r hr h1 h2
    have hp := List.pairwise_iff_getElem.mp hv
    constructor
    · intro y hy
      obtain ⟨i, hi, rfl⟩ := List.mem_iff_getElem.mp hy
      rw [List.length_take] at hi
      rw [List.getElem_take]
      cases h1 with
      | inl h => omega
      | inr h =>
        obtain ⟨y, hy1, hy2⟩ := h
        obtain ⟨hlt, hy1⟩ := List.getElem?_eq_some_iff.mp hy1
        subst hy1
        have h3 := H.le_of_not_lt hy2
        by_cases he : i = r - 1
        · subst he; exact h3
        · exact H.trans _ _ _ (hp i (r - 1) (by omega) hlt (by omega)) h3
    · intro y hy
      obtain ⟨i, hi, rfl⟩ := List.mem_iff_getElem.mp hy
      rw [List.length_drop] at hi
      rw [List.getElem_drop]
      cases h2 with
      | inl h => omega
      | inr h =>
        obtain ⟨y, hy1, hy2⟩ := h
        obtain ⟨hlt, hy1⟩ := List.getElem?_eq_some_iff.mp hy1
        subst hy1
        by_cases he : i = 0
        · subst he; exact Int.le_of_lt hy2
        · exact H.trans _ _ _ (Int.le_of_lt hy2) (hp r (r + i) hlt (by omega) (by omega))
  cases hvn : v with
  | nil => simp
  | cons a v' =>
    rw [← hvn]
    have hlen : 0 < v.length := by rw [hvn]; simp
    obtain ⟨l, r, h1, h2, h3, h4, h5⟩ := searchPlace_spec cmp v x 0 v.length hlen (Nat.le_refl _) (.inl rfl) (.inl rfl)
    unfold placeOf
    rw [h1]
    dsimp only
    have hhead : v.head? = v[0]? := by rw [hvn]; rfl
    by_cases hl0 : l = 0
    · rw [if_pos ⟨hl0, by omega⟩, hhead, List.getElem?_eq_getElem hlen]
      dsimp only
      by_cases hc : cmp x (v[0]).1 < 0
      · rw [if_pos hc]
        exact key 0 (by omega) (.inl rfl) (.inr ⟨_, List.getElem?_eq_getElem hlen, hc⟩)
      · rw [if_neg hc]
        refine key r h3 (.inr ⟨v[0], ?_, hc⟩) h5
        rw [show r - 1 = 0 by omega]
        exact List.getElem?_eq_getElem hlen
    · rw [if_neg (by omega)]
      refine key r h3 (.inr ?_) h5
      rw [show r - 1 = l by omega]
      cases h4 with
      | inl h => exact absurd h hl0
      | inr h => exact h

theorem sortedVectorAdd_spec {cmp : α → α → Int} (H : CmpOk cmp) {v : List (α × Nat)} (hv : VecSorted cmp v) {cap : Nat}
    (hc : v.length < cap) (x : α × Nat) :
    ∃ r, sortedVectorAdd cmp cap v x = some (v.take r ++ x :: v.drop r) ∧ VecSorted cmp (v.take r ++ x :: v.drop r) := by
  obtain ⟨h1, h2⟩ := placeOf_spec H hv x.1
  refine ⟨placeOf cmp v x.1, ?_, ?_⟩
  · unfold sortedVectorAdd
    rw [if_neg (by omega)]
  · have h12 : VecSorted cmp (v.take (placeOf cmp v x.1) ++ v.drop (placeOf cmp v x.1)) := by
      rw [List.take_append_drop]; exact hv
    unfold VecSorted at h12 ⊢
    rw [List.pairwise_append] at h12 ⊢
    rw [List.pairwise_cons]
    refine ⟨h12.1, ⟨h2, h12.2.1⟩, ?_⟩
    intro a ha b hb
    cases List.mem_cons.mp hb with
    | inl h => subst h; exact h1 a ha
    | inr h => exact h12.2.2 a ha b h

/-! ### The invariant -/

/-- What is still to be read from a file. -/
def restOf (s : MergerState α) (i : Nat) : List α :=
  match s.files[i]? with
  | some (some src) => src.recs
  | _ => []

/-- The head of a file, if it is in the vector. -/
def headOf (v : List (α × Nat)) (i : Nat) : List α := ((v.find? fun e => e.2 == i).map (·.1)).toList

/-- What remains of a file: its head in the vector and the rest. -/
def remains (s : MergerState α) (i : Nat) : List α := headOf s.vec i ++ restOf s i

theorem headOf_none {v : List (α × Nat)} {i : Nat} (h : i ∉ v.map (·.2)) : headOf v i = [] := by
  unfold headOf
  rw [List.find?_eq_none.mpr]
  · rfl
  · intro e he hc
    exact h (List.mem_map.mpr ⟨e, he, by simpa using hc⟩)

theorem headOf_append (u v : List (α × Nat)) (i : Nat) :
    headOf (u ++ v) i = if i ∈ u.map (·.2) then headOf u i else headOf v i := by
  unfold headOf
  rw [List.find?_append]
  cases h : u.find? fun e => e.2 == i with
  | none =>
    rw [if_neg]
    · rfl
    · intro hm
      obtain ⟨e, he, hi⟩ := List.mem_map.mp hm
      exact List.find?_eq_none.mp h e he (by simpa using hi)
  | some e =>
    rw [if_pos]
    · rfl
    · have h1 := List.mem_of_find?_eq_some h
      have h2 := List.find?_some h
      exact List.mem_map.mpr ⟨e, h1, by simpa using h2⟩

theorem headOf_cons (x : α × Nat) (v : List (α × Nat)) (i : Nat) :
    headOf (x :: v) i = if x.2 = i then [x.1] else headOf v i := by
  unfold headOf
  rw [List.find?_cons]
  by_cases h : x.2 = i
  · simp [h]
  · rw [show (x.2 == i) = false by simpa using h, if_neg h]

theorem headOf_mem {v : List (α × Nat)} (hn : (v.map (·.2)).Nodup) {x : α} {i : Nat} (h : (x, i) ∈ v) : headOf v i = [x] := by
  induction v with
  | nil => simp at h
  | cons e v ih =>
    rw [headOf_cons]
    rw [List.map_cons, List.nodup_cons] at hn
    cases List.mem_cons.mp h with
    | inl h => subst h; simp
    | inr h =>
      rw [if_neg, ih hn.2 h]
      intro he
      exact hn.1 (List.mem_map.mpr ⟨_, h, he.symm⟩)

theorem headOf_some {v : List (α × Nat)} {i : Nat} (h : i ∈ v.map (·.2)) : ∃ x, (x, i) ∈ v ∧ headOf v i = [x] := by
  obtain ⟨e, he, hi⟩ := List.mem_map.mp h
  cases hf : v.find? fun e => e.2 == i with
  | none => exact absurd (by simpa using hi) (List.find?_eq_none.mp hf e he)
  | some e' =>
    have h1 := List.mem_of_find?_eq_some hf
    have h2 : e'.2 = i := by simpa using List.find?_some hf
    refine ⟨e'.1, ?_, by simp [headOf, hf]⟩
    rw [← h2]; exact h1

/-- The invariant; the files of `pend` have no head in the vector at the moment. -/
structure MInv (cmp : α → α → Int) (F : Nat → Option Int) (s : MergerState α) (pend : List Nat) : Prop where
  sorted : VecSorted cmp s.vec
  nodup : (s.vec.map (·.2) ++ pend).Nodup
  opened : ∀ i ∈ s.vec.map (·.2) ++ pend, ∃ src, s.files[i]? = some (some src) ∧ src.fail = F i
  closed : ∀ i, i < s.files.length → i ∉ s.vec.map (·.2) ++ pend → s.files[i]? = some none ∧ F i = none

theorem merger_nodup_length_le : ∀ (n : Nat) (l : List Nat), l.Nodup → (∀ i ∈ l, i < n) → l.length ≤ n
  | 0, l, _, h => by
    cases l with
    | nil => simp
    | cons a l => have := h a (by simp); omega
  | n + 1, l, hn, h => by
    have h1 := merger_nodup_length_le n (l.erase n) (hn.erase n) (by
      intro i hi
      have h2 := (List.Nodup.mem_erase_iff hn).mp hi
      have := h i h2.2
      omega)
    have := List.length_erase (a := n) (l := l)
    split at this <;> omega

theorem MInv.room {cmp : α → α → Int} {F : Nat → Option Int} {s : MergerState α} {i : Nat} {pend : List Nat}
    (h : MInv cmp F s (i :: pend)) : s.vec.length < s.files.length := by
  have := merger_nodup_length_le s.files.length _ h.nodup (by
    intro j hj
    obtain ⟨src, h1, _⟩ := h.opened j hj
    exact (List.getElem?_eq_some_iff.mp h1).1)
  simp only [List.length_append, List.length_map, List.length_cons] at this
  omega

theorem refill_spec {m : Merger α} (H : CmpOk m.cmp) {F : Nat → Option Int} {s : MergerState α} {i : Nat} {pend : List Nat}
    (h : MInv m.cmp F s (i :: pend)) :
    (∃ s', refill m s i = .ok s' ∧ MInv m.cmp F s' pend ∧ (∀ j, remains s' j = remains s j) ∧ s'.fed = s.fed ∧
      s'.written = s.written ∧ s'.files.length = s.files.length) ∨
    (∃ c, refill m s i = .error (.error c) ∧ F i = some c) := by
  obtain ⟨src, h1, h2⟩ := h.opened i (by simp)
  have hlt := (List.getElem?_eq_some_iff.mp h1).1
  have hn := h.nodup
  rw [List.nodup_append] at hn
  have hi : i ∉ s.vec.map (·.2) := fun hm => hn.2.2 i hm i (by simp) rfl
  have hpn := List.nodup_cons.mp hn.2.1
  unfold refill
  rw [h1]
  dsimp only
  cases hr : src.recs with
  | nil =>
    dsimp only
    cases hf : src.fail with
    | some c => exact .inr ⟨c, rfl, by rw [← h2, hf]⟩
    | none =>
      refine .inl ⟨_, rfl, ⟨h.sorted, ?_, ?_, ?_⟩, ?_, rfl, rfl, by simp⟩
      · exact List.nodup_append.mpr ⟨hn.1, hpn.2, fun a ha b hb => hn.2.2 a ha b (by simp [hb])⟩
      · intro j hj
        dsimp only at hj ⊢
        have hji : j ≠ i := by
          rintro rfl
          cases List.mem_append.mp hj with
          | inl h' => exact hi h'
          | inr h' => exact hpn.1 h'
        obtain ⟨src', h3, h4⟩ := h.opened j (by
          cases List.mem_append.mp hj with
          | inl h' => exact List.mem_append.mpr (.inl h')
          | inr h' => exact List.mem_append.mpr (.inr (List.mem_cons_of_mem _ h')))
        exact ⟨src', by rw [List.getElem?_set_ne (Ne.symm hji)]; exact h3, h4⟩
      · intro j hj hnj
        dsimp only at hj hnj ⊢
        rw [List.length_set] at hj
        by_cases hji : j = i
        · subst hji
          exact ⟨List.getElem?_set_self hj, by rw [← h2, hf]⟩
        · rw [List.getElem?_set_ne (Ne.symm hji)]
          refine h.closed j hj ?_
          intro hm
          apply hnj
          cases List.mem_append.mp hm with
          | inl h' => exact List.mem_append.mpr (.inl h')
          | inr h' =>
            cases List.mem_cons.mp h' with
            | inl h'' => exact absurd h'' hji
            | inr h'' => exact List.mem_append.mpr (.inr h'')
      · intro j
        unfold remains restOf
        dsimp only
        by_cases hji : j = i
        · subst hji
          rw [List.getElem?_set_self hlt, h1]
          dsimp only
          rw [hr]
        · rw [List.getElem?_set_ne (Ne.symm hji)]
  | cons x rest =>
    dsimp only
    obtain ⟨r, g1, g2⟩ := sortedVectorAdd_spec H h.sorted h.room (x, i)
    rw [g1]
    dsimp only
    have hmem : ∀ j, j ∈ (s.vec.take r ++ (x, i) :: s.vec.drop r).map (·.2) ↔ j = i ∨ j ∈ s.vec.map (·.2) := by
      intro j
      have : (s.vec.take r ++ (x, i) :: s.vec.drop r).Perm ((x, i) :: s.vec) := by
        refine List.perm_middle.trans ?_
        rw [List.take_append_drop]
      rw [(this.map (·.2)).mem_iff, List.map_cons, List.mem_cons]
    refine .inl ⟨_, rfl, ⟨g2, ?_, ?_, ?_⟩, ?_, rfl, rfl, by simp⟩
    · have : ((s.vec.take r ++ (x, i) :: s.vec.drop r).map (·.2) ++ pend).Perm (s.vec.map (·.2) ++ i :: pend) := by
        have h3 : (s.vec.take r ++ (x, i) :: s.vec.drop r).Perm ((x, i) :: s.vec) := by
          refine List.perm_middle.trans ?_
          rw [List.take_append_drop]
        refine ((h3.map (·.2)).append_right pend).trans ?_
        exact (List.perm_middle (a := i)).symm
      exact this.nodup_iff.mpr h.nodup
    · intro j hj
      dsimp only at hj ⊢
      by_cases hji : j = i
      · subst hji
        exact ⟨_, List.getElem?_set_self hlt, h2⟩
      · rw [List.getElem?_set_ne (Ne.symm hji)]
        refine h.opened j ?_
        cases List.mem_append.mp hj with
        | inl h' => exact List.mem_append.mpr (.inl (((hmem j).mp h').resolve_left hji))
        | inr h' => exact List.mem_append.mpr (.inr (List.mem_cons_of_mem _ h'))
    · intro j hj hnj
      dsimp only at hj hnj ⊢
      rw [List.length_set] at hj
      have hji : j ≠ i := by
        rintro rfl
        exact hnj (List.mem_append.mpr (.inl ((hmem j).mpr (.inl rfl))))
      rw [List.getElem?_set_ne (Ne.symm hji)]
      refine h.closed j hj ?_
      intro hm
      apply hnj
      cases List.mem_append.mp hm with
      | inl h' => exact List.mem_append.mpr (.inl ((hmem j).mpr (.inr h')))
      | inr h' => exact List.mem_append.mpr (.inr ((List.mem_cons.mp h').resolve_left hji))
    · intro j
      unfold remains restOf
      dsimp only
      have hv : headOf s.vec j = headOf (s.vec.take r ++ s.vec.drop r) j := by rw [List.take_append_drop]
      by_cases hji : j = i
      · subst hji
        rw [List.getElem?_set_self hlt, h1]
        dsimp only
        rw [hr, headOf_none hi, headOf_append, if_neg, headOf_cons, if_pos rfl]
        · rfl
        · intro hm
          apply hi
          obtain ⟨e, he, hej⟩ := List.mem_map.mp hm
          exact List.mem_map.mpr ⟨e, List.mem_of_mem_take he, hej⟩
      · rw [List.getElem?_set_ne (Ne.symm hji), hv, headOf_append, headOf_append, headOf_cons, if_neg (Ne.symm hji)]

theorem refillAll_spec {m : Merger α} (H : CmpOk m.cmp) {F : Nat → Option Int} : ∀ (pend : List Nat) (s : MergerState α),
    MInv m.cmp F s pend →
    (∃ s', refillAll m s pend = .ok s' ∧ MInv m.cmp F s' [] ∧ (∀ j, remains s' j = remains s j) ∧ s'.fed = s.fed ∧
      s'.written = s.written ∧ s'.files.length = s.files.length) ∨
    (∃ c, refillAll m s pend = .error (.error c) ∧ ∃ i ∈ pend, F i = some c)
  | [], s, h => .inl ⟨s, rfl, h, fun _ => rfl, rfl, rfl, rfl⟩
  | i :: pend, s, h => by
    unfold refillAll
    cases refill_spec H h with
    | inr h' =>
      obtain ⟨c, h1, h2⟩ := h'
      rw [h1]
      exact .inr ⟨c, rfl, i, by simp, h2⟩
    | inl h' =>
      obtain ⟨s', h1, h2, h3, h4, h5, h6⟩ := h'
      rw [h1]
      dsimp only
      cases refillAll_spec H pend s' h2 with
      | inr g =>
        obtain ⟨c, g1, j, g2, g3⟩ := g
        exact .inr ⟨c, g1, j, List.mem_cons_of_mem _ g2, g3⟩
      | inl g =>
        obtain ⟨s'', g1, g2, g3, g4, g5, g6⟩ := g
        exact .inl ⟨s'', g1, g2, fun j => (g3 j).trans (h3 j), g4.trans h4, g5.trans h5, g6.trans h6⟩

/-! ### One round -/

/-- One round takes the head of each file of the group `g` and puts out `w`. -/
structure Popped (m : Merger α) (R R' : Nat → List α) (w : α) (g : List (α × Nat)) : Prop where
  nodup : (g.map (·.2)).Nodup
  mem : ∀ x i, (x, i) ∈ g → R i = x :: R' i ∧ m.cmp w x ≤ 0 ∧ m.cmp x w ≤ 0
  other : ∀ i, i ∉ g.map (·.2) → R' i = R i ∧ ∀ x, (R i).head? = some x → m.cmp w x ≤ 0 ∧ (m.dedup.isSome = true → m.cmp w x < 0)
  win : ∃ i, (w, i) ∈ g
  single : m.dedup = none → g.length = 1
  wins : ∀ d, m.dedup = some d → 1 < g.length → (g[d g]?).map (·.1) = some w

/-- The deduplication callback returns an index of its argument. -/
def DedupOk (m : Merger α) : Prop := ∀ d, m.dedup = some d → ∀ g, 1 < g.length → d g < g.length

theorem takeWhile_split {p : β → Bool} : ∀ (l : List β),
    (∀ x ∈ l.takeWhile p, p x = true) ∧ l = l.takeWhile p ++ l.drop (l.takeWhile p).length ∧
      (∀ x, (l.drop (l.takeWhile p).length).head? = some x → p x = false)
  | [] => by simp
  | a :: l => by
    obtain ⟨h1, h2, h3⟩ := takeWhile_split (p := p) l
    by_cases ha : p a = true
    · rw [List.takeWhile_cons_of_pos ha]
      refine ⟨?_, ?_, ?_⟩
      · intro x hx
        cases List.mem_cons.mp hx with
        | inl h => rw [h]; exact ha
        | inr h => exact h1 x h
      · simp only [List.length_cons, List.drop_succ_cons, List.cons_append]
        rw [← h2]
      · simpa using h3
    · rw [List.takeWhile_cons_of_neg ha]
      refine ⟨by simp, by simp, ?_⟩
      intro x hx
      simp at hx
      rw [← hx]
      simpa using ha

theorem set_swap_perm (l : List β) (j : Nat) (a b : β) (h0 : l[0]? = some a) (hj : l[j]? = some b) :
    ((l.set 0 b).set j a).Perm l := by
  cases l with
  | nil => simp at h0
  | cons x l =>
    simp only [List.getElem?_cons_zero, Option.some.injEq] at h0
    subst h0
    cases j with
    | zero =>
      simp
    | succ j =>
      simp only [List.getElem?_cons_succ] at hj
      simp only [List.set_cons_zero, List.set_cons_succ]
      obtain ⟨hlt, hb⟩ := List.getElem?_eq_some_iff.mp hj
      subst hb
      have h1 : l = l.take j ++ l[j] :: l.drop (j + 1) := by
        rw [← List.drop_eq_getElem_cons hlt, List.take_append_drop]
      have h2 : l.set j x = l.take j ++ x :: l.drop (j + 1) := List.set_eq_take_append_cons_drop.trans (if_pos hlt)
      rw [h2]
      refine (List.Perm.cons _ List.perm_middle).trans ((List.Perm.swap _ _ _).trans ?_)
      conv => rhs; rw [h1]
      exact List.Perm.cons _ List.perm_middle.symm

theorem pop_spec {m : Merger α} (H : CmpOk m.cmp) (hd : DedupOk m) {F : Nat → Option Int} {s : MergerState α}
    (h : MInv m.cmp F s []) {head : α × Nat} {rest : List (α × Nat)} (hv : s.vec = head :: rest) :
    ∃ w g', winnerFirst m (s.vec.take (dupCount m head rest)) = some (w :: g') ∧
      ∀ s', s'.files = s.files → s'.vec = s.vec.drop (dupCount m head rest) →
        MInv m.cmp F s' ((w :: g').map (·.2)) ∧
        Popped m (remains s) (remains s') w.1 (s.vec.take (dupCount m head rest)) := by
  -- the group and what remains
  obtain ⟨g, v, hgv, hn, hg1, hgeq, hv1⟩ : ∃ g v, s.vec = g ++ v ∧ g.length = dupCount m head rest ∧
      (∃ t, g = head :: t ∧ (m.dedup = none → t = [])) ∧ (∀ y ∈ g, m.cmp head.1 y.1 ≤ 0 ∧ m.cmp y.1 head.1 ≤ 0) ∧
      (∀ y ∈ v, m.cmp head.1 y.1 ≤ 0 ∧ (m.dedup.isSome = true → m.cmp head.1 y.1 < 0)) := by
    have hs := h.sorted
    unfold VecSorted at hs
    rw [hv, List.pairwise_cons] at hs
    unfold dupCount
    cases hm : m.dedup with
    | none =>
      refine ⟨[head], rest, hv, rfl, ⟨[], rfl, fun _ => rfl⟩, ?_, fun y hy => ⟨hs.1 y hy, by simp⟩⟩
      intro y hy
      rw [List.mem_singleton.mp hy]
      exact ⟨H.refl _, H.refl _⟩
    | some d =>
      obtain ⟨t1, t2, t3⟩ := takeWhile_split (p := fun y : α × Nat => decide (m.cmp head.1 y.1 = 0)) rest
      generalize ht : rest.takeWhile (fun y : α × Nat => decide (m.cmp head.1 y.1 = 0)) = t at t1 t2 t3 ⊢
      generalize hu : rest.drop t.length = u at t2 t3 ⊢
      refine ⟨head :: t, u, by rw [hv, t2]; rfl, by simp; omega, ⟨t, rfl, by simp⟩, ?_, ?_⟩
      · intro y hy
        cases List.mem_cons.mp hy with
        | inl h => subst h; exact ⟨H.refl _, H.refl _⟩
        | inr h =>
          have := t1 y h
          simp only [decide_eq_true_eq] at this
          exact ⟨by omega, H.le_of_not_lt (by omega)⟩
      · intro y hy
        have hle : m.cmp head.1 y.1 ≤ 0 := hs.1 y (by rw [t2]; exact List.mem_append.mpr (.inr hy))
        refine ⟨hle, fun _ => ?_⟩
        cases u with
        | nil => simp at hy
        | cons z u =>
          have hz := t3 z rfl
          simp only [decide_eq_false_iff_not] at hz
          have hz' : m.cmp head.1 z.1 ≤ 0 := hs.1 z (by rw [t2]; exact List.mem_append.mpr (.inr (by simp)))
          cases List.mem_cons.mp hy with
          | inl h => subst h; omega
          | inr h =>
            have hp := hs.2
            rw [t2, List.pairwise_append] at hp
            have := (List.pairwise_cons.mp hp.2.1).1 y h
            exact H.lt_le (by omega) this
  have htake : s.vec.take (dupCount m head rest) = g := by rw [← hn, hgv]; simp
  have hdrop : s.vec.drop (dupCount m head rest) = v := by rw [← hn, hgv]; simp
  rw [htake, hdrop]
  have hnd := h.nodup
  rw [List.append_nil, hgv, List.map_append, List.nodup_append] at hnd
  -- the winner
  obtain ⟨w, g', hw, hperm, hwins⟩ : ∃ w g', winnerFirst m g = some (w :: g') ∧ (w :: g').Perm g ∧
      ∀ d, m.dedup = some d → 1 < g.length → g[d g]? = some w := by
    obtain ⟨t, hgt, ht⟩ := hg1
    unfold winnerFirst
    cases hm : m.dedup with
    | none => exact ⟨head, t, by rw [hgt], by rw [hgt], by simp⟩
    | some d =>
      dsimp only
      by_cases hl : 1 < g.length
      · rw [if_pos hl]
        have hdl := hd d hm g hl
        have h0 : g[0]? = some head := by rw [hgt]; rfl
        rw [h0, List.getElem?_eq_getElem hdl]
        dsimp only
        have hp := set_swap_perm g (d g) head g[d g] h0 (List.getElem?_eq_getElem hdl)
        cases hset : (g.set 0 g[d g]).set (d g) head with
        | nil =>
          rw [hset] at hp
          have := hp.length_eq
          simp at this
          omega
        | cons w g' =>
          refine ⟨w, g', rfl, by rw [← hset]; exact hp, ?_⟩
          intro d' hd' _
          cases hd'
          rw [List.getElem?_eq_getElem hdl]
          have hw0 : ((g.set 0 g[d g]).set (d g) head)[0]? = some w := by rw [hset]; rfl
          by_cases hz : d g = 0
          · simp only [hz] at hw0 ⊢
            rw [List.getElem?_set_self (by simp; omega)] at hw0
            have h00 : g[0]'(by omega) = head := by
              rw [List.getElem?_eq_getElem (by omega)] at h0
              exact Option.some.inj h0
            rw [h00]
            exact hw0
          · rw [List.getElem?_set_ne hz, List.getElem?_set_self (by omega)] at hw0
            exact hw0
      · rw [if_neg hl]
        exact ⟨head, t, by rw [hgt], by rw [hgt], fun d _ h => absurd h hl⟩
  refine ⟨w, g', hw, ?_⟩
  intro s' hsf hsv
  have hwg : w ∈ g := hperm.mem_iff.mp (by simp)
  have hpm : ((w :: g').map (·.2)).Perm (g.map (·.2)) := hperm.map _
  have hidx : ∀ i, i ∈ v.map (·.2) ++ (w :: g').map (·.2) ↔ i ∈ s.vec.map (·.2) := by
    intro i
    rw [hgv, List.map_append, List.mem_append, List.mem_append, hpm.mem_iff]
    exact Or.comm
  constructor
  · refine ⟨?_, ?_, ?_, ?_⟩
    · rw [hsv]
      have := h.sorted
      unfold VecSorted at this ⊢
      rw [hgv, List.pairwise_append] at this
      exact this.2.1
    · rw [hsv]
      refine List.nodup_append.mpr ⟨hnd.2.1, hpm.nodup_iff.mpr hnd.1, ?_⟩
      intro a ha b hb hab
      exact hnd.2.2 b (hpm.mem_iff.mp hb) a ha hab.symm
    · intro i hi
      rw [hsv, hidx] at hi
      rw [hsf]
      exact h.opened i (List.mem_append.mpr (.inl hi))
    · intro i hi hni
      rw [hsv, hidx] at hni
      rw [hsf] at hi ⊢
      exact h.closed i hi (by rw [List.append_nil]; exact hni)
  · have hrest : ∀ i, restOf s' i = restOf s i := by intro i; unfold restOf; rw [hsf]
    have hle : ∀ y : α × Nat, m.cmp head.1 y.1 ≤ 0 → m.cmp w.1 y.1 ≤ 0 := fun y hy => H.trans _ _ _ (hgeq w hwg).2 hy
    refine ⟨hnd.1, ?_, ?_, ⟨w.2, hwg⟩, ?_, ?_⟩
    · intro x i hxi
      have hi : i ∈ g.map (·.2) := List.mem_map.mpr ⟨_, hxi, rfl⟩
      have hiv : i ∉ v.map (·.2) := fun hm => hnd.2.2 i hi i hm rfl
      refine ⟨?_, hle _ (hgeq _ hxi).1, H.trans _ _ _ (hgeq _ hxi).2 (hgeq w hwg).1⟩
      unfold remains
      rw [hsv, hrest, hgv, headOf_append, if_pos hi, headOf_mem hnd.1 hxi, headOf_none hiv]
      rfl
    · intro i hi
      refine ⟨?_, ?_⟩
      · unfold remains
        rw [hsv, hrest, hgv, headOf_append, if_neg hi]
      · intro x hx
        by_cases hiv : i ∈ v.map (·.2)
        · obtain ⟨y, hy1, hy2⟩ := headOf_some hiv
          unfold remains at hx
          rw [hgv, headOf_append, if_neg hi, hy2] at hx
          simp only [List.singleton_append, List.head?_cons, Option.some.injEq] at hx
          subst hx
          have := hv1 _ hy1
          exact ⟨hle _ this.1, fun hm => H.le_lt (hgeq w hwg).2 (this.2 hm)⟩
        · exfalso
          have hni : i ∉ s.vec.map (·.2) ++ [] := by
            rw [hgv, List.append_nil, List.map_append, List.mem_append]
            exact fun h' => h'.elim hi hiv
          unfold remains restOf at hx
          rw [headOf_none (by rw [List.append_nil] at hni; exact hni)] at hx
          by_cases hil : i < s.files.length
          · rw [(h.closed i hil hni).1] at hx
            simp at hx
          · rw [List.getElem?_eq_none (by omega)] at hx
            simp at hx
    · intro hm
      obtain ⟨t, hgt, ht⟩ := hg1
      rw [hgt, ht hm]
      rfl
    · intro d hm hl
      rw [hwins d hm hl]
      rfl

/-! ### All rounds -/

/-- The rounds lead from the remaining records `R` to `R'` and put out `out`. -/
inductive RunTo (m : Merger α) : (Nat → List α) → List α → (Nat → List α) → Prop
  | refl (R) : RunTo m R [] R
  | cons {R R' R'' w g out} : Popped m R R' w g → RunTo m R' out R'' → RunTo m R (w :: out) R''

theorem RunTo.nil {m : Merger α} {R R' : Nat → List α} (h : R = R') : RunTo m R [] R' := h ▸ .refl R

/-- How many records remain in the first `n` files. -/
def total (n : Nat) (R : Nat → List α) : Nat := ((List.range n).map fun i => (R i).length).sum

theorem total_succ (n : Nat) (R : Nat → List α) : total (n + 1) R = total n R + (R n).length := by
  simp [total, List.range_succ]

theorem total_le : ∀ (n : Nat) (R R' : Nat → List α), (∀ i, (R' i).length ≤ (R i).length) → total n R' ≤ total n R
  | 0, _, _, _ => by simp [total]
  | n + 1, R, R', h => by
    rw [total_succ, total_succ]
    have := total_le n R R' h
    have := h n
    omega

theorem total_lt : ∀ (n : Nat) (R R' : Nat → List α), (∀ i, (R' i).length ≤ (R i).length) →
    (∃ i, i < n ∧ (R' i).length < (R i).length) → total n R' < total n R
  | 0, _, _, _, h => by obtain ⟨i, h, _⟩ := h; omega
  | n + 1, R, R', h, h' => by
    rw [total_succ, total_succ]
    obtain ⟨i, hi, hl⟩ := h'
    by_cases hin : i = n
    · subst hin
      have := total_le i R R' h
      omega
    · have := total_lt n R R' h ⟨i, by omega, hl⟩
      have := h n
      omega

/-- The results that the callbacks are responsible for. -/
def CallbackError (m : Merger α) (c : Int) : Prop :=
  c ≠ 0 ∧ ((∃ f n x, m.feed = some f ∧ f n x = c) ∨ (∃ f n x, m.write = some f ∧ f n x = c))

/-- What was put out is what was fed or written, or both, according to what there is. -/
structure PutOut (m : Merger α) (s s' : MergerState α) (out : List α) : Prop where
  fed : m.feed.isSome = true → s'.fed = s.fed ++ out
  written : m.write.isSome = true → s'.written = s.written ++ out

theorem putRecord_spec {m : Merger α} (hfw : m.feed.isSome = true ∨ m.write.isSome = true) (s : MergerState α) (x : α) :
    (∃ s', putRecord m s x = .ok s' ∧ s'.files = s.files ∧ s'.vec = s.vec ∧ PutOut m s s' [x]) ∨
    (∃ c s', putRecord m s x = .error (.error c, s') ∧ CallbackError m c ∧ s'.written = s.written ∧
      (s'.fed = s.fed ∨ s'.fed = s.fed ++ [x])) := by
  unfold putRecord
  cases hf : m.feed with
  | none =>
    cases hw : m.write with
    | none => simp [hf, hw] at hfw
    | some w =>
      dsimp only
      by_cases h : w s.written.length x = 0
      · rw [if_pos h]
        exact .inl ⟨_, rfl, rfl, rfl, by simp [hf], fun _ => rfl⟩
      · rw [if_neg h]
        exact .inr ⟨_, _, rfl, ⟨h, .inr ⟨w, _, _, hw, rfl⟩⟩, rfl, .inl rfl⟩
  | some f =>
    cases hw : m.write with
    | none =>
      dsimp only
      by_cases h : f s.fed.length x = 0
      · rw [if_pos h]
        exact .inl ⟨_, rfl, rfl, rfl, fun _ => rfl, by simp [hw]⟩
      · rw [if_neg h]
        exact .inr ⟨_, _, rfl, ⟨h, .inl ⟨f, _, _, hf, rfl⟩⟩, rfl, .inl rfl⟩
    | some w =>
      dsimp only
      by_cases h : f s.fed.length x = 0
      · rw [if_pos h]
        by_cases h' : w s.written.length x = 0
        · rw [if_pos h']
          exact .inl ⟨_, rfl, rfl, rfl, fun _ => rfl, fun _ => rfl⟩
        · rw [if_neg h']
          exact .inr ⟨_, _, rfl, ⟨h', .inr ⟨w, _, _, hw, rfl⟩⟩, rfl, .inr rfl⟩
      · rw [if_neg h]
        exact .inr ⟨_, _, rfl, ⟨h, .inl ⟨f, _, _, hf, rfl⟩⟩, rfl, .inl rfl⟩

theorem mergerLoop_spec {m : Merger α} (H : CmpOk m.cmp) (hd : DedupOk m) (hfw : m.feed.isSome = true ∨ m.write.isSome = true)
    {F : Nat → Option Int} : ∀ (fuel : Nat) (s : MergerState α), MInv m.cmp F s [] → total s.files.length (remains s) < fuel →
      (∃ s' out R, mergerLoop m fuel s = (.success, s') ∧ RunTo m (remains s) out R ∧ (∀ i, R i = []) ∧ PutOut m s s' out ∧
        ∀ i, i < s.files.length → F i = none) ∨
      (∃ c s' out R, mergerLoop m fuel s = (.error c, s') ∧ ((∃ i, F i = some c) ∨ CallbackError m c) ∧
        RunTo m (remains s) out R ∧ (m.write.isSome = true → s'.written = s.written ++ out))
  | 0, _, _, hf => by omega
  | fuel + 1, s, h, hf => by
    unfold mergerLoop
    cases hv : s.vec with
    | nil =>
      refine .inl ⟨s, [], remains s, rfl, .refl _, ?_, ⟨by simp, by simp⟩, ?_⟩
      · intro i
        unfold remains restOf
        rw [headOf_none (by rw [hv]; simp)]
        by_cases hil : i < s.files.length
        · rw [(h.closed i hil (by rw [hv]; simp)).1]
          rfl
        · rw [List.getElem?_eq_none (by omega)]
          rfl
      · intro i hi
        exact (h.closed i hi (by rw [hv]; simp)).2
    | cons head rest =>
      dsimp only
      obtain ⟨w, g', h1, h2⟩ := pop_spec H hd h hv
      rw [hv] at h1 h2
      rw [h1]
      dsimp only
      obtain ⟨-, hp⟩ := h2 { s with vec := (head :: rest).drop (dupCount m head rest) } rfl rfl
      cases putRecord_spec hfw { s with vec := (head :: rest).drop (dupCount m head rest) } w.1 with
      | inr hput =>
        obtain ⟨c, s', p1, p2, p3, p4⟩ := hput
        rw [p1]
        exact .inr ⟨c, s', [], _, rfl, .inr p2, .refl _, fun _ => by rw [p3, List.append_nil]⟩
      | inl hput =>
        obtain ⟨s', p1, p2, p3, p4⟩ := hput
        rw [p1]
        dsimp only
        obtain ⟨hinv, hp⟩ := h2 s' p2 p3
        cases refillAll_spec H _ s' hinv with
        | inr hr =>
          obtain ⟨c, r1, i, _, r2⟩ := hr
          rw [r1]
          exact .inr ⟨c, s', [w.1], _, rfl, .inl ⟨i, r2⟩, .cons hp (.refl _), p4.written⟩
        | inl hr =>
          obtain ⟨s'', r1, r2, r3, r4, r5, r6⟩ := hr
          rw [r1]
          dsimp only
          have hrem : remains s'' = remains s' := funext r3
          have hdec : total s.files.length (remains s') < total s.files.length (remains s) := by
            refine total_lt _ _ _ ?_ ?_
            · intro i
              by_cases hi : i ∈ ((head :: rest).take (dupCount m head rest)).map (·.2)
              · obtain ⟨⟨x, j⟩, he, hj⟩ := List.mem_map.mp hi
                dsimp only at hj
                subst hj
                rw [(hp.mem x j he).1]
                simp
              · rw [(hp.other i hi).1]
                exact Nat.le_refl _
            · obtain ⟨i, hi⟩ := hp.win
              refine ⟨i, ?_, by rw [(hp.mem _ _ hi).1]; simp⟩
              have : i ∈ s.vec.map (·.2) := by
                rw [hv]
                exact List.mem_map.mpr ⟨_, List.mem_of_mem_take hi, rfl⟩
              obtain ⟨src, h3, _⟩ := h.opened i (List.mem_append.mpr (.inl this))
              exact (List.getElem?_eq_some_iff.mp h3).1
          have hlen : s''.files.length = s.files.length := by rw [r6, p2]
          cases mergerLoop_spec H hd hfw fuel s'' r2 (by rw [hlen, hrem]; omega) with
          | inl ih =>
            obtain ⟨s3, out, R, i1, i2, i3, i4, i5⟩ := ih
            rw [hrem] at i2
            refine .inl ⟨s3, w.1 :: out, R, i1, .cons hp i2, i3, ⟨?_, ?_⟩, by rw [← hlen]; exact i5⟩
            · intro hm
              rw [i4.fed hm, r4, p4.fed hm]
              simp
            · intro hm
              rw [i4.written hm, r5, p4.written hm]
              simp
          | inr ih =>
            obtain ⟨c, s3, out, R, i1, i2, i3, i4⟩ := ih
            rw [hrem] at i3
            refine .inr ⟨c, s3, w.1 :: out, R, i1, i2, .cons hp i3, ?_⟩
            intro hm
            rw [i4 hm, r5, p4.written hm]
            simp

/-- The records of the files. -/
def fileRecs (files : List (Source α)) (i : Nat) : List α := ((files[i]?).map (·.recs)).getD []

theorem total_fileRecs (files : List (Source α)) : total files.length (fileRecs files) = recordCount files := by
  unfold total recordCount
  congr 1
  apply List.ext_getElem
  · simp
  · intro i h1 h2
    simp at h1 h2
    simp [fileRecs, h1]

theorem doMergeFiles_spec {m : Merger α} (H : CmpOk m.cmp) (hd : DedupOk m) (hfw : m.feed.isSome = true ∨ m.write.isSome = true)
    (files : List (Source α)) :
      (∃ s' out R, doMergeFiles m files = (.success, s') ∧ RunTo m (fileRecs files) out R ∧ (∀ i, R i = []) ∧
        (m.feed.isSome = true → s'.fed = out) ∧ (m.write.isSome = true → s'.written = out) ∧ ∀ f ∈ files, f.fail = none) ∨
      (∃ c s' out R, doMergeFiles m files = (.error c, s') ∧ ((∃ f ∈ files, f.fail = some c) ∨ CallbackError m c) ∧
        RunTo m (fileRecs files) out R ∧ (m.write.isSome = true → s'.written = out)) := by
  let s : MergerState α := ⟨files.map some, [], [], []⟩
  let F : Nat → Option Int := fun i => (files[i]?).bind (·.fail)
  have hF : ∀ i c, F i = some c → ∃ f ∈ files, f.fail = some c := by
    intro i c h
    simp only [F, Option.bind_eq_some_iff] at h
    obtain ⟨f, h1, h2⟩ := h
    exact ⟨f, List.mem_of_getElem? h1, h2⟩
  have hrem : remains s = fileRecs files := by
    funext i
    simp only [remains, headOf, restOf, fileRecs, s, List.getElem?_map]
    cases files[i]? <;> simp
  have hinv : MInv m.cmp F s (List.range files.length) := by
    refine ⟨.nil, by simp [s, List.nodup_range], ?_, ?_⟩
    · intro i hi
      simp only [s, List.map_nil, List.nil_append, List.mem_range] at hi
      exact ⟨files[i], by simp [s, hi], by simp [F, hi]⟩
    · intro i hi hni
      simp [s] at hi hni
      omega
  unfold doMergeFiles
  show (∃ s' out R, (match refillAll m s (List.range files.length) with
    | .error e => (e, s)
    | .ok s' => mergerLoop m (recordCount files + 1) s') = _ ∧ _) ∨ (∃ c s' out R, (match refillAll m s (List.range files.length) with
    | .error e => (e, s)
    | .ok s' => mergerLoop m (recordCount files + 1) s') = _ ∧ _)
  cases refillAll_spec H _ s hinv with
  | inr hr =>
    obtain ⟨c, r1, i, _, r2⟩ := hr
    rw [r1]
    exact .inr ⟨c, s, [], _, rfl, .inl (hF i c r2), .refl _, fun _ => rfl⟩
  | inl hr =>
    obtain ⟨s'', r1, r2, r3, r4, r5, r6⟩ := hr
    rw [r1]
    dsimp only
    have hrem' : remains s'' = fileRecs files := (funext r3).trans hrem
    have hlen : s''.files.length = files.length := by rw [r6]; simp [s]
    cases mergerLoop_spec H hd hfw (recordCount files + 1) s'' r2 (by rw [hlen, hrem', total_fileRecs]; omega) with
    | inl ih =>
      obtain ⟨s3, out, R, i1, i2, i3, i4, i5⟩ := ih
      refine .inl ⟨s3, out, R, i1, hrem' ▸ i2, i3, ?_, ?_, ?_⟩
      · intro hm; rw [i4.fed hm, r4]; rfl
      · intro hm; rw [i4.written hm, r5]; rfl
      · intro f hf
        obtain ⟨i, hi, rfl⟩ := List.mem_iff_getElem.mp hf
        have := i5 i (by rw [hlen]; exact hi)
        simpa [F, hi] using this
    | inr ih =>
      obtain ⟨c, s3, out, R, i1, i2, i3, i4⟩ := ih
      refine .inr ⟨c, s3, out, R, i1, ?_, hrem' ▸ i3, ?_⟩
      · cases i2 with
        | inl h => obtain ⟨i, h⟩ := h; exact .inl (hF i c h)
        | inr h => exact .inr h
      · intro hm; rw [i4 hm, r5]; rfl

/-! ### What the rounds put out -/

/-- All records of the first `n` files. -/
def flat (n : Nat) (R : Nat → List α) : List α := ((List.range n).map R).flatten

theorem flat_succ (n : Nat) (R : Nat → List α) : flat (n + 1) R = flat n R ++ R n := by
  simp [flat, List.range_succ]

theorem flat_congr : ∀ (n : Nat) (R R' : Nat → List α), (∀ i, i < n → R i = R' i) → flat n R = flat n R'
  | 0, _, _, _ => rfl
  | n + 1, R, R', h => by
    rw [flat_succ, flat_succ, flat_congr n R R' (fun i hi => h i (by omega)), h n (by omega)]

theorem flat_pop : ∀ (n : Nat) (R R' : Nat → List α) (i : Nat) (w : α), i < n → R i = w :: R' i → (∀ j, j ≠ i → R' j = R j) →
    (flat n R).Perm (w :: flat n R')
  | 0, _, _, _, _, h, _, _ => by omega
  | n + 1, R, R', i, w, hi, hw, ho => by
    rw [flat_succ, flat_succ]
    by_cases hin : i = n
    · subst hin
      rw [hw, flat_congr i R R' (fun j hj => (ho j (by omega)).symm)]
      exact List.perm_middle
    · rw [ho n (by omega)]
      exact (flat_pop n R R' i w (by omega) hw ho).append_right _

/-- Sorted files. -/
def AllSorted (cmp : α → α → Int) (R : Nat → List α) : Prop := ∀ i, (R i).Pairwise fun x y => cmp x y ≤ 0

theorem Popped.suffix {m : Merger α} {R R' : Nat → List α} {w : α} {g : List (α × Nat)} (h : Popped m R R' w g) (i : Nat) :
    (∃ x, R i = x :: R' i ∧ m.cmp w x ≤ 0 ∧ m.cmp x w ≤ 0) ∨
      (R' i = R i ∧ ∀ x, (R i).head? = some x → m.cmp w x ≤ 0 ∧ (m.dedup.isSome = true → m.cmp w x < 0)) := by
  by_cases hi : i ∈ g.map (·.2)
  · obtain ⟨⟨x, j⟩, he, hj⟩ := List.mem_map.mp hi
    dsimp only at hj
    subst hj
    exact .inl ⟨x, h.mem x j he⟩
  · exact .inr (h.other i hi)

theorem Popped.sorted {m : Merger α} {R R' : Nat → List α} {w : α} {g : List (α × Nat)} (h : Popped m R R' w g)
    (hs : AllSorted m.cmp R) : AllSorted m.cmp R' := by
  intro i
  have := hs i
  cases h.suffix i with
  | inl h' => obtain ⟨x, h1, _⟩ := h'; rw [h1] at this; exact (List.pairwise_cons.mp this).2
  | inr h' => rw [h'.1]; exact this

theorem Popped.le {m : Merger α} (H : CmpOk m.cmp) {R R' : Nat → List α} {w : α} {g : List (α × Nat)} (h : Popped m R R' w g)
    (hs : AllSorted m.cmp R) : ∀ i, ∀ x ∈ R i, m.cmp w x ≤ 0 := by
  intro i x hx
  have hsi := hs i
  cases h.suffix i with
  | inl h' =>
    obtain ⟨y, h1, h2, _⟩ := h'
    rw [h1] at hsi hx
    cases List.mem_cons.mp hx with
    | inl he => rw [he]; exact h2
    | inr he => exact H.trans _ _ _ h2 ((List.pairwise_cons.mp hsi).1 x he)
  | inr h' =>
    cases hr : R i with
    | nil => rw [hr] at hx; simp at hx
    | cons y l =>
      have h2 := (h'.2 y (by rw [hr]; rfl)).1
      rw [hr] at hsi hx
      cases List.mem_cons.mp hx with
      | inl he => rw [he]; exact h2
      | inr he => exact H.trans _ _ _ h2 ((List.pairwise_cons.mp hsi).1 x he)

theorem Popped.sub {m : Merger α} {R R' : Nat → List α} {w : α} {g : List (α × Nat)} (h : Popped m R R' w g) (i : Nat) :
    ∀ x ∈ R' i, x ∈ R i := by
  intro x hx
  cases h.suffix i with
  | inl h' => obtain ⟨y, h1, _⟩ := h'; rw [h1]; exact List.mem_cons_of_mem _ hx
  | inr h' => rw [← h'.1]; exact hx

/-- What is put out comes from the files, and is sorted and at most what remains. -/
theorem RunTo.sorted {m : Merger α} (H : CmpOk m.cmp) {R R' : Nat → List α} {out : List α} (h : RunTo m R out R')
    (hs : AllSorted m.cmp R) :
    (out.Pairwise fun x y => m.cmp x y ≤ 0) ∧ (∀ x ∈ out, ∃ i, x ∈ R i) ∧ (∀ x ∈ out, ∀ i, ∀ y ∈ R' i, m.cmp x y ≤ 0) ∧
      ∀ i, ∀ x ∈ R' i, x ∈ R i := by
  induction h with
  | refl R => exact ⟨.nil, by simp, by simp, fun i x h => h⟩
  | @cons R R1 R2 w g out hp _ ih =>
    obtain ⟨h1, h2, h3, h4⟩ := ih (hp.sorted hs)
    have hle := hp.le H hs
    refine ⟨List.pairwise_cons.mpr ⟨?_, h1⟩, ?_, ?_, fun i x hx => hp.sub i x (h4 i x hx)⟩
    · intro x hx
      obtain ⟨i, hi⟩ := h2 x hx
      exact hle i x (hp.sub i x hi)
    · intro x hx
      cases List.mem_cons.mp hx with
      | inl h =>
        subst h
        obtain ⟨i, hi⟩ := hp.win
        exact ⟨i, by rw [(hp.mem _ _ hi).1]; simp⟩
      | inr h =>
        obtain ⟨i, hi⟩ := h2 x h
        exact ⟨i, hp.sub i x hi⟩
    · intro x hx i y hy
      cases List.mem_cons.mp hx with
      | inl h =>
        subst h
        exact hle i y (hp.sub i y (h4 i y hy))
      | inr h => exact h3 x h i y hy

/-- Without deduplication every record is put out once. -/
theorem RunTo.perm {m : Merger α} (hm : m.dedup = none) (n : Nat) {R R' : Nat → List α} {out : List α} (h : RunTo m R out R')
    (hn : ∀ i, n ≤ i → R i = []) : (out ++ flat n R').Perm (flat n R) := by
  induction h with
  | refl R => exact .refl _
  | @cons R R1 R2 w g out hp _ ih =>
    obtain ⟨i, hi⟩ := hp.win
    have hg := hp.single hm
    have hgi : g = [(w, i)] := by
      match g, hg with
      | [e], _ => rw [List.mem_singleton.mp hi]
    have hin : i < n := by
      cases Nat.lt_or_ge i n with
      | inl h => exact h
      | inr h =>
        have := (hp.mem _ _ hi).1
        rw [hn i h] at this
        simp at this
    have ho : ∀ j, j ≠ i → R1 j = R j := fun j hj => (hp.other j (by rw [hgi]; simpa using hj)).1
    have := ih (fun j hj => by rw [ho j (by omega)]; exact hn j hj)
    exact (List.Perm.cons w this).trans (flat_pop n R R1 i w hin (hp.mem _ _ hi).1 ho).symm

theorem countKey_cons (cmp : α → α → Int) (k x : α) (l : List α) :
    countKey cmp k (x :: l) = (if sameKey cmp k x = true then 1 else 0) + countKey cmp k l := by
  unfold countKey
  rw [List.filter_cons]
  by_cases h : sameKey cmp k x = true
  · rw [if_pos h, if_pos h, List.length_cons]; omega
  · rw [if_neg h, if_neg h]; omega

theorem countKey_pos {cmp : α → α → Int} {k : α} {l : List α} (h : 0 < countKey cmp k l) : ∃ x ∈ l, sameKey cmp k x = true := by
  unfold countKey at h
  cases hf : l.filter (sameKey cmp k) with
  | nil => rw [hf] at h; simp at h
  | cons x t =>
    have : x ∈ l.filter (sameKey cmp k) := by rw [hf]; simp
    exact ⟨x, (List.mem_filter.mp this).1, (List.mem_filter.mp this).2⟩

theorem CmpOk.eqv_congr {cmp : α → α → Int} (H : CmpOk cmp) {k x y : α} (h1 : cmp x y ≤ 0) (h2 : cmp y x ≤ 0) :
    sameKey cmp k x = sameKey cmp k y := by
  unfold sameKey
  apply decide_eq_decide.mpr
  exact ⟨fun h => ⟨H.trans _ _ _ h.1 h1, H.trans _ _ _ h2 h.2⟩, fun h => ⟨H.trans _ _ _ h.1 h2, H.trans _ _ _ h1 h.2⟩⟩

/-- With deduplication a key is put out as often as it is in one of the files at most. -/
theorem RunTo.count {m : Merger α} (H : CmpOk m.cmp) (hm : m.dedup.isSome = true) (k : α) {R R' : Nat → List α} {out : List α}
    (h : RunTo m R out R') (hs : AllSorted m.cmp R) (he : ∀ i, R' i = []) :
    (∀ i, countKey m.cmp k (R i) ≤ countKey m.cmp k out) ∧
      (countKey m.cmp k out = 0 ∨ ∃ i, countKey m.cmp k (R i) = countKey m.cmp k out) := by
  induction h with
  | refl R => exact ⟨fun i => by rw [he i]; exact Nat.le_refl _, .inl rfl⟩
  | @cons R R1 R2 w g out hp _ ih =>
    obtain ⟨h1, h2⟩ := ih (hp.sorted hs) he
    rw [countKey_cons]
    by_cases hk : sameKey m.cmp k w = true
    · rw [if_pos hk]
      constructor
      · intro i
        have := h1 i
        cases hp.suffix i with
        | inl h' => obtain ⟨x, hx, _⟩ := h'; rw [hx, countKey_cons]; split <;> omega
        | inr h' => rw [← h'.1]; omega
      · refine .inr ?_
        have hgrp : ∀ i x, (x, i) ∈ g → countKey m.cmp k (R i) = 1 + countKey m.cmp k (R1 i) := by
          intro i x hx
          obtain ⟨e1, e2, e3⟩ := hp.mem x i hx
          rw [e1, countKey_cons, if_pos (by rw [← H.eqv_congr e2 e3]; exact hk)]
        cases Nat.eq_zero_or_pos (countKey m.cmp k out) with
        | inl h0 =>
          obtain ⟨i, hi⟩ := hp.win
          refine ⟨i, ?_⟩
          have := h1 i
          rw [hgrp i w hi]
          omega
        | inr hpos =>
          cases h2 with
          | inl h => omega
          | inr h =>
            obtain ⟨i, hi⟩ := h
            refine ⟨i, ?_⟩
            by_cases hig : i ∈ g.map (·.2)
            · obtain ⟨⟨x, j⟩, he', hj⟩ := List.mem_map.mp hig
              dsimp only at hj
              subst hj
              rw [hgrp j x he']
              omega
            · exfalso
              obtain ⟨e1, e2⟩ := hp.other i hig
              rw [e1] at hi
              obtain ⟨x, hx1, hx2⟩ := countKey_pos (cmp := m.cmp) (k := k) (l := R i) (by omega)
              have hsi := hs i
              cases hr : R i with
              | nil => rw [hr] at hx1; simp at hx1
              | cons y l =>
                have hy := (e2 y (by rw [hr]; rfl)).2 hm
                rw [hr] at hsi hx1
                have hwx : m.cmp w x < 0 := by
                  cases List.mem_cons.mp hx1 with
                  | inl h => rw [h]; exact hy
                  | inr h => exact H.lt_le hy ((List.pairwise_cons.mp hsi).1 x h)
                simp only [sameKey, decide_eq_true_eq] at hk hx2
                have := H.trans _ _ _ hx2.2 hk.1
                have := H.flip w x
                omega
    · rw [if_neg hk]
      have hsame : ∀ i, countKey m.cmp k (R i) = countKey m.cmp k (R1 i) := by
        intro i
        cases hp.suffix i with
        | inl h' =>
          obtain ⟨x, hx, e2, e3⟩ := h'
          rw [hx, countKey_cons, if_neg (by rw [← H.eqv_congr e2 e3]; exact hk)]
          omega
        | inr h' => rw [h'.1]
      refine ⟨fun i => by rw [hsame i]; have := h1 i; omega, ?_⟩
      cases h2 with
      | inl h => exact .inl (by omega)
      | inr h => obtain ⟨i, hi⟩ := h; exact .inr ⟨i, by rw [hsame i]; omega⟩

/-- Files without two records of the same key. -/
def AllStrict (cmp : α → α → Int) (R : Nat → List α) : Prop := ∀ i, (R i).Pairwise fun x y => cmp x y < 0

theorem AllStrict.sorted {cmp : α → α → Int} {R : Nat → List α} (h : AllStrict cmp R) : AllSorted cmp R :=
  fun i => (h i).imp fun h => Int.le_of_lt h

/-- Then each record put out is the one the callback chose among all records with this key. -/
theorem RunTo.winner {m : Merger α} (H : CmpOk m.cmp) {d : List (α × Nat) → Nat} (hm : m.dedup = some d) {R R' : Nat → List α}
    {out : List α} (h : RunTo m R out R') (hs : AllStrict m.cmp R) :
    (out.Pairwise fun x y => m.cmp x y < 0) ∧
    ∀ w ∈ out, ∃ g : List (α × Nat), (g.map (·.2)).Nodup ∧ (∀ x i, (x, i) ∈ g ↔ x ∈ R i ∧ m.cmp w x ≤ 0 ∧ m.cmp x w ≤ 0) ∧
      (∃ i, (w, i) ∈ g) ∧ (1 < g.length → (g[d g]?).map (·.1) = some w) := by
  induction h with
  | refl R => exact ⟨.nil, by simp⟩
  | @cons R R1 R2 w g out hp hrun ih =>
    have hlt : ∀ i, ∀ x ∈ R1 i, m.cmp w x < 0 := by
      intro i x hx
      have hsi := hs i
      cases hp.suffix i with
      | inl h' =>
        obtain ⟨y, e1, e2, _⟩ := h'
        rw [e1] at hsi
        exact H.le_lt e2 ((List.pairwise_cons.mp hsi).1 x hx)
      | inr h' =>
        rw [h'.1] at hx
        cases hr : R i with
        | nil => rw [hr] at hx; simp at hx
        | cons y l =>
          have hy := (h'.2 y (by rw [hr]; rfl)).2 (by rw [hm]; rfl)
          rw [hr] at hsi hx
          cases List.mem_cons.mp hx with
          | inl h => rw [h]; exact hy
          | inr h => exact H.lt_le hy (Int.le_of_lt ((List.pairwise_cons.mp hsi).1 x h))
    have hs1 : AllStrict m.cmp R1 := by
      intro i
      have := hs i
      cases hp.suffix i with
      | inl h' => obtain ⟨x, h1, _⟩ := h'; rw [h1] at this; exact (List.pairwise_cons.mp this).2
      | inr h' => rw [h'.1]; exact this
    obtain ⟨ih1, ih2⟩ := ih hs1
    have hout := (hrun.sorted H hs1.sorted).2.1
    refine ⟨List.pairwise_cons.mpr ⟨?_, ih1⟩, ?_⟩
    · intro x hx
      obtain ⟨i, hi⟩ := hout x hx
      exact hlt i x hi
    · intro v hv
      cases List.mem_cons.mp hv with
      | inl h =>
        subst h
        refine ⟨g, hp.nodup, ?_, hp.win, hp.wins d hm⟩
        intro x i
        constructor
        · intro hx
          obtain ⟨e1, e2, e3⟩ := hp.mem x i hx
          exact ⟨by rw [e1]; simp, e2, e3⟩
        · rintro ⟨hx, e2, e3⟩
          by_cases hig : i ∈ g.map (·.2)
          · obtain ⟨⟨y, j⟩, he', hj⟩ := List.mem_map.mp hig
            dsimp only at hj
            subst hj
            have hr := (hp.mem y j he').1
            rw [hr] at hx
            cases List.mem_cons.mp hx with
            | inl h => rw [h]; exact he'
            | inr h =>
              have := hlt j x h
              have := H.flip v x
              omega
          · have := hlt i x (by rw [(hp.other i hig).1]; exact hx)
            have := H.flip v x
            omega
      | inr h =>
        obtain ⟨g', g1, g2, g3, g4⟩ := ih2 v h
        refine ⟨g', g1, ?_, g3, g4⟩
        intro x i
        rw [g2]
        constructor
        · rintro ⟨a, b⟩; exact ⟨hp.sub i x a, b⟩
        · rintro ⟨a, b, c⟩
          refine ⟨?_, b, c⟩
          obtain ⟨j, hj⟩ := hout v h
          have hwv := hlt j v hj
          cases hp.suffix i with
          | inl h' =>
            obtain ⟨y, e1, e2, e3⟩ := h'
            rw [e1] at a
            cases List.mem_cons.mp a with
            | inl h =>
              subst h
              have := H.trans _ _ _ b e3
              have := H.flip w v
              omega
            | inr h => exact h
          | inr h' => rw [h'.1]; exact a

end Couchstore
