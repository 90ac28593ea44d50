import Verif.Spec.FileMap

/-! The map of a file. -/

namespace Couchstore

theorem encodeTag_eq (t : FileTag) (tree : MapTree) : encodeTag t tree = purpose t tree := by
  cases t <;> cases tree <;> rfl

theorem tagBlock_zero (t : BlockTag) (h : Bool) (b : BlockInfo) : tagBlock t h 0 b = b := by
  simp [tagBlock]

theorem getD_set {α : Type} (l : List α) (i j : Nat) (x d : α) (hi : i < l.length) :
    (l.set i x).getD j d = if i = j then x else l.getD j d := by
  simp only [List.getD_eq_getElem?_getD, List.getElem?_set]
  split
  · rename_i h; subst h; simp [hi]
  · rfl

theorem length_tagBlocks (t : BlockTag) (h : Bool) : ∀ (n id o s : Nat) (bs : List BlockInfo),
    (tagBlocks t h n id o s bs).length = bs.length
  | 0, _, _, _, _ => rfl
  | n + 1, id, o, s, bs => by
    rw [tagBlocks]
    split
    · exact length_tagBlocks t h n _ _ _ _
    · rw [length_tagBlocks t h n, List.length_set]

/-- Without old data. -/
theorem tagBlocks_current (t : BlockTag) : ∀ (n id o s : Nat) (bs : List BlockInfo) (j : Nat), id + n ≤ bs.length →
    (tagBlocks t false n id o s bs).getD j {} =
      if id ≤ j ∧ j < id + n then tagBlock t false (overlap (64 * id + o % 64) s j) (bs.getD j {}) else bs.getD j {}
  | 0, id, o, s, bs, j, _ => by
    rw [tagBlocks, if_neg (by omega)]
  | n + 1, id, o, s, bs, j, hl => by
    rw [tagBlocks]
    rw [if_neg (by simp), tagBlocks_current t n (id + 1) 0 _ _ j (by rw [List.length_set]; omega),
      getD_set _ _ _ _ _ (by omega)]
    have hm : o % 64 < 64 := Nat.mod_lt _ (by decide)
    by_cases h1 : id = j
    · subst h1
      rw [if_neg (by omega), if_pos rfl, if_pos (by omega)]
      congr 1
      unfold overlap mapBlock
      omega
    · rw [if_neg h1]
      by_cases h2 : id + 1 ≤ j ∧ j < id + 1 + n
      · rw [if_pos h2, if_pos (by omega)]
        congr 1
        unfold overlap mapBlock
        omega
      · rw [if_neg h2, if_neg (by omega)]

theorem getD_grow (bs : List BlockInfo) (n j : Nat) : (bs ++ List.replicate n ({} : BlockInfo)).getD j ({} : BlockInfo) = bs.getD j {} := by
  simp only [List.getD_eq_getElem?_getD]
  rw [List.getElem?_append]
  split
  · rfl
  · rename_i h
    rw [List.getElem?_eq_none (l := bs) (by omega), List.getElem?_replicate]
    split <;> rfl

theorem shown_record (f : MapFile) (hh : f.currentHistoric = false) (o s j : Nat) :
    (f.recordAccess o s).shown j = tagBlock (purpose f.currentTag f.currentTree) false (overlap o s j) (f.shown j) := by
  unfold MapFile.recordAccess MapFile.shown mapBlock
  dsimp only
  have hd : o / 64 ≤ (o + s) / 64 := Nat.div_le_div_right (by omega)
  rw [hh, encodeTag_eq, tagBlocks_current _ _ _ _ _ _ _ (by rw [List.length_append, List.length_replicate]; omega), getD_grow]
  have ho : 64 * (o / 64) + o % 64 = o := Nat.div_add_mod o 64
  rw [ho]
  split
  · rfl
  · rename_i h
    have : overlap o s j = 0 := by unfold overlap; omega
    rw [this, tagBlock_zero]

/-- In any case. -/
theorem tagBlocks_any (t : BlockTag) (h : Bool) : ∀ (n id o s : Nat) (bs : List BlockInfo) (j : Nat), id + n ≤ bs.length →
    (tagBlocks t h n id o s bs).getD j {} = bs.getD j {} ∨
    (id ≤ j ∧ j < id + n ∧ ¬ (h = true ∧ (bs.getD j {}).historic = false ∧ (bs.getD j {}).tag ≠ .empty) ∧
      ∃ a, a ≤ s ∧ (tagBlocks t h n id o s bs).getD j {} = tagBlock t h a (bs.getD j {}))
  | 0, id, o, s, bs, j, _ => Or.inl rfl
  | n + 1, id, o, s, bs, j, hl => by
    rw [tagBlocks]
    split
    · rename_i hc
      rcases tagBlocks_any t h n (id + 1) o s bs j (by omega) with k | ⟨k1, k2, k3⟩
      · exact Or.inl k
      · exact Or.inr ⟨by omega, by omega, k3⟩
    · rename_i hc
      have hg := getD_set bs id j (tagBlock t h (min (mapBlock - o % mapBlock) s) (bs.getD id {})) {} (by omega)
      rcases tagBlocks_any t h n (id + 1) 0 _ (bs.set id (tagBlock t h (min (mapBlock - o % mapBlock) s) (bs.getD id {}))) j
        (by rw [List.length_set]; omega) with k | ⟨k1, k2, k3⟩
      · rw [k, hg]
        by_cases h1 : id = j
        · subst h1
          rw [if_pos rfl]
          exact Or.inr ⟨Nat.le_refl _, by omega, hc, _, Nat.min_le_right _ _, rfl⟩
        · rw [if_neg h1]
          exact Or.inl rfl
      · rw [hg, if_neg (by omega)] at k3
        obtain ⟨k3, a, k4, k5⟩ := k3
        exact Or.inr ⟨by omega, by omega, k3, a, Nat.le_trans k4 (Nat.sub_le _ _), k5⟩

theorem shown_record_any (f : MapFile) (o s j : Nat) :
    (f.recordAccess o s).shown j = f.shown j ∨
    (o / 64 ≤ j ∧ j ≤ (o + s) / 64 ∧ ¬ (f.currentHistoric = true ∧ (f.shown j).historic = false ∧ (f.shown j).tag ≠ .empty) ∧
      ∃ a, a ≤ s ∧ (f.recordAccess o s).shown j = tagBlock (purpose f.currentTag f.currentTree) f.currentHistoric a (f.shown j)) := by
  have hd : o / 64 ≤ (o + s) / 64 := Nat.div_le_div_right (by omega)
  have := tagBlocks_any (encodeTag f.currentTag f.currentTree) f.currentHistoric ((o + s) / 64 + 1 - o / 64) (o / 64) o s
    (f.blockInfo ++ List.replicate ((o + s) / 64 + 1 - f.blockInfo.length) ({} : BlockInfo)) j
    (by rw [List.length_append, List.length_replicate]; omega)
  rw [getD_grow] at this
  unfold MapFile.recordAccess
  rw [← encodeTag_eq]
  rcases this with k | ⟨k1, k2, k3⟩
  · exact Or.inl k
  · exact Or.inr ⟨k1, by omega, k3⟩

theorem tagBlock_cases (t : BlockTag) (h : Bool) (a : Nat) (b : BlockInfo) :
    tagBlock t h a b = b ∨ ((tagBlock t h a b).tag = t ∧ (tagBlock t h a b).historic = h ∧ b.accessSize < a) := by
  unfold tagBlock
  split
  · right; exact ⟨rfl, rfl, by assumption⟩
  · left; rfl

theorem tagBlock_size (t : BlockTag) (h : Bool) (a : Nat) (b : BlockInfo) : b.accessSize ≤ (tagBlock t h a b).accessSize ∧
    a ≤ (tagBlock t h a b).accessSize := by
  unfold tagBlock
  split
  · dsimp only; split <;> omega
  · omega

theorem overlap_pos {o s i : Nat} : 0 < overlap o s i ↔ ∃ p, o ≤ p ∧ p < o + s ∧ p / 64 = i := by
  constructor
  · intro h
    unfold overlap at h
    exact ⟨max o (64 * i), by omega, by omega, by omega⟩
  · rintro ⟨p, h1, h2, h3⟩
    unfold overlap
    omega

end Couchstore
