import Verif.Model.Quicksort
import Verif.Spec.Merge

/-! Helper lemmas about quicksort. -/

namespace Couchstore

variable {α : Type} {cmp : α → α → Int}

/-! ## Moving elements within a range -/

/-- Elements have been moved, all of them from places between `lo` and `hi` to places there. -/
structure RangeMoved (lo hi : Nat) (a a' : Array α) : Prop where
  size : a'.size = a.size
  perm : a'.toList.Perm a.toList
  outside : ∀ k, k < lo ∨ hi ≤ k → a'[k]? = a[k]?
  inside : ∀ k, lo ≤ k → k < hi → ∃ k', lo ≤ k' ∧ k' < hi ∧ a'[k]? = a[k']?

theorem RangeMoved.refl (lo hi : Nat) (a : Array α) : RangeMoved lo hi a a :=
  ⟨rfl, List.Perm.refl _, fun _ _ => rfl, fun k h1 h2 => ⟨k, h1, h2, rfl⟩⟩

theorem RangeMoved.trans {lo hi : Nat} {a b c : Array α} (h : RangeMoved lo hi a b) (h' : RangeMoved lo hi b c) : RangeMoved lo hi a c := by
  refine ⟨h'.size.trans h.size, h'.perm.trans h.perm, fun k hk => (h'.outside k hk).trans (h.outside k hk), ?_⟩
  intro k h1 h2
  obtain ⟨k1, g1, g2, g3⟩ := h'.inside k h1 h2
  obtain ⟨k2, f1, f2, f3⟩ := h.inside k1 g1 g2
  exact ⟨k2, f1, f2, g3.trans f3⟩

theorem RangeMoved.mono {lo hi lo' hi' : Nat} {a b : Array α} (h : RangeMoved lo hi a b) (h1 : lo' ≤ lo) (h2 : hi ≤ hi') : RangeMoved lo' hi' a b := by
  refine ⟨h.size, h.perm, fun k hk => h.outside k (by omega), ?_⟩
  intro k g1 g2
  by_cases hk : lo ≤ k ∧ k < hi
  · obtain ⟨k', f1, f2, f3⟩ := h.inside k hk.1 hk.2
    exact ⟨k', by omega, by omega, f3⟩
  · exact ⟨k, g1, g2, h.outside k (by omega)⟩

theorem swapAt_some {a : Array α} {i j : Nat} (hi : i < a.size) (hj : j < a.size) :
    ∃ a', swapAt a i j = some a' ∧ a'.size = a.size ∧ a'.toList.Perm a.toList ∧
      ∀ k, a'[k]? = if k = i then a[j]? else if k = j then a[i]? else a[k]? := by
  unfold swapAt
  rw [dif_pos ⟨hi, hj⟩]
  refine ⟨_, rfl, by simp, ?_, ?_⟩
  · exact Array.perm_iff_toList_perm.mp (Array.swap_perm hi hj)
  · intro k
    rw [Array.getElem?_swap, Array.getElem?_eq_getElem hi, Array.getElem?_eq_getElem hj]
    by_cases h1 : j = k
    · subst h1
      by_cases h2 : j = i
      · subst h2; simp
      · simp [h2]
    · by_cases h2 : i = k
      · subst h2; simp [h1]
      · rw [if_neg h1, if_neg h2, if_neg (fun h => h2 h.symm), if_neg (fun h => h1 h.symm)]

theorem swapAt_moved {a a' : Array α} {i j lo hi : Nat} (hs : a'.size = a.size) (hp : a'.toList.Perm a.toList)
    (hk : ∀ k, a'[k]? = if k = i then a[j]? else if k = j then a[i]? else a[k]?) (h1 : lo ≤ i) (h2 : i < hi) (h3 : lo ≤ j) (h4 : j < hi) :
    RangeMoved lo hi a a' := by
  refine ⟨hs, hp, fun k hk' => ?_, fun k g1 g2 => ?_⟩
  · rw [hk, if_neg (by omega), if_neg (by omega)]
  · by_cases e1 : k = i
    · exact ⟨j, h3, h4, by rw [hk, if_pos e1]⟩
    · by_cases e2 : k = j
      · exact ⟨i, h1, h2, by rw [hk, if_neg e1, if_pos e2]⟩
      · exact ⟨k, g1, g2, by rw [hk, if_neg e1, if_neg e2]⟩

theorem cmpAt_some {a : Array α} {i j : Nat} (hi : i < a.size) (hj : j < a.size) :
    ∃ x y, a[i]? = some x ∧ a[j]? = some y ∧ cmpAt cmp a i j = some (cmp x y) := by
  refine ⟨a[i], a[j], by simp [hi], by simp [hj], ?_⟩
  unfold cmpAt
  simp [hi, hj]

theorem med3_some {a : Array α} {i j k : Nat} (hi : i < a.size) (hj : j < a.size) (hk : k < a.size) :
    ∃ m, med3 cmp a i j k = some m ∧ (m = i ∨ m = j ∨ m = k) := by
  obtain ⟨_, _, _, _, h1⟩ := cmpAt_some (cmp := cmp) hi hj
  obtain ⟨_, _, _, _, h2⟩ := cmpAt_some (cmp := cmp) hj hk
  obtain ⟨_, _, _, _, h3⟩ := cmpAt_some (cmp := cmp) hi hk
  unfold med3
  simp only [h1, h2, h3, Option.bind_eq_bind, Option.bind_some, Option.pure_def]
  split
  · split
    · exact ⟨_, rfl, .inr (.inl rfl)⟩
    · refine ⟨_, rfl, ?_⟩
      split
      · exact .inr (.inr rfl)
      · exact .inl rfl
  · split
    · exact ⟨_, rfl, .inr (.inl rfl)⟩
    · refine ⟨_, rfl, ?_⟩
      split
      · exact .inl rfl
      · exact .inr (.inr rfl)

theorem pickPivot_some {a : Array α} {lo n : Nat} (hn : 7 ≤ n) (ha : lo + n ≤ a.size) :
    ∃ m, pickPivot cmp a lo n = some m ∧ lo ≤ m ∧ m < lo + n := by
  unfold pickPivot
  simp only [Option.pure_def, Option.bind_eq_bind]
  split
  · exact ⟨_, rfl, by omega, by omega⟩
  · split
    · obtain ⟨m1, h1, g1⟩ := med3_some (cmp := cmp) (a := a) (i := lo) (j := lo + n / 8) (k := lo + 2 * (n / 8)) (by omega) (by omega) (by omega)
      obtain ⟨m2, h2, g2⟩ := med3_some (cmp := cmp) (a := a) (i := lo + n / 2 - n / 8) (j := lo + n / 2) (k := lo + n / 2 + n / 8) (by omega) (by omega) (by omega)
      obtain ⟨m3, h3, g3⟩ := med3_some (cmp := cmp) (a := a) (i := lo + (n - 1) - 2 * (n / 8)) (j := lo + (n - 1) - n / 8) (k := lo + (n - 1)) (by omega) (by omega) (by omega)
      obtain ⟨m, h4, g4⟩ := med3_some (cmp := cmp) (a := a) (i := m1) (j := m2) (k := m3) (by omega) (by omega) (by omega)
      rw [h1, Option.bind_some, h2, Option.bind_some, h3, Option.bind_some, h4]
      exact ⟨m, rfl, by omega, by omega⟩
    · obtain ⟨m, h4, g4⟩ := med3_some (cmp := cmp) (a := a) (i := lo) (j := lo + n / 2) (k := lo + (n - 1)) (by omega) (by omega) (by omega)
      exact ⟨m, h4, by omega, by omega⟩

/-! ## Insertion sort -/

/-- The elements from `lo` on, `n` of them, are in order. -/
def SortedAt (cmp : α → α → Int) (a : Array α) (lo n : Nat) : Prop :=
  ∀ i j x y, lo ≤ i → i < j → j < lo + n → a[i]? = some x → a[j]? = some y → cmp x y ≤ 0

/-- What a sort of `n` elements from `lo` on does. -/
def SortSpec (cmp : α → α → Int) (a : Array α) (lo n : Nat) (r : Option (Array α)) : Prop :=
  ∃ a', r = some a' ∧ RangeMoved lo (lo + n) a a' ∧ (CmpOk cmp → SortedAt cmp a' lo n)

theorem insertDown_spec (lo : Nat) : ∀ (p : Nat) (a : Array α), lo + p < a.size →
    ∃ a', insertDown cmp lo a p = some a' ∧ RangeMoved lo (lo + p + 1) a a' ∧
      (CmpOk cmp → (∀ i j x y, lo ≤ i → i < j → j < lo + p → a[i]? = some x → a[j]? = some y → cmp x y ≤ 0) →
        SortedAt cmp a' lo (p + 1))
  | 0, a, _ => by
    refine ⟨a, rfl, RangeMoved.refl _ _ _, fun _ _ i j x y h1 h2 h3 => ?_⟩
    omega
  | p + 1, a, h => by
    obtain ⟨x, y, hx, hy, hc⟩ := cmpAt_some (cmp := cmp) (a := a) (i := lo + p) (j := lo + p + 1) (by omega) (by omega)
    unfold insertDown
    simp only [hc, Option.bind_eq_bind, Option.bind_some, Option.pure_def]
    split
    · rename_i hgt
      obtain ⟨a1, h1, hs, hp, hk⟩ := swapAt_some (a := a) (i := lo + p + 1) (j := lo + p) (by omega) (by omega)
      rw [h1, Option.bind_some]
      obtain ⟨a2, g1, g2, g3⟩ := insertDown_spec lo p a1 (by omega)
      refine ⟨a2, g1, (swapAt_moved hs hp hk (by omega) (by omega) (by omega) (by omega)).trans (g2.mono (Nat.le_refl _) (by omega)), ?_⟩
      intro H hsort
      have hs1 : SortedAt cmp a2 lo (p + 1) := by
        refine g3 H ?_
        intro i j u w e1 e2 e3 e5 e6
        rw [hk, if_neg (by omega), if_neg (by omega)] at e5 e6
        exact hsort i j u w e1 e2 (by omega) e5 e6
      intro i j u w e1 e2 e3 e5 e6
      by_cases hj : j = lo + p + 1
      · subst hj
        rw [g2.outside _ (.inr (Nat.le_refl _)), hk, if_pos rfl, hx] at e6
        cases e6
        obtain ⟨k, k1, k2, k3⟩ := g2.inside i e1 (by omega)
        rw [e5] at k3
        by_cases hkp : k = lo + p
        · subst hkp
          rw [hk, if_neg (by omega), if_pos rfl, hy] at k3
          cases k3
          have := (H.flip y x).mpr hgt
          omega
        · rw [hk, if_neg (by omega), if_neg hkp] at k3
          exact hsort k (lo + p) u x k1 (by omega) (by omega) k3.symm hx
      · exact hs1 i j u w e1 e2 (by omega) e5 e6
    · rename_i hle
      refine ⟨a, rfl, RangeMoved.refl _ _ _, ?_⟩
      intro H hsort i j u w e1 e2 e3 e5 e6
      by_cases hj : j = lo + p + 1
      · subst hj
        rw [hy] at e6
        cases e6
        by_cases hi : i = lo + p
        · subst hi
          rw [hx] at e5
          cases e5
          omega
        · exact H.trans u x y (hsort i (lo + p) u x e1 (by omega) (by omega) e5 hx) (by omega)
      · exact hsort i j u w e1 e2 (by omega) e5 e6

theorem insertLoop_spec (lo : Nat) : ∀ (todo : Nat) (a : Array α) (pm : Nat), lo + pm + todo ≤ a.size →
    ∃ a', insertLoop cmp lo a pm todo = some a' ∧ RangeMoved lo (lo + pm + todo) a a' ∧
      (CmpOk cmp → SortedAt cmp a lo pm → SortedAt cmp a' lo (pm + todo))
  | 0, a, pm, _ => ⟨a, rfl, RangeMoved.refl _ _ _, fun _ h => h⟩
  | todo + 1, a, pm, h => by
    obtain ⟨a1, h1, h2, h3⟩ := insertDown_spec (cmp := cmp) lo pm a (by omega)
    obtain ⟨a2, g1, g2, g3⟩ := insertLoop_spec lo todo a1 (pm + 1) (by rw [h2.size]; omega)
    unfold insertLoop
    rw [h1]
    simp only [Option.bind_eq_bind, Option.bind_some]
    refine ⟨a2, g1, (h2.mono (Nat.le_refl _) (by omega)).trans (g2.mono (Nat.le_refl _) (by omega)), fun H hs => ?_⟩
    have := g3 H (h3 H fun i j x y e1 e2 e3 e5 e6 => hs i j x y e1 e2 (by omega) e5 e6)
    rw [show pm + (todo + 1) = pm + 1 + todo by omega]
    exact this

/-! ## Dividing the elements -/

/-- All elements from `i` to before `j`. -/
def AllAt (P : α → Prop) (a : Array α) (i j : Nat) : Prop := ∀ k x, i ≤ k → k < j → a[k]? = some x → P x

theorem AllAt.moved {P : α → Prop} {a a' : Array α} {i j : Nat} (h : AllAt P a i j) (hm : RangeMoved i j a a') : AllAt P a' i j := by
  intro k x h1 h2 hx
  obtain ⟨k', g1, g2, g3⟩ := hm.inside k h1 h2
  exact h k' x g1 g2 (g3 ▸ hx)

theorem AllAt.apart {P : α → Prop} {a a' : Array α} {i j lo hi : Nat} (h : AllAt P a i j) (hm : RangeMoved lo hi a a') (hd : j ≤ lo ∨ hi ≤ i) : AllAt P a' i j := by
  intro k x h1 h2 hx
  exact h k x h1 h2 ((hm.outside k (by omega)) ▸ hx)

/-- The loop invariant of the division: equal, less, not looked at yet, greater, equal. -/
structure SplitInv (cmp : α → α → Int) (v : α) (lo hi : Nat) (a : Array α) (pa pb pd k : Nat) : Prop where
  pivot : a[lo]? = some v
  b1 : lo + 1 ≤ pa
  b2 : pa ≤ pb
  b3 : pb + k ≤ pd + 1
  b4 : pd + 1 ≤ hi
  b5 : hi ≤ a.size
  eq1 : AllAt (fun x => cmp x v = 0) a (lo + 1) pa
  less : AllAt (fun x => cmp x v < 0) a pa pb
  greater : AllAt (fun x => 0 < cmp x v) a (pb + k) (pd + 1)
  eq2 : AllAt (fun x => cmp x v = 0) a (pd + 1) hi

theorem scanUp_spec {v : α} {lo hi pd : Nat} : ∀ (k : Nat) (a : Array α) (pa pb : Nat), SplitInv cmp v lo hi a pa pb pd k →
    ∃ a' pa' pb' k', scanUp cmp lo a pa pb k = some (a', pa', pb', k') ∧ SplitInv cmp v lo hi a' pa' pb' pd k' ∧
      RangeMoved (lo + 1) hi a a' ∧ k' ≤ k ∧ (0 < k' → ∀ x, a'[pb']? = some x → 0 < cmp x v)
  | 0, a, pa, pb, h => ⟨a, pa, pb, 0, rfl, h, RangeMoved.refl _ _ _, Nat.le_refl _, fun h => absurd h (by omega)⟩
  | k + 1, a, pa, pb, h => by
    have hb1 := h.b1; have hb2 := h.b2; have hb3 := h.b3; have hb4 := h.b4; have hb5 := h.b5
    obtain ⟨x, y, hx, hy, hc⟩ := cmpAt_some (cmp := cmp) (a := a) (i := pb) (j := lo) (by omega) (by omega)
    obtain rfl : y = v := Option.some.inj (hy.symm.trans h.pivot)
    unfold scanUp
    simp only [hc]
    split
    · split
      · rename_i h0
        obtain ⟨a1, h1, hs, hp, hk⟩ := swapAt_some (a := a) (i := pa) (j := pb) (by omega) (by omega)
        rw [h1]
        have hm := swapAt_moved (lo := lo + 1) (hi := hi) hs hp hk (by omega) (by omega) (by omega) (by omega)
        have hinv : SplitInv cmp y lo hi a1 (pa + 1) (pb + 1) pd k := by
          refine ⟨?_, by omega, by omega, by omega, hb4, by omega, ?_, ?_, ?_, ?_⟩
          · rw [hk, if_neg (by omega), if_neg (by omega)]; exact h.pivot
          · intro i u e1 e2 e3
            by_cases hi : i = pa
            · rw [hk, if_pos hi, hx] at e3
              cases e3
              exact h0
            · rw [hk, if_neg hi, if_neg (by omega)] at e3
              exact h.eq1 i u e1 (by omega) e3
          · intro i u e1 e2 e3
            rw [hk, if_neg (by omega)] at e3
            by_cases hi : i = pb
            · rw [if_pos hi] at e3
              exact h.less pa u (by omega) (by omega) e3
            · rw [if_neg hi] at e3
              exact h.less i u (by omega) (by omega) e3
          · intro i u e1 e2 e3
            rw [hk, if_neg (by omega), if_neg (by omega)] at e3
            exact h.greater i u (by omega) (by omega) e3
          · intro i u e1 e2 e3
            rw [hk, if_neg (by omega), if_neg (by omega)] at e3
            exact h.eq2 i u (by omega) (by omega) e3
        obtain ⟨a2, pa2, pb2, k2, g1, g2, g3, g4, g5⟩ := scanUp_spec k a1 (pa + 1) (pb + 1) hinv
        exact ⟨a2, pa2, pb2, k2, g1, g2, hm.trans g3, by omega, g5⟩
      · rename_i hle h0
        have hinv : SplitInv cmp y lo hi a pa (pb + 1) pd k := by
          refine ⟨h.pivot, hb1, by omega, by omega, hb4, hb5, h.eq1, ?_, ?_, h.eq2⟩
          · intro i u e1 e2 e3
            by_cases hi : i = pb
            · rw [hi, hx] at e3
              cases e3
              show cmp x y < 0
              omega
            · exact h.less i u e1 (by omega) e3
          · intro i u e1 e2 e3
            exact h.greater i u (by omega) e2 e3
        obtain ⟨a2, pa2, pb2, k2, g1, g2, g3, g4, g5⟩ := scanUp_spec k a pa (pb + 1) hinv
        exact ⟨a2, pa2, pb2, k2, g1, g2, g3, by omega, g5⟩
    · rename_i hgt
      refine ⟨a, pa, pb, k + 1, rfl, h, RangeMoved.refl _ _ _, Nat.le_refl _, fun _ u hu => ?_⟩
      rw [hx] at hu
      cases hu
      omega

theorem scanDown_spec {v : α} {lo hi pa pb : Nat} : ∀ (k : Nat) (a : Array α) (pd : Nat), SplitInv cmp v lo hi a pa pb pd k →
    ∃ a' pd' k', scanDown cmp lo a pb pd k = some (a', pd', k') ∧ SplitInv cmp v lo hi a' pa pb pd' k' ∧
      RangeMoved (pb + k') hi a a' ∧ k' ≤ k ∧ (0 < k' → ∀ x, a'[pb + k' - 1]? = some x → cmp x v < 0)
  | 0, a, pd, h => ⟨a, pd, 0, rfl, h, RangeMoved.refl _ _ _, Nat.le_refl _, fun h => absurd h (by omega)⟩
  | k + 1, a, pd, h => by
    have hb1 := h.b1; have hb2 := h.b2; have hb3 := h.b3; have hb4 := h.b4; have hb5 := h.b5
    obtain ⟨x, y, hx, hy, hc⟩ := cmpAt_some (cmp := cmp) (a := a) (i := pb + k) (j := lo) (by omega) (by omega)
    obtain rfl : y = v := Option.some.inj (hy.symm.trans h.pivot)
    unfold scanDown
    simp only [hc]
    split
    · split
      · rename_i h0
        obtain ⟨a1, h1, hs, hp, hk⟩ := swapAt_some (a := a) (i := pb + k) (j := pd) (by omega) (by omega)
        rw [h1]
        have hm := swapAt_moved (lo := pb + k) (hi := hi) hs hp hk (by omega) (by omega) (by omega) (by omega)
        have hinv : SplitInv cmp y lo hi a1 pa pb (pd - 1) k := by
          refine ⟨?_, by omega, by omega, by omega, by omega, by omega, ?_, ?_, ?_, ?_⟩
          · rw [hk, if_neg (by omega), if_neg (by omega)]; exact h.pivot
          · intro i u e1 e2 e3
            rw [hk, if_neg (by omega), if_neg (by omega)] at e3
            exact h.eq1 i u (by omega) (by omega) e3
          · intro i u e1 e2 e3
            rw [hk, if_neg (by omega), if_neg (by omega)] at e3
            exact h.less i u (by omega) (by omega) e3
          · intro i u e1 e2 e3
            rw [hk] at e3
            by_cases hi : i = pb + k
            · rw [if_pos hi] at e3
              exact h.greater pd u (by omega) (by omega) e3
            · rw [if_neg hi, if_neg (by omega)] at e3
              exact h.greater i u (by omega) (by omega) e3
          · intro i u e1 e2 e3
            rw [hk] at e3
            by_cases hi : i = pd
            · by_cases hi' : i = pb + k
              · rw [if_pos hi', ← hi, hi', hx] at e3
                cases e3
                exact h0
              · rw [if_neg hi', if_pos hi, hx] at e3
                cases e3
                exact h0
            · rw [if_neg (by omega), if_neg hi] at e3
              exact h.eq2 i u (by omega) (by omega) e3
        obtain ⟨a2, pd2, k2, g1, g2, g3, g4, g5⟩ := scanDown_spec k a1 (pd - 1) hinv
        exact ⟨a2, pd2, k2, g1, g2, (hm.mono (by omega) (Nat.le_refl _)).trans g3, by omega, g5⟩
      · rename_i hle h0
        have hinv : SplitInv cmp y lo hi a pa pb pd k := by
          refine ⟨h.pivot, hb1, by omega, by omega, hb4, hb5, h.eq1, h.less, ?_, h.eq2⟩
          intro i u e1 e2 e3
          by_cases hi : i = pb + k
          · rw [hi, hx] at e3
            cases e3
            show 0 < cmp x y
            omega
          · exact h.greater i u (by omega) e2 e3
        obtain ⟨a2, pd2, k2, g1, g2, g3, g4, g5⟩ := scanDown_spec k a pd hinv
        exact ⟨a2, pd2, k2, g1, g2, g3, by omega, g5⟩
    · rename_i hgt
      refine ⟨a, pd, k + 1, rfl, h, RangeMoved.refl _ _ _, Nat.le_refl _, fun _ u hu => ?_⟩
      rw [show pb + (k + 1) - 1 = pb + k by omega, hx] at hu
      cases hu
      omega

theorem splitLoop_spec {v : α} {lo hi : Nat} : ∀ (fuel : Nat) (a : Array α) (pa pb pd k : Nat), k < fuel → SplitInv cmp v lo hi a pa pb pd k →
    ∃ a' pa' pb' pd', splitLoop cmp lo fuel a pa pb pd k = some (a', pa', pb', pd') ∧ SplitInv cmp v lo hi a' pa' pb' pd' 0 ∧
      RangeMoved (lo + 1) hi a a'
  | 0, _, _, _, _, _, h, _ => absurd h (by omega)
  | fuel + 1, a, pa, pb, pd, k, hk, h => by
    obtain ⟨a1, pa1, pb1, k1, h1, h2, h3, h4, h5⟩ := scanUp_spec k a pa pb h
    obtain ⟨a2, pd2, k2, g1, g2, g3, g4, g5⟩ := scanDown_spec k1 a1 pd h2
    have hb1 := g2.b1; have hb2 := g2.b2; have hb3 := g2.b3; have hb4 := g2.b4; have hb5 := g2.b5
    have hm : RangeMoved (lo + 1) hi a a2 := h3.trans (g3.mono (by omega) (Nat.le_refl _))
    unfold splitLoop
    simp only [h1, g1]
    match k2, g1, g2, g3, g4, g5, hb3 with
    | 0, g1, g2, g3, g4, g5, hb3 => exact ⟨a2, pa1, pb1, pd2, rfl, g2, hm⟩
    | 1, g1, g2, g3, g4, g5, hb3 =>
      exfalso
      have hlt : pb1 < a2.size := by omega
      have e2 : a2[pb1]? = some a2[pb1] := by simp [hlt]
      have e1 : a1[pb1]? = some a2[pb1] := by rw [← g3.outside pb1 (by omega)]; exact e2
      have := h5 (by omega) _ e1
      have := g5 (by omega) a2[pb1] (by rw [show pb1 + 1 - 1 = pb1 by omega]; exact e2)
      omega
    | k + 2, g1, g2, g3, g4, g5, hb3 =>
      simp only
      obtain ⟨a3, f1, hs, hp, hk3⟩ := swapAt_some (a := a2) (i := pb1) (j := pb1 + k + 1) (by omega) (by omega)
      rw [f1]
      have hm3 := swapAt_moved (lo := lo + 1) (hi := hi) hs hp hk3 (by omega) (by omega) (by omega) (by omega)
      have hlt : pb1 < a2.size := by omega
      have e2 : a2[pb1]? = some a2[pb1] := by simp [hlt]
      have e1 : a1[pb1]? = some a2[pb1] := by rw [← g3.outside pb1 (by omega)]; exact e2
      have hpb := h5 (by omega) _ e1
      have hinv : SplitInv cmp v lo hi a3 pa1 (pb1 + 1) pd2 k := by
        refine ⟨?_, by omega, by omega, by omega, by omega, by omega, ?_, ?_, ?_, ?_⟩
        · rw [hk3, if_neg (by omega), if_neg (by omega)]; exact g2.pivot
        · intro i u e1 e2 e3
          rw [hk3, if_neg (by omega), if_neg (by omega)] at e3
          exact g2.eq1 i u (by omega) (by omega) e3
        · intro i u e1 e2 e3
          rw [hk3] at e3
          by_cases hi : i = pb1
          · rw [if_pos hi] at e3
            exact g5 (by omega) u (by rw [show pb1 + (k + 2) - 1 = pb1 + k + 1 by omega]; exact e3)
          · rw [if_neg hi, if_neg (by omega)] at e3
            exact g2.less i u (by omega) (by omega) e3
        · intro i u e1 e2' e3
          rw [hk3, if_neg (by omega)] at e3
          by_cases hi : i = pb1 + k + 1
          · rw [if_pos hi, e2] at e3
            cases e3
            exact hpb
          · rw [if_neg hi] at e3
            exact g2.greater i u (by omega) (by omega) e3
        · intro i u e1 e2 e3
          rw [hk3, if_neg (by omega), if_neg (by omega)] at e3
          exact g2.eq2 i u (by omega) (by omega) e3
      obtain ⟨a4, pa4, pb4, pd4, f2, f3, f4⟩ := splitLoop_spec fuel a3 pa1 (pb1 + 1) pd2 k (by omega) hinv
      exact ⟨a4, pa4, pb4, pd4, f2, f3, (hm.trans hm3).trans f4⟩

/-! ## Moving the equal elements to the middle -/

theorem vecSwap_spec {lo hi : Nat} : ∀ (r : Nat) (a : Array α) (i j : Nat), lo ≤ i → i + r ≤ j → j + r ≤ hi → hi ≤ a.size →
    ∃ a', vecSwap a i j r = some a' ∧ RangeMoved lo hi a a' ∧
      ∀ k, a'[k]? = if i ≤ k ∧ k < i + r then a[j + (k - i)]? else if j ≤ k ∧ k < j + r then a[i + (k - j)]? else a[k]?
  | 0, a, i, j, _, _, _, _ => by
    refine ⟨a, rfl, RangeMoved.refl _ _ _, fun k => ?_⟩
    rw [if_neg (by omega), if_neg (by omega)]
  | r + 1, a, i, j, h1, h2, h3, h4 => by
    obtain ⟨a1, f1, hs, hp, hk⟩ := swapAt_some (a := a) (i := i) (j := j) (by omega) (by omega)
    have hm := swapAt_moved (lo := lo) (hi := hi) hs hp hk (by omega) (by omega) (by omega) (by omega)
    obtain ⟨a2, g1, g2, g3⟩ := vecSwap_spec (lo := lo) (hi := hi) r a1 (i + 1) (j + 1) (by omega) (by omega) (by omega) (by omega)
    unfold vecSwap
    simp only [f1]
    refine ⟨a2, g1, hm.trans g2, fun k => ?_⟩
    rw [g3]
    by_cases c1 : i ≤ k ∧ k < i + (r + 1)
    · rw [if_pos c1]
      by_cases c2 : k = i
      · subst c2
        rw [if_neg (by omega), if_neg (by omega), hk, if_pos rfl, Nat.sub_self, Nat.add_zero]
      · rw [if_pos (by omega), hk, if_neg (by omega), if_neg (by omega)]
        congr 1
        omega
    · rw [if_neg c1, if_neg (by omega)]
      by_cases c3 : j ≤ k ∧ k < j + (r + 1)
      · rw [if_pos c3]
        by_cases c4 : k = j
        · subst c4
          rw [if_neg (by omega), hk, if_neg (by omega), if_pos rfl, Nat.sub_self, Nat.add_zero]
        · rw [if_pos (by omega), hk, if_neg (by omega), if_neg (by omega)]
          congr 1
          omega
      · rw [if_neg c3, if_neg (by omega), hk, if_neg (by omega), if_neg (by omega)]

theorem splitStep_spec {a : Array α} {lo n : Nat} (hn : 7 ≤ n) (ha : lo + n ≤ a.size) :
    ∃ a' less greater v, splitStep cmp a lo n = some (a', less, greater) ∧ RangeMoved lo (lo + n) a a' ∧ less + greater < n ∧
      (cmp v v = 0 → AllAt (fun x => cmp x v < 0) a' lo (lo + less) ∧ AllAt (fun x => cmp x v = 0) a' (lo + less) (lo + n - greater) ∧
        AllAt (fun x => 0 < cmp x v) a' (lo + n - greater) (lo + n)) := by
  obtain ⟨m, hm, m1, m2⟩ := pickPivot_some (cmp := cmp) hn ha
  obtain ⟨a1, h1, hs, hp, hk⟩ := swapAt_some (a := a) (i := lo) (j := m) (by omega) (by omega)
  have hm1 := swapAt_moved (lo := lo) (hi := lo + n) hs hp hk (by omega) (by omega) (by omega) (by omega)
  have hlo : lo < a1.size := by omega
  have hinv : SplitInv cmp a1[lo] lo (lo + n) a1 (lo + 1) (lo + 1) (lo + (n - 1)) (n - 1) := by
    refine ⟨by simp [hlo], by omega, by omega, by omega, by omega, by omega, ?_, ?_, ?_, ?_⟩ <;> (intro i x e1 e2; omega)
  generalize a1[lo] = v at hinv
  obtain ⟨a2, pa, pb, pd, g1, g2, g3⟩ := splitLoop_spec n a1 _ _ _ _ (by omega) hinv
  have hb1 := g2.b1; have hb2 := g2.b2; have hb3 := g2.b3; have hb4 := g2.b4; have hb5 := g2.b5
  generalize hr : min (pa - lo) (pb - pa) = r
  obtain ⟨a3, e1, e2, e3⟩ := vecSwap_spec (lo := lo) (hi := lo + n) r a2 lo (pb - r) (by omega) (by omega) (by omega) (by omega)
  generalize hr' : min (pd + 1 - pb) (lo + n - pd - 1) = r'
  obtain ⟨a4, f1, f2, f3⟩ := vecSwap_spec (lo := lo) (hi := lo + n) r' a3 pb (lo + n - r') (by omega) (by omega) (by omega) (by rw [e2.size]; omega)
  refine ⟨a4, pb - pa, pd + 1 - pb, v, ?_, ?_, by omega, ?_⟩
  · unfold splitStep
    simp only [hm, h1, g1, hr, e1, hr', f1]
  · exact ((hm1.trans (g3.mono (by omega) (Nat.le_refl _))).trans e2).trans f2
  · intro hv
    have eq1 : AllAt (fun x => cmp x v = 0) a2 lo pa := by
      intro i u d1 d2 d3
      by_cases hi : i = lo
      · rw [hi, g2.pivot] at d3
        cases d3
        exact hv
      · exact g2.eq1 i u (by omega) d2 d3
    have less3 : AllAt (fun x => cmp x v < 0) a3 lo (lo + (pb - pa)) := by
      intro i u d1 d2 d3
      rw [e3] at d3
      split at d3
      · exact g2.less _ u (by omega) (by omega) d3
      · split at d3
        · omega
        · exact g2.less _ u (by omega) (by omega) d3
    have eq3 : AllAt (fun x => cmp x v = 0) a3 (lo + (pb - pa)) pb := by
      intro i u d1 d2 d3
      rw [e3] at d3
      split at d3
      · omega
      · split at d3
        · exact eq1 _ u (by omega) (by omega) d3
        · exact eq1 _ u (by omega) (by omega) d3
    have gt3 : AllAt (fun x => 0 < cmp x v) a3 pb (pd + 1) := by
      intro i u d1 d2 d3
      rw [e3, if_neg (by omega), if_neg (by omega)] at d3
      exact g2.greater i u (by omega) d2 d3
    have eqr3 : AllAt (fun x => cmp x v = 0) a3 (pd + 1) (lo + n) := by
      intro i u d1 d2 d3
      rw [e3, if_neg (by omega), if_neg (by omega)] at d3
      exact g2.eq2 i u (by omega) d2 d3
    refine ⟨?_, ?_, ?_⟩
    · intro i u d1 d2 d3
      rw [f3, if_neg (by omega), if_neg (by omega)] at d3
      exact less3 i u (by omega) (by omega) d3
    · intro i u d1 d2 d3
      rw [f3] at d3
      split at d3
      · exact eqr3 _ u (by omega) (by omega) d3
      · split at d3
        · omega
        · by_cases hi : i < pb
          · exact eq3 i u (by omega) hi d3
          · exact eqr3 i u (by omega) (by omega) d3
    · intro i u d1 d2 d3
      rw [f3] at d3
      split at d3
      · omega
      · split at d3
        · exact gt3 _ u (by omega) (by omega) d3
        · exact gt3 _ u (by omega) (by omega) d3

/-! ## The whole sort -/

theorem CmpOk.self (H : CmpOk cmp) (v : α) : cmp v v = 0 := by
  have := H.flip v v
  omega

theorem CmpOk.via (H : CmpOk cmp) {x y v : α} (h1 : cmp x v ≤ 0) (h2 : 0 ≤ cmp y v) : cmp x y ≤ 0 := by
  have := H.flip y v
  exact H.trans x v y h1 (by omega)

theorem SortedAt.apart {a a' : Array α} {i n lo hi : Nat} (h : SortedAt cmp a i n) (hm : RangeMoved lo hi a a') (hd : i + n ≤ lo ∨ hi ≤ i) : SortedAt cmp a' i n := by
  intro p q x y h1 h2 h3 h4 h5
  rw [hm.outside _ (by omega)] at h4 h5
  exact h p q x y h1 h2 h3 h4 h5

theorem SortedAt.short {a : Array α} {i n : Nat} (h : n ≤ 1) : SortedAt cmp a i n := by
  intro p q x y h1 h2 h3
  omega

theorem qsortFallback_spec : ∀ (fuel : Nat) (a : Array α) (lo n : Nat), n < fuel → lo + n ≤ a.size →
    SortSpec cmp a lo n (qsortFallback cmp fuel a lo n)
  | 0, _, _, _, h, _ => absurd h (by omega)
  | fuel + 1, a, lo, n, hf, ha => by
    unfold qsortFallback
    by_cases h7 : n < 7
    · rw [if_pos h7]
      match n, h7, ha with
      | 0, _, ha => exact ⟨a, rfl, RangeMoved.refl _ _ _, fun _ => SortedAt.short (by omega)⟩
      | n + 1, _, ha =>
        obtain ⟨a', h1, h2, h3⟩ := insertLoop_spec (cmp := cmp) lo n a 1 (by omega)
        refine ⟨a', h1, h2.mono (Nat.le_refl _) (by omega), fun H => ?_⟩
        have := h3 H (SortedAt.short (Nat.le_refl _))
        rwa [Nat.add_comm 1 n] at this
    · rw [if_neg h7]
      obtain ⟨a1, less, greater, v, h1, h2, h3, h4⟩ := splitStep_spec (cmp := cmp) (by omega) ha
      have hs1 := h2.size
      simp only [h1]
      have hl : ∃ a2, (if 1 < less then qsortFallback cmp fuel a1 lo less else some a1) = some a2 ∧ RangeMoved lo (lo + less) a1 a2 ∧ (CmpOk cmp → SortedAt cmp a2 lo less) := by
        split
        · exact qsortFallback_spec fuel a1 lo less (by omega) (by omega)
        · exact ⟨a1, rfl, RangeMoved.refl _ _ _, fun _ => SortedAt.short (by omega)⟩
      obtain ⟨a2, g1, g2, g3⟩ := hl
      have hs2 := g2.size
      simp only [g1]
      have hr : ∃ a3, (if 1 < greater then qsortFallback cmp fuel a2 (lo + n - greater) greater else some a2) = some a3 ∧
          RangeMoved (lo + n - greater) (lo + n - greater + greater) a2 a3 ∧ (CmpOk cmp → SortedAt cmp a3 (lo + n - greater) greater) := by
        split
        · exact qsortFallback_spec fuel a2 _ greater (by omega) (by omega)
        · exact ⟨a2, rfl, RangeMoved.refl _ _ _, fun _ => SortedAt.short (by omega)⟩
      obtain ⟨a3, f1, f2, f3⟩ := hr
      rw [show lo + n - greater + greater = lo + n by omega] at f2
      refine ⟨a3, f1, (h2.trans (g2.mono (Nat.le_refl _) (by omega))).trans (f2.mono (by omega) (Nat.le_refl _)), fun H => ?_⟩
      obtain ⟨cl, ce, cg⟩ := h4 (H.self v)
      have cl' : AllAt (fun x => cmp x v < 0) a3 lo (lo + less) := (cl.moved g2).apart f2 (by omega)
      have ce' : AllAt (fun x => cmp x v = 0) a3 (lo + less) (lo + n - greater) := (ce.apart g2 (by omega)).apart f2 (by omega)
      have cg' : AllAt (fun x => 0 < cmp x v) a3 (lo + n - greater) (lo + n) := (cg.apart g2 (by omega)).moved f2
      have sl : SortedAt cmp a3 lo less := (g3 H).apart f2 (by omega)
      have sg := f3 H
      have hle : ∀ k x, lo ≤ k → k < lo + n - greater → a3[k]? = some x → cmp x v ≤ 0 := by
        intro k x e1 e2 e3
        by_cases hc : k < lo + less
        · exact Int.le_of_lt (cl' k x e1 hc e3)
        · exact Int.le_of_eq (ce' k x (by omega) e2 e3)
      have hge : ∀ k x, lo + less ≤ k → k < lo + n → a3[k]? = some x → 0 ≤ cmp x v := by
        intro k x e1 e2 e3
        by_cases hc : k < lo + n - greater
        · exact Int.le_of_eq (ce' k x e1 hc e3).symm
        · exact Int.le_of_lt (cg' k x (by omega) e2 e3)
      intro i j x y e1 e2 e3 e4 e5
      by_cases c1 : j < lo + less
      · exact sl i j x y e1 e2 c1 e4 e5
      · by_cases c2 : lo + n - greater ≤ i
        · exact sg i j x y c2 e2 (by omega) e4 e5
        · exact H.via (hle i x e1 (by omega) e4) (hge j y (by omega) e3 e5)

theorem quicksort_spec (a : Array α) : ∃ a', quicksort cmp a = some a' ∧ a'.toList.Perm a.toList ∧
    (CmpOk cmp → SortedRecs cmp a'.toList) := by
  obtain ⟨a', h1, h2, h3⟩ := qsortFallback_spec (cmp := cmp) (a.size + 1) a 0 a.size (by omega) (by omega)
  refine ⟨a', h1, h2.perm, fun H => ?_⟩
  have hs := h3 H
  have hsz := h2.size
  unfold SortedRecs
  rw [List.pairwise_iff_getElem]
  intro i j hi hj hij
  have hi' : i < a'.size := by simpa using hi
  have hj' : j < a'.size := by simpa using hj
  exact hs i j _ _ (by omega) hij (by omega) (by simp [hi']) (by simp [hj'])

end Couchstore
