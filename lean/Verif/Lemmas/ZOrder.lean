import Verif.Lemmas.Spatial
import Mathlib.Data.Nat.Bitwise
import Mathlib.Data.List.Induction
import Mathlib.Data.List.Forall2

/-! Helper lemmas: the order of the records along the space-filling curve. -/

namespace Couchstore

/-! ### Bits of bytes -/

theorem beDec_testBit (b : Bytes) (k : Nat) (hk : k < 8 * b.length) :
    (beDec b).testBit k = (b[b.length - 1 - k / 8]'(by omega)).toNat.testBit (k % 8) := by
  induction b with
  | nil => simp at hk
  | cons x b ih =>
    rw [beDec_cons, show (256 : Nat) = 2 ^ 8 by rfl, ← Nat.pow_mul, Nat.mul_comm x.toNat]
    rw [Nat.testBit_two_pow_mul_add _ (by
      have := beDec_lt b
      rwa [show (256 : Nat) = 2 ^ 8 by rfl, ← Nat.pow_mul] at this)]
    rw [List.length_cons] at hk
    split
    · rename_i h
      rw [ih h]
      have : (x :: b).length - 1 - k / 8 = (b.length - 1 - k / 8) + 1 := by
        rw [List.length_cons]; omega
      simp only [this, List.getElem_cons_succ]
    · rename_i h
      have h1 : (x :: b).length - 1 - k / 8 = 0 := by rw [List.length_cons]; omega
      simp only [h1, List.getElem_cons_zero]
      congr 1
      omega

theorem setBitSized_spec (bm : Bytes) (size bit : Nat) (hl : bm.length = size) (hb : bit < 8 * size) :
    ∃ bm', setBitSized bm size bit = .ok bm' ∧ bm'.length = size ∧
      ∀ k, k < 8 * size → (beDec bm').testBit k = ((beDec bm).testBit k || decide (k = bit)) := by
  have hi : size - 1 - bit / 8 < bm.length := by omega
  unfold setBitSized
  rw [if_pos (by omega), List.getElem?_eq_getElem hi]
  refine ⟨_, rfl, by rw [List.length_set, hl], ?_⟩
  intro k hk
  rw [beDec_testBit _ k (by rw [List.length_set, hl]; omega), beDec_testBit bm k (by omega)]
  simp only [List.length_set, hl]
  rw [List.getElem_set]
  have hmask : (chunkMask bit).toNat = 2 ^ (bit % 8) := by
    unfold chunkMask
    rw [UInt8.toNat_ofNat']
    apply Nat.mod_eq_of_lt
    calc 2 ^ (bit % 8) ≤ 2 ^ 7 := Nat.pow_le_pow_right (by decide) (by omega)
      _ < 2 ^ 8 := by decide
  split
  · rename_i h
    rw [UInt8.toNat_or, Nat.testBit_or, hmask, Nat.testBit_two_pow]
    simp only [h]
    congr 1
    rw [decide_eq_decide]
    omega
  · rename_i h
    have : k ≠ bit := by rintro rfl; exact h rfl
    simp [this]

/-! ### Interleaving -/

theorem interleaveLevel_spec (num i : Nat) (hn : 32 * num < 2 ^ 16) (hi : i < 32) (xs : List Nat) (j : Nat) (hj : j + xs.length ≤ num)
    (bm : Bytes) (hl : bm.length = 4 * num) :
    ∃ bm', interleaveLevel num (32 * num) i xs j bm = .ok bm' ∧ bm'.length = 4 * num ∧
      ∀ i' j', i' < 32 → j' < num → (beDec bm').testBit (i' * num + j') = ((beDec bm).testBit (i' * num + j') ||
        (decide (i' = i) && decide (j ≤ j') && (xs.getD (j' - j) 0).testBit i)) := by
  have hlt : ∀ i' j', i' < 32 → j' < num → i' * num + j' < 8 * (4 * num) := by
    intro i' j' h1 h2
    have : i' * num ≤ 31 * num := Nat.mul_le_mul_right _ (by omega)
    omega
  induction xs generalizing j bm with
  | nil => exact ⟨bm, rfl, hl, by intros; simp⟩
  | cons x xs ih =>
    rw [List.length_cons] at hj
    unfold interleaveLevel
    have hget : ∀ j', j' ≠ j → j ≤ j' → (x :: xs).getD (j' - j) 0 = xs.getD (j' - (j + 1)) 0 := by
      intro j' h1 h2
      rw [show j' - j = (j' - (j + 1)) + 1 by omega]
      rfl
    by_cases hx : x.testBit i
    · rw [if_pos hx]
      have hb := hlt i j hi (by omega)
      rw [Nat.mod_eq_of_lt (show i * num + j < 2 ^ 16 by omega), show 32 * num / 8 = 4 * num by omega]
      obtain ⟨b1, e1, l1, s1⟩ := setBitSized_spec bm (4 * num) (i * num + j) hl hb
      rw [e1]
      obtain ⟨b2, e2, l2, s2⟩ := ih (j + 1) (by omega) b1 l1
      refine ⟨b2, e2, l2, ?_⟩
      intro i' j' h1 h2
      rw [s2 i' j' h1 h2, s1 _ (hlt i' j' h1 h2), Bool.or_assoc]
      congr 1
      have hiff : (i' * num + j' = i * num + j) ↔ (i' = i ∧ j' = j) := by
        constructor
        · intro h
          have hjn : j < num := by omega
          have a1 : (i' * num + j') / num = i' := by
            rw [Nat.mul_comm, Nat.mul_add_div (by omega), Nat.div_eq_of_lt h2, Nat.add_zero]
          have a2 : (i * num + j) / num = i := by
            rw [Nat.mul_comm, Nat.mul_add_div (by omega), Nat.div_eq_of_lt hjn, Nat.add_zero]
          have : i' = i := by rw [← a1, h, a2]
          subst this
          exact ⟨rfl, by omega⟩
        · rintro ⟨rfl, rfl⟩; rfl
      by_cases h3 : i' = i
      · by_cases h4 : j' = j
        · subst h3 h4
          simp [hx]
        · have : ¬(i' * num + j' = i * num + j) := fun h => h4 (hiff.mp h).2
          by_cases h5 : j ≤ j'
          · rw [hget j' h4 h5]
            simp [this, h5, show j + 1 ≤ j' by omega]
          · simp [this, h5, show ¬ j + 1 ≤ j' by omega]
      · have : ¬(i' * num + j' = i * num + j) := fun h => h3 (hiff.mp h).1
        simp [h3, this]
    · rw [if_neg hx]
      obtain ⟨b2, e2, l2, s2⟩ := ih (j + 1) (by omega) bm hl
      refine ⟨b2, e2, l2, ?_⟩
      intro i' j' h1 h2
      rw [s2 i' j' h1 h2]
      congr 1
      by_cases h4 : j' = j
      · subst h4
        simp [hx]
      · by_cases h5 : j ≤ j'
        · rw [hget j' h4 h5]
          simp [h5, show j + 1 ≤ j' by omega]
        · simp [h5, show ¬ j + 1 ≤ j' by omega]

theorem interleaveLoop_spec (numbers : List Nat) (hn : 32 * numbers.length < 2 ^ 16) (h0 : numbers ≠ []) (fuel i : Nat)
    (hf : 32 < fuel + i) (hi : i ≤ 32) (bm : Bytes) (hl : bm.length = 4 * numbers.length) :
    ∃ bm', interleaveLoop numbers.length (32 * numbers.length) numbers fuel i bm = .ok bm' ∧ bm'.length = 4 * numbers.length ∧
      ∀ i' j', i' < 32 → j' < numbers.length → (beDec bm').testBit (i' * numbers.length + j') =
        ((beDec bm).testBit (i' * numbers.length + j') ||
        (decide (i ≤ i') && (numbers.reverse.getD j' 0).testBit i')) := by
  have hpos : 0 < numbers.length := List.length_pos_iff.mpr h0
  induction fuel generalizing i bm with
  | zero => omega
  | succ fuel ih =>
    unfold interleaveLoop
    by_cases hlt : i < 32
    · rw [if_pos (Nat.mul_lt_mul_of_pos_right hlt hpos)]
      obtain ⟨b1, e1, l1, s1⟩ := interleaveLevel_spec numbers.length i hn hlt numbers.reverse 0 (by simp) bm hl
      rw [e1]
      obtain ⟨b2, e2, l2, s2⟩ := ih (i + 1) (by omega) (by omega) b1 l1
      refine ⟨b2, e2, l2, ?_⟩
      intro i' j' h1 h2
      rw [s2 i' j' h1 h2, s1 i' j' h1 h2, Bool.or_assoc]
      congr 1
      by_cases h3 : i' = i
      · subst h3; simp
      · by_cases h4 : i ≤ i'
        · simp [h3, h4, show i + 1 ≤ i' by omega]
        · simp [h3, h4, show ¬ i + 1 ≤ i' by omega]
    · have : i = 32 := by omega
      subst this
      rw [if_neg (by omega)]
      refine ⟨bm, rfl, hl, ?_⟩
      intro i' j' h1 _
      simp [show ¬ 32 ≤ i' by omega]

theorem beDec_zeros (n : Nat) : beDec (List.replicate n 0) = 0 := by
  induction n with
  | zero => rfl
  | succ n ih => rw [List.replicate_succ, beDec_cons, ih]; simp

theorem interleave_bits (xs : List Nat) (h0 : xs ≠ []) (hn : xs.length < 2048) :
    ∃ z, interleave xs = .ok z ∧ z.length = 4 * xs.length ∧
      ∀ i j, i < 32 → (hj : j < xs.length) → (beDec z).testBit (i * xs.length + j) = (xs[xs.length - 1 - j]).testBit i := by
  unfold interleave
  dsimp only
  rw [if_pos (by omega), Nat.mod_eq_of_lt (show 32 * xs.length < 2 ^ 16 by omega), show 32 * xs.length / 8 = 4 * xs.length by omega]
  obtain ⟨z, e, l, s⟩ := interleaveLoop_spec xs (by omega) h0 33 0 (by omega) (by omega) (List.replicate (4 * xs.length) 0) (by simp)
  refine ⟨z, e, l, ?_⟩
  intro i j hi hj
  rw [s i j hi hj, beDec_zeros, List.getD_eq_getElem _ _ (by simpa using hj), List.getElem_reverse]
  simp

/-! ### The position on the curve -/

theorem curveRow_append (xs : List Nat) (x i : Nat) : curveRow (xs ++ [x]) i = 2 * curveRow xs i + (x.testBit i).toNat := by
  simp [curveRow]

theorem curveRow_bits (xs : List Nat) (i : Nat) : curveRow xs i < 2 ^ xs.length ∧
    ∀ j (hj : j < xs.length), (curveRow xs i).testBit j = (xs[xs.length - 1 - j]).testBit i := by
  induction xs using List.reverseRecOn with
  | nil => exact ⟨by simp [curveRow], by simp⟩
  | append_singleton xs x ih =>
    obtain ⟨h1, h2⟩ := ih
    rw [curveRow_append]
    have hb : (x.testBit i).toNat < 2 ^ 1 := by cases x.testBit i <;> decide
    refine ⟨?_, ?_⟩
    · rw [List.length_append, List.length_singleton, Nat.pow_succ]; omega
    · intro j hj
      rw [show 2 * curveRow xs i = 2 ^ 1 * curveRow xs i by rfl, Nat.testBit_two_pow_mul_add _ hb]
      simp only [List.length_append, List.length_singleton] at hj ⊢
      split
      · rename_i h
        have : j = 0 := by omega
        subst this
        rw [List.getElem_append_right (by omega)]
        simp only [Nat.testBit_zero, List.getElem_singleton]
        cases x.testBit i <;> rfl
      · rename_i h
        rw [h2 (j - 1) (by omega), List.getElem_append_left (by omega)]
        simp only [show xs.length - 1 - (j - 1) = xs.length + 1 - 1 - j by omega]

theorem curve_bits (k : Nat) (xs : List Nat) : curve k xs < 2 ^ (k * xs.length) ∧
    ∀ i j, i < k → (hj : j < xs.length) → (curve k xs).testBit (i * xs.length + j) = (xs[xs.length - 1 - j]).testBit i := by
  induction k with
  | zero => exact ⟨by simp [curve], by omega⟩
  | succ k ih =>
    obtain ⟨h1, h2⟩ := ih
    obtain ⟨r1, r2⟩ := curveRow_bits xs k
    unfold curve
    refine ⟨?_, ?_⟩
    · calc curveRow xs k * 2 ^ (k * xs.length) + curve k xs < (curveRow xs k + 1) * 2 ^ (k * xs.length) := by
            rw [Nat.add_mul]; omega
        _ ≤ 2 ^ xs.length * 2 ^ (k * xs.length) := Nat.mul_le_mul_right _ r1
        _ = 2 ^ ((k + 1) * xs.length) := by rw [← Nat.pow_add]; congr 1; rw [Nat.add_mul]; omega
    · intro i j hi hj
      rw [Nat.mul_comm, Nat.testBit_two_pow_mul_add _ h1]
      by_cases hik : i < k
      · have : i * xs.length + j < k * xs.length := by
          have : (i + 1) * xs.length ≤ k * xs.length := Nat.mul_le_mul_right _ hik
          rw [Nat.add_mul] at this
          omega
        rw [if_pos this, h2 i j hik hj]
      · have : i = k := by omega
        subst this
        rw [if_neg (by omega), Nat.add_sub_cancel_left, r2 j hj]

theorem interleave_curve (xs : List Nat) (h0 : xs ≠ []) (hn : xs.length < 2048) :
    ∃ z, interleave xs = .ok z ∧ z.length = 4 * xs.length ∧ beDec z = curve 32 xs := by
  obtain ⟨z, e, l, s⟩ := interleave_bits xs h0 hn
  refine ⟨z, e, l, ?_⟩
  have hpos : 0 < xs.length := List.length_pos_iff.mpr h0
  obtain ⟨c1, c2⟩ := curve_bits 32 xs
  apply Nat.eq_of_testBit_eq
  intro k
  by_cases hk : k < 32 * xs.length
  · have h1 : k / xs.length < 32 := Nat.div_lt_of_lt_mul (by rw [Nat.mul_comm]; exact hk)
    have h2 := Nat.mod_lt k hpos
    have h3 : k / xs.length * xs.length + k % xs.length = k := Nat.div_add_mod' k xs.length
    have a := s _ _ h1 h2
    have b := c2 _ _ h1 h2
    rw [h3] at a b
    rw [a, b]
  · have hp : 2 ^ (32 * xs.length) ≤ 2 ^ k := Nat.pow_le_pow_right (by decide) (by omega)
    have hz : beDec z < 2 ^ (32 * xs.length) := by
      have := beDec_lt z
      rwa [l, show (256 : Nat) = 2 ^ 8 by rfl, ← Nat.pow_mul, show 8 * (4 * xs.length) = 32 * xs.length by omega] at this
    rw [Nat.testBit_lt_two_pow (Nat.lt_of_lt_of_le hz hp), Nat.testBit_lt_two_pow (Nat.lt_of_lt_of_le c1 hp)]

/-! ### The order -/

theorem curve_mono {k : Nat} {xs ys : List Nat} (h : List.Forall₂ (· ≤ ·) xs ys) (hy : ∀ y ∈ ys, y < 2 ^ k) :
    curve k xs ≤ curve k ys := by
  have hlen := h.length_eq
  obtain ⟨a1, a2⟩ := curve_bits k xs
  obtain ⟨b1, b2⟩ := curve_bits k ys
  by_contra hlt
  have hne : curve k xs ≠ curve k ys := by omega
  -- the highest bit in which the positions differ
  obtain ⟨t, ht1, ht2⟩ := Nat.exists_most_significant_bit (n := curve k xs ^^^ curve k ys) (by
    intro h0; exact hne (Nat.xor_eq_zero_iff.mp h0))
  have hsame : ∀ j, t < j → (curve k xs).testBit j = (curve k ys).testBit j := by
    intro j hj
    have := ht2 j hj
    rw [Nat.testBit_xor] at this
    revert this
    cases (curve k xs).testBit j <;> cases (curve k ys).testBit j <;> simp
  have hdiff : (curve k xs).testBit t = true ∧ (curve k ys).testBit t = false := by
    rw [Nat.testBit_xor] at ht1
    cases hx : (curve k xs).testBit t <;> cases hyy : (curve k ys).testBit t
    · rw [hx, hyy] at ht1; simp at ht1
    · exfalso
      exact hlt (Nat.le_of_lt (Nat.lt_of_testBit t hx hyy hsame))
    · exact ⟨rfl, rfl⟩
    · rw [hx, hyy] at ht1; simp at ht1
  have htk : t < k * xs.length := by
    by_contra hc
    have hp : 2 ^ (k * xs.length) ≤ 2 ^ t := Nat.pow_le_pow_right (by decide) (by omega)
    rw [Nat.testBit_lt_two_pow (Nat.lt_of_lt_of_le a1 hp)] at hdiff
    exact nomatch hdiff.1
  have hpos : 0 < xs.length := by
    rcases Nat.eq_zero_or_pos xs.length with h0 | h0
    · rw [h0] at htk; omega
    · exact h0
  have h1 : t / xs.length < k := Nat.div_lt_of_lt_mul (by rw [Nat.mul_comm]; exact htk)
  have h2 := Nat.mod_lt t hpos
  have h3 : t / xs.length * xs.length + t % xs.length = t := Nat.div_add_mod' t xs.length
  generalize t / xs.length = i at h1 h3
  generalize t % xs.length = j at h2 h3
  have hmx : xs.length - 1 - j < xs.length := by omega
  have hmy : xs.length - 1 - j < ys.length := by omega
  have hle : xs[xs.length - 1 - j] ≤ ys[xs.length - 1 - j] := by
    have := (List.forall₂_iff_get.mp h).2 (xs.length - 1 - j) hmx hmy
    simpa using this
  have hgt : ys[xs.length - 1 - j] < xs[xs.length - 1 - j] := by
    have e1 := a2 i j h1 h2
    have e2 := b2 i j h1 (by omega)
    simp only [← hlen] at e2
    rw [h3] at e1 e2
    apply Nat.lt_of_testBit i
    · rw [← e2]; exact hdiff.2
    · rw [← e1]; exact hdiff.1
    · intro i' hi'
      by_cases hk' : i' < k
      · have e1 := a2 i' j hk' h2
        have e2 := b2 i' j hk' (by omega)
        simp only [← hlen] at e2
        rw [← e1, ← e2]
        refine (hsame _ ?_).symm
        have : (i + 1) * xs.length ≤ i' * xs.length := Nat.mul_le_mul_right _ hi'
        rw [Nat.add_mul] at this
        omega
      · have hyk : ys[xs.length - 1 - j] < 2 ^ i' :=
          Nat.lt_of_lt_of_le (hy _ (List.getElem_mem _)) (Nat.pow_le_pow_right (by decide) (by omega))
        rw [Nat.testBit_lt_two_pow hyk, Nat.testBit_lt_two_pow (Nat.lt_of_le_of_lt hle hyk)]
  omega

/-- The high bits of the position are those of the coordinates. -/
theorem curve_high {k c : Nat} {xs ys : List Nat} (hlen : xs.length = ys.length) :
    curve k xs / 2 ^ (c * xs.length) = curve k ys / 2 ^ (c * xs.length) ↔
      ∀ m (hm : m < xs.length), ∀ i, c ≤ i → i < k → xs[m].testBit i = (ys[m]'(by omega)).testBit i := by
  obtain ⟨a1, a2⟩ := curve_bits k xs
  obtain ⟨b1, b2⟩ := curve_bits k ys
  constructor
  · intro h m hm i hci hik
    have e1 := a2 i (xs.length - 1 - m) hik (by omega)
    have e2 := b2 i (xs.length - 1 - m) hik (by omega)
    simp only [← hlen] at e2
    simp only [show xs.length - 1 - (xs.length - 1 - m) = m by omega] at e1 e2
    rw [← e1, ← e2]
    have hle : c * xs.length ≤ i * xs.length := Nat.mul_le_mul_right _ hci
    have : ∀ z : Nat, z.testBit (i * xs.length + (xs.length - 1 - m)) =
        (z / 2 ^ (c * xs.length)).testBit (i * xs.length + (xs.length - 1 - m) - c * xs.length) := by
      intro z
      rw [Nat.testBit_div_two_pow]
      congr 1
      omega
    rw [this, this (curve k ys), h]
  · intro h
    apply Nat.eq_of_testBit_eq
    intro t
    rw [Nat.testBit_div_two_pow, Nat.testBit_div_two_pow]
    by_cases hk : t + c * xs.length < k * xs.length
    · have hpos : 0 < xs.length := by
        rcases Nat.eq_zero_or_pos xs.length with h0 | h0
        · rw [h0] at hk; omega
        · exact h0
      generalize hs : t + c * xs.length = s at hk
      have h1 : s / xs.length < k := Nat.div_lt_of_lt_mul (by rw [Nat.mul_comm]; exact hk)
      have hc : c ≤ s / xs.length := (Nat.le_div_iff_mul_le hpos).mpr (by omega)
      have h2 := Nat.mod_lt s hpos
      have h3 : s / xs.length * xs.length + s % xs.length = s := Nat.div_add_mod' s xs.length
      generalize s / xs.length = i at h1 h3 hc
      generalize s % xs.length = j at h2 h3
      have e1 := a2 i j h1 h2
      have e2 := b2 i j h1 (by omega)
      simp only [← hlen] at e2
      rw [h3] at e1 e2
      rw [e1, e2]
      exact h _ (by omega) i hc h1
    · have hp : 2 ^ (k * xs.length) ≤ 2 ^ (t + c * xs.length) := Nat.pow_le_pow_right (by decide) (by omega)
      rw [Nat.testBit_lt_two_pow (Nat.lt_of_lt_of_le a1 hp), Nat.testBit_lt_two_pow (Nat.lt_of_lt_of_le (by rwa [← hlen] at b1) hp)]

theorem high_bits_eq {k c x y : Nat} (hx : x < 2 ^ k) (hy : y < 2 ^ k) :
    (∀ i, c ≤ i → i < k → x.testBit i = y.testBit i) ↔ x / 2 ^ c = y / 2 ^ c := by
  constructor
  · intro h
    apply Nat.eq_of_testBit_eq
    intro t
    rw [Nat.testBit_div_two_pow, Nat.testBit_div_two_pow]
    by_cases ht : t + c < k
    · exact h _ (by omega) ht
    · have hp : 2 ^ k ≤ 2 ^ (t + c) := Nat.pow_le_pow_right (by decide) (by omega)
      rw [Nat.testBit_lt_two_pow (Nat.lt_of_lt_of_le hx hp), Nat.testBit_lt_two_pow (Nat.lt_of_lt_of_le hy hp)]
  · intro h i hi _
    have : ∀ z : Nat, z.testBit i = (z / 2 ^ c).testBit (i - c) := by
      intro z
      rw [Nat.testBit_div_two_pow]
      congr 1
      omega
    rw [this, this y, h]

theorem curve_cell {k c : Nat} {xs ys : List Nat} (hlen : xs.length = ys.length) (hx : ∀ x ∈ xs, x < 2 ^ k) (hy : ∀ y ∈ ys, y < 2 ^ k) :
    curve k xs / 2 ^ (c * xs.length) = curve k ys / 2 ^ (c * xs.length) ↔ xs.map (· / 2 ^ c) = ys.map (· / 2 ^ c) := by
  rw [curve_high hlen]
  constructor
  · intro h
    apply List.ext_getElem (by simpa using hlen)
    intro m h1 h2
    rw [List.getElem_map, List.getElem_map]
    rw [List.length_map] at h1 h2
    exact (high_bits_eq (hx _ (List.getElem_mem h1)) (hy _ (List.getElem_mem h2))).mp (h m h1)
  · intro h m hm
    have hm' : m < ys.length := by omega
    apply (high_bits_eq (hx _ (List.getElem_mem hm)) (hy _ (List.getElem_mem hm'))).mpr
    have := congrArg (fun l => l[m]?) h
    simpa [List.getElem?_eq_getElem hm, List.getElem?_eq_getElem hm'] using this

/-! ### Comparing keys -/

theorem memcmp_beDec : ∀ (n : Nat) (a b : Bytes), a.length = n → b.length = n → memcmp n a b = compare (beDec a) (beDec b)
  | 0, [], [], _, _ => by simp [memcmp]
  | n + 1, x :: a, y :: b, ha, hb => by
    have ha : a.length = n := by simpa using ha
    have hb : b.length = n := by simpa using hb
    have la := beDec_lt a
    have lb := beDec_lt b
    rw [ha] at la
    rw [hb] at lb
    rw [beDec_cons, beDec_cons, ha, hb]
    unfold memcmp
    split
    · rename_i h
      have h : x.toNat < y.toNat := UInt8.lt_iff_toNat_lt.mp h
      symm
      rw [Nat.compare_eq_lt]
      calc x.toNat * 256 ^ n + beDec a < (x.toNat + 1) * 256 ^ n := by rw [Nat.add_mul]; omega
        _ ≤ y.toNat * 256 ^ n := Nat.mul_le_mul_right _ h
        _ ≤ _ := Nat.le_add_right _ _
    · split
      · rename_i h
        have h : y.toNat < x.toNat := UInt8.lt_iff_toNat_lt.mp h
        symm
        rw [Nat.compare_eq_gt]
        calc y.toNat * 256 ^ n + beDec b < (y.toNat + 1) * 256 ^ n := by rw [Nat.add_mul]; omega
          _ ≤ x.toNat * 256 ^ n := Nat.mul_le_mul_right _ h
          _ ≤ _ := Nat.le_add_right _ _
      · rename_i h1 h2
        have h1 : ¬ x.toNat < y.toNat := fun h => h1 (UInt8.lt_iff_toNat_lt.mpr h)
        have h2 : ¬ y.toNat < x.toNat := fun h => h2 (UInt8.lt_iff_toNat_lt.mpr h)
        rw [show x.toNat = y.toNat by omega, memcmp_beDec n a b ha hb]
        rcases Nat.lt_trichotomy (beDec a) (beDec b) with h | h | h
        · rw [Nat.compare_eq_lt.mpr h, Nat.compare_eq_lt.mpr (by omega)]
        · rw [h]; simp
        · rw [Nat.compare_eq_gt.mpr h, Nat.compare_eq_gt.mpr (by omega)]

theorem pairUp_flat (b : Box) : pairUp (flatBox b) = b := by
  induction b with
  | nil => rfl
  | cons x b ih =>
    show pairUp (x.1 :: x.2 :: flatBox b) = x :: b
    unfold pairUp
    rw [ih]

theorem scalePoint_spec (A : SpatialArith) : ∀ (sf : ScaleFactor) (b : Box) (pt : List Nat), sf.length ≤ b.length →
    gridPoint A sf b = some pt →
    spatialScalePoint A (b.map fun x => A.middle x.1 x.2) sf = .ok pt ∧ pt.length = sf.length ∧ ∀ x ∈ pt, x < 2 ^ 32
  | [], b, pt, _, h => by
    unfold gridPoint at h
    rw [List.zip_nil_right] at h
    cases h
    refine ⟨?_, rfl, by simp⟩
    unfold spatialScalePoint
    rfl
  | s :: sf, [], pt, hl, _ => by simp at hl
  | s :: sf, x :: b, pt, hl, h => by
    unfold gridPoint at h
    rw [List.zip_cons_cons, List.mapM_cons] at h
    simp only [Option.bind_eq_bind, Option.bind_eq_some_iff] at h
    obtain ⟨n, hn, ns, hns, hpt⟩ := h
    cases hpt
    obtain ⟨hn, hlt⟩ := Option.filter_eq_some_iff.mp hn
    obtain ⟨h1, h2, h3⟩ := scalePoint_spec A sf b ns (by simpa using hl) hns
    refine ⟨?_, by simp [h2], ?_⟩
    · rw [List.map_cons]
      unfold spatialScalePoint
      rw [hn]
      simp only
      rw [h1]
    · intro y hy
      rcases List.mem_cons.mp hy with rfl | hy
      · simpa using hlt
      · exact h3 y hy

theorem spatialZcode_spec (A : SpatialArith) (sf : ScaleFactor) {d : Nat} (hd : d ≤ 255) (b : Box) (hb : BoxOk d b)
    (h1 : sf ≠ []) (h2 : sf.length ≤ d) (pt : List Nat) (h : gridPoint A sf b = some pt) :
    ∃ z, spatialZcode A sf (boxKey b) = .ok z ∧ z.length = 4 * sf.length ∧ beDec z = curve 32 pt := by
  obtain ⟨p1, p2, p3⟩ := scalePoint_spec A sf b pt (by rw [hb.1]; exact h2) h
  have hpos : 0 < sf.length := List.length_pos_iff.mpr h1
  obtain ⟨z, z1, z2, z3⟩ := interleave_curve pt (by intro h0; rw [h0] at p2; simp at p2; omega) (by omega)
  refine ⟨z, ?_, by rw [z2, p2], z3⟩
  have hc : spatialCenter A (flatBox b) = .ok (b.map fun x : Bytes × Bytes => A.middle x.1 x.2) := by
    unfold spatialCenter
    rw [if_neg (by rw [flatBox_length]; omega), pairUp_flat]
  unfold spatialZcode
  rw [decode_boxKey hd hb]
  show (do
    let center ← spatialCenter A (flatBox b)
    let scaled ← spatialScalePoint A center sf
    interleave scaled) = _
  rw [hc]
  show (do
    let scaled ← spatialScalePoint A (b.map fun x : Bytes × Bytes => A.middle x.1 x.2) sf
    interleave scaled) = _
  rw [p1]
  exact z1

theorem spatialKeyCmp_spec (A : SpatialArith) (sf : ScaleFactor) {d : Nat} (hd : d ≤ 255) (h1 : sf ≠ []) (h2 : sf.length ≤ d)
    (a b : Box) (ha : BoxOk d a) (hb : BoxOk d b) (pa pb : List Nat) (hpa : gridPoint A sf a = some pa)
    (hpb : gridPoint A sf b = some pb) :
    spatialKeyCmp A sf (boxKey a) (boxKey b) = .ok (compare (curve 32 pa) (curve 32 pb)) := by
  obtain ⟨z1, a1, a2, a3⟩ := spatialZcode_spec A sf hd a ha h1 h2 pa hpa
  obtain ⟨z2, b1, b2, b3⟩ := spatialZcode_spec A sf hd b hb h1 h2 pb hpb
  have h0 : sf.length ≠ 0 := fun h => h1 (List.eq_nil_of_length_eq_zero h)
  unfold spatialKeyCmp
  rw [if_neg h0]
  show (do
    let z1 ← spatialZcode A sf (boxKey a)
    let z2 ← spatialZcode A sf (boxKey b)
    pure (memcmp (sf.length * 4) z1 z2)) = _
  rw [a1, b1]
  show Except.ok (memcmp (sf.length * 4) z1 z2) = _
  rw [Nat.mul_comm, memcmp_beDec _ z1 z2 a2 b2, a3, b3]

end Couchstore
