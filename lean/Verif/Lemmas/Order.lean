import Verif.Lemmas.Bytes

/-! Helper lemmas about `ebin_cmp` and `seq_cmp`. -/

namespace Couchstore

/-- The laws of a total order given by a three way comparison, on keys satisfying `P`. -/
structure CmpLaws (cmp : Bytes → Bytes → Ordering) (P : Bytes → Prop) : Prop where
  eq_iff : ∀ a b, P a → P b → (cmp a b = .eq ↔ a = b)
  swap : ∀ a b, P a → P b → cmp b a = (cmp a b).swap
  trans : ∀ a b c, P a → P b → P c → cmp a b = .lt → cmp b c = .lt → cmp a c = .lt

theorem ebinCmp_nil_nil : ebinCmp [] [] = .eq := rfl
theorem ebinCmp_nil_cons (y : UInt8) (ys : Bytes) : ebinCmp [] (y :: ys) = .lt := by
  simp [ebinCmp, memcmp]
theorem ebinCmp_cons_nil (y : UInt8) (ys : Bytes) : ebinCmp (y :: ys) [] = .gt := by
  simp [ebinCmp, memcmp]

theorem ebinCmp_cons_cons (x y : UInt8) (xs ys : Bytes) :
    ebinCmp (x :: xs) (y :: ys)
      = if x < y then .lt else if y < x then .gt else ebinCmp xs ys := by
  unfold ebinCmp
  simp only [List.length_cons, Nat.add_lt_add_iff_right]
  have : (if ys.length < xs.length then ys.length + 1 else xs.length + 1)
      = (if ys.length < xs.length then ys.length else xs.length) + 1 := by split <;> rfl
  rw [this]
  simp only [memcmp, Nat.add_lt_add_iff_right]
  by_cases h1 : x < y
  · simp [h1]
  · by_cases h2 : y < x
    · simp [h1, h2]
    · simp [h1, h2]

theorem u8_eq_of_not_lt {x y : UInt8} (h1 : ¬ x < y) (h2 : ¬ y < x) : x = y := by
  apply UInt8.toNat_inj.mp
  rw [UInt8.lt_iff_toNat_lt] at h1 h2
  omega

theorem ebinCmp_eq_iff (a b : Bytes) : ebinCmp a b = .eq ↔ a = b := by
  induction a generalizing b with
  | nil => cases b <;> simp [ebinCmp_nil_nil, ebinCmp_nil_cons]
  | cons x xs ih =>
    cases b with
    | nil => simp [ebinCmp_cons_nil]
    | cons y ys =>
      rw [ebinCmp_cons_cons]
      by_cases h1 : x < y
      · simp [h1]; intro h; subst h; exact absurd h1 (by simp)
      · by_cases h2 : y < x
        · simp [h1, h2]; intro h; subst h; exact absurd h2 (by simp)
        · simp [h1, h2, ih, u8_eq_of_not_lt h1 h2]

theorem ebinCmp_lt_iff (a b : Bytes) : ebinCmp a b = .lt ↔ a < b := by
  induction a generalizing b with
  | nil => cases b <;> simp [ebinCmp_nil_nil, ebinCmp_nil_cons]
  | cons x xs ih =>
    cases b with
    | nil => simp [ebinCmp_cons_nil]
    | cons y ys =>
      rw [ebinCmp_cons_cons, List.cons_lt_cons_iff]
      by_cases h1 : x < y
      · simp [h1]
      · by_cases h2 : y < x
        · simp [h1, h2]; intro h; subst h; exact absurd h2 (by simp)
        · simp [h1, h2, ih, u8_eq_of_not_lt h1 h2]

theorem ebinCmp_swap (a b : Bytes) : ebinCmp b a = (ebinCmp a b).swap := by
  induction a generalizing b with
  | nil => cases b <;> simp [ebinCmp_nil_nil, ebinCmp_nil_cons, ebinCmp_cons_nil]
  | cons x xs ih =>
    cases b with
    | nil => simp [ebinCmp_cons_nil, ebinCmp_nil_cons]
    | cons y ys =>
      rw [ebinCmp_cons_cons, ebinCmp_cons_cons]
      by_cases h1 : x < y
      · have : ¬ y < x := by rw [UInt8.lt_iff_toNat_lt] at *; omega
        simp [h1, this]
      · by_cases h2 : y < x
        · simp [h1, h2]
        · simp [h1, h2, ih]

theorem ebinCmp_gt_iff (a b : Bytes) : ebinCmp a b = .gt ↔ b < a := by
  rw [← ebinCmp_lt_iff b a, ebinCmp_swap a b]
  cases ebinCmp a b <;> simp

theorem bytes_lt_trans {a b c : Bytes} (h1 : a < b) (h2 : b < c) : a < c :=
  List.lt_trans h1 h2

theorem ebinCmp_laws : CmpLaws ebinCmp (fun _ => True) where
  eq_iff := fun a b _ _ => ebinCmp_eq_iff a b
  swap := fun a b _ _ => ebinCmp_swap a b
  trans := fun a b c _ _ _ h1 h2 => by
    rw [ebinCmp_lt_iff] at *
    exact bytes_lt_trans h1 h2

theorem seqCmp_laws : CmpLaws seqCmp (fun k => k.length = 6) where
  eq_iff := fun a b ha hb => by
    have ea : a.take 6 = a := List.take_of_length_le (by omega)
    have eb : b.take 6 = b := List.take_of_length_le (by omega)
    unfold seqCmp decodeSequenceKey
    rw [ea, eb]
    constructor
    · intro h
      have : beDec a = beDec b := by
        by_cases hh : beDec a = beDec b
        · exact hh
        · simp only [hh, if_false] at h; split at h <;> simp at h
      exact beDec_inj (by omega) this
    · intro h; simp [h]
  swap := fun a b _ _ => by
    unfold seqCmp
    rcases Nat.lt_trichotomy (decodeSequenceKey a) (decodeSequenceKey b) with h | h | h
    · have h1 : ¬ decodeSequenceKey b = decodeSequenceKey a := by omega
      have h2 : ¬ decodeSequenceKey b < decodeSequenceKey a := by omega
      have h3 : ¬ decodeSequenceKey a = decodeSequenceKey b := by omega
      simp [h1, h2, h3, h]
    · simp [h]
    · have h1 : ¬ decodeSequenceKey b = decodeSequenceKey a := by omega
      have h2 : ¬ decodeSequenceKey a < decodeSequenceKey b := by omega
      have h3 : ¬ decodeSequenceKey a = decodeSequenceKey b := by omega
      simp [h1, h2, h3, h]
  trans := fun a b c _ _ _ => by
    unfold seqCmp
    simp only []
    intro h1 h2
    have l1 : decodeSequenceKey a < decodeSequenceKey b := by
      by_cases h : decodeSequenceKey a = decodeSequenceKey b
      · simp [h] at h1
      · by_cases h' : decodeSequenceKey a < decodeSequenceKey b
        · exact h'
        · simp [h, h'] at h1
    have l2 : decodeSequenceKey b < decodeSequenceKey c := by
      by_cases h : decodeSequenceKey b = decodeSequenceKey c
      · simp [h] at h2
      · by_cases h' : decodeSequenceKey b < decodeSequenceKey c
        · exact h'
        · simp [h, h'] at h2
    have h3 : ¬ decodeSequenceKey a = decodeSequenceKey c := by omega
    have h4 : decodeSequenceKey a < decodeSequenceKey c := by omega
    simp [h3, h4]

theorem beEnc_lt_iff (w a b : Nat) (ha : a < 256 ^ w) (hb : b < 256 ^ w) :
    beEnc w a < beEnc w b ↔ a < b := by
  induction w generalizing a b with
  | zero => simp at *; subst ha; subst hb; simp [beEnc]
  | succ w ih =>
    have hp : 0 < 256 ^ w := Nat.pow_pos (by decide)
    have ha' : a / 256 ^ w < 256 := by
      rw [Nat.div_lt_iff_lt_mul hp, Nat.mul_comm]; rwa [Nat.pow_succ] at ha
    have hb' : b / 256 ^ w < 256 := by
      rw [Nat.div_lt_iff_lt_mul hp, Nat.mul_comm]; rwa [Nat.pow_succ] at hb
    simp only [beEnc]
    rw [List.cons_lt_cons_iff, UInt8.lt_iff_toNat_lt, ← UInt8.toNat_inj,
      UInt8.toNat_ofNat_of_lt' ha', UInt8.toNat_ofNat_of_lt' hb',
      ← beEnc_mod w a w (Nat.le_refl _), ← beEnc_mod w b w (Nat.le_refl _),
      ih _ _ (Nat.mod_lt _ hp) (Nat.mod_lt _ hp)]
    have e1 := Nat.div_add_mod a (256 ^ w)
    have e2 := Nat.div_add_mod b (256 ^ w)
    have m1 := Nat.mod_lt a hp
    have m2 := Nat.mod_lt b hp
    generalize a / 256 ^ w = qa at *
    generalize b / 256 ^ w = qb at *
    generalize a % 256 ^ w = ra at *
    generalize b % 256 ^ w = rb at *
    generalize 256 ^ w = p at *
    constructor
    · rintro (h | ⟨h, h'⟩)
      · have : p * (qa + 1) ≤ p * qb := Nat.mul_le_mul_left _ h
        rw [Nat.mul_add] at this
        omega
      · subst h; omega
    · intro h
      rcases Nat.lt_trichotomy qa qb with hq | hq | hq
      · exact Or.inl hq
      · subst hq; exact Or.inr ⟨rfl, by omega⟩
      · have : p * (qb + 1) ≤ p * qa := Nat.mul_le_mul_left _ hq
        rw [Nat.mul_add] at this
        omega

end Couchstore
