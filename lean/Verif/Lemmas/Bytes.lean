import Verif.Model.Bytes

/-! Helper lemmas about the integer codecs and byte orders. -/

namespace Couchstore

@[simp] theorem length_beEnc (w n : Nat) : (beEnc w n).length = w := by
  induction w with
  | zero => rfl
  | succ w ih => simp [beEnc, ih]

theorem foldl_beDec (b : Bytes) (a : Nat) :
    b.foldl (fun a x => a * 256 + x.toNat) a = a * 256 ^ b.length + beDec b := by
  induction b generalizing a with
  | nil => simp [beDec]
  | cons x xs ih =>
    rw [List.foldl_cons, ih]
    unfold beDec
    rw [List.foldl_cons, ih (0 * 256 + x.toNat)]
    simp [Nat.pow_succ]
    grind

@[simp] theorem beDec_nil : beDec [] = 0 := rfl

theorem beDec_cons (x : UInt8) (xs : Bytes) :
    beDec (x :: xs) = x.toNat * 256 ^ xs.length + beDec xs := by
  conv => lhs; unfold beDec
  rw [List.foldl_cons, foldl_beDec]
  simp

theorem beDec_append (a b : Bytes) : beDec (a ++ b) = beDec a * 256 ^ b.length + beDec b := by
  conv => lhs; unfold beDec
  rw [List.foldl_append, foldl_beDec]
  rfl

theorem beDec_lt (b : Bytes) : beDec b < 256 ^ b.length := by
  induction b with
  | nil => simp
  | cons x xs ih =>
    rw [beDec_cons, List.length_cons, Nat.pow_succ]
    have hx : x.toNat < 256 := x.toNat_lt
    have : x.toNat * 256 ^ xs.length ≤ 255 * 256 ^ xs.length :=
      Nat.mul_le_mul_right _ (by omega)
    omega

theorem beDec_beEnc_mod (w n : Nat) : beDec (beEnc w n) = n % 256 ^ w := by
  induction w with
  | zero => simp [beEnc, Nat.mod_one]
  | succ w ih =>
    simp only [beEnc, beDec_cons, ih, length_beEnc, UInt8.toNat_ofNat']
    have e : n % 256 ^ (w + 1) = n % 256 ^ w + 256 ^ w * (n / 256 ^ w % 256) := by
      rw [Nat.pow_succ, Nat.mod_mul]
    rw [e, Nat.mul_comm (256 ^ w)]
    simp
    omega

theorem beDec_beEnc (w n : Nat) (h : n < 256 ^ w) : beDec (beEnc w n) = n := by
  rw [beDec_beEnc_mod, Nat.mod_eq_of_lt h]

theorem beEnc_mod (w n : Nat) : ∀ v, w ≤ v → beEnc w (n % 256 ^ v) = beEnc w n := by
  induction w with
  | zero => intros; rfl
  | succ w ih =>
    intro v hv
    simp only [beEnc]
    rw [ih v (by omega)]
    congr 1
    apply UInt8.toNat_inj.mp
    simp only [UInt8.toNat_ofNat']
    obtain ⟨k, rfl⟩ : ∃ k, v = w + (k + 1) := ⟨v - w - 1, by omega⟩
    rw [Nat.pow_add, Nat.mod_mul_right_div_self, Nat.pow_succ]
    exact Nat.mod_mul_left_mod _ _ _

theorem beEnc_beDec (b : Bytes) : beEnc b.length (beDec b) = b := by
  induction b with
  | nil => rfl
  | cons x xs ih =>
    simp only [List.length_cons, beEnc]
    rw [beDec_cons]
    congr 1
    · apply UInt8.toNat_inj.mp
      have hl := beDec_lt xs
      have hp : 0 < 256 ^ xs.length := Nat.pow_pos (by decide)
      simp only [UInt8.toNat_ofNat']
      rw [Nat.add_comm, Nat.add_mul_div_right _ _ hp, Nat.div_eq_of_lt hl]
      have := x.toNat_lt
      simp
    · conv => rhs; rw [← ih]
      rw [← beEnc_mod _ _ xs.length (Nat.le_refl _)]
      rw [Nat.add_comm, Nat.add_mul_mod_self_right, Nat.mod_eq_of_lt (beDec_lt xs)]

theorem beDec_inj {a b : Bytes} (hl : a.length = b.length) (h : beDec a = beDec b) : a = b := by
  rw [← beEnc_beDec a, ← beEnc_beDec b, hl, h]

theorem beEnc_inj {w a b : Nat} (ha : a < 256 ^ w) (hb : b < 256 ^ w)
    (h : beEnc w a = beEnc w b) : a = b := by
  rw [← beDec_beEnc w a ha, ← beDec_beEnc w b hb, h]

end Couchstore
