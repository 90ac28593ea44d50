import Verif.Model.Node
import Verif.Lemmas.Order

/-! Helper lemmas about record codecs. -/

namespace Couchstore

/-! ### slices -/

theorem slice_append_left (a b : Bytes) (off n : Nat) (h : off + n ≤ a.length) :
    slice (a ++ b) off n = slice a off n := by
  unfold slice
  rw [List.drop_append_of_le_length (by omega), List.take_append_of_le_length (by simp; omega)]

theorem slice_append_right (a b : Bytes) (off n : Nat) (h : a.length ≤ off) :
    slice (a ++ b) off n = slice b (off - a.length) n := by
  unfold slice
  rw [List.drop_append, List.drop_of_length_le h]; simp

theorem slice_self (a : Bytes) (n : Nat) (h : n = a.length) : slice a 0 n = a := by
  simp [slice, h]

theorem slice_prefix (a b : Bytes) (n : Nat) (h : n = a.length) : slice (a ++ b) 0 n = a := by
  rw [slice_append_left _ _ _ _ (by omega), slice_self _ _ h]

theorem length_slice (a : Bytes) (off n : Nat) : (slice a off n).length = min n (a.length - off) := by
  simp [slice]

theorem drop_append_eq (a b : Bytes) (n : Nat) (h : n = a.length) : (a ++ b).drop n = b := by
  simp [h]

/-! ### key/value lengths -/

theorem encodeKvLength_length (k v : Nat) : (encodeKvLength k v).length = 5 := by
  simp [encodeKvLength, beEnc]

theorem u8_or_toNat (a b : UInt8) : (a ||| b).toNat = a.toNat ||| b.toNat := UInt8.toNat_or a b

theorem decode_encode_kvLength (k v : Nat) (hk : k < 4096) (hv : v < 2 ^ 28) :
    decodeKvLength (encodeKvLength k v) = (k, v) := by
  simp only [encodeKvLength, enc32, beEnc, decodeKvLength]
  have h1 : v / 256 ^ 3 < 16 := by omega
  have e0 : (UInt8.ofNat (k / 16)).toNat = k / 16 := UInt8.toNat_ofNat_of_lt' (by show _ < 256; omega)
  have e1 : (UInt8.ofNat (v / 256 ^ 3) ||| UInt8.ofNat (k % 16 * 16)).toNat
      = k % 16 * 16 + v / 256 ^ 3 := by
    rw [u8_or_toNat, UInt8.toNat_ofNat_of_lt' (by show _ < 256; omega),
      UInt8.toNat_ofNat_of_lt' (by show _ < 256; omega), Nat.or_comm]
    have : k % 16 * 16 = 2 ^ 4 * (k % 16) := by omega
    rw [this, Nat.two_pow_add_eq_or_of_lt (by omega)]
  rw [e0, e1]
  congr 1
  · omega
  · rw [beDec_cons, e1]
    have : beDec [UInt8.ofNat (v / 256 ^ 2), UInt8.ofNat (v / 256 ^ 1), UInt8.ofNat (v / 256 ^ 0)]
        = v % 256 ^ 3 := beDec_beEnc_mod 3 v
    rw [this]
    simp only [List.length_cons, List.length_nil]
    omega

theorem decodeKvLength_klen_lt (b : Bytes) : (decodeKvLength b).1 < 4096 := by
  unfold decodeKvLength
  split
  · rename_i b0 b1 rest
    have h0 : b0.toNat < 256 := b0.toNat_lt
    have h1 : b1.toNat < 256 := b1.toNat_lt
    simp only
    omega
  · simp

/-! ### key/value records -/

theorem writeKv_length (k v : Bytes) : (writeKv k v).length = 5 + k.length + v.length := by
  simp [writeKv, encodeKvLength_length]; omega

theorem readKv_writeKv (k v rest : Bytes) (hk : k.length < 4096) (hv : v.length < 2 ^ 28) :
    readKv (writeKv k v ++ rest) = some (k, v, rest) := by
  have hl : (encodeKvLength k.length v.length).length = 5 := encodeKvLength_length _ _
  have hs : slice (writeKv k v ++ rest) 0 5 = encodeKvLength k.length v.length := by
    unfold writeKv
    rw [List.append_assoc, List.append_assoc, slice_prefix _ _ _ hl.symm]
  unfold readKv readKvRef
  rw [hs, decode_encode_kvLength _ _ hk hv]
  have hL := writeKv_length k v
  simp only [List.length_append, hL]
  rw [if_neg (by omega), if_neg (by omega)]
  simp only [Option.some.injEq, Prod.mk.injEq]
  refine ⟨?_, ?_, ?_⟩
  · unfold writeKv
    rw [List.append_assoc, List.append_assoc, slice_append_right _ _ _ _ (by omega), hl,
      slice_prefix _ _ _ rfl]
  · unfold writeKv
    rw [List.append_assoc, slice_append_right _ _ _ _ (by simp [hl]), List.length_append, hl]
    rw [show 5 + k.length - (5 + k.length) = 0 by omega, slice_prefix _ _ _ rfl]
  · exact drop_append_eq _ _ _ hL.symm

theorem readKv_length {b k v rest : Bytes} (h : readKv b = some (k, v, rest)) :
    rest.length + 5 + k.length + v.length = b.length := by
  unfold readKv at h
  split at h
  · simp at h
  · rename_i r hr
    unfold readKvRef at hr
    split at hr
    · simp at hr
    · simp only at hr
      split at hr
      · simp at hr
      · simp at hr
        subst hr
        simp only [Option.some.injEq, Prod.mk.injEq] at h
        obtain ⟨rfl, rfl, rfl⟩ := h
        simp only [length_slice, List.length_drop]
        omega

theorem readKv_rest_lt {b k v rest : Bytes} (h : readKv b = some (k, v, rest)) :
    rest.length < b.length := by
  have := readKv_length h; omega

/-! ### node pointers and roots -/

theorem slice_cons_app (a b : Bytes) (off n : Nat) (h : off = a.length) :
    slice (a ++ b) off n = slice b 0 n := by
  rw [slice_append_right _ _ _ _ (by omega), h, Nat.sub_self]

theorem encodePointer_length (p : NodePointer) :
    (encodePointer p).length = 14 + p.reduceValue.length := by
  simp [encodePointer]; omega

theorem readPointer_encodePointer (p : NodePointer) (hp : p.pointer < 2 ^ 48)
    (hs : p.subtreesize < 2 ^ 48) (hr : p.reduceValue.length < 2 ^ 16) :
    readPointer p.key (encodePointer p) = some p := by
  unfold readPointer
  have hl := encodePointer_length p
  have e1 : slice (encodePointer p) 0 6 = enc48 p.pointer := by
    simp only [encodePointer, List.append_assoc]; exact slice_prefix _ _ _ (by simp)
  have e2 : slice (encodePointer p) 6 6 = enc48 p.subtreesize := by
    simp only [encodePointer, List.append_assoc]
    rw [slice_cons_app _ _ _ _ (by simp)]; exact slice_prefix _ _ _ (by simp)
  have e3 : slice (encodePointer p) 12 2 = enc16 p.reduceValue.length := by
    simp only [encodePointer, List.append_assoc]
    rw [← List.append_assoc, slice_cons_app _ _ _ _ (by simp)]; exact slice_prefix _ _ _ (by simp)
  have e4 : slice (encodePointer p) 14 p.reduceValue.length = p.reduceValue := by
    unfold encodePointer
    rw [slice_cons_app _ _ _ _ (by simp)]; exact slice_self _ _ rfl
  rw [if_neg (by omega), e3, beDec_beEnc _ _ (by simpa using hr)]
  simp only
  rw [if_neg (by omega), e1, e2, e4, beDec_beEnc _ _ (by simpa using hp),
    beDec_beEnc _ _ (by simpa using hs)]

theorem encodeRoot_length (p : NodePointer) :
    (encodeRoot (some p)).length = 12 + p.reduceValue.length := by
  simp [encodeRoot]; omega

theorem readRoot_encodeRoot (p : NodePointer) (hp : p.pointer < 2 ^ 48)
    (hs : p.subtreesize < 2 ^ 48) :
    readRoot (encodeRoot (some p)) = some { p with key := [] } := by
  unfold readRoot
  rw [encodeRoot_length, if_neg (by omega)]
  have e1 : slice (encodeRoot (some p)) 0 6 = enc48 p.pointer := by
    simp only [encodeRoot, List.append_assoc]; exact slice_prefix _ _ _ (by simp)
  have e2 : slice (encodeRoot (some p)) 6 6 = enc48 p.subtreesize := by
    simp only [encodeRoot, List.append_assoc]
    rw [slice_cons_app _ _ _ _ (by simp)]; exact slice_prefix _ _ _ (by simp)
  have e3 : (encodeRoot (some p)).drop 12 = p.reduceValue := by
    unfold encodeRoot; exact drop_append_eq _ _ _ (by simp)
  rw [e1, e2, e3, beDec_beEnc _ _ (by simpa using hp), beDec_beEnc _ _ (by simpa using hs)]

/-! ### document metadata -/

theorem or_flag (x : Nat) (h : x < 2 ^ 47) : x ||| 2 ^ 47 = 2 ^ 47 + x := by
  rw [Nat.or_comm]
  have := Nat.two_pow_add_eq_or_of_lt h 1
  simpa using this.symm

theorem bpField_lt (d : DocInfo) (h : d.bp < 2 ^ 47) : bpField d < 2 ^ 48 := by
  unfold bpField bpDeletedFlag
  split
  · rw [or_flag _ h]; omega
  · simp; omega

theorem and_two_pow_ne_zero (n i : Nat) : (n &&& 2 ^ i != 0) = n.testBit i := by
  cases h : n.testBit i
  · have : n &&& 2 ^ i = 0 := by
      apply Nat.eq_of_testBit_eq
      intro j
      rw [Nat.testBit_and, Nat.testBit_two_pow, Nat.zero_testBit]
      by_cases hj : i = j
      · subst hj; simp [h]
      · simp [hj]
    simp [this]
  · have : (n &&& 2 ^ i).testBit i = true := by
      rw [Nat.testBit_and, Nat.testBit_two_pow]; simp [h]
    simp only [bne_iff_ne, ne_eq]
    intro h0
    rw [h0] at this
    simp at this

theorem bpField_deleted (d : DocInfo) (h : d.bp < 2 ^ 47) :
    (bpField d &&& bpDeletedFlag != 0) = d.deleted := by
  unfold bpField bpDeletedFlag
  rw [and_two_pow_ne_zero]
  cases hd : d.deleted
  · simp; exact Nat.testBit_lt_two_pow h
  · rw [if_pos rfl, Nat.testBit_or, Nat.testBit_two_pow]; simp

theorem bpField_bp (d : DocInfo) (h : d.bp < 2 ^ 47) : bpField d % bpDeletedFlag = d.bp := by
  unfold bpField bpDeletedFlag
  split
  · rw [or_flag _ h]; omega
  · simp; omega

end Couchstore
