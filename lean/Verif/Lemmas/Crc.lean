import Verif.Model.Crc
import Verif.Spec.Crc

/-! Helper lemmas about checksums. -/

namespace Couchstore

abbrev W := BitVec 32

theorem crcBit_xor (P x y : W) : crcBit P (x ^^^ y) = crcBit P x ^^^ crcBit P y := by
  unfold crcBit
  rw [BitVec.ushiftRight_xor_distrib, BitVec.getLsbD_xor]
  cases x.getLsbD 0 <;> cases y.getLsbD 0 <;> simp [BitVec.xor_assoc]
  · rw [BitVec.xor_comm P]
  · rw [← BitVec.xor_assoc P, BitVec.xor_comm P (y >>> 1), BitVec.xor_assoc, BitVec.xor_self, BitVec.xor_zero]

theorem crcBits_xor (P : W) : ∀ (n : Nat) (x y : W), crcBits P n (x ^^^ y) = crcBits P n x ^^^ crcBits P n y
  | 0, _, _ => rfl
  | n + 1, x, y => by
    unfold crcBits
    rw [crcBit_xor, crcBits_xor P n]

theorem crcBit_injective {P : W} (hP : P.getLsbD 31 = true) {x y : W} (h : crcBit P x = crcBit P y) : x = y := by
  have htop : ∀ z : W, (crcBit P z).getLsbD 31 = z.getLsbD 0 := by
    intro z
    unfold crcBit
    rw [BitVec.getLsbD_xor, BitVec.getLsbD_ushiftRight, BitVec.getLsbD_of_ge z (1 + 31) (by omega)]
    cases z.getLsbD 0
    · simp
    · simp [hP]
  have h0 : x.getLsbD 0 = y.getLsbD 0 := by rw [← htop, ← htop, h]
  have h1 : x >>> 1 = y >>> 1 := by
    unfold crcBit at h
    rw [h0] at h
    exact (BitVec.xor_left_inj _).mp h
  apply BitVec.eq_of_getLsbD_eq
  intro i hi
  cases i with
  | zero => exact h0
  | succ i =>
    have := congrArg (fun z : W => z.getLsbD i) h1
    simp only [BitVec.getLsbD_ushiftRight] at this
    rw [Nat.add_comm]
    exact this

theorem crcBits_injective {P : W} (hP : P.getLsbD 31 = true) : ∀ (n : Nat) {x y : W}, crcBits P n x = crcBits P n y → x = y
  | 0, _, _, h => h
  | n + 1, _, _, h => crcBit_injective hP (crcBits_injective hP n h)

/-- Zero bits are just shifted out. -/
theorem crcBits_shift (P : W) : ∀ (n : Nat) (x : W), (∀ i, i < n → x.getLsbD i = false) → crcBits P n x = x >>> n
  | 0, x, _ => by simp [crcBits]
  | n + 1, x, h => by
    unfold crcBits
    have h1 : crcBit P x = x >>> 1 := by
      unfold crcBit
      rw [h 0 (by omega)]
      simp
    rw [h1, crcBits_shift P n]
    · rw [← BitVec.shiftRight_add, Nat.add_comm]
    · intro i hi
      rw [BitVec.getLsbD_ushiftRight]
      exact h _ (by omega)

/-- A whole byte by a table, if the table is right. -/
theorem crcBits_byte (P : W) (x : W) : crcBits P 8 x = (x >>> 8) ^^^ crcBits P 8 (x &&& 0xff#32) := by
  have hx : x = (x &&& 0xff#32) ^^^ (x &&& ~~~ 0xff#32) := by
    apply BitVec.eq_of_getLsbD_eq
    intro i hi
    simp only [BitVec.getLsbD_xor, BitVec.getLsbD_and, BitVec.getLsbD_not]
    cases x.getLsbD i <;> cases (0xff#32).getLsbD i <;> simp [hi]
  have hlow : ∀ i, i < 8 → (0xff#32).getLsbD i = true := by decide
  have hhigh : ∀ i, i < 24 → (0xff#32).getLsbD (8 + i) = false := by decide
  conv => lhs; rw [hx]
  rw [crcBits_xor, crcBits_shift P 8 (x &&& ~~~ 0xff#32), BitVec.xor_comm]
  · congr 1
    apply BitVec.eq_of_getLsbD_eq
    intro i hi
    simp only [BitVec.getLsbD_ushiftRight, BitVec.getLsbD_and, BitVec.getLsbD_not]
    by_cases h : i < 24
    · rw [hhigh i h]
      simp
      omega
    · rw [BitVec.getLsbD_of_ge x (8 + i) (by omega)]
      simp
  · intro i hi
    simp only [BitVec.getLsbD_and, BitVec.getLsbD_not, hlow i hi]
    simp

/-- The table of the code is that of the polynomial. -/
theorem crc32tab_spec : ∀ i : Fin 256, (crc32tab[i.val]?.getD 0).toBitVec = crcBits polyIEEE 8 (BitVec.ofNat 32 i.val) := by
  decide +kernel

theorem crc32tab_spec' (n : Nat) (h : n < 256) : (crc32tab[n]?.getD 0).toBitVec = crcBits polyIEEE 8 (BitVec.ofNat 32 n) :=
  crc32tab_spec ⟨n, h⟩

attribute [local irreducible] crc32tab

theorem crc32Step_spec (c : UInt32) (b : UInt8) : (crc32Step c b).toBitVec = crcByte polyIEEE c.toBitVec b := by
  unfold crc32Step crcByte
  rw [crcBits_byte]
  have hidx : ((c ^^^ b.toUInt32) &&& 0xff).toNat < 256 := by
    rw [UInt32.toNat_and]
    exact Nat.lt_succ_of_le Nat.and_le_right
  rw [UInt32.toBitVec_xor, crc32tab_spec' _ hidx]
  congr 1
  · have hb : (c.toBitVec ^^^ b.toBitVec.setWidth 32) >>> 8 = c.toBitVec >>> 8 := by
      apply BitVec.eq_of_getLsbD_eq
      intro i hi
      simp [BitVec.getLsbD_setWidth]
    rw [hb]
    rfl
  · congr 1
    apply BitVec.eq_of_toNat_eq
    rw [BitVec.toNat_ofNat, Nat.mod_eq_of_lt (by omega)]
    rfl

theorem foldl_crc32Step (bs : Bytes) (c : UInt32) :
    (bs.foldl crc32Step c).toBitVec = bs.foldl (crcByte polyIEEE) c.toBitVec := by
  induction bs generalizing c with
  | nil => rfl
  | cons b bs ih => rw [List.foldl_cons, List.foldl_cons, ih, crc32Step_spec]

theorem hashCrc32_spec (bs : Bytes) : (hashCrc32 bs).toBitVec = crc polyIEEE bs := by
  unfold hashCrc32 hashCrc32' crc
  rw [UInt32.toBitVec_xor, foldl_crc32Step]
  have h1 : (0xffffffff : UInt32).toBitVec = BitVec.allOnes 32 := by decide
  rw [h1, BitVec.xor_allOnes]

/-! ### Errors that are detected -/

theorem crcByte_injective {P : W} (hP : P.getLsbD 31 = true) (b : UInt8) {x y : W} (h : crcByte P x b = crcByte P y b) : x = y :=
  (BitVec.xor_left_inj _).mp (crcBits_injective hP 8 h)

theorem foldl_crcByte_injective {P : W} (hP : P.getLsbD 31 = true) : ∀ (bs : Bytes) {x y : W},
    bs.foldl (crcByte P) x = bs.foldl (crcByte P) y → x = y
  | [], _, _, h => h
  | _ :: bs, _, _, h => crcByte_injective hP _ (foldl_crcByte_injective hP bs h)

/-- Bytes as a number, the first one lowest. -/
def wordOf : Bytes → W
  | [] => 0#32
  | b :: bs => b.toBitVec.setWidth 32 ^^^ (wordOf bs <<< 8)

theorem wordOf_top : ∀ (bs : Bytes), bs.length ≤ 3 → ∀ i, 8 * bs.length ≤ i → (wordOf bs).getLsbD i = false
  | [], _, i, _ => by simp [wordOf]
  | b :: bs, h, i, hi => by
    simp only [List.length_cons] at h hi
    simp only [wordOf, BitVec.getLsbD_xor, BitVec.getLsbD_setWidth, BitVec.getLsbD_shiftLeft]
    rw [BitVec.getLsbD_of_ge b.toBitVec i (by omega), wordOf_top bs (by omega) (i - 8) (by omega)]
    simp

theorem wordOf_shift {bs : Bytes} (h : bs.length ≤ 3) : (wordOf bs <<< 8) >>> 8 = wordOf bs := by
  apply BitVec.eq_of_getLsbD_eq
  intro i hi
  rw [BitVec.getLsbD_ushiftRight, BitVec.getLsbD_shiftLeft]
  by_cases h' : i < 24
  · simp
    omega
  · rw [wordOf_top bs h i (by omega)]
    simp
    omega

theorem wordOf_injective : ∀ {a b : Bytes}, a.length = b.length → a.length ≤ 4 → wordOf a = wordOf b → a = b
  | [], [], _, _, _ => rfl
  | [], _ :: _, h, _, _ => by simp at h
  | _ :: _, [], h, _, _ => by simp at h
  | x :: a, y :: b, h, h', hw => by
    simp only [List.length_cons] at h h'
    have hlow : ∀ (z : UInt8) (w : W) (i : Nat), i < 8 → (z.toBitVec.setWidth 32 ^^^ (w <<< 8)).getLsbD i = z.toBitVec.getLsbD i := by
      intro z w i hi
      simp only [BitVec.getLsbD_xor, BitVec.getLsbD_setWidth, BitVec.getLsbD_shiftLeft]
      simp [hi]
      omega
    have hhigh : ∀ (z : UInt8) (w : Bytes), w.length ≤ 3 → (z.toBitVec.setWidth 32 ^^^ (wordOf w <<< 8)) >>> 8 = wordOf w := by
      intro z w hl
      rw [BitVec.ushiftRight_xor_distrib, wordOf_shift hl]
      have : z.toBitVec.setWidth 32 >>> 8 = 0#32 := by
        apply BitVec.eq_of_getLsbD_eq
        intro i hi
        simp [BitVec.getLsbD_setWidth]
      rw [this, BitVec.zero_xor]
    unfold wordOf at hw
    have hxy : x = y := by
      apply UInt8.eq_of_toBitVec_eq
      apply BitVec.eq_of_getLsbD_eq
      intro i hi
      rw [← hlow x (wordOf a) i hi, hw, hlow y (wordOf b) i hi]
    have hab : wordOf a = wordOf b := by
      rw [← hhigh x a (by omega), hw, hhigh y b (by omega)]
    rw [hxy, wordOf_injective (by omega) (by omega) hab]

/-- `n` zero bytes. -/
def crcZeros (P : W) : Nat → W → W
  | 0, x => x
  | n + 1, x => crcZeros P n (crcBits P 8 x)

theorem crcZeros_injective {P : W} (hP : P.getLsbD 31 = true) : ∀ (n : Nat) {x y : W}, crcZeros P n x = crcZeros P n y → x = y
  | 0, _, _, h => h
  | n + 1, _, _, h => crcBits_injective hP 8 (crcZeros_injective hP n h)

theorem foldl_wordOf (P : W) : ∀ (bs : Bytes) (c : W), bs.length ≤ 4 →
    bs.foldl (crcByte P) c = crcZeros P bs.length (c ^^^ wordOf bs)
  | [], c, _ => by simp [crcZeros, wordOf]
  | b :: bs, c, h => by
    simp only [List.length_cons] at h
    rw [List.foldl_cons, foldl_wordOf P bs _ (by omega)]
    unfold crcByte
    have hw : wordOf bs = crcBits P 8 (wordOf bs <<< 8) := by
      rw [crcBits_shift, wordOf_shift (by omega)]
      intro i hi
      rw [BitVec.getLsbD_shiftLeft]
      simp [hi]
    conv => lhs; rw [hw]
    rw [← crcBits_xor, List.length_cons]
    rw [BitVec.xor_assoc]
    rfl

/-- A change of at most four consecutive bytes changes the checksum. -/
theorem crc_burst {P : W} (hP : P.getLsbD 31 = true) (u a b v : Bytes) (hl : a.length = b.length) (h4 : a.length ≤ 4)
    (hab : a ≠ b) : crc P (u ++ a ++ v) ≠ crc P (u ++ b ++ v) := by
  intro h
  unfold crc at h
  have h := BitVec.not_inj.mp h
  simp only [List.foldl_append] at h
  have h := foldl_crcByte_injective hP v h
  rw [foldl_wordOf P a _ h4, foldl_wordOf P b _ (by omega), hl] at h
  have h := crcZeros_injective hP _ h
  exact hab (wordOf_injective hl h4 ((BitVec.xor_right_inj _).mp h))

end Couchstore
