import Verif.Model.Flags

/-! C36: how the open flags are decoded. -/

namespace Couchstore.Props

/-- The number in the bits `lo .. lo + n - 1` of the word. -/
def bitField (w lo n : Nat) : Nat := w / 2 ^ lo % 2 ^ n

theorem bitField_eq (w lo n : Nat) : (w >>> lo) &&& (2 ^ n - 1) = bitField w lo n := by
  rw [Nat.and_two_pow_sub_one_eq_mod, Nat.shiftRight_eq_div_pow]
  rfl

theorem mask_eq (w lo n : Nat) : w &&& ((2 ^ n - 1) <<< lo) = bitField w lo n * 2 ^ lo := by
  rw [← bitField_eq, ← Nat.shiftLeft_eq]
  apply Nat.eq_of_testBit_eq
  intro i
  simp only [Nat.testBit_and, Nat.testBit_shiftLeft, Nat.testBit_shiftRight]
  by_cases h : lo ≤ i
  · rw [show lo + (i - lo) = i by omega]
    simp [h]
  · simp [h]

theorem flagSet_eq (w lo n : Nat) : flagSet w ((2 ^ n - 1) <<< lo) = (bitField w lo n != 0) := by
  unfold flagSet
  rw [mask_eq]
  have : 0 < 2 ^ lo := Nat.two_pow_pos lo
  by_cases h : bitField w lo n = 0
  · rw [h]; simp
  · have : bitField w lo n * 2 ^ lo ≠ 0 := by
      intro h'
      rcases Nat.mul_eq_zero.mp h' with h1 | h1 <;> omega
    rw [bne_iff_ne.mpr h, bne_iff_ne.mpr this]

theorem bitField_split (w lo a b : Nat) : bitField w lo (a + b) = bitField w lo a + 2 ^ a * bitField w (lo + a) b := by
  unfold bitField
  rw [Nat.pow_add, Nat.mod_mul, Nat.pow_add, Nat.div_div_eq_div_mul]

/-- **C36.**  What each group of bits of the open flags selects, for every word:

* the read buffers are as the bits 15-12 (size) and 11-8 (number) say, zero meaning the default,
  unless bit 3 turns buffering off;
* the node sizes are the bits 23-20 (interior nodes) and 19-16 (leaves) in kilobytes, zero meaning 1279
  bytes;
* the file is synced after each `2^(n-1)` kilobytes, `n` being the bits 28-24, and never if `n` is zero;
* one bit each for tracing, validation of writes and protection of buffers.

No setting depends on the bits of another one, and nothing is undefined. -/
theorem C36_options_decoded (w : Nat) :
    ∃ o, treeFileOptions w = some o ∧
      (o.bufIoEnabled = true ↔ bitField w 3 1 = 0) ∧
      (o.bufIoEnabled = true → o.readUnitSize = if bitField w 12 4 = 0 then 4096 else 1024 * 2 ^ (bitField w 12 4 - 1)) ∧
      (o.bufIoEnabled = true → o.readBuffers = if bitField w 8 4 = 0 then 16 else 8 * 2 ^ (bitField w 8 4 - 1)) ∧
      (o.kpNodesize = if bitField w 20 4 = 0 then 1279 else bitField w 20 4 * 1024) ∧
      (o.kvNodesize = if bitField w 16 4 = 0 then 1279 else bitField w 16 4 * 1024) ∧
      (o.periodicSyncBytes = if bitField w 24 5 = 0 then 0 else 1024 * 2 ^ (bitField w 24 5 - 1)) ∧
      (o.tracing = true ↔ bitField w 29 1 = 1) ∧
      (o.writeValidation = true ↔ bitField w 30 1 = 1) ∧
      (o.mprotect = true ↔ bitField w 35 1 = 1) := by
  have b1 : ∀ lo, bitField w lo 1 = 0 ∨ bitField w lo 1 = 1 := by
    intro lo; unfold bitField; omega
  have f3 : flagSet w 8 = (bitField w 3 1 != 0) := flagSet_eq w 3 1
  have f8 : flagSet w 0xff00 = (bitField w 8 8 != 0) := flagSet_eq w 8 8
  have f16 : flagSet w 0xff0000 = (bitField w 16 8 != 0) := flagSet_eq w 16 8
  have f24 : flagSet w 0x1f000000 = (bitField w 24 5 != 0) := flagSet_eq w 24 5
  have f29 : flagSet w 0x20000000 = (bitField w 29 1 != 0) := flagSet_eq w 29 1
  have f30 : flagSet w 0x40000000 = (bitField w 30 1 != 0) := flagSet_eq w 30 1
  have f35 : flagSet w 0x800000000 = (bitField w 35 1 != 0) := flagSet_eq w 35 1
  have e12 : (w >>> 12) &&& 0xf = bitField w 12 4 := bitField_eq w 12 4
  have e8 : (w >>> 8) &&& 0xf = bitField w 8 4 := bitField_eq w 8 4
  have e20 : (w >>> 20) &&& 0xf = bitField w 20 4 := bitField_eq w 20 4
  have e16 : (w >>> 16) &&& 0xf = bitField w 16 4 := bitField_eq w 16 4
  have e24 : (w >>> 24) &&& 0x1f = bitField w 24 5 := bitField_eq w 24 5
  have s8 : bitField w 8 8 = bitField w 8 4 + 16 * bitField w 12 4 := bitField_split w 8 4 4
  have s16 : bitField w 16 8 = bitField w 16 4 + 16 * bitField w 20 4 := bitField_split w 16 4 4
  have hsync : periodicSyncOption w = some (if bitField w 24 5 = 0 then 0 else 1024 * 2 ^ (bitField w 24 5 - 1)) := by
    unfold periodicSyncOption
    rw [f24, e24]
    by_cases h : bitField w 24 5 = 0
    · simp [h]
    · simp [h, Nat.shiftLeft_eq]
  have hnode : nodesizeOptions w = (if bitField w 20 4 = 0 then 1279 else bitField w 20 4 * 1024,
      if bitField w 16 4 = 0 then 1279 else bitField w 16 4 * 1024) := by
    unfold nodesizeOptions
    rw [f16, e20, e16, s16]
    by_cases h : bitField w 20 4 = 0 <;> by_cases h' : bitField w 16 4 = 0 <;> simp [h, h'] <;> omega
  have hbuf : bufferOptions w = if bitField w 3 1 = 0 then
      (true, if bitField w 12 4 = 0 then 4096 else 1024 * 2 ^ (bitField w 12 4 - 1),
        if bitField w 8 4 = 0 then 16 else 8 * 2 ^ (bitField w 8 4 - 1)) else (false, 4096, 16) := by
    unfold bufferOptions
    rw [f3, f8, e12, e8, s8]
    by_cases h3 : bitField w 3 1 = 0 <;> by_cases h : bitField w 12 4 = 0 <;> by_cases h' : bitField w 8 4 = 0 <;>
      simp [h3, h, h', Nat.shiftLeft_eq] <;> omega
  have g29 : flagSet w 0x20000000 = true ↔ bitField w 29 1 = 1 := by rw [f29]; rcases b1 29 with h | h <;> simp [h]
  have g30 : flagSet w 0x40000000 = true ↔ bitField w 30 1 = 1 := by rw [f30]; rcases b1 30 with h | h <;> simp [h]
  have g35 : flagSet w 0x800000000 = true ↔ bitField w 35 1 = 1 := by rw [f35]; rcases b1 35 with h | h <;> simp [h]
  unfold treeFileOptions
  by_cases h3 : bitField w 3 1 = 0
  · rw [if_pos h3] at hbuf
    rw [hsync, hnode, hbuf]
    exact ⟨_, rfl, by simp [h3], fun _ => rfl, fun _ => rfl, rfl, rfl, rfl, g29, g30, g35⟩
  · rw [if_neg h3] at hbuf
    rw [hsync, hnode, hbuf]
    exact ⟨_, rfl, by simp [h3], (fun h => by cases h), (fun h => by cases h), rfl, rfl, rfl, g29, g30, g35⟩

-- 64 buffers of 8 KB, interior nodes of 2 KB, leaves of 4 KB, sync every 16 KB
example : treeFileOptions 0x05244400 = some ⟨true, 8192, 64, 2048, 4096, 16384, false, false, false⟩ := by decide
-- the default
example : treeFileOptions 0 = some ⟨true, 4096, 16, 1279, 1279, 0, false, false, false⟩ := by decide

/-- **C36, the other flags.**  One bit each; the node sizes are those of `C36_options_decoded`, hence
never below 1024 (so the hypotheses on node sizes in the theorems about saving, committing and opening
hold for every flag word). -/
theorem C36_open_flags_decoded (w : Nat) :
    ∃ flags, OpenFlags.ofWord w = some flags ∧
      (flags.create = true ↔ bitField w 0 1 = 1) ∧ (flags.rdonly = true ↔ bitField w 1 1 = 1) ∧
      (flags.legacyCrc = true ↔ bitField w 2 1 = 1) ∧ (flags.excl = true ↔ bitField w 4 1 = 1) ∧
      (flags.noCommitAtCreate = true ↔ bitField w 5 1 = 1) ∧ (flags.recovery = true ↔ bitField w 36 1 = 1) ∧
      1024 ≤ flags.kvThr ∧ 1024 ≤ flags.kpThr := by
  obtain ⟨o, ho, _, _, _, h1, h2, _⟩ := C36_options_decoded w
  have b1 : ∀ lo, bitField w lo 1 = 0 ∨ bitField w lo 1 = 1 := by
    intro lo; unfold bitField; omega
  have f0 : flagSet w 1 = (bitField w 0 1 != 0) := flagSet_eq w 0 1
  have f1 : flagSet w 2 = (bitField w 1 1 != 0) := flagSet_eq w 1 1
  have f2 : flagSet w 4 = (bitField w 2 1 != 0) := flagSet_eq w 2 1
  have f4 : flagSet w 16 = (bitField w 4 1 != 0) := flagSet_eq w 4 1
  have f5 : flagSet w 32 = (bitField w 5 1 != 0) := flagSet_eq w 5 1
  have f36 : flagSet w 0x1000000000 = (bitField w 36 1 != 0) := flagSet_eq w 36 1
  unfold OpenFlags.ofWord
  rw [ho]
  refine ⟨_, rfl, ?_, ?_, ?_, ?_, ?_, ?_, ?_, ?_⟩
  · rw [f0]; rcases b1 0 with h | h <;> simp [h]
  · rw [f1]; rcases b1 1 with h | h <;> simp [h]
  · rw [f2]; rcases b1 2 with h | h <;> simp [h]
  · rw [f4]; rcases b1 4 with h | h <;> simp [h]
  · rw [f5]; rcases b1 5 with h | h <;> simp [h]
  · rw [f36]; rcases b1 36 with h | h <;> simp [h]
  · show 1024 ≤ o.kvNodesize
    rw [h2]; split <;> omega
  · show 1024 ≤ o.kpNodesize
    rw [h1]; split <;> omega

example : OpenFlags.ofWord 0x1000000021 = some ⟨true, false, false, false, true, true, 1279, 1279⟩ := by decide

/-- The interval rounded up to kilobytes. -/
def kilobytes (bytes : Nat) : Nat := (bytes + 1023) / 1024

/-- **C36, encoding an interval** and opening with the result gives an interval of `2^k` kilobytes, where
`2^k` is the greatest power of two not above the interval in kilobytes, but at most `2^30` (1 TB).

Partial: the interval must not be 0 and not above `2^64 - 1024`; see `C36_encode_undefined`. -/
theorem C36_encode_interval_partial (bytes : UInt64) (h0 : 0 < bytes.toNat) (h1 : bytes.toNat ≤ 2 ^ 64 - 1024) :
    ∃ w k o, encodePeriodicSync bytes = some w ∧ treeFileOptions w = some o ∧ o.periodicSyncBytes = 1024 * 2 ^ k ∧
      k ≤ 30 ∧ 2 ^ k ≤ kilobytes bytes.toNat ∧ (k < 30 → kilobytes bytes.toNat < 2 ^ (k + 1)) ∧
      o = { (⟨true, 4096, 16, 1279, 1279, 0, false, false, false⟩ : TreeFileOptions) with periodicSyncBytes := 1024 * 2 ^ k } := by
  have hk : ((bytes + 1023) / 1024).toNat = kilobytes bytes.toNat := by
    rw [UInt64.toNat_div, UInt64.toNat_add]
    show (bytes.toNat + 1023) % 2 ^ 64 / 1024 = _
    rw [Nat.mod_eq_of_lt (by omega)]
    rfl
  have hpos : kilobytes bytes.toNat ≠ 0 := by unfold kilobytes; omega
  have hne : ¬ ((bytes + 1023) / 1024 = 0) := by
    intro h
    rw [h] at hk
    exact hpos hk.symm
  have hw : encodePeriodicSync bytes = some ((min (Nat.log2 (kilobytes bytes.toNat)) 30 + 1) <<< 24) := by
    unfold encodePeriodicSync
    rw [if_neg hne, hk]
  refine ⟨_, min (Nat.log2 (kilobytes bytes.toNat)) 30, _, hw, ?_, rfl, by omega, ?_, ?_, rfl⟩
  · have : ∀ n < 31, treeFileOptions ((n + 1) <<< 24) =
        some { (⟨true, 4096, 16, 1279, 1279, 0, false, false, false⟩ : TreeFileOptions) with periodicSyncBytes := 1024 * 2 ^ n } := by
      decide
    exact this _ (by omega)
  · exact Nat.le_trans (Nat.pow_le_pow_right (by omega) (by omega)) (Nat.log2_self_le hpos)
  · intro h
    have : min (Nat.log2 (kilobytes bytes.toNat)) 30 = Nat.log2 (kilobytes bytes.toNat) := by omega
    rw [this]
    exact Nat.lt_log2_self

example : encodePeriodicSync 1000000 = some 0x0a000000 := by decide

/-- For the interval 0 (and for those above `2^64 - 1024`) the behaviour of the code is undefined: it
converts the logarithm of 0 to an integer. -/
theorem C36_encode_undefined : encodePeriodicSync 0 = none ∧ encodePeriodicSync 0xffffffffffffffff = none := by decide +kernel

/-- The header file says that the interval is rounded down; but it is rounded up to a kilobyte first: for
1025 bytes the file is synced only every 2048 bytes. -/
theorem C36_encode_rounds_up :
    ((encodePeriodicSync 1025).bind treeFileOptions).map (·.periodicSyncBytes) = some 2048 := by
  decide

end Couchstore.Props
