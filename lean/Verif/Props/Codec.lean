import Verif.Lemmas.DocInfo

/-! Property theorems C01, C02, C03, C06. -/

namespace Couchstore.Props

/-! ## C01 Fixed-width integers survive storage and keep their order -/

/-- Every number is read back reduced modulo the field width, for every width. -/
theorem C01_int_roundtrip_mod (w n : Nat) : beDec (beEnc w n) = n % 256 ^ w :=
  beDec_beEnc_mod w n

/-- A number that fits is read back unchanged. -/
theorem C01_int_roundtrip (w n : Nat) (h : n < 256 ^ w) : beDec (beEnc w n) = n :=
  beDec_beEnc w n h

/-- Every stored field of `w` bytes is the encoding of the number read from it. -/
theorem C01_int_surjective (b : Bytes) : beEnc b.length (beDec b) = b ∧ beDec b < 256 ^ b.length :=
  ⟨beEnc_beDec b, beDec_lt b⟩

/-- Encodings occupy exactly their width. -/
theorem C01_int_width (w n : Nat) : (beEnc w n).length = w := length_beEnc w n

/-- The lexicographic order of encodings of the same width (core Lean's order on lists) is the
numeric order. -/
theorem C01_int_order (w a b : Nat) (ha : a < 256 ^ w) (hb : b < 256 ^ w) :
    beEnc w a < beEnc w b ↔ a < b := beEnc_lt_iff w a b ha hb

example : beDec (enc48 0x123456789ABC) = 0x123456789ABC := by decide
example : enc40 (2 ^ 40 + 7) = [0, 0, 0, 0, 7] := by decide
example : enc16 255 < enc16 256 := (C01_int_order 2 255 256 (by decide) (by decide)).mpr (by decide)

/-! ## C02 Key/value records round-trip and the reader never leaves its buffer -/

/-- Round trip, whatever follows the record. -/
theorem C02_kv_roundtrip (k v rest : Bytes) (hk : k.length ≤ 4095) (hv : v.length < 2 ^ 28) :
    readKv (writeKv k v ++ rest) = some (k, v, rest) :=
  readKv_writeKv k v rest (by omega) hv

/-- On arbitrary bytes, what the reader returns lies inside `[bufStart, bufEnd)`, and it
consumes at least the 5 length bytes, so parsing loops make progress. -/
theorem C02_kv_in_bounds (buf : Bytes) (bufStart bufEnd : Nat) (r : KvRef)
    (h : readKvRef buf bufStart bufEnd = some r) :
    5 ≤ r.total ∧ bufStart + 5 + r.klen + r.vlen = bufStart + r.total
      ∧ bufStart + r.total ≤ bufEnd := by
  unfold readKvRef at h
  split at h
  · simp at h
  · simp only at h
    split at h
    · simp at h
    · simp at h; subst h; refine ⟨?_, ?_, ?_⟩ <;> simp <;> omega

/-- The byte-level view agrees: lengths of key, value and rest add up to the buffer. -/
theorem C02_kv_partition (b k v rest : Bytes) (h : readKv b = some (k, v, rest)) :
    rest.length + 5 + k.length + v.length = b.length ∧ b = b.take 5 ++ k ++ v ++ rest := by
  have hl := readKv_length h
  refine ⟨hl, ?_⟩
  unfold readKv at h
  split at h
  · simp at h
  · rename_i r hr
    have hb := C02_kv_in_bounds _ _ _ _ hr
    simp only [Option.some.injEq, Prod.mk.injEq] at h
    obtain ⟨rfl, rfl, rfl⟩ := h
    have ht : r.total = 5 + r.klen + r.vlen := by omega
    rw [ht]
    simp only [slice]
    conv => lhs; rw [← List.take_append_drop 5 b, ← List.take_append_drop r.klen (b.drop 5),
      ← List.take_append_drop r.vlen ((b.drop 5).drop r.klen)]
    simp [List.drop_drop, Nat.add_assoc]

/-- Outside the limits the record is silently corrupted: a key of 4096 bytes comes back as
the empty key (no error is reported). -/
theorem C02_kv_oversize_key_corrupts (k v rest : Bytes) (hk : k.length = 4096)
    (hv : v.length < 2 ^ 28) :
    ∃ v' rest', readKv (writeKv k v ++ rest) = some ([], v', rest') := by
  have hdec : decodeKvLength (encodeKvLength 4096 v.length) = (0, v.length) := by
    have h0 : encodeKvLength 4096 v.length = encodeKvLength 0 v.length := by
      unfold encodeKvLength; rfl
    rw [h0, decode_encode_kvLength 0 _ (by omega) hv]
  have hl : (encodeKvLength k.length v.length).length = 5 := encodeKvLength_length _ _
  have hs : slice (writeKv k v ++ rest) 0 5 = encodeKvLength k.length v.length := by
    unfold writeKv
    rw [List.append_assoc, List.append_assoc, slice_prefix _ _ _ hl.symm]
  unfold readKv readKvRef
  rw [hs, hk, hdec]
  simp only [List.length_append, writeKv_length, hk]
  rw [if_neg (by omega), if_neg (by omega)]
  exact ⟨_, _, by simp [slice]; exact ⟨rfl, rfl⟩⟩

example : readKv (writeKv [1, 2, 3] [9, 8] ++ [77]) = some ([1, 2, 3], [9, 8], [77]) := by decide
example : readKv [0, 16, 0, 0, 9, 1] = none := by decide
example : readKvRef [0, 16, 0, 0, 1, 1, 2, 5] 0 8 = some ⟨1, 1, 7⟩ := by decide
example : ∃ k : Bytes, k.length = 4096 := ⟨List.replicate 4096 0, List.length_replicate⟩

/-! ## C03 Document metadata round-trips through both indexes -/

/-- Saved metadata is read back exactly from the by-sequence and from the by-id index. -/
theorem C03_docinfo_roundtrip (d : DocInfo) (h : d.Fits) :
    bySeqReadDocInfo (enc48 d.dbSeq) (assembleSeqIndexValue d) = some d
      ∧ byIdReadDocInfo d.id (assembleIdIndexValue d) = some d :=
  ⟨bySeq_roundtrip d h, byId_roundtrip d h⟩

/-- Both index entries decode, whatever is stored, to an id that is the key (by-id), or lies
within the stored value (by-sequence); short values are rejected. -/
theorem C03_docinfo_reject_short (k v : Bytes) :
    (v.length < 18 → bySeqReadDocInfo k v = none) ∧ (v.length < 23 → byIdReadDocInfo k v = none) :=
  ⟨fun h => by simp [bySeqReadDocInfo, h], fun h => by simp [byIdReadDocInfo, h]⟩

/-- The size limit is needed: the two indexes have different widths for the stored size, so a
document of 2^28 bytes is reported differently by the two. -/
theorem C03_docinfo_disagree_large :
    ∃ d : DocInfo, d.physicalSize = 2 ^ 28 ∧
      (bySeqReadDocInfo (enc48 d.dbSeq) (assembleSeqIndexValue d)).map (·.id)
        ≠ (byIdReadDocInfo d.id (assembleIdIndexValue d)).map (·.id) :=
  ⟨⟨[65, 66], 7, 1, [], false, 0, 4096, 2 ^ 28⟩, rfl, by decide⟩

example : (⟨[65, 66], 7, 1, [1, 2, 3], true, 128, 4096, 77⟩ : DocInfo).Fits := by
  constructor <;> decide

/-! ## C06 Index orders are total orders -/

/-- The id order is the lexicographic order on byte strings (core Lean's `<` on lists, in which
a proper prefix is smaller). -/
theorem C06_id_order (a b : Bytes) :
    (ebinCmp a b = .lt ↔ a < b) ∧ (ebinCmp a b = .eq ↔ a = b) ∧ (ebinCmp a b = .gt ↔ b < a) :=
  ⟨ebinCmp_lt_iff a b, ebinCmp_eq_iff a b, ebinCmp_gt_iff a b⟩

/-- A proper prefix is smaller. -/
theorem C06_id_order_prefix (a : Bytes) (x : UInt8) (b : Bytes) : ebinCmp a (a ++ x :: b) = .lt := by
  rw [ebinCmp_lt_iff]
  induction a with
  | nil => simp
  | cons y ys ih => rw [List.cons_append, List.cons_lt_cons_iff]; exact Or.inr ⟨rfl, ih⟩

/-- The sequence order is the numeric order of the stored 48 bit numbers. -/
theorem C06_seq_order (m n : Nat) (hm : m < 2 ^ 48) (hn : n < 2 ^ 48) :
    seqCmp (enc48 m) (enc48 n) = compare m n := by
  have em : decodeSequenceKey (enc48 m) = m := by
    unfold decodeSequenceKey; rw [List.take_of_length_le (by simp)]
    exact beDec_beEnc _ _ (by simpa using hm)
  have en : decodeSequenceKey (enc48 n) = n := by
    unfold decodeSequenceKey; rw [List.take_of_length_le (by simp)]
    exact beDec_beEnc _ _ (by simpa using hn)
  unfold seqCmp
  simp only [em, en]
  rcases Nat.lt_trichotomy m n with h | h | h
  · rw [if_neg (by omega), if_pos h, Nat.compare_eq_lt.mpr h]
  · subst h; simp
  · rw [if_neg (by omega), if_neg (by omega), Nat.compare_eq_gt.mpr h]

/-- Both are total orders: comparison `eq` only for equal keys, antisymmetric, transitive
(on all keys for ids, on 6 byte keys for sequences). -/
theorem C06_total_orders :
    CmpLaws ebinCmp (fun _ => True) ∧ CmpLaws seqCmp (fun k => k.length = 6) :=
  ⟨ebinCmp_laws, seqCmp_laws⟩

example : ebinCmp [65] [65, 0] = .lt := by decide
example : seqCmp (enc48 255) (enc48 256) = .lt := by decide

end Couchstore.Props
