import Verif.Lemmas.ViewCodec
import Verif.Lemmas.Order
import Verif.Props.Collate

/-! Property theorems C42: what view indexes keep in their trees and record files is read back as it was written.

The specification (Spec/ViewCodec.lean) says which partitions a bitmap stands for (`hasPart`: bit `p` of a number of
1024 bits) and what fits the formats (`Fits`); `viewFile` is a file with records one after the other and `readAll` reads
records until there are no more or reading fails. -/

namespace Couchstore.Props

/-! ### Bitmaps -/

/-- C42: a bitmap is a set of partitions below 1024: asking, adding, removing, union, intersection and comparison are
those of sets. -/
theorem C42_bitmap (a b : Bytes) (ha : a.length = 128) (hb : b.length = 128) (p : Nat) (hp : p < 1024) :
    isBitSet a p = .ok (hasPart a p) ∧
    (∃ a', setBit a p = .ok a' ∧ a'.length = 128 ∧ ∀ q, hasPart a' q = true ↔ q = p ∨ hasPart a q = true) ∧
    (∃ a', unsetBit a p = .ok a' ∧ a'.length = 128 ∧ ∀ q, hasPart a' q = true ↔ q ≠ p ∧ hasPart a q = true) ∧
    ((unionBitmaps a b).length = 128 ∧
      ∀ q, hasPart (unionBitmaps a b) q = true ↔ hasPart a q = true ∨ hasPart b q = true) ∧
    ((intersectBitmaps a b).length = 128 ∧
      ∀ q, hasPart (intersectBitmaps a b) q = true ↔ hasPart a q = true ∧ hasPart b q = true) ∧
    (isEqualBitmap a b = true ↔ ∀ q, hasPart a q = hasPart b q) ∧
    (emptyBitmap.length = 128 ∧ ∀ q, hasPart emptyBitmap q = false) := by
  refine ⟨isBitSet_ok ha hp, ?_, ?_, ⟨(union_parts ha hb 0).1, fun q => ?_⟩, ⟨(intersect_parts ha hb 0).1, fun q => ?_⟩,
    ?_, by simp [emptyBitmap], emptyBitmap_parts⟩
  · obtain ⟨a', h1, h2, h3⟩ := setBit_ok ha hp
    refine ⟨a', h1, h2, fun q => ?_⟩
    rw [h3]
    by_cases h : q = p <;> simp [h]
  · obtain ⟨a', h1, h2, h3⟩ := unsetBit_ok ha hp
    refine ⟨a', h1, h2, fun q => ?_⟩
    rw [h3]
    by_cases h : q = p <;> simp [h]
  · rw [(union_parts ha hb q).2, Bool.or_eq_true]
  · rw [(intersect_parts ha hb q).2, Bool.and_eq_true]
  · unfold isEqualBitmap
    rw [beq_iff_eq]
    exact ⟨fun h q => by rw [h], fun h => bitmap_ext (by rw [ha, hb]) h⟩

example : ∃ a, setBit emptyBitmap 1023 = .ok a ∧ hasPart a 1023 = true ∧ hasPart a 7 = false := by
  obtain ⟨a, h1, _, h3⟩ := setBit_ok (bm := emptyBitmap) (by simp [emptyBitmap]) (p := 1023) (by decide)
  exact ⟨a, h1, by rw [h3]; rfl, by rw [h3]; exact emptyBitmap_parts 7⟩

/-- C42: the number of a partition has 16 bits, the bitmap 1024: from partition 1024 on the code uses memory outside
of the bitmap, also to write. -/
theorem C42_bitmap_overrun (a : Bytes) (p : Nat) (hp : 1024 ≤ p) :
    isBitSet a p = .error .overrun ∧ setBit a p = .error .overrun ∧ unsetBit a p = .error .overrun :=
  ⟨isBitSet_out a hp, setBit_out a hp, unsetBit_out a hp⟩

/-! ### Keys -/

/-- C42: the bytes that are read as a key of a view are exactly those that are written for it, for every key whose
JSON text is shorter than 64 KiB; no others are read. -/
theorem C42_view_key (b : Bytes) (k : ViewKey) : decodeViewKey b = .ok k ↔ k.Fits ∧ encodeViewKey k = b := by
  constructor
  · intro h
    unfold decodeViewKey at h
    split at h
    · cases h
    · simp only at h
      split at h
      · cases h
      · rename_i h1 h2
        cases h
        have hl : (b.take 2).length = 2 := by rw [List.length_take]; omega
        have hd := beDec_lt (b.take 2)
        rw [hl] at hd
        have ht : ((b.drop 2).take (beDec (b.take 2))).length = beDec (b.take 2) := by
          rw [List.length_take]; omega
        refine ⟨?_, ?_⟩
        · unfold ViewKey.Fits
          rw [ht]; exact hd
        · unfold encodeViewKey
          rw [ht, show enc16 (beDec (b.take 2)) = b.take 2 from beEnc_of_length hl, List.append_assoc,
            List.take_append_drop, List.take_append_drop]
  · rintro ⟨h, rfl⟩
    have hl : (enc16 k.jsonKey.length).length = 2 := length_beEnc _ _
    unfold decodeViewKey encodeViewKey
    rw [List.append_assoc]
    simp only [List.length_append, hl, take_append_len hl, drop_append_len hl, beDec_beEnc 2 _ h]
    rw [if_neg (by omega), if_neg (by omega)]
    simp

/-- C42: the JSON text alone is read the same way. -/
theorem C42_json_key (b : Bytes) : decodeJsonKey b = (decodeViewKey b).map ViewKey.jsonKey := by
  unfold decodeJsonKey decodeViewKey
  split
  · rfl
  · simp only
    split <;> rfl

example : decodeViewKey (encodeViewKey ⟨[49, 50], [100]⟩) = .ok ⟨[49, 50], [100]⟩ :=
  (C42_view_key _ _).mpr ⟨by unfold ViewKey.Fits; decide, rfl⟩

/-- C42: a key with a JSON text of 64 KiB is read as one with an empty JSON text. -/
theorem C42_long_json_key (j d : Bytes) (h : j.length = 2 ^ 16) :
    decodeViewKey (encodeViewKey ⟨j, d⟩) = .ok ⟨[], j ++ d⟩ := by
  have hl : (enc16 j.length).length = 2 := length_beEnc _ _
  have h0 : beDec (enc16 j.length) = 0 := by rw [beDec_beEnc_mod, h]; decide
  unfold decodeViewKey encodeViewKey
  simp only
  rw [List.append_assoc]
  simp only [List.length_append, hl, take_append_len hl, drop_append_len hl, h0]
  rw [if_neg (by omega), if_neg (by omega)]
  rfl

example : ∃ j : Bytes, j.length = 2 ^ 16 := ⟨List.replicate (2 ^ 16) 49, List.length_replicate⟩

/-- C42: the same for the keys of the index by document id. -/
theorem C42_id_key (b : Bytes) (k : ViewIdKey) : decodeViewIdKey b = .ok k ↔ k.Fits ∧ encodeViewIdKey k = b := by
  constructor
  · intro h
    unfold decodeViewIdKey at h
    split at h
    · cases h
    · cases h
      have hl : (b.take 2).length = 2 := by rw [List.length_take]; omega
      have hd := beDec_lt (b.take 2)
      rw [hl] at hd
      refine ⟨hd, ?_⟩
      unfold encodeViewIdKey
      rw [show enc16 (beDec (b.take 2)) = b.take 2 from beEnc_of_length hl, List.take_append_drop]
  · rintro ⟨h, rfl⟩
    have hl : (enc16 k.partition).length = 2 := length_beEnc _ _
    unfold decodeViewIdKey encodeViewIdKey
    simp only [List.length_append, hl, take_append_len hl, drop_append_len hl, beDec_beEnc 2 _ h]
    rw [if_neg (by omega)]

example : decodeViewIdKey (encodeViewIdKey ⟨1000, [100]⟩) = .ok ⟨1000, [100]⟩ :=
  (C42_id_key _ _).mpr ⟨by unfold ViewIdKey.Fits; decide, rfl⟩

/-- C42: keys of a view are ordered by their JSON texts (see C41) and, if these are equal, by the bytes of the document
ids; that is a total preorder. -/
theorem C42_key_order {D : Type} [LinearOrder D] (e : CollateEnv D) (round : Rat → D) (ucol : Bytes → Bytes → Int)
    (H : e.Ok round ucol) :
    ∃ json : Json → Json → Int, CmpOk json ∧
      (∀ v w, v.Strings (Supported e.charSigned .unicode) → w.Strings (Supported e.charSigned .unicode) →
        json v w = couchOrder round ucol .unicode v w) ∧
      CmpOk (fun x y : Json × Bytes => if json x.1 y.1 ≠ 0 then json x.1 y.1 else orderInt (ebinCmp x.2 y.2)) ∧
      ∀ v d w d' rounds, v.text.length < 2 ^ 16 → w.text.length < 2 ^ 16 → v.text.length < rounds →
        viewKeyCmp e rounds (encodeViewKey ⟨v.text, d⟩) (encodeViewKey ⟨w.text, d'⟩) =
          .ok (if json v w ≠ 0 then json v w else orderInt (ebinCmp d d')) := by
  obtain ⟨json, h1, h2⟩ := C41_total_preorder e round ucol H .unicode
  refine ⟨json, h1, ?_, ?_, ?_⟩
  · intro v w hv hw
    have a := h2 v w (v.text.length + 1) (Nat.lt_succ_self _)
    rw [C41_order_partial e round ucol H .unicode v w hv hw _ (Nat.lt_succ_self _)] at a
    exact (Except.ok.inj a).symm
  · have idf : ∀ a b : Bytes, orderInt (ebinCmp a b) = - orderInt (ebinCmp b a) := by
      intro a b
      rw [ebinCmp_laws.swap b a trivial trivial]
      cases ebinCmp b a <;> rfl
    have idt : ∀ a b c : Bytes, orderInt (ebinCmp a b) ≤ 0 → orderInt (ebinCmp b c) ≤ 0 →
        orderInt (ebinCmp a c) ≤ 0 := by
      intro a b c hab hbc
      cases h1 : ebinCmp a b with
      | gt => rw [h1] at hab; exact absurd hab (by decide)
      | eq => rw [(ebinCmp_laws.eq_iff a b trivial trivial).mp h1]; exact hbc
      | lt =>
        cases h2 : ebinCmp b c with
        | gt => rw [h2] at hbc; exact absurd hbc (by decide)
        | eq => rw [← (ebinCmp_laws.eq_iff b c trivial trivial).mp h2, h1]; decide
        | lt => rw [ebinCmp_laws.trans a b c trivial trivial trivial h1 h2]; decide
    constructor
    · intro x y
      have f1 := h1.flip x.1 y.1
      have f2 := h1.flip y.1 x.1
      have f3 := idf x.2 y.2
      split <;> split <;> omega
    · intro x y z hxy hyz
      have f1 := h1.flip x.1 y.1
      have f2 := h1.flip y.1 x.1
      have f3 := h1.flip y.1 z.1
      have f4 := h1.flip z.1 y.1
      have f5 := h1.flip x.1 z.1
      have f6 := h1.flip z.1 x.1
      have t1 := h1.trans x.1 y.1 z.1
      have t2 := h1.trans z.1 x.1 y.1
      have t3 := h1.trans y.1 z.1 x.1
      have t4 := idt x.2 y.2 z.2
      split at hxy
      · split at hyz
        · split <;> omega
        · split <;> omega
      · split at hyz
        · split <;> omega
        · split
          · omega
          · exact t4 hxy hyz
  · intro v d w d' rounds hv hw hr
    unfold viewKeyCmp
    rw [(C42_view_key _ ⟨v.text, d⟩).mpr ⟨hv, rfl⟩, (C42_view_key _ ⟨w.text, d'⟩).mpr ⟨hw, rfl⟩]
    simp only [h2 v w rounds hr]
    by_cases h : json v w = 0 <;> simp [h]

/-! ### Values -/

/-- C42: the bytes that are read as a value of a view are exactly those that are written for it. -/
theorem C42_value (b : Bytes) (v : ViewValue) : decodeViewValue b = .ok v ↔ v.Fits ∧ encodeViewValue v = b := by
  constructor
  · intro h
    unfold decodeViewValue decodePartition at h
    by_cases h2 : b.length < 2
    · rw [if_pos h2] at h; cases h
    · rw [if_neg h2] at h
      simp only at h
      split at h
      · cases h
      · rename_i vs hs
        split at h
        · cases h
        · rename_i h3
          cases h
          obtain ⟨i1, i2⟩ := scanSized_inv 3 _ _ _ hs
          have hl : (b.take 2).length = 2 := by rw [List.length_take]; omega
          have hd := beDec_lt (b.take 2)
          rw [hl] at hd
          refine ⟨⟨hd, by simpa using h3, i2⟩, ?_⟩
          unfold encodeViewValue
          rw [← i1, show enc16 (beDec (b.take 2)) = b.take 2 from beEnc_of_length hl, List.take_append_drop]
  · rintro ⟨⟨h1, h2, h3⟩, rfl⟩
    have hl : (enc16 v.partition).length = 2 := length_beEnc _ _
    unfold decodeViewValue decodePartition encodeViewValue
    simp only [List.length_append, hl, take_append_len hl, drop_append_len hl, beDec_beEnc 2 _ h1]
    rw [if_neg (by omega)]
    simp only
    rw [scanSized_encode 3 (by decide) _ _ h3 (by omega)]
    simp only
    rw [if_neg (by omega)]

example : decodeViewValue (encodeViewValue ⟨13, [[49], [], [50, 51]]⟩) = .ok ⟨13, [[49], [], [50, 51]]⟩ :=
  (C42_value _ _).mpr ⟨by unfold ViewValue.Fits; decide, rfl⟩

/-- C42: the number of values that purging counts is that of the values, as long as it is below 65536. -/
theorem C42_value_count (v : ViewValue) (h : v.Fits) :
    decodePartitionCount (encodeViewValue v) = .ok (v.partition, v.values.length) := by
  obtain ⟨h1, h2, h3⟩ := h
  have hl : (enc16 v.partition).length = 2 := length_beEnc _ _
  unfold decodePartitionCount decodePartition encodeViewValue
  simp only [List.length_append, hl, take_append_len hl, drop_append_len hl, beDec_beEnc 2 _ h1]
  rw [if_neg (by omega)]
  simp only
  rw [scanSized_encode 3 (by decide) _ _ h3 (by omega)]
  simp only
  rw [Nat.mod_eq_of_lt h2]

/-- C42: a value with 65536 values is counted as none, and reading it overruns the array of values. -/
theorem C42_many_values (p : Nat) (hp : p < 2 ^ 16) (vs : List Bytes) (hn : vs.length = 2 ^ 16)
    (hs : ∀ x ∈ vs, x.length < 2 ^ 24) :
    decodePartitionCount (encodeViewValue ⟨p, vs⟩) = .ok (p, 0) ∧
    decodeViewValue (encodeViewValue ⟨p, vs⟩) = .error .overrun := by
  have hl : (enc16 p).length = 2 := length_beEnc _ _
  unfold decodePartitionCount decodeViewValue decodePartition encodeViewValue
  simp only [List.length_append, hl, take_append_len hl, drop_append_len hl, beDec_beEnc 2 _ hp]
  rw [if_neg (by omega)]
  simp only
  rw [scanSized_encode 3 (by decide) _ _ hs (by omega)]
  simp [hn]

example : ∃ vs : List Bytes, vs.length = 2 ^ 16 ∧ ∀ x ∈ vs, x.length < 2 ^ 24 :=
  ⟨List.replicate (2 ^ 16) [49], List.length_replicate, fun x hx => by rw [List.eq_of_mem_replicate hx]; decide⟩

/-- C42: the same for the values of the index by document id, except that the number of views is only set if there
are any. -/
theorem C42_id_value_partial (b : Bytes) (v : ViewIdValue) :
    decodeViewIdValue b = .ok v ↔
      (v.partition < 2 ^ 16 ∧ v.maps.length < 2 ^ 16 ∧ ∀ m ∈ v.maps, m.Fits) ∧
      v.count = (if v.maps = [] then none else some v.maps.length) ∧ encodeViewIdValue v.partition v.maps = b := by
  constructor
  · intro h
    unfold decodeViewIdValue decodePartition at h
    by_cases h2 : b.length < 2
    · rw [if_pos h2] at h; cases h
    · rw [if_neg h2] at h
      simp only at h
      have hl : (b.take 2).length = 2 := by rw [List.length_take]; omega
      have hd := beDec_lt (b.take 2)
      rw [hl] at hd
      split at h
      · rename_i h3
        cases h
        refine ⟨⟨hd, by simp, by simp⟩, by simp, ?_⟩
        rw [List.isEmpty_iff] at h3
        have : b.take 2 = b := by
          conv => rhs; rw [← List.take_append_drop 2 b, h3, List.append_nil]
        simp only [encodeViewIdValue, List.flatMap_nil, List.append_nil]
        rw [show enc16 (beDec (b.take 2)) = b.take 2 from beEnc_of_length hl, this]
      · rename_i h3
        split at h
        · cases h
        · rename_i ms hs
          split at h
          · cases h
          · rename_i h4
            cases h
            obtain ⟨i1, i2⟩ := scanMaps_inv _ _ _ hs
            have hne : ms ≠ [] := by
              rintro rfl
              rw [List.flatMap_nil] at i1
              rw [i1] at h3
              exact h3 rfl
            refine ⟨⟨hd, by simpa using h4, i2⟩, by simp [hne], ?_⟩
            unfold encodeViewIdValue
            simp only
            rw [← i1, show enc16 (beDec (b.take 2)) = b.take 2 from beEnc_of_length hl, List.take_append_drop]
  · obtain ⟨p, c, ms⟩ := v
    rintro ⟨⟨h1, h2, h3⟩, h4, rfl⟩
    simp only at h1 h2 h3 h4
    have hl : (enc16 p).length = 2 := length_beEnc _ _
    unfold decodeViewIdValue decodePartition
    simp only [encodeViewIdValue, List.length_append, hl, take_append_len hl, drop_append_len hl, beDec_beEnc 2 _ h1]
    rw [if_neg (by omega)]
    simp only
    cases ms with
    | nil => simp [h4]
    | cons m ms =>
      have hlen : ∀ ms : List ViewKeys, ms.length ≤
          (ms.flatMap fun m => m.viewId :: (enc16 m.keys.length ++ encodeSized 2 m.keys)).length := by
        intro ms
        induction ms with
        | nil => simp
        | cons m ms ih => rw [encodeMaps_cons]; simp only [List.length_cons, List.length_append]; omega
      rw [if_neg (by rw [encodeMaps_cons]; simp), scanMaps_encode _ _ h3 (Nat.le_trans (hlen _) (by omega))]
      simp only
      rw [if_neg (by omega), h4]
      simp

example : decodeViewIdValue (encodeViewIdValue 5 [⟨1, [[49], [50]]⟩, ⟨2, []⟩]) =
    .ok ⟨5, some 2, [⟨1, [[49], [50]]⟩, ⟨2, []⟩]⟩ :=
  (C42_id_value_partial _ _).mpr ⟨⟨by decide, by decide, by unfold ViewKeys.Fits; decide⟩, rfl, rfl⟩

/-- C42: of a document without keys in any view the number of views is not set. -/
theorem C42_id_value_unset (p : Nat) (h : p < 2 ^ 16) :
    decodeViewIdValue (encodeViewIdValue p []) = .ok ⟨p, none, []⟩ :=
  (C42_id_value_partial _ _).mpr ⟨⟨h, by simp, by simp⟩, rfl, rfl⟩

/-! ### Reductions -/

/-- C42: a reduction that is stored is read back; one is stored whenever it has at most 65535 bytes. -/
theorem C42_reduction (r : ViewReduction) (h : r.Fits) :
    (∀ b, encodeViewReduction r = .ok b → b.length ≤ 65535 ∧ decodeViewReduction b = .ok r ∧
      decodeReductionBitmap b = .ok (r.kvCount, r.partitions)) ∧
    ((∃ b, encodeViewReduction r = .ok b) ↔ 133 + (r.values.map fun v => 2 + v.length).sum ≤ 65535) ∧
    (∀ e, encodeViewReduction r = .error e → e = .reductionTooLarge) := by
  obtain ⟨h1, h2, h3⟩ := h
  have hsz : ∀ vs : List Bytes, (encodeSized 2 vs).length = (vs.map fun v => 2 + v.length).sum := by
    intro vs
    induction vs with
    | nil => rfl
    | cons v vs ih =>
      rw [encodeSized_cons, List.length_append, List.length_append, ih, List.map_cons, List.sum_cons]
      rw [show (beEnc 2 v.length).length = 2 from length_beEnc _ _]
      omega
  have hmem : ∀ (vs : List Bytes), ∀ x ∈ vs, x.length ≤ (encodeSized 2 vs).length := by
    intro vs
    induction vs with
    | nil => simp
    | cons v vs ih =>
      intro x hx
      rw [encodeSized_cons, List.length_append, List.length_append]
      rcases List.mem_cons.mp hx with rfl | hx
      · omega
      · have := ih x hx; omega
  refine ⟨?_, ?_, ?_⟩
  · intro b hb
    unfold encodeViewReduction maxReductionSize at hb
    split at hb
    · cases hb
    · rename_i hs
      cases hb
      have l5 : (enc40 r.kvCount).length = 5 := length_beEnc _ _
      have l133 : (enc40 r.kvCount ++ r.partitions).length = 133 := by rw [List.length_append, l5, h2]
      have hbm : decodeReductionBitmap (enc40 r.kvCount ++ r.partitions ++ encodeSized 2 r.values) =
          .ok (r.kvCount, r.partitions) := by
        unfold decodeReductionBitmap
        rw [List.append_assoc]
        simp only [List.length_append, l5, h2, take_append_len l5, drop_append_len l5]
        rw [if_neg (by omega), if_neg (by omega), take_append_len h2, beDec_beEnc 5 _ h1]
      refine ⟨by rw [List.length_append, l133]; omega, ?_, hbm⟩
      unfold decodeViewReduction
      rw [hbm]
      simp only
      rw [drop_append_len l133, scanSized_encode 2 (by decide) _ _
        (fun x hx => by have := hmem _ x hx; omega) (by rw [List.length_append]; omega)]
      simp only
      rw [Nat.mod_eq_of_lt h3]
      obtain ⟨n, p, vs⟩ := r
      cases vs with
      | nil => rfl
      | cons v vs =>
        simp only at h3 ⊢
        rw [if_neg (by simp), if_neg (by omega)]
  · unfold encodeViewReduction maxReductionSize
    rw [← hsz]
    split
    · exact ⟨fun h => (by obtain ⟨b, hb⟩ := h; cases hb), fun h => by omega⟩
    · exact ⟨fun _ => by omega, fun _ => ⟨_, rfl⟩⟩
  · intro e he
    unfold encodeViewReduction at he
    split at he
    · cases he; rfl
    · cases he

example : ∃ b, encodeViewReduction ⟨7, emptyBitmap, [[55], [48]]⟩ = .ok b ∧
    decodeViewReduction b = .ok ⟨7, emptyBitmap, [[55], [48]]⟩ := by
  have h := C42_reduction ⟨7, emptyBitmap, [[55], [48]]⟩ ⟨by decide, by simp [emptyBitmap], by decide⟩
  obtain ⟨b, hb⟩ := h.2.1.mpr (by decide)
  exact ⟨b, hb, (h.1 b hb).2.1⟩

/-- C42: a stored reduction with 256 values is read as one without values. -/
theorem C42_many_reductions (n : Nat) (hn : n < 2 ^ 40) (bm : Bytes) (hb : bm.length = 128) (vs : List Bytes)
    (hv : vs.length = 256) (hs : ∀ x ∈ vs, x.length < 2 ^ 16) :
    decodeViewReduction (enc40 n ++ bm ++ encodeSized 2 vs) = .ok ⟨n, bm, []⟩ := by
  have l5 : (enc40 n).length = 5 := length_beEnc _ _
  have l133 : (enc40 n ++ bm).length = 133 := by rw [List.length_append, l5, hb]
  have hbm : decodeReductionBitmap (enc40 n ++ bm ++ encodeSized 2 vs) = .ok (n, bm) := by
    unfold decodeReductionBitmap
    rw [List.append_assoc]
    simp only [List.length_append, l5, hb, take_append_len l5, drop_append_len l5]
    rw [if_neg (by omega), if_neg (by omega), take_append_len hb, beDec_beEnc 5 _ hn]
  unfold decodeViewReduction
  rw [hbm]
  simp only
  rw [drop_append_len l133, scanSized_encode 2 (by decide) _ _ hs (by rw [List.length_append]; omega)]
  simp [hv]

example : ∃ vs : List Bytes, vs.length = 256 ∧ ∀ x ∈ vs, x.length < 2 ^ 16 :=
  ⟨List.replicate 256 [48], List.length_replicate, fun x hx => by rw [List.eq_of_mem_replicate hx]; decide⟩

/-- C42: the reductions of the index by document id. -/
theorem C42_id_reduction (n : Nat) (bm : Bytes) (hb : bm.length = 128) :
    decodeIdReduction (encodeIdReduction n bm) = .ok (n % 2 ^ 40, bm) := by
  have l5 : (enc40 n).length = 5 := length_beEnc _ _
  unfold decodeIdReduction encodeIdReduction
  simp only [List.length_append, l5, hb, take_append_len l5, drop_append_len l5]
  rw [if_neg (by omega), beDec_beEnc_mod, List.take_of_length_le (by omega)]
  rfl

/-- C42: whatever the bytes are, reading them as a key, value or reduction gives a result or stops the program; memory
is overrun only for 65536 values or more, for 257 reductions or more, and for a reduction of the index by document
id that is shorter than 133 bytes. -/
theorem C42_any_bytes (b : Bytes) (e : Err) :
    (decodeViewKey b = .error e → e = .assertFail) ∧
    (decodeViewIdKey b = .error e → e = .assertFail) ∧
    (decodeViewValue b = .error e → e = .assertFail ∨ e = .overrun ∧ 2 + 3 * 2 ^ 16 ≤ b.length) ∧
    (decodeViewIdValue b = .error e → e = .assertFail ∨ e = .overrun ∧ 2 + 3 * 2 ^ 16 ≤ b.length) ∧
    (decodeViewReduction b = .error e → e = .assertFail ∨ e = .overrun ∧ 133 + 2 * 257 ≤ b.length) ∧
    (decodeIdReduction b = .error e → e = .overrun ∧ b.length < 133) := by
  have hsz : ∀ (w : Nat) (vs : List Bytes), w * vs.length ≤ (encodeSized w vs).length := by
    intro w vs
    induction vs with
    | nil => simp
    | cons v vs ih =>
      rw [encodeSized_cons, List.length_append, List.length_append, List.length_cons, length_beEnc, Nat.mul_add]
      omega
  refine ⟨?_, ?_, ?_, ?_, ?_, ?_⟩
  · intro h
    unfold decodeViewKey at h
    split at h
    · cases h; rfl
    · simp only at h
      split at h
      · cases h; rfl
      · cases h
  · intro h
    unfold decodeViewIdKey at h
    split at h
    · cases h; rfl
    · cases h
  · intro h
    unfold decodeViewValue decodePartition at h
    by_cases h2 : b.length < 2
    · rw [if_pos h2] at h; cases h; exact .inl rfl
    · rw [if_neg h2] at h
      simp only at h
      split at h
      · rename_i hs
        cases h
        exact .inl (scanSized_errors 3 (by decide) _ _ _ (by simp) hs)
      · rename_i vs hs
        split at h
        · rename_i h3
          cases h
          have := (scanSized_inv 3 _ _ _ hs).1
          have l := congrArg List.length this
          have := hsz 3 vs
          rw [List.length_drop] at l
          exact .inr ⟨rfl, by omega⟩
        · cases h
  · intro h
    unfold decodeViewIdValue decodePartition at h
    by_cases h2 : b.length < 2
    · rw [if_pos h2] at h; cases h; exact .inl rfl
    · rw [if_neg h2] at h
      simp only at h
      split at h
      · cases h
      · split at h
        · rename_i hs
          cases h
          exact .inl (scanMaps_errors _ _ _ (by simp) hs)
        · rename_i ms hs
          split at h
          · rename_i h3
            cases h
            have l := congrArg List.length (scanMaps_inv _ _ _ hs).1
            have hlen : ∀ ms : List ViewKeys, 3 * ms.length ≤
                (ms.flatMap fun m => m.viewId :: (enc16 m.keys.length ++ encodeSized 2 m.keys)).length := by
              intro ms
              induction ms with
              | nil => simp
              | cons m ms ih =>
                rw [encodeMaps_cons]
                simp only [List.length_cons, List.length_append, length_beEnc]
                omega
            have := hlen ms
            rw [List.length_drop] at l
            exact .inr ⟨rfl, by omega⟩
          · cases h
  · intro h
    unfold decodeViewReduction decodeReductionBitmap at h
    by_cases h5 : b.length < 5
    · rw [if_pos h5] at h; cases h; exact .inl rfl
    · rw [if_neg h5] at h
      by_cases h6 : (b.drop 5).length < 128
      · rw [if_pos h6] at h; cases h; exact .inl rfl
      · rw [if_neg h6] at h
        simp only at h
        split at h
        · rename_i hs
          cases h
          exact .inl (scanSized_errors 2 (by decide) _ _ _ (by simp) hs)
        · rename_i vs hs
          split at h
          · cases h
          · split at h
            · cases h
              have l := congrArg List.length (scanSized_inv 2 _ _ _ hs).1
              have := hsz 2 vs
              rw [List.length_drop] at l
              rw [List.length_drop] at h6
              exact .inr ⟨rfl, by omega⟩
            · cases h
  · intro h
    unfold decodeIdReduction at h
    split at h
    · cases h; exact ⟨rfl, by assumption⟩
    · cases h

/-! ### Record files -/

/-- C42: the records written to a file are read back, all and in order, and then the end of the file is found. -/
theorem C42_records (inc : Bool) (rs : List ViewRec) (h : ∀ r ∈ rs, r.Fits inc) (n : Nat) (hn : rs.length < n) :
    (∀ r ∈ rs, (writeViewRecord inc r).2 = true) ∧ readAll inc n (viewFile inc rs) = (rs, .clean) := by
  refine ⟨fun r hr => ?_, ?_⟩
  · have := (h r hr).2.1
    simp only [writeViewRecord, ne_eq, decide_eq_true_eq]
    omega
  · obtain ⟨j, j1, j2, j3, j4⟩ := readAll_take inc rs n _ h hn (Nat.le_refl _)
    rw [List.take_length] at j4
    have hj : j = rs.length := by
      rcases Nat.lt_or_eq_of_le j1 with hlt | he
      · have := j3 hlt
        have hle : (viewFile inc (rs.take (j + 1))).length ≤ (viewFile inc rs).length := by
          conv => rhs; rw [← List.take_append_drop (j + 1) rs]
          unfold viewFile
          rw [List.flatMap_append, List.length_append]
          omega
        omega
      · exact he
    subst hj
    rw [j4, List.take_length, if_pos (by omega)]

/-- C42: of a file that was cut, the records that are whole are read; then reading fails, unless fewer than four bytes
are left of the next record. -/
theorem C42_cut_file_partial (inc : Bool) (rs : List ViewRec) (h : ∀ r ∈ rs, r.Fits inc) (n : Nat) (hn : rs.length < n)
    (k : Nat) (hk : k ≤ (viewFile inc rs).length) :
    ∃ j, j ≤ rs.length ∧ (viewFile inc (rs.take j)).length ≤ k ∧
      (j < rs.length → k < (viewFile inc (rs.take (j + 1))).length) ∧
      readAll inc n ((viewFile inc rs).take k) =
        (rs.take j, if k < (viewFile inc (rs.take j)).length + 4 then .clean else .broken) :=
  readAll_take inc rs n k h hn hk

/-- C42: a file cut inside of the length of a record is taken for one that ends before it: nothing tells that the
record is lost. -/
theorem C42_cut_unnoticed : ∃ (rs : List ViewRec) (k : Nat), (∀ r ∈ rs, r.Fits true) ∧ k < (viewFile true rs).length ∧
    (viewFile true (rs.take 1)).length < k ∧ readAll true 5 ((viewFile true rs).take k) = (rs.take 1, .clean) ∧
    rs.length = 2 :=
  ⟨[⟨1, [97], [49]⟩, ⟨1, [98], [50]⟩], 12, by simp [ViewRec.Fits], by decide, by decide, by decide, rfl⟩

/-- C42: a record without key and value can neither be written nor read. -/
theorem C42_empty_record (inc : Bool) (op : UInt8) (rest : Bytes) :
    (writeViewRecord inc ⟨op, [], []⟩).2 = false ∧
    readViewRecord inc ((writeViewRecord inc ⟨op, [], []⟩).1 ++ rest) = .fail := by
  refine ⟨rfl, ?_⟩
  cases inc with
  | false =>
    have : (writeViewRecord false ⟨op, [], []⟩).1 = [2, 0, 0, 0, 0, 0] := by
      simp [writeViewRecord, leEnc32, beEnc]
    rw [this]
    simp [readViewRecord, beDec]
  | true =>
    have : (writeViewRecord true ⟨op, [], []⟩).1 = [3, 0, 0, 0, op, 0, 0] := by
      simp [writeViewRecord, leEnc32, beEnc]
    rw [this]
    simp [readViewRecord, beDec]

/-- C42: a record whose key is longer than the record is accepted. -/
theorem C42_garbage_record : readViewRecord false [5, 0, 0, 0, 1, 0, 97, 98, 99] = .garbage := by decide

/-- C42: of the records with one key the one from the newest file (the one with the greatest number) is kept, the first
one if there are several. -/
theorem C42_newest_wins (nums : List Nat) (h : nums ≠ []) :
    ∃ m, nums[dedupPick nums]? = some m ∧ ∀ i m', nums[i]? = some m' → m' ≤ m ∧ (m' = m → dedupPick nums ≤ i) := by
  cases nums with
  | nil => exact absurd rfl h
  | cons x l =>
    have key : dedupPick (x :: l) =
        ((l.zipIdx 1).foldl (fun (b : Nat × Nat) x => if b.1 < x.1 then x else b) (x, 0)).2 := by
      unfold dedupPick
      rw [List.zipIdx_cons, List.foldl_cons, List.headD_cons, if_neg (Nat.lt_irrefl _)]
    rw [key]
    refine dedupPick_fold l 1 [x] (x, 0) rfl rfl fun i m hm => ?_
    cases i with
    | zero => cases hm; exact ⟨Nat.le_refl _, fun _ => Nat.le_refl _⟩
    | succ i => cases hm

example : dedupPick [1, 3, 2, 3] = 1 := by decide

end Couchstore.Props
