import Verif.Spec.DocInfo
import Verif.Lemmas.Node

namespace Couchstore

theorem bySeq_roundtrip (d : DocInfo) (h : d.Fits) :
    bySeqReadDocInfo (enc48 d.dbSeq) (assembleSeqIndexValue d) = some d := by
  have hl : (assembleSeqIndexValue d).length = 18 + d.id.length + d.revMeta.length := by
    simp [assembleSeqIndexValue, encodeKvLength_length]; omega
  have hk := encodeKvLength_length d.id.length d.physicalSize
  have e0 : slice (assembleSeqIndexValue d) 0 5 = encodeKvLength d.id.length d.physicalSize := by
    simp only [assembleSeqIndexValue, List.append_assoc]; exact slice_prefix _ _ _ (by simp [hk])
  have e1 : slice (assembleSeqIndexValue d) 5 6 = enc48 (bpField d) := by
    simp only [assembleSeqIndexValue, List.append_assoc]
    rw [slice_cons_app _ _ _ _ (by simp [hk])]; exact slice_prefix _ _ _ (by simp)
  have e2 : slice (assembleSeqIndexValue d) 11 6 = enc48 d.revSeq := by
    simp only [assembleSeqIndexValue, List.append_assoc]
    rw [← List.append_assoc, slice_cons_app _ _ _ _ (by simp [hk])]
    exact slice_prefix _ _ _ (by simp)
  have e3 : slice (assembleSeqIndexValue d) 17 1 = enc8 d.contentMeta := by
    simp only [assembleSeqIndexValue]
    rw [List.append_assoc, List.append_assoc, slice_cons_app _ _ _ _ (by simp [hk])]
    exact slice_prefix _ _ _ (by simp)
  have e4 : slice (assembleSeqIndexValue d) 18 d.id.length = d.id := by
    simp only [assembleSeqIndexValue]
    rw [List.append_assoc, slice_cons_app _ _ _ _ (by simp [hk])]
    exact slice_prefix _ _ _ rfl
  have e5 : slice (assembleSeqIndexValue d) (18 + d.id.length) d.revMeta.length = d.revMeta := by
    simp only [assembleSeqIndexValue]
    rw [slice_cons_app _ _ _ _ (by simp [hk]; omega)]
    exact slice_self _ _ rfl
  have ek : decodeSequenceKey (enc48 d.dbSeq) = d.dbSeq := by
    unfold decodeSequenceKey
    rw [List.take_of_length_le (by simp)]
    exact beDec_beEnc _ _ (by have := h.dbSeq; simpa using this)
  unfold bySeqReadDocInfo
  rw [if_neg (by simp only [length_beEnc]; omega), e0,
    decode_encode_kvLength _ _ h.id h.physicalSize]
  simp only
  rw [if_neg (by omega), e1, e2, e3, e4, ek,
    show (assembleSeqIndexValue d).length - 18 - d.id.length = d.revMeta.length by omega, e5,
    beDec_beEnc 6 (bpField d) (by have := bpField_lt d h.bp; simpa using this),
    beDec_beEnc 6 d.revSeq (by have := h.revSeq; simpa using this),
    beDec_beEnc 1 _ (by have := h.contentMeta; simpa using this),
    bpField_deleted _ h.bp, bpField_bp _ h.bp]

theorem byId_roundtrip (d : DocInfo) (h : d.Fits) :
    byIdReadDocInfo d.id (assembleIdIndexValue d) = some d := by
  have hl : (assembleIdIndexValue d).length = 23 + d.revMeta.length := by
    simp [assembleIdIndexValue]; omega
  have e0 : slice (assembleIdIndexValue d) 0 6 = enc48 d.dbSeq := by
    simp only [assembleIdIndexValue, List.append_assoc]; exact slice_prefix _ _ _ (by simp)
  have e1 : slice (assembleIdIndexValue d) 6 4 = enc32 d.physicalSize := by
    simp only [assembleIdIndexValue, List.append_assoc]
    rw [slice_cons_app _ _ _ _ (by simp)]; exact slice_prefix _ _ _ (by simp)
  have e2 : slice (assembleIdIndexValue d) 10 6 = enc48 (bpField d) := by
    simp only [assembleIdIndexValue, List.append_assoc]
    rw [← List.append_assoc, slice_cons_app _ _ _ _ (by simp)]
    exact slice_prefix _ _ _ (by simp)
  have e3 : slice (assembleIdIndexValue d) 16 6 = enc48 d.revSeq := by
    simp only [assembleIdIndexValue]
    rw [List.append_assoc, List.append_assoc, slice_cons_app _ _ _ _ (by simp)]
    exact slice_prefix _ _ _ (by simp)
  have e4 : slice (assembleIdIndexValue d) 22 1 = enc8 d.contentMeta := by
    simp only [assembleIdIndexValue]
    rw [List.append_assoc, slice_cons_app _ _ _ _ (by simp)]
    exact slice_prefix _ _ _ (by simp)
  have e5 : (assembleIdIndexValue d).drop 23 = d.revMeta := by
    simp only [assembleIdIndexValue]
    exact drop_append_eq _ _ _ (by simp)
  unfold byIdReadDocInfo
  have hps : d.physicalSize < 256 ^ 4 := by have := h.physicalSize; omega
  rw [if_neg (by omega), e0, e1, e2, e3, e4, e5,
    beDec_beEnc 6 (bpField d) (by have := bpField_lt d h.bp; simpa using this),
    beDec_beEnc 6 d.revSeq (by have := h.revSeq; simpa using this),
    beDec_beEnc 1 _ (by have := h.contentMeta; simpa using this),
    beDec_beEnc 6 d.dbSeq (by have := h.dbSeq; simpa using this),
    beDec_beEnc 4 _ hps]
  simp only
  rw [bpField_deleted _ h.bp, bpField_bp _ h.bp]

end Couchstore
