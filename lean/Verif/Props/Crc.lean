import Verif.Lemmas.Damage
import Verif.Lemmas.Header
import Verif.Spec.Append
import Verif.Spec.Env

/-!
# C25 — damage of stored bytes is detected

`crc P` is the cyclic redundancy check by its usual definition, bit by bit.  `dbWriteBuf` appends a chunk,
`preadBin` reads one; `writeHeader` and `preadHeader` do it for headers.
-/

namespace Couchstore

/-- The checksum that the code computes with its table of 256 numbers is CRC-32 as specified: the table has no wrong
entry, whatever the bytes are. -/
theorem C25_table_is_crc32 (b : Bytes) : (hashCrc32 b).toBitVec = crc polyIEEE b := hashCrc32_spec b

/-- C25: any change of at most four consecutive bytes of the content of a chunk, at any place of any chunk, is
detected: the chunk, as it was written, is damaged in the file; reading it never returns anything, and without other errors
reports a checksum failure.  The bytes are consecutive in the content; in the file there may be a block prefix between them.
For files of the older versions (`crc32`) the checksum is that of the code's table; for others the library is assumed to
compute CRC-32C. -/
theorem C25_damaged_chunk_detected (E : Env) (f g f' : File) (w : f.WF) (hE : ChecksumIsCrc E f.cfg.crcMode)
    (hplain : f.cfg.cipher = none) (b : Bytes) (pos size : Nat) (hw : dbWriteBuf E b f = .ok (pos, size) g)
    (first count : Nat) (hcount : count ≤ 4) (hin : first + count ≤ b.length)
    (D : Damaged g.disk f'.disk pos (8 + first) count) (hcfg : f'.cfg = g.cfg) :
    (∀ r h, preadBin E pos f' ≠ .ok r h) ∧ (f'.faults = [] → ∃ h, preadBin E pos f' = .error .checksumFail h) := by
  obtain ⟨hext, rfl, -, hc, -⟩ := (dbWriteBuf_spec E b f w).ok hw
  have hgc : g.cfg = f.cfg := hext.frame.cfg
  obtain ⟨hfit, hp, q, hq, hst⟩ := hc
  unfold ChunkFits at hfit
  unfold chunkBytes at hst
  rw [hgc, hplain] at hfit hst
  simp only at hfit hst
  obtain ⟨b', hbl, hst', u, a, a', v, e1, e2, e3, e4, e5⟩ := Damaged.stored (h := first) (k := count)
    (hdr := enc32 (b.length + 2 ^ 31) ++ enc32 (cksum E f.cfg.crcMode b).toNat) (by simpa using D) hst hin
  have hbad := cksum_burst hE u a a' v e3 (by omega) e5
  rw [← e1, ← e2] at hbad
  rw [← hbl] at hst'
  have hsp := preadBin_bad (E := E) (f := f') (by rw [hcfg, hgc]; exact hplain) (by omega)
    (cksum E f.cfg.crcMode b).toNat_lt hst' (by rw [hcfg, hgc]; exact hbad)
  refine ⟨fun r h he => hsp.ok he, fun hf => ?_⟩
  cases hm : preadBin E _ f' with
  | ok r h => exact (hsp.ok hm).elim
  | error e h =>
    rcases hsp.error hm with he | he
    · rw [he]; exact ⟨h, rfl⟩
    · exact absurd hf he

/-- C25, for compressed chunks: the same, before the content is decompressed. -/
theorem C25_damaged_compressed_chunk_detected (E : Env) (f g f' : File) (w : f.WF) (hE : ChecksumIsCrc E f.cfg.crcMode)
    (hplain : f.cfg.cipher = none) (b : Bytes) (pos size : Nat) (hw : dbWriteBufCompressed E b f = .ok (pos, size) g)
    (first count : Nat) (hcount : count ≤ 4) (hin : first + count ≤ (E.deflate b).length)
    (D : Damaged g.disk f'.disk pos (8 + first) count) (hcfg : f'.cfg = g.cfg) :
    (∀ r h, preadCompressed E pos f' ≠ .ok r h) ∧
      (f'.faults = [] → ∃ h, preadCompressed E pos f' = .error .checksumFail h) := by
  obtain ⟨h1, h2⟩ := C25_damaged_chunk_detected E f g f' w hE hplain (E.deflate b) pos size hw first count hcount hin D hcfg
  constructor
  · intro r h he
    unfold preadCompressed at he
    cases hm : preadBin E pos f' with
    | ok x y => exact h1 x y hm
    | error e y => rw [bind_error hm] at he; cases he
  · intro hf
    obtain ⟨y, hy⟩ := h2 hf
    unfold preadCompressed
    exact ⟨y, bind_error hy⟩

/-- C25, for headers: the same damage of the body of a header that was written is detected when the header is read. -/
theorem C25_damaged_header_detected (E : Env) (f g f' : File) (w : f.WF) (hE : ChecksumIsCrc E f.cfg.crcMode)
    (t : UInt8) (b : Bytes) (pos : Nat) (hw : writeHeader E t b f = .ok pos g) (maxSize : Nat) (hmax : b.length + 4 ≤ maxSize)
    (hmax31 : maxSize < 2 ^ 31) (first count : Nat) (hcount : count ≤ 4) (hin : first + count ≤ b.length)
    (D : Damaged g.disk f'.disk (pos + 1) (8 + first) count) (hcfg : f'.cfg = g.cfg) :
    (∀ r h, preadHeader E pos maxSize f' ≠ .ok r h) ∧
      (f'.faults = [] → ∃ h, preadHeader E pos maxSize f' = .error .checksumFail h) := by
  obtain ⟨rfl, hfr, -, -, -, hst, -⟩ := (writeHeader_spec E t b f w).ok hw
  have hgc : g.cfg = f.cfg := hfr.cfg
  unfold headerChunk at hst
  obtain ⟨b', hbl, hst', u, a, a', v, e1, e2, e3, e4, e5⟩ := Damaged.stored (h := first) (k := count)
    (hdr := enc32 (b.length + 4) ++ enc32 (cksum E f.cfg.crcMode b).toNat) (by simpa using D) hst hin
  have hbad := cksum_burst hE u a a' v e3 (by omega) e5
  rw [← e1, ← e2] at hbad
  rw [← hbl] at hst'
  have hsp := preadHeader_bad (E := E) (mx := maxSize) (f := f') (by omega) (by omega) (by omega)
    (cksum E f.cfg.crcMode b).toNat_lt hst' (by rw [hcfg, hgc]; exact hbad)
  refine ⟨fun r h he => hsp.ok he, fun hf => ?_⟩
  cases hm : preadHeader E _ maxSize f' with
  | ok r h => exact (hsp.ok hm).elim
  | error e h =>
    rcases hsp.error hm with he | he
    · rw [he]; exact ⟨h, rfl⟩
    · exact absurd hf he

section Example

/-- The checksums of "123456789", as they are published for CRC-32 and CRC-32C. -/
example : hashCrc32 [49, 50, 51, 52, 53, 54, 55, 56, 57] = 0xCBF43926 ∧
    crc polyCastagnoli [49, 50, 51, 52, 53, 54, 55, 56, 57] = 0xE3069283#32 := by
  decide +kernel

/-- An environment with the real checksums. -/
private def crcEnv : Env := { Env.toy with crc32 := hashCrc32, crc32c := fun b => ⟨crc polyCastagnoli b⟩ }

private def crcFile : File := { File.empty with cfg := ⟨.crc32, none, 1279, 1279⟩ }

private def written : File := match dbWriteBuf crcEnv [1, 2, 3, 4, 5, 6] crcFile with
  | .ok _ g => g
  | .error _ g => g

private theorem written_eq : dbWriteBuf crcEnv [1, 2, 3, 4, 5, 6] crcFile = .ok (0, 14) written := by
  have h : (match dbWriteBuf crcEnv [1, 2, 3, 4, 5, 6] crcFile with | .ok r _ => decide (r = (0, 14)) | .error _ _ => false) = true := by
    decide +kernel
  unfold written
  cases hw : dbWriteBuf crcEnv [1, 2, 3, 4, 5, 6] crcFile with
  | ok r g => rw [hw] at h; simp only [decide_eq_true_eq] at h; rw [h]
  | error e g => rw [hw] at h; cases h

/-- The third and the fifth byte of the content are changed. -/
private def hurt : File := { written with disk := (written.disk.set 11 77).set 13 88 }

private theorem hurt_damaged : Damaged written.disk hurt.disk 0 (8 + 2) 3 := by
  have hl : written.disk.length = 15 := by decide +kernel
  refine ⟨by simp [hurt], ?_, by decide +kernel⟩
  intro i hi
  have h1 := hi 0 (by omega)
  have h2 := hi 2 (by omega)
  rw [show dataOffset 0 (8 + 2 + 0) = 11 by decide] at h1
  rw [show dataOffset 0 (8 + 2 + 2) = 13 by decide] at h2
  unfold hurt
  dsimp only
  rw [List.getElem?_set_ne (Ne.symm h2), List.getElem?_set_ne (Ne.symm h1)]

/-- The hypotheses of C25 can be met, for both kinds of files. -/
example : ∃ h, preadBin crcEnv 0 hurt = .error .checksumFail h :=
  (C25_damaged_chunk_detected crcEnv crcFile written hurt ⟨by decide, by decide⟩ (.inl ⟨rfl, rfl⟩) rfl [1, 2, 3, 4, 5, 6] 0 14
    written_eq 2 3 (by decide) (by decide) hurt_damaged rfl).2 (by decide +kernel)

example : ChecksumIsCrc crcEnv .crc32c := .inr ⟨rfl, fun _ => rfl⟩

end Example

end Couchstore
