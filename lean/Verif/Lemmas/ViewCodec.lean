import Verif.Spec.ViewCodec
import Verif.Lemmas.Bytes

/-! Helper lemmas about the codecs of view indexes. -/

namespace Couchstore

/-! ### Bitmaps -/

theorem testBit_beDec : ∀ (b : Bytes) (p : Nat), p < 8 * b.length →
    (beDec b).testBit p = ((b[b.length - 1 - p / 8]?).getD 0).toNat.testBit (p % 8)
  | [], p, h => by simp at h
  | x :: xs, p, h => by
    rw [beDec_cons]
    have e : (256 : Nat) ^ xs.length = 2 ^ (8 * xs.length) := by
      rw [show (256 : Nat) = 2 ^ 8 from rfl, ← Nat.pow_mul]
    have hl : beDec xs < 2 ^ (8 * xs.length) := by rw [← e]; exact beDec_lt xs
    rw [e, Nat.mul_comm, Nat.testBit_two_pow_mul_add _ hl]
    simp only [List.length_cons] at h ⊢
    by_cases hp : p < 8 * xs.length
    · rw [if_pos hp, testBit_beDec xs p hp]
      have h1 : xs.length + 1 - 1 - p / 8 = (xs.length - 1 - p / 8) + 1 := by omega
      rw [h1, List.getElem?_cons_succ]
    · rw [if_neg hp]
      have h1 : xs.length + 1 - 1 - p / 8 = 0 := by omega
      have h2 : p - 8 * xs.length = p % 8 := by omega
      rw [h1, h2]
      rfl

theorem hasPart_ge {bm : Bytes} {p : Nat} (h : 8 * bm.length ≤ p) : hasPart bm p = false := by
  have e : (256 : Nat) ^ bm.length = 2 ^ (8 * bm.length) := by
    rw [show (256 : Nat) = 2 ^ 8 from rfl, ← Nat.pow_mul]
  apply Nat.testBit_lt_two_pow
  have := beDec_lt bm
  rw [e] at this
  exact Nat.lt_of_lt_of_le this (Nat.pow_le_pow_right (by decide) h)

theorem hasPart_chunk {bm : Bytes} (hl : bm.length = 128) {p : Nat} (hp : p < 1024) :
    hasPart bm p = ((bm[127 - p / 8]?).getD 0).toNat.testBit (p % 8) := by
  have := testBit_beDec bm p (by omega)
  rw [hl] at this
  exact this

theorem chunkMask_toNat (p : Nat) : (chunkMask p).toNat = 2 ^ (p % 8) := by
  unfold chunkMask
  rw [UInt8.toNat_ofNat']
  apply Nat.mod_eq_of_lt
  calc 2 ^ (p % 8) ≤ 2 ^ 7 := Nat.pow_le_pow_right (by decide) (by omega)
    _ < 2 ^ 8 := by decide

theorem isBitSet_ok {bm : Bytes} (hl : bm.length = 128) {p : Nat} (hp : p < 1024) :
    isBitSet bm p = .ok (hasPart bm p) := by
  have hi : 127 - p / 8 < bm.length := by omega
  unfold isBitSet chunkIndex
  rw [if_pos (by omega)]
  simp only [List.getElem?_eq_getElem hi]
  rw [hasPart_chunk hl hp, List.getElem?_eq_getElem hi]
  simp only [Option.getD_some]
  congr 1
  generalize bm[127 - p / 8] = c
  have key : (c &&& chunkMask p = 0) ↔ c.toNat.testBit (p % 8) = false := by
    rw [← UInt8.toNat_inj, UInt8.toNat_and, chunkMask_toNat]
    simp only [UInt8.toNat_zero]
    constructor
    · intro h
      have := congrArg (fun n => n.testBit (p % 8)) h
      simpa [Nat.testBit_and, Nat.testBit_two_pow] using this
    · intro h
      apply Nat.eq_of_testBit_eq
      intro i
      rw [Nat.testBit_and, Nat.testBit_two_pow, Nat.zero_testBit]
      by_cases hi : p % 8 = i
      · rw [← hi, h]; rfl
      · simp [hi]
  cases ht : c.toNat.testBit (p % 8) with
  | false => simp [key.mpr ht]
  | true =>
    have : c &&& chunkMask p ≠ 0 := fun h => by simp [key.mp h] at ht
    simpa using this

theorem isBitSet_out (bm : Bytes) {p : Nat} (hp : 1024 ≤ p) : isBitSet bm p = .error .overrun := by
  unfold isBitSet chunkIndex
  rw [if_neg (by omega)]

theorem setBit_out (bm : Bytes) {p : Nat} (hp : 1024 ≤ p) : setBit bm p = .error .overrun := by
  unfold setBit onChunk chunkIndex
  rw [if_neg (by omega)]

theorem unsetBit_out (bm : Bytes) {p : Nat} (hp : 1024 ≤ p) : unsetBit bm p = .error .overrun := by
  unfold unsetBit onChunk chunkIndex
  rw [if_neg (by omega)]

theorem onChunk_ok {bm : Bytes} (hl : bm.length = 128) {p : Nat} (hp : p < 1024) (f : UInt8 → UInt8)
    (g : Nat → Bool) (hg : ∀ (c : UInt8) k, k < 8 → (f c).toNat.testBit k =
      if k = p % 8 then g k else c.toNat.testBit k) :
    ∃ bm', onChunk f bm p = .ok bm' ∧ bm'.length = 128 ∧
      ∀ q, hasPart bm' q = if q = p then g (p % 8) else hasPart bm q := by
  have hi : 127 - p / 8 < bm.length := by omega
  refine ⟨bm.set (127 - p / 8) (f bm[127 - p / 8]), ?_, by simpa using hl, fun q => ?_⟩
  · unfold onChunk chunkIndex
    rw [if_pos (by omega)]
    simp only [List.getElem?_eq_getElem hi]
  · by_cases hq : q < 1024
    · rw [hasPart_chunk (by simpa using hl) hq, hasPart_chunk hl hq]
      by_cases hqp : q / 8 = p / 8
      · rw [hqp, List.getElem?_set_self hi, List.getElem?_eq_getElem hi]
        simp only [Option.getD_some]
        rw [hg _ _ (by omega)]
        by_cases h : q = p
        · subst h; simp
        · rw [if_neg h, if_neg (by omega)]
      · rw [List.getElem?_set_ne (by omega), if_neg (by intro h; subst h; exact hqp rfl)]
    · rw [hasPart_ge (by simp; omega), if_neg (by omega), hasPart_ge (by omega)]

theorem setBit_ok {bm : Bytes} (hl : bm.length = 128) {p : Nat} (hp : p < 1024) :
    ∃ bm', setBit bm p = .ok bm' ∧ bm'.length = 128 ∧
      ∀ q, hasPart bm' q = if q = p then true else hasPart bm q := by
  refine onChunk_ok hl hp _ (fun _ => true) fun c k _ => ?_
  rw [UInt8.toNat_or, chunkMask_toNat, Nat.testBit_or, Nat.testBit_two_pow]
  by_cases h : k = p % 8
  · simp [h]
  · simp [h, Ne.symm h]

theorem unsetBit_ok {bm : Bytes} (hl : bm.length = 128) {p : Nat} (hp : p < 1024) :
    ∃ bm', unsetBit bm p = .ok bm' ∧ bm'.length = 128 ∧
      ∀ q, hasPart bm' q = if q = p then false else hasPart bm q := by
  refine onChunk_ok hl hp _ (fun _ => false) fun c k hk => ?_
  rw [UInt8.toNat_and, UInt8.toNat_not, chunkMask_toNat, Nat.testBit_and]
  have hm : 2 ^ (p % 8) < 2 ^ 8 := Nat.pow_lt_pow_right (by decide) (by omega)
  have : (UInt8.size - 1 - 2 ^ (p % 8)).testBit k = decide (¬ k = p % 8) := by
    have := Nat.testBit_two_pow_sub_succ hm k
    have e : UInt8.size - 1 - 2 ^ (p % 8) = 2 ^ 8 - (2 ^ (p % 8) + 1) := by
      have : UInt8.size = 2 ^ 8 := rfl
      omega
    rw [e, this, Nat.testBit_two_pow]
    by_cases h : k = p % 8
    · simp [h]
    · simp [h, Ne.symm h, hk]
  rw [this]
  by_cases h : k = p % 8 <;> simp [h]

theorem zipWith_parts {a b : Bytes} (ha : a.length = 128) (hb : b.length = 128) (f : UInt8 → UInt8 → UInt8)
    (g : Bool → Bool → Bool) (hg0 : g false false = false)
    (hg : ∀ (c d : UInt8) k, (f c d).toNat.testBit k = g (c.toNat.testBit k) (d.toNat.testBit k)) (p : Nat) :
    (List.zipWith f a b).length = 128 ∧
      hasPart (List.zipWith f a b) p = g (hasPart a p) (hasPart b p) := by
  have hl : (List.zipWith f a b).length = 128 := by simp [ha, hb]
  refine ⟨hl, ?_⟩
  by_cases hp : p < 1024
  · rw [hasPart_chunk hl hp, hasPart_chunk ha hp, hasPart_chunk hb hp]
    have h1 : 127 - p / 8 < a.length := by omega
    have h2 : 127 - p / 8 < b.length := by omega
    rw [List.getElem?_zipWith, List.getElem?_eq_getElem h1, List.getElem?_eq_getElem h2]
    simp only [Option.getD_some]
    exact hg _ _ _
  · rw [hasPart_ge (by omega), hasPart_ge (by omega), hasPart_ge (by omega), hg0]

theorem union_parts {a b : Bytes} (ha : a.length = 128) (hb : b.length = 128) (p : Nat) :
    (unionBitmaps a b).length = 128 ∧ hasPart (unionBitmaps a b) p = (hasPart a p || hasPart b p) :=
  zipWith_parts ha hb _ _ rfl (fun c d k => by rw [UInt8.toNat_or, Nat.testBit_or]) p

theorem intersect_parts {a b : Bytes} (ha : a.length = 128) (hb : b.length = 128) (p : Nat) :
    (intersectBitmaps a b).length = 128 ∧ hasPart (intersectBitmaps a b) p = (hasPart a p && hasPart b p) :=
  zipWith_parts ha hb _ _ rfl (fun c d k => by rw [UInt8.toNat_and, Nat.testBit_and]) p

theorem bitmap_ext {a b : Bytes} (ha : a.length = b.length) (h : ∀ p, hasPart a p = hasPart b p) : a = b :=
  beDec_inj ha (Nat.eq_of_testBit_eq h)

theorem beDec_replicate_zero (n : Nat) : beDec (List.replicate n 0) = 0 := by
  induction n with
  | zero => rfl
  | succ n ih => rw [List.replicate_succ, beDec_cons, ih]; simp

theorem emptyBitmap_parts (p : Nat) : hasPart emptyBitmap p = false := by
  unfold hasPart emptyBitmap
  rw [beDec_replicate_zero, Nat.zero_testBit]

/-! ### Items with their lengths -/

theorem take_append_len {a b : Bytes} {n : Nat} (h : a.length = n) : (a ++ b).take n = a := by
  subst h; simp

theorem drop_append_len {a b : Bytes} {n : Nat} (h : a.length = n) : (a ++ b).drop n = b := by
  subst h; simp

theorem beEnc_of_length {a : Bytes} {w : Nat} (h : a.length = w) : beEnc w (beDec a) = a := by
  subst h; exact beEnc_beDec a

theorem encodeSized_cons (w : Nat) (v : Bytes) (vs : List Bytes) :
    encodeSized w (v :: vs) = beEnc w v.length ++ (v ++ encodeSized w vs) := by
  simp [encodeSized]

theorem scanSized_encode (w : Nat) (hw : 0 < w) : ∀ (vs : List Bytes) (fuel : Nat),
    (∀ x ∈ vs, x.length < 256 ^ w) → (encodeSized w vs).length ≤ fuel →
    scanSized w fuel (encodeSized w vs) = .ok vs
  | [], _, _, _ => by cases ‹Nat› <;> rfl
  | v :: vs, fuel, h, hf => by
    rw [encodeSized_cons] at hf ⊢
    have hl : (beEnc w v.length).length = w := length_beEnc _ _
    simp only [List.length_append, hl] at hf
    obtain ⟨fuel, rfl⟩ : ∃ f, fuel = f + 1 := ⟨fuel - 1, by omega⟩
    have ih := scanSized_encode w hw vs fuel (fun x hx => h x (List.mem_cons_of_mem _ hx)) (by omega)
    have hne : beEnc w v.length ++ (v ++ encodeSized w vs) ≠ [] := by
      intro e
      have := congrArg List.length e
      simp only [List.length_append, hl, List.length_nil] at this
      omega
    unfold scanSized
    split
    · exact absurd ‹_› hne
    · omega
    · rename_i heq _; cases heq
      simp only [List.length_append, hl, take_append_len hl, drop_append_len hl,
        beDec_beEnc w _ (h v List.mem_cons_self)]
      rw [if_neg (by omega), if_neg (by omega)]
      simp [ih]

theorem scanSized_inv (w : Nat) : ∀ (fuel : Nat) (b : Bytes) (vs : List Bytes),
    scanSized w fuel b = .ok vs → b = encodeSized w vs ∧ ∀ x ∈ vs, x.length < 256 ^ w
  | 0, [], vs, h => by cases h; exact ⟨rfl, by simp⟩
  | 0, _ :: _, vs, h => by cases h
  | fuel + 1, [], vs, h => by cases h; exact ⟨rfl, by simp⟩
  | fuel + 1, x :: xs, vs, h => by
    unfold scanSized at h
    generalize hb : x :: xs = b at h
    simp only at h
    split at h
    · cases h
    · split at h
      · cases h
      · split at h
        · cases h
        · rename_i h1 h2 _ vs' h3
          cases h
          obtain ⟨i1, i2⟩ := scanSized_inv w fuel _ _ h3
          have hl : (b.take w).length = w := by rw [List.length_take]; omega
          have hd := beDec_lt (b.take w)
          rw [hl] at hd
          have ht : ((b.drop w).take (beDec (b.take w))).length = beDec (b.take w) := by
            rw [List.length_take]; omega
          refine ⟨?_, ?_⟩
          · rw [encodeSized_cons, ht, ← i1, List.take_append_drop]
            rw [beEnc_of_length hl, List.take_append_drop]
          · intro y hy
            rcases List.mem_cons.mp hy with rfl | hy
            · rw [ht]; exact hd
            · exact i2 y hy

/-- Scanning ends with a result or an assertion. -/
theorem scanSized_errors (w : Nat) (hw : 0 < w) : ∀ (fuel : Nat) (b : Bytes) (e : Err), b.length ≤ fuel →
    scanSized w fuel b = .error e → e = .assertFail
  | 0, [], e, _, h => by cases h
  | 0, _ :: _, e, hf, h => by simp at hf
  | fuel + 1, [], e, _, h => by cases h
  | fuel + 1, x :: xs, e, hf, h => by
    unfold scanSized at h
    generalize hb : x :: xs = b at h hf
    simp only at h
    split at h
    · cases h; rfl
    · split at h
      · cases h; rfl
      · split at h
        · rename_i h1 h2 _ e' h3
          cases h
          exact scanSized_errors w hw fuel _ _ (by simp; omega) h3
        · cases h

theorem scanKeys_encode : ∀ (ks : List Bytes) (r : Bytes), (∀ x ∈ ks, x.length < 2 ^ 16) →
    scanKeys ks.length (encodeSized 2 ks ++ r) = .ok (ks, r)
  | [], r, _ => rfl
  | k :: ks, r, h => by
    have ih := scanKeys_encode ks r (fun x hx => h x (List.mem_cons_of_mem _ hx))
    have hl : (beEnc 2 k.length).length = 2 := length_beEnc _ _
    rw [encodeSized_cons, List.append_assoc, List.append_assoc]
    simp only [List.length_cons, scanKeys, List.length_append, hl, take_append_len hl, drop_append_len hl,
      beDec_beEnc 2 _ (h k List.mem_cons_self)]
    rw [if_neg (by omega), if_neg (by omega)]
    simp [ih]

theorem scanKeys_inv : ∀ (n : Nat) (b : Bytes) (ks : List Bytes) (r : Bytes), scanKeys n b = .ok (ks, r) →
    b = encodeSized 2 ks ++ r ∧ ks.length = n ∧ ∀ x ∈ ks, x.length < 2 ^ 16
  | 0, b, ks, r, h => by cases h; exact ⟨rfl, rfl, by simp⟩
  | n + 1, b, ks, r, h => by
    unfold scanKeys at h
    simp only at h
    split at h
    · cases h
    · split at h
      · cases h
      · split at h
        · cases h
        · rename_i h1 h2 _ ks' r' h3
          cases h
          obtain ⟨i1, i2, i3⟩ := scanKeys_inv n _ _ _ h3
          have hl : (b.take 2).length = 2 := by rw [List.length_take]; omega
          have hd := beDec_lt (b.take 2)
          rw [hl] at hd
          have ht : ((b.drop 2).take (beDec (b.take 2))).length = beDec (b.take 2) := by
            rw [List.length_take]; omega
          refine ⟨?_, by simp [i2], ?_⟩
          · rw [encodeSized_cons, ht, List.append_assoc, List.append_assoc, ← i1, List.take_append_drop]
            rw [beEnc_of_length hl, List.take_append_drop]
          · intro y hy
            rcases List.mem_cons.mp hy with rfl | hy
            · rw [ht]; exact hd
            · exact i3 y hy

theorem scanKeys_errors : ∀ (n : Nat) (b : Bytes) (e : Err), scanKeys n b = .error e → e = .assertFail
  | 0, b, e, h => by cases h
  | n + 1, b, e, h => by
    unfold scanKeys at h
    simp only at h
    split at h
    · cases h; rfl
    · split at h
      · cases h; rfl
      · split at h
        · rename_i h3; cases h; exact scanKeys_errors n _ _ h3
        · cases h

theorem encodeMaps_cons (m : ViewKeys) (ms : List ViewKeys) :
    ((m :: ms).flatMap fun m => m.viewId :: (enc16 m.keys.length ++ encodeSized 2 m.keys)) =
      m.viewId :: (enc16 m.keys.length ++ (encodeSized 2 m.keys ++
        ms.flatMap fun m => m.viewId :: (enc16 m.keys.length ++ encodeSized 2 m.keys))) := by
  simp

theorem scanMaps_encode : ∀ (ms : List ViewKeys) (fuel : Nat), (∀ m ∈ ms, m.Fits) → ms.length ≤ fuel →
    scanMaps fuel (ms.flatMap fun m => m.viewId :: (enc16 m.keys.length ++ encodeSized 2 m.keys)) = .ok ms
  | [], 0, _, _ => rfl
  | [], _ + 1, _, _ => rfl
  | m :: ms, 0, _, hf => by simp at hf
  | m :: ms, fuel + 1, h, hf => by
    have hm := h m List.mem_cons_self
    have ih := scanMaps_encode ms fuel (fun x hx => h x (List.mem_cons_of_mem _ hx)) (by simpa using hf)
    have hl : (enc16 m.keys.length).length = 2 := length_beEnc _ _
    rw [encodeMaps_cons]
    unfold scanMaps
    simp only [List.length_append, hl, take_append_len hl, drop_append_len hl, beDec_beEnc 2 _ hm.1]
    rw [if_neg (by omega), scanKeys_encode _ _ hm.2]
    simp only [ih]

theorem scanMaps_inv : ∀ (fuel : Nat) (b : Bytes) (ms : List ViewKeys), scanMaps fuel b = .ok ms →
    b = (ms.flatMap fun m => m.viewId :: (enc16 m.keys.length ++ encodeSized 2 m.keys)) ∧ ∀ m ∈ ms, m.Fits
  | 0, [], ms, h => by cases h; exact ⟨rfl, by simp⟩
  | 0, _ :: _, ms, h => by cases h
  | fuel + 1, [], ms, h => by cases h; exact ⟨rfl, by simp⟩
  | fuel + 1, x :: b, ms, h => by
    unfold scanMaps at h
    split at h
    · cases h
    · split at h
      · cases h
      · split at h
        · cases h
        · rename_i h1 _ ks r h2 _ ms' h3
          cases h
          obtain ⟨i1, i2⟩ := scanMaps_inv fuel _ _ h3
          obtain ⟨j1, j2, j3⟩ := scanKeys_inv _ _ _ _ h2
          have hl : (b.take 2).length = 2 := by rw [List.length_take]; omega
          have hd := beDec_lt (b.take 2)
          rw [hl] at hd
          refine ⟨?_, ?_⟩
          · rw [encodeMaps_cons]
            simp only [j2]
            rw [← i1, ← j1]
            congr 1
            rw [show enc16 (beDec (b.take 2)) = b.take 2 from beEnc_of_length hl, List.take_append_drop]
          · intro m hm
            rcases List.mem_cons.mp hm with rfl | hm
            · exact ⟨by simp only [j2]; exact hd, j3⟩
            · exact i2 m hm

theorem scanKeys_rest : ∀ (n : Nat) (b : Bytes) (ks : List Bytes) (r : Bytes), scanKeys n b = .ok (ks, r) →
    r.length ≤ b.length := by
  intro n b ks r h
  obtain ⟨h1, _, _⟩ := scanKeys_inv n b ks r h
  rw [h1]; simp

theorem scanMaps_errors : ∀ (fuel : Nat) (b : Bytes) (e : Err), b.length ≤ fuel → scanMaps fuel b = .error e →
    e = .assertFail
  | 0, [], e, _, h => by cases h
  | 0, _ :: _, e, hf, h => by simp at hf
  | fuel + 1, [], e, _, h => by cases h
  | fuel + 1, x :: b, e, hf, h => by
    unfold scanMaps at h
    split at h
    · cases h; rfl
    · split at h
      · rename_i h3; cases h; exact scanKeys_errors _ _ _ h3
      · rename_i h3
        split at h
        · rename_i h4
          cases h
          have := scanKeys_rest _ _ _ _ h3
          simp at this hf
          exact scanMaps_errors fuel _ _ (by omega) h4
        · cases h

/-! ### Record files -/

theorem leEnc32_dec {n : Nat} (h : n < 2 ^ 32) : beDec (leEnc32 n).reverse = n := by
  unfold leEnc32
  rw [List.reverse_reverse]
  exact beDec_beEnc 4 n h

theorem length_leEnc32 (n : Nat) : (leEnc32 n).length = 4 := by
  unfold leEnc32
  rw [List.length_reverse, length_beEnc]

/-- How many bytes come before the key. -/
def recHead (inc : Bool) : Nat := if inc then 7 else 6

theorem writeViewRecord_length (inc : Bool) (r : ViewRec) :
    (writeViewRecord inc r).1.length = recHead inc + r.key.length + r.val.length := by
  cases inc <;> simp [writeViewRecord, length_leEnc32, recHead] <;> omega

theorem readViewRecord_short {inc : Bool} {b : Bytes} (h : b.length < 4) : readViewRecord inc b = .eof := by
  unfold readViewRecord
  rw [if_pos h]

/-- A record at the beginning of a file is read if it is there to its end; otherwise reading fails. -/
theorem readViewRecord_take (inc : Bool) (r : ViewRec) (h : r.Fits inc) (rest : Bytes) (k : Nat) (hk : 4 ≤ k)
    (hl : k ≤ (writeViewRecord inc r).1.length + rest.length) :
    readViewRecord inc (((writeViewRecord inc r).1 ++ rest).take k) =
      if k < (writeViewRecord inc r).1.length then .fail
      else .record r (rest.take (k - (writeViewRecord inc r).1.length)) := by
  obtain ⟨op, key, val⟩ := r
  obtain ⟨h1, h2, h3, h4⟩ := h
  simp only at h1 h2 h3 h4
  have hlen := writeViewRecord_length inc ⟨op, key, val⟩
  simp only at hlen
  rw [hlen] at hl ⊢
  have hk2 : beDec (beEnc 2 key.length) = key.length := beDec_beEnc 2 _ h1
  unfold readViewRecord
  have e0 : ¬ (((writeViewRecord inc ⟨op, key, val⟩).1 ++ rest).take k).length < 4 := by
    rw [List.length_take, List.length_append, hlen]; omega
  rw [if_neg e0]
  have e1 : ((((writeViewRecord inc ⟨op, key, val⟩).1 ++ rest).take k).take 4) =
      leEnc32 (2 + key.length + val.length + (if inc then 1 else 0)) := by
    rw [List.take_take, Nat.min_eq_left hk]
    cases inc <;> simp [writeViewRecord, List.append_assoc, take_append_len (length_leEnc32 _)]
  have e2 : ((((writeViewRecord inc ⟨op, key, val⟩).1 ++ rest).take k).drop 4) =
      ((if inc then [op] else []) ++ (enc16 key.length ++ (key ++ (val ++ rest)))).take (k - 4) := by
    rw [List.drop_take]
    cases inc <;> simp [writeViewRecord, List.append_assoc, drop_append_len (length_leEnc32 _)]
  simp only [e1, e2]
  rw [leEnc32_dec (by split <;> omega)]
  have l16 : (enc16 key.length).length = 2 := length_beEnc _ _
  cases inc with
  | false =>
    have h4 := h4 rfl
    subst h4
    simp only [recHead, Bool.false_eq_true, if_false, List.nil_append, Bool.false_and, Nat.add_zero] at hl ⊢
    simp only [List.length_take, List.length_append, l16]
    by_cases c1 : k < 6
    · rw [if_pos (by omega), if_pos (by omega)]
    · rw [if_neg (by omega)]
      have e3 : ((enc16 key.length ++ (key ++ (val ++ rest))).take (k - 4)).take 2 = enc16 key.length := by
        rw [List.take_take, Nat.min_eq_left (by omega), take_append_len l16]
      have e4 : ((enc16 key.length ++ (key ++ (val ++ rest))).take (k - 4)).drop 2 = (key ++ (val ++ rest)).take (k - 6) := by
        rw [List.drop_take, drop_append_len l16, show k - 4 - 2 = k - 6 by omega]
      rw [e3, e4, hk2]
      have e5 : (2 + key.length + val.length + 2 ^ 32 - 2) % 2 ^ 32 = key.length + val.length := by omega
      rw [e5]
      simp only [List.length_take, List.length_append]
      by_cases c2 : k < 6 + key.length + val.length
      · rw [if_pos (by omega), if_pos c2]
      · rw [if_neg (by omega), if_neg (by omega), if_neg c2]
        have e6 : ((key ++ (val ++ rest)).take (k - 6)).take key.length = key := by
          rw [List.take_take, Nat.min_eq_left (by omega), take_append_len rfl]
        have e7 : (((key ++ (val ++ rest)).take (k - 6)).drop key.length).take (key.length + val.length - key.length) = val := by
          rw [List.drop_take, drop_append_len rfl, List.take_take, Nat.min_eq_left (by omega), Nat.add_sub_cancel_left,
            take_append_len rfl]
        have e8 : ((key ++ (val ++ rest)).take (k - 6)).drop (key.length + val.length) =
            rest.take (k - (6 + key.length + val.length)) := by
          rw [List.drop_take, ← List.append_assoc, drop_append_len (by simp),
            show k - 6 - (key.length + val.length) = k - (6 + key.length + val.length) by omega]
        rw [e6, e7, e8]
  | true =>
    simp only [recHead, if_true, List.singleton_append, Bool.true_and] at hl ⊢
    by_cases c0 : k = 4
    · subst c0
      rw [if_pos (by simp), if_pos (by omega)]
    · obtain ⟨j, rfl⟩ : ∃ j, k = j + 5 := ⟨k - 5, by omega⟩
      have e9 : j + 5 - 4 = j + 1 := by omega
      rw [e9, List.take_succ_cons, List.isEmpty_cons]
      simp only [Bool.false_eq_true, if_false, List.headD_cons, List.drop_succ_cons, List.drop_zero]
      simp only [List.length_take, List.length_append, l16]
      by_cases c1 : j < 2
      · rw [if_pos (by omega), if_pos (by omega)]
      · rw [if_neg (by omega)]
        have e3 : ((enc16 key.length ++ (key ++ (val ++ rest))).take j).take 2 = enc16 key.length := by
          rw [List.take_take, Nat.min_eq_left (by omega), take_append_len l16]
        have e4 : ((enc16 key.length ++ (key ++ (val ++ rest))).take j).drop 2 = (key ++ (val ++ rest)).take (j - 2) := by
          rw [List.drop_take, drop_append_len l16]
        rw [e3, e4, hk2]
        have e5 : (2 + key.length + val.length + 1 + 2 ^ 32 - 3) % 2 ^ 32 = key.length + val.length := by omega
        rw [e5]
        simp only [List.length_take, List.length_append]
        by_cases c2 : j + 5 < 7 + key.length + val.length
        · rw [if_pos (by omega), if_pos c2]
        · rw [if_neg (by omega), if_neg (by omega), if_neg c2]
          have e6 : ((key ++ (val ++ rest)).take (j - 2)).take key.length = key := by
            rw [List.take_take, Nat.min_eq_left (by omega), take_append_len rfl]
          have e7 : (((key ++ (val ++ rest)).take (j - 2)).drop key.length).take (key.length + val.length - key.length) = val := by
            rw [List.drop_take, drop_append_len rfl, List.take_take, Nat.min_eq_left (by omega), Nat.add_sub_cancel_left,
              take_append_len rfl]
          have e8 : ((key ++ (val ++ rest)).take (j - 2)).drop (key.length + val.length) =
              rest.take (j + 5 - (7 + key.length + val.length)) := by
            rw [List.drop_take, ← List.append_assoc, drop_append_len (by simp),
              show j - 2 - (key.length + val.length) = j + 5 - (7 + key.length + val.length) by omega]
          rw [e6, e7, e8]

theorem viewFile_cons (inc : Bool) (r : ViewRec) (rs : List ViewRec) :
    viewFile inc (r :: rs) = (writeViewRecord inc r).1 ++ viewFile inc rs := by
  simp [viewFile]

/-- Reading a file of which only the first `k` bytes are left. -/
theorem readAll_take (inc : Bool) : ∀ (rs : List ViewRec) (n k : Nat), (∀ r ∈ rs, r.Fits inc) → rs.length < n →
    k ≤ (viewFile inc rs).length →
    ∃ j, j ≤ rs.length ∧ (viewFile inc (rs.take j)).length ≤ k ∧
      (j < rs.length → k < (viewFile inc (rs.take (j + 1))).length) ∧
      readAll inc n ((viewFile inc rs).take k) =
        (rs.take j, if k < (viewFile inc (rs.take j)).length + 4 then .clean else .broken)
  | [], n + 1, k, _, _, hk => by
    simp only [viewFile, List.flatMap_nil, List.length_nil, Nat.le_zero] at hk
    subst hk
    exact ⟨0, by simp, by simp [viewFile], by simp, by simp [viewFile, readAll, readViewRecord]⟩
  | r :: rs, 0, k, _, hn, _ => by simp at hn
  | [], 0, k, _, hn, _ => by simp at hn
  | r :: rs, n + 1, k, h, hn, hk => by
    have hr := h r List.mem_cons_self
    rw [viewFile_cons] at hk ⊢
    rw [List.length_append] at hk
    by_cases h4 : k < 4
    · refine ⟨0, by simp, by simp [viewFile], fun _ => ?_, ?_⟩
      · rw [List.take_succ_cons, List.take_zero, viewFile_cons, List.length_append, writeViewRecord_length]
        unfold recHead
        split <;> omega
      · unfold readAll
        rw [readViewRecord_short (by rw [List.length_take]; omega)]
        simp [viewFile, h4]
    · unfold readAll
      rw [readViewRecord_take inc r hr _ k (by omega) hk]
      by_cases hlt : k < (writeViewRecord inc r).1.length
      · rw [if_pos hlt]
        refine ⟨0, by simp, by simp [viewFile], fun _ => ?_, ?_⟩
        · rw [List.take_succ_cons, List.take_zero, viewFile_cons, List.length_append]
          omega
        · simp [viewFile, h4]
      · rw [if_neg hlt]
        obtain ⟨j, j1, j2, j3, j4⟩ := readAll_take inc rs n (k - (writeViewRecord inc r).1.length)
          (fun x hx => h x (List.mem_cons_of_mem _ hx)) (by simpa using hn) (by omega)
        refine ⟨j + 1, by simpa using j1, ?_, ?_, ?_⟩
        · rw [List.take_succ_cons, viewFile_cons, List.length_append]
          omega
        · intro hj
          have := j3 (by simpa using hj)
          rw [List.take_succ_cons, viewFile_cons, List.length_append]
          omega
        · simp only [j4, List.take_succ_cons, viewFile_cons, List.length_append]
          congr 1
          by_cases hc : k < (writeViewRecord inc r).1.length + (viewFile inc (rs.take j)).length + 4
          · rw [if_pos (by omega), if_pos hc]
          · rw [if_neg (by omega), if_neg hc]

/-! ### Picking a record -/

theorem dedupPick_fold : ∀ (l : List Nat) (k : Nat) (pre : List Nat) (best : Nat × Nat), pre.length = k →
    pre[best.2]? = some best.1 → (∀ (i m : Nat), pre[i]? = some m → m ≤ best.1 ∧ (m = best.1 → best.2 ≤ i)) →
    ∃ m, ((pre ++ l)[((l.zipIdx k).foldl (fun (b : Nat × Nat) x => if b.1 < x.1 then x else b) best).2]? = some m) ∧
      ∀ (i m' : Nat), (pre ++ l)[i]? = some m' →
        m' ≤ m ∧ (m' = m → ((l.zipIdx k).foldl (fun (b : Nat × Nat) x => if b.1 < x.1 then x else b) best).2 ≤ i)
  | [], k, pre, best, _, h1, h2 => ⟨best.1, by simpa using h1, by simpa using h2⟩
  | x :: l, k, pre, best, hk, h1, h2 => by
    rw [List.zipIdx_cons, List.foldl_cons]
    have hpre : pre ++ x :: l = (pre ++ [x]) ++ l := by simp
    rw [hpre]
    refine dedupPick_fold l (k + 1) (pre ++ [x]) _ (by simp [hk]) ?_ ?_
    · split
      · simp [hk ▸ List.getElem?_concat_length]
      · have hlt : best.2 < pre.length := by
          rcases Nat.lt_or_ge best.2 pre.length with h | h
          · exact h
          · rw [List.getElem?_eq_none h] at h1; cases h1
        rw [List.getElem?_append_left hlt]
        exact h1
    · intro i m hm
      rcases Nat.lt_or_ge i pre.length with hi | hi
      · rw [List.getElem?_append_left hi] at hm
        have := h2 i m hm
        split
        · exact ⟨by simp only; omega, fun h => by simp only at h; omega⟩
        · exact this
      · rw [List.getElem?_append_right hi] at hm
        have hi0 : i - pre.length = 0 := by
          rcases Nat.eq_zero_or_pos (i - pre.length) with h | h
          · exact h
          · rw [List.getElem?_eq_none (by simp only [List.length_singleton]; omega)] at hm; cases hm
        rw [hi0] at hm
        cases hm
        split
        · exact ⟨Nat.le_refl _, fun _ => by simp only; omega⟩
        · refine ⟨by omega, fun h => ?_⟩
          have hlt : best.2 < pre.length := by
            rcases Nat.lt_or_ge best.2 pre.length with h | h
            · exact h
            · rw [List.getElem?_eq_none h] at h1; cases h1
          omega

end Couchstore
