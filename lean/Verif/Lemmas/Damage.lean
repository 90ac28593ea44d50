import Verif.Lemmas.Crc
import Verif.Lemmas.Chunk

/-! Helper lemmas: damaged chunks. -/

namespace Couchstore

theorem dataOffset_zero (p : Nat) : dataOffset p 0 = skipP p := rfl

theorem dataOffset_succ (p i : Nat) : dataOffset p (i + 1) = skipP (dataOffset p i + 1) := by
  unfold skipP
  rfl

theorem dataOffset_shift (p : Nat) : ∀ i, dataOffset (skipP p + 1) i = dataOffset p (i + 1)
  | 0 => by rw [dataOffset_succ, dataOffset_zero, dataOffset_zero]
  | i + 1 => by rw [dataOffset_succ, dataOffset_shift p i, dataOffset_succ p (i + 1)]

theorem dataOffset_lt_succ (p i : Nat) : dataOffset p i < dataOffset p (i + 1) := by
  rw [dataOffset_succ]
  have := skipP_le (dataOffset p i + 1)
  omega

theorem dataOffset_lt (p : Nat) {i j : Nat} (h : i < j) : dataOffset p i < dataOffset p j := by
  induction j with
  | zero => omega
  | succ j ih =>
    have h1 := dataOffset_lt_succ p j
    by_cases hij : i = j
    · subst hij; exact h1
    · have := ih (by omega); omega

theorem dataOffset_inj (p : Nat) {i j : Nat} (h : dataOffset p i = dataOffset p j) : i = j := by
  rcases Nat.lt_trichotomy i j with h' | h' | h'
  · have := dataOffset_lt p h'; omega
  · exact h'
  · have := dataOffset_lt p h'; omega

theorem Stored.get {d : Bytes} : ∀ {bs p q}, Stored d p bs q → ∀ i, i < bs.length → d[dataOffset p i]? = bs[i]?
  | [], _, _, _, i, h => by simp at h
  | b :: bs, p, q, h, 0, _ => by rw [dataOffset_zero, h.1]; rfl
  | b :: bs, p, q, h, i + 1, hi => by
    rw [← dataOffset_shift, Stored.get h.2 i (by simpa using hi)]
    rfl

theorem Stored.replace {d d' : Bytes} : ∀ {bs bs' p q}, Stored d p bs q → bs'.length = bs.length →
    (∀ i, i < bs'.length → d'[dataOffset p i]? = bs'[i]?) → Stored d' p bs' q
  | [], [], _, _, h, _, _ => h
  | [], _ :: _, _, _, _, h, _ => by simp at h
  | _ :: _, [], _, _, _, h, _ => by simp at h
  | b :: bs, b' :: bs', p, q, h, hl, hg => by
    refine ⟨?_, Stored.replace h.2 (by simpa using hl) ?_⟩
    · have := hg 0 (by simp)
      rw [dataOffset_zero] at this
      rw [this]; rfl
    · intro i hi
      rw [dataOffset_shift, hg (i + 1) (by simpa using hi)]
      rfl

/-- A damaged sequence of bytes. -/
theorem Damaged.stored {d d' : Bytes} {p h k q : Nat} {hdr body : Bytes} (D : Damaged d d' p (hdr.length + h) k)
    (hst : Stored d p (hdr ++ body) q) (hk : h + k ≤ body.length) :
    ∃ body', body'.length = body.length ∧ Stored d' p (hdr ++ body') q ∧
      ∃ u a b v, body = u ++ a ++ v ∧ body' = u ++ b ++ v ∧ a.length = b.length ∧ a.length = k ∧ a ≠ b := by
  have hget := hst.get
  have hlen : ∀ i, i < (hdr ++ body).length → dataOffset p i < d'.length := by
    intro i hi
    have := hget i hi
    rw [List.getElem?_eq_getElem hi] at this
    rw [D.length]
    exact (List.getElem?_eq_some_iff.mp this).1
  let val : Nat → UInt8 := fun i => d'[dataOffset p (hdr.length + i)]?.getD 0
  let body' : Bytes := (List.range body.length).map val
  have hbl : body'.length = body.length := by simp [body']
  have hval : ∀ i, i < body.length → d'[dataOffset p (hdr.length + i)]? = some (val i) := by
    intro i hi
    have := hlen (hdr.length + i) (by rw [List.length_append]; omega)
    simp [val, this]
  have hb' : ∀ i, i < body.length → body'[i]? = some (val i) := by
    intro i hi
    simp [body', hi]
  have hout : ∀ i, i < body.length → (i < h ∨ h + k ≤ i) → body'[i]? = body[i]? := by
    intro i hi ho
    rw [hb' i hi, ← hval i hi, D.outside]
    · rw [hget _ (by rw [List.length_append]; omega), List.getElem?_append_right (by omega)]
      congr 1
      omega
    · intro t ht he
      have := dataOffset_inj p he
      omega
  have hst' : Stored d' p (hdr ++ body') q := by
    refine hst.replace (by simp [hbl]) ?_
    intro i hi
    rw [List.length_append, hbl] at hi
    by_cases hih : i < hdr.length
    · rw [List.getElem?_append_left hih, D.outside, hget i (by rw [List.length_append]; omega), List.getElem?_append_left hih]
      intro t ht he
      have := dataOffset_inj p he
      omega
    · rw [List.getElem?_append_right (by omega), hb' (i - hdr.length) (by omega), ← hval (i - hdr.length) (by omega)]
      congr 2
      omega
  have hne : body' ≠ body := by
    intro he
    apply D.changed
    apply List.ext_getElem?
    intro i
    by_cases hi : ∀ t, t < k → i ≠ dataOffset p (hdr.length + h + t)
    · exact D.outside i hi
    · have ⟨t, ht, hit⟩ : ∃ t, t < k ∧ i = dataOffset p (hdr.length + h + t) := by
        apply Classical.byContradiction
        intro hc
        exact hi fun t ht he => hc ⟨t, ht, he⟩
      rw [hit, hget _ (by rw [List.length_append]; omega), Nat.add_assoc, hval (h + t) (by omega), ← hb' (h + t) (by omega), he,
        List.getElem?_append_right (by omega)]
      congr 1
      omega
  refine ⟨body', hbl, hst', body.take h, (body.drop h).take k, (body'.drop h).take k, body.drop (h + k), ?_, ?_, ?_, ?_, ?_⟩
  · rw [List.append_assoc, ← List.drop_drop, List.take_append_drop, List.take_append_drop]
  · have h1 : body.take h = body'.take h := by
      apply List.ext_getElem?
      intro i
      by_cases hi : i < h
      · rw [List.getElem?_take_of_lt hi, List.getElem?_take_of_lt hi]
        exact (hout i (by omega) (.inl hi)).symm
      · rw [List.getElem?_eq_none (by simp; omega), List.getElem?_eq_none (by simp; omega)]
    have h2 : body.drop (h + k) = body'.drop (h + k) := by
      apply List.ext_getElem?
      intro i
      rw [List.getElem?_drop, List.getElem?_drop]
      by_cases hi : h + k + i < body.length
      · exact (hout _ hi (.inr (by omega))).symm
      · rw [List.getElem?_eq_none (by omega), List.getElem?_eq_none (by omega)]
    rw [h1, h2, List.append_assoc, ← List.drop_drop, List.take_append_drop, List.take_append_drop]
  · simp [hbl]
  · simp; omega
  · intro he
    apply hne
    apply List.ext_getElem?
    intro i
    by_cases hi : i < body.length
    · by_cases ho : i < h ∨ h + k ≤ i
      · exact hout i hi ho
      · have := congrArg (fun l : Bytes => l[i - h]?) he
        rw [List.getElem?_take_of_lt (by omega), List.getElem?_take_of_lt (by omega), List.getElem?_drop, List.getElem?_drop,
          show h + (i - h) = i by omega] at this
        exact this.symm
    · rw [List.getElem?_eq_none (by omega), List.getElem?_eq_none (by omega)]

theorem cksum_burst {E : Env} {mode : CrcMode} (hE : ChecksumIsCrc E mode) (u a b v : Bytes) (hl : a.length = b.length)
    (h4 : a.length ≤ 4) (hab : a ≠ b) :
    integrityCheck E (u ++ b ++ v) (cksum E mode (u ++ a ++ v)).toNat mode = false := by
  cases hE with
  | inl h =>
    obtain ⟨rfl, h⟩ := h
    simp only [integrityCheck, cksum, h]
    have : hashCrc32 (u ++ a ++ v) ≠ hashCrc32 (u ++ b ++ v) := by
      intro he
      have he := congrArg UInt32.toBitVec he
      rw [hashCrc32_spec, hashCrc32_spec] at he
      exact crc_burst (by decide) u a b v hl h4 hab he
    simp only [beq_eq_false_iff_ne, ne_eq]
    exact fun he => this (UInt32.toNat_inj.mp he)
  | inr h =>
    obtain ⟨rfl, h⟩ := h
    simp only [integrityCheck, cksum]
    have : E.crc32c (u ++ a ++ v) ≠ E.crc32c (u ++ b ++ v) := by
      intro he
      have he := congrArg UInt32.toBitVec he
      rw [h, h] at he
      exact crc_burst (by decide) u a b v hl h4 hab he
    simp only [beq_eq_false_iff_ne, ne_eq]
    exact fun he => this (UInt32.toNat_inj.mp he)

theorem ChecksumIsCrc.ne {E : Env} {mode : CrcMode} (hE : ChecksumIsCrc E mode) : mode ≠ .unknown := by
  cases hE with
  | inl h => rw [h.1]; decide
  | inr h => rw [h.1]; decide

/-- Reading a body that does not match the checksum. -/
theorem readBody_bad {E : Env} {mode : CrcMode} {p n q c : Nat} {b : Bytes} {f : File} (hn : n = b.length)
    (hst : b ≠ [] → Stored f.disk p b q) (hbad : integrityCheck E b c mode = false) :
    Sp (do
      let (buf, _) ← readSkip p n
      if integrityCheck E buf c mode then pure buf else throw .checksumFail) f
      (fun _ _ => False) (fun e _ => e = .checksumFail ∨ f.faults ≠ []) := by
  have hread : Sp (readSkip p n) f (fun x g' => x.1 = b ∧ RFrame f g') (FailR f) := by
    by_cases hz : b = []
    · subst hz
      subst hn
      show Sp (readSkipLoop 0 _ 0 []) f _ _
      exact ⟨rfl, RFrame.refl _⟩
    · refine (readSkip_spec p _ q _ f hn (hst hz)).mono ?_ ?_
      · rintro x g' ⟨rfl, h⟩; exact ⟨rfl, h⟩
      · exact fun _ _ h => h
  apply Sp.bind' hread
  · rintro ⟨buf, p2⟩ g' ⟨rfl, hrf'⟩
    simp only
    rw [hbad]
    exact .inl rfl
  · rintro e g' ⟨h1, h2⟩; exact .inr h2

theorem preadBin_bad {E : Env} {pos c q : Nat} {b : Bytes} {f : File} (hc : f.cfg.cipher = none) (hb : b.length < 2 ^ 31)
    (hcl : c < 2 ^ 32) (hst : Stored f.disk pos ((enc32 (b.length + 2 ^ 31) ++ enc32 c) ++ b) q)
    (hbad : integrityCheck E b c f.cfg.crcMode = false) :
    Sp (preadBin E pos) f (fun _ _ => False) (fun e _ => e = .checksumFail ∨ f.faults ≠ []) := by
  unfold preadBin
  apply Sp.get_bind
  rw [hc]
  simp only
  obtain ⟨r, hs1, hs2⟩ := hst.split
  unfold preadPlain
  apply Sp.get_bind
  apply Sp.bind' (readSkip_spec pos _ r 8 f (by simp) hs1)
  · rintro ⟨h8, p1⟩ g ⟨he, hrf⟩
    simp only [Prod.mk.injEq] at he
    obtain ⟨rfl, rfl⟩ := he
    simp only
    rw [List.take_left' (by simp), List.drop_left' (by simp), beDec_beEnc 4 _ (by omega),
      beDec_beEnc 4 _ (by omega), if_neg (by omega),
      show (b.length + 2 ^ 31) % 2 ^ 31 = b.length by omega]
    refine (readBody_bad (p := skipP r) (q := q) (f := g) rfl (fun hz => by rw [hrf.disk]; exact hs2.to_skip hz) hbad).mono
      (fun _ _ h => h) ?_
    rintro e g' (h | h)
    · exact .inl h
    · exact .inr (hrf.faults_ne h)
  · rintro e g ⟨_, h⟩
    exact .inr h

theorem preadHeader_bad {E : Env} {pos mx c q : Nat} {b : Bytes} {f : File} (hmx : mx ≠ 0) (hb : b.length + 4 ≤ mx)
    (hb31 : b.length + 4 < 2 ^ 31) (hcl : c < 2 ^ 32) (hst : Stored f.disk (pos + 1) ((enc32 (b.length + 4) ++ enc32 c) ++ b) q)
    (hbad : integrityCheck E b c f.cfg.crcMode = false) :
    Sp (preadHeader E pos mx) f (fun _ _ => False) (fun e _ => e = .checksumFail ∨ f.faults ≠ []) := by
  unfold preadHeader
  rw [if_neg hmx]
  apply Sp.get_bind
  obtain ⟨r, hs1, hs2⟩ := hst.split
  apply Sp.bind' (readSkip_spec (pos + 1) _ r 8 f (by simp) hs1)
  · rintro ⟨h8, p1⟩ g ⟨he, hrf⟩
    simp only [Prod.mk.injEq] at he
    obtain ⟨rfl, rfl⟩ := he
    simp only
    rw [List.take_left' (by simp), List.drop_left' (by simp), beDec_beEnc 4 _ (by omega),
      beDec_beEnc 4 _ (by omega), if_neg (by omega), if_neg (by omega)]
    refine (readBody_bad (p := skipP r) (q := q) (f := g) (by omega) (fun hz => by rw [hrf.disk]; exact hs2.to_skip hz) hbad).mono
      (fun _ _ h => h) ?_
    rintro e g' (h | h)
    · exact .inl h
    · exact .inr (hrf.faults_ne h)
  · rintro e g ⟨_, h⟩
    exact .inr h

end Couchstore
