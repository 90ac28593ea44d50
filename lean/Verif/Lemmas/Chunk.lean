import Verif.Lemmas.Disk

/-! Helper lemmas: appended chunks can be read back. -/

namespace Couchstore

/-- Invariant of an open file: the append position is inside the file and the checksum mode is
decided. -/
structure File.WF (f : File) : Prop where
  pos_le : f.pos ≤ f.disk.length
  crc : f.cfg.crcMode ≠ .unknown

/-- The checksum written in a file with settings `c`. -/
def cksum (E : Env) (m : CrcMode) (b : Bytes) : UInt32 :=
  match m with
  | .crc32 => E.crc32 b
  | _ => E.crc32c b

/-- The bytes that represent `b` as a chunk starting at `pos`. -/
def chunkBytes (E : Env) (c : Cfg) (pos : Nat) (b : Bytes) : Bytes :=
  match c.cipher with
  | some k =>
    let (ct, mac) := E.encrypt k (offset2nonce pos) b
    enc32 (b.length + E.macSize) ++ (ct ++ mac)
  | none => (enc32 (b.length + 2 ^ 31) ++ enc32 (cksum E c.crcMode b).toNat) ++ b

/-- `b` is small enough to be a chunk. -/
def ChunkFits (E : Env) (c : Cfg) (b : Bytes) : Prop :=
  match c.cipher with
  | some _ => b.length + E.macSize < 2 ^ 31
  | none => b.length < 2 ^ 31

/-- The committed-to part of the file (before the append position) holds chunk `b` at `pos`. -/
def ChunkAt (E : Env) (f : File) (pos : Nat) (b : Bytes) : Prop :=
  ChunkFits E f.cfg b ∧ pos < 2 ^ 47 ∧
    ∃ q, q ≤ f.pos ∧ Stored f.disk pos (chunkBytes E f.cfg pos b) q

/-- Appending: everything before the old append position is kept. -/
structure Ext (f f' : File) : Prop where
  frame : Frame btData f.pos f f'
  pos : f.pos ≤ f'.pos
  wf : f.WF → f'.WF

theorem Ext.refl (f : File) : Ext f f := ⟨Frame.refl _ _ _, Nat.le_refl _, id⟩

theorem Ext.trans {f g h : File} (a : Ext f g) (b : Ext g h) : Ext f h :=
  ⟨a.frame.trans (b.frame.mono a.pos), Nat.le_trans a.pos b.pos, fun w => b.wf (a.wf w)⟩

theorem Ext.faults_ne {f g : File} (h : Ext f g) (hg : g.faults ≠ []) : f.faults ≠ [] :=
  h.frame.faults_ne hg

theorem RFrame.wf {f g : File} (a : RFrame f g) (w : f.WF) : g.WF :=
  ⟨by rw [a.pos, a.disk]; exact w.pos_le, by rw [a.cfg]; exact w.crc⟩

theorem RFrame.nil {f g : File} (h : RFrame f g) (hf : f.faults = []) : g.faults = [] := by
  have := h.1
  rw [hf] at this
  exact List.suffix_nil.mp this

theorem RFrame.ext {f g : File} (a : RFrame f g) : Ext f g :=
  ⟨a.frame _ _, by rw [a.pos]; exact Nat.le_refl _, a.wf⟩

theorem chunkBytes_length_pos (E : Env) (c : Cfg) (pos : Nat) (b : Bytes) :
    4 ≤ (chunkBytes E c pos b).length := by
  unfold chunkBytes
  split <;> simp <;> omega

theorem ChunkAt.lt {E f pos b} (h : ChunkAt E f pos b) : pos < f.pos := by
  obtain ⟨_, _, q, hq, hs⟩ := h
  have := hs.le
  have := chunkBytes_length_pos E f.cfg pos b
  omega

theorem ChunkAt.frame {E f f' pos b t lo} (h : ChunkAt E f pos b) (w : f.pos ≤ f.disk.length)
    (hf : Frame t lo f f') (hlo : f.pos ≤ lo) (hp : f.pos ≤ f'.pos) : ChunkAt E f' pos b := by
  obtain ⟨h1, h2, q, hq, hs⟩ := h
  refine ⟨by rw [hf.cfg]; exact h1, h2, q, by omega, ?_⟩
  rw [hf.cfg]
  exact hs.congr (fun i _ hi => hf.agree i (by omega) (by omega))

theorem ChunkAt.ext {E f f' pos b} (h : ChunkAt E f pos b) (w : f.WF) (e : Ext f f') :
    ChunkAt E f' pos b := h.frame w.pos_le e.frame (Nat.le_refl _) e.pos

/-- Only the bytes before the append position and the settings matter. -/
theorem ChunkAt.of_agree {E f f' pos b} (h : ChunkAt E f pos b)
    (hd : ∀ i, i < f.pos → f'.disk[i]? = f.disk[i]?) (hc : f'.cfg = f.cfg)
    (hp : f.pos ≤ f'.pos) : ChunkAt E f' pos b := by
  obtain ⟨h1, h2, q, hq, hs⟩ := h
  refine ⟨by rw [hc]; exact h1, h2, q, by omega, ?_⟩
  rw [hc]
  exact hs.congr (fun i _ hi => hd i (by omega))

theorem offset2nonce_le (p : Nat) : p ≤ offset2nonce p := by unfold offset2nonce; split <;> omega

theorem getChecksum_spec (E : Env) (b : Bytes) (m : CrcMode) (f : File) (h : m ≠ .unknown) :
    Sp (getChecksum E b m) f (fun r g => r = cksum E m b ∧ g = f) (fun _ _ => False) := by
  cases m with
  | unknown => exact absurd rfl h
  | crc32 => exact ⟨rfl, rfl⟩
  | crc32c => exact ⟨rfl, rfl⟩

/-- What a failing append guarantees. -/
def FailExt (f : File) (e : Err) (g : File) : Prop :=
  Ext f g ∧ g.pos = f.pos ∧ (f.faults ≠ [] ∨ e = .formatLimit)

theorem frame_ext_same {f g : File} (h : Frame btData f.pos f g) (hp : g.pos = f.pos) : Ext f g :=
  ⟨h, by omega, fun w => ⟨by have := h.len; have := w.pos_le; omega, by rw [h.cfg]; exact w.crc⟩⟩

theorem dbWriteBuf_spec (E : Env) (b : Bytes) (f : File) (w : f.WF) :
    Sp (dbWriteBuf E b) f
      (fun r g => Ext f g ∧ r.1 = f.pos ∧ f.pos < g.pos ∧ ChunkAt E g f.pos b ∧
        (∀ i, f.pos ≤ i → i < g.pos → i % blockSize = 0 → g.disk[i]? = some btData) ∧
        r.2 = (chunkBytes E f.cfg f.pos b).length)
      (fun e g => FailExt f e g) := by
  unfold dbWriteBuf
  apply Sp.get_bind
  cases hc : f.cfg.cipher with
  | some k =>
    simp only
    unfold writeEncrypted
    apply Sp.get_bind
    dsimp only
    split
    · exact ⟨Ext.refl _, rfl, Or.inr rfl⟩
    · rename_i hlim
      apply Sp.bind
      show Sp _ { f with log := .encrypted k (offset2nonce f.pos) b :: f.log } _ _
      have hcb : chunkBytes E f.cfg f.pos b = enc32 (b.length + E.macSize) ++
          ((E.encrypt k (offset2nonce f.pos) b).1 ++ (E.encrypt k (offset2nonce f.pos) b).2) := by
        unfold chunkBytes; rw [hc]
      rw [← hcb]
      have hfr0 : Frame btData f.pos f { f with log := .encrypted k (offset2nonce f.pos) b :: f.log } :=
        ⟨fun _ _ _ => rfl, Nat.le_refl _, rfl, List.suffix_refl _,
          [.encrypted k (offset2nonce f.pos) b], rfl, by
            intro e he; simp at he; subst he; exact offset2nonce_le _, rfl⟩
      apply Sp.bind' (rawWrite_spec btData (chunkBytes E f.cfg f.pos b) f.pos _)
      · rintro n g ⟨hfr, hpos, hst, hlen, hpre⟩
        have hne : chunkBytes E f.cfg f.pos b ≠ [] := by
          intro h0; have := chunkBytes_length_pos E f.cfg f.pos b; rw [h0] at this; simp at this
        have hle := hst.le
        have h4 := chunkBytes_length_pos E f.cfg f.pos b
        have hfr1 := hfr0.trans hfr
        refine ⟨⟨?_, ?_, ?_⟩, rfl, ?_, ?_, hpre, rfl⟩
        · exact ⟨hfr1.agree, hfr1.len, hfr1.cfg, hfr1.faults, hfr1.log⟩
        · show f.pos ≤ f.pos + n; omega
        · intro w; exact ⟨hlen hne, by show g.cfg.crcMode ≠ _; rw [hfr1.cfg]; exact w.crc⟩
        · show f.pos < f.pos + n; omega
        · refine ⟨?_, by omega, f.pos + n, Nat.le_refl _, ?_⟩
          · show ChunkFits E g.cfg b; rw [hfr1.cfg]; unfold ChunkFits; rw [hc]; simp only; omega
          · show Stored g.disk f.pos (chunkBytes E g.cfg f.pos b) _; rw [hfr1.cfg]; exact hst
      · rintro e g ⟨hfr, hpos, hne⟩
        exact ⟨frame_ext_same (hfr0.trans hfr) hpos, hpos, Or.inl hne⟩
  | none =>
    simp only
    split
    · exact ⟨Ext.refl _, rfl, Or.inr rfl⟩
    · rename_i hlim
      apply Sp.bind' (getChecksum_spec E b f.cfg.crcMode f w.crc)
      · rintro crc g ⟨rfl, rfl⟩
        generalize hh : enc32 (b.length + 2 ^ 31) ++ enc32 (cksum E g.cfg.crcMode b).toNat = hdr
        have hhl : hdr.length = 8 := by rw [← hh]; simp
        have hcb : chunkBytes E g.cfg g.pos b = hdr ++ b := by
          unfold chunkBytes; rw [hc]; simp only [hh]
        have hhne : hdr ≠ [] := by intro h0; rw [h0] at hhl; simp at hhl
        apply Sp.bind' (rawWrite_spec btData hdr g.pos g)
        · rintro w1 g1 ⟨hfr1, hpos1, hst1, hlen1, hpre1⟩
          have hle1 := hst1.le
          apply Sp.bind' (rawWrite_spec btData b (g.pos + w1) g1)
          · rintro w2 g2 ⟨hfr2, hpos2, hst2, hlen2, hpre2⟩
            have hfr := hfr1.trans (hfr2.mono (by omega))
            have hst1' : Stored g2.disk g.pos hdr (g.pos + w1) :=
              hst1.congr (fun i _ hi => hfr2.agree i hi (by have := hlen1 hhne; omega))
            have hlen : g.pos + w1 + w2 ≤ g2.disk.length := by
              by_cases hb : b = []
              · subst hb
                simp [Stored] at hst2
                have := hlen1 hhne
                have := hfr2.len
                omega
              · exact hlen2 hb
            refine ⟨⟨?_, ?_, ?_⟩, rfl, ?_, ?_, ?_, ?_⟩
            · exact ⟨hfr.agree, hfr.len, hfr.cfg, hfr.faults, hfr.log⟩
            · show g.pos ≤ g.pos + w1 + w2; omega
            · intro w; exact ⟨hlen, by show g2.cfg.crcMode ≠ _; rw [hfr.cfg]; exact w.crc⟩
            · show g.pos < g.pos + w1 + w2; omega
            · refine ⟨?_, by omega, g.pos + w1 + w2, Nat.le_refl _, ?_⟩
              · show ChunkFits E g2.cfg b; rw [hfr.cfg]; unfold ChunkFits; rw [hc]; simp only; omega
              · show Stored g2.disk g.pos (chunkBytes E g2.cfg g.pos b) _
                rw [hfr.cfg, hcb]; exact hst1'.append hst2
            · show ∀ i, g.pos ≤ i → i < g.pos + w1 + w2 → _
              intro i hi1 hi2 hm
              by_cases hi : i < g.pos + w1
              · show g2.disk[i]? = _
                rw [hfr2.agree i hi (by have := hlen1 hhne; omega)]
                exact hpre1 i hi1 hi hm
              · exact hpre2 i (by omega) hi2 hm
            · rw [hcb]; simp
          · rintro e g2 ⟨hfr2, hpos2, hne⟩
            have hfr := hfr1.trans (hfr2.mono (by omega))
            exact ⟨frame_ext_same hfr (by omega), by omega, Or.inl (hfr1.faults_ne hne)⟩
        · rintro e g1 ⟨hfr1, hpos1, hne⟩
          exact ⟨frame_ext_same hfr1 hpos1, hpos1, Or.inl hne⟩
      · intro _ _ h; exact h.elim

theorem integrityCheck_cksum (E : Env) (b : Bytes) (m : CrcMode) (h : m ≠ .unknown) :
    integrityCheck E b (cksum E m b).toNat m = true := by
  cases m with
  | unknown => exact absurd rfl h
  | crc32 => simp [integrityCheck, cksum]
  | crc32c => simp [integrityCheck, cksum]

/-- What a failing read guarantees: nothing changed, and some raw operation misbehaved. -/
def FailR (f : File) (_ : Err) (g : File) : Prop := RFrame f g ∧ f.faults ≠ []

theorem preadBin_spec (E : Env) (L : E.Laws) (pos : Nat) (b : Bytes) (f : File)
    (hcrc : f.cfg.crcMode ≠ .unknown) (h : ChunkAt E f pos b) :
    Sp (preadBin E pos) f (fun r g => r = b ∧ RFrame f g) (FailR f) := by
  obtain ⟨hfit, hp, q, hq, hst⟩ := h
  unfold preadBin
  apply Sp.get_bind
  cases hc : f.cfg.cipher with
  | some k =>
    simp only
    unfold ChunkFits at hfit
    unfold chunkBytes at hst
    rw [hc] at hfit hst
    simp only at hfit hst
    obtain ⟨r, hs1, hs2⟩ := hst.split
    unfold preadEncrypted
    have hcl := L.cipher_length k (offset2nonce pos) b
    have hml := L.mac_length k (offset2nonce pos) b
    apply Sp.bind' (readSkip_spec pos _ r 4 f (by simp) hs1)
    · rintro ⟨h4, p1⟩ g ⟨he, hrf⟩
      simp only [Prod.mk.injEq] at he
      obtain ⟨rfl, rfl⟩ := he
      simp only
      rw [beDec_beEnc 4 _ (by omega), if_neg (by omega)]
      have hread : Sp (readSkip (skipP r) (b.length + E.macSize)) g
          (fun x g' => x.1 = (E.encrypt k (offset2nonce pos) b).1 ++ (E.encrypt k (offset2nonce pos) b).2
            ∧ RFrame g g') (FailR g) := by
        by_cases hz : (E.encrypt k (offset2nonce pos) b).1 ++ (E.encrypt k (offset2nonce pos) b).2 = []
        · have hl0 : b.length + E.macSize = 0 := by
            have := congrArg List.length hz
            rw [List.length_append, hcl, hml] at this; simpa using this
          rw [hl0, hz]
          show Sp (readSkipLoop 0 _ 0 []) g _ _
          exact ⟨rfl, RFrame.refl _⟩
        · refine (readSkip_spec (skipP r) ((E.encrypt k (offset2nonce pos) b).1 ++
            (E.encrypt k (offset2nonce pos) b).2) q _ g (by rw [List.length_append, hcl, hml])
            (by rw [hrf.disk]; exact hs2.to_skip hz)).mono ?_ ?_
          · rintro x g' ⟨rfl, h⟩; exact ⟨rfl, h⟩
          · exact fun _ _ h => h
      apply Sp.bind' hread
      · rintro ⟨buf, p2⟩ g' ⟨rfl, hrf'⟩
        simp only
        rw [show b.length + E.macSize - E.macSize = (E.encrypt k (offset2nonce pos) b).1.length by
          rw [hcl]; omega, List.take_left', List.drop_left', L.decrypt_encrypt]
        · exact ⟨rfl, hrf.trans hrf'⟩
        · rfl
        · rfl
      · rintro e g' ⟨h1, h2⟩; exact ⟨hrf.trans h1, hrf.faults_ne h2⟩
    · exact fun _ _ h => h
  | none =>
    simp only
    unfold ChunkFits at hfit
    unfold chunkBytes at hst
    rw [hc] at hfit hst
    simp only at hfit hst
    obtain ⟨r, hs1, hs2⟩ := hst.split
    unfold preadPlain
    apply Sp.get_bind
    apply Sp.bind' (readSkip_spec pos _ r 8 f (by simp) hs1)
    · rintro ⟨h8, p1⟩ g ⟨he, hrf⟩
      simp only [Prod.mk.injEq] at he
      obtain ⟨rfl, rfl⟩ := he
      simp only
      rw [List.take_left' (by simp), List.drop_left' (by simp), beDec_beEnc 4 _ (by omega),
        beDec_beEnc 4 _ (by have := (cksum E f.cfg.crcMode b).toNat_lt; omega), if_neg (by omega),
        show (b.length + 2 ^ 31) % 2 ^ 31 = b.length by omega]
      have hread : Sp (readSkip (skipP r) b.length) g (fun x g' => x.1 = b ∧ RFrame g g') (FailR g) := by
        by_cases hz : b = []
        · subst hz
          show Sp (readSkipLoop 0 _ 0 []) g _ _
          exact ⟨rfl, RFrame.refl _⟩
        · refine (readSkip_spec (skipP r) _ q _ g rfl
            (by rw [hrf.disk]; exact hs2.to_skip hz)).mono ?_ ?_
          · rintro x g' ⟨rfl, h⟩; exact ⟨rfl, h⟩
          · exact fun _ _ h => h
      apply Sp.bind' hread
      · rintro ⟨buf, p2⟩ g' ⟨rfl, hrf'⟩
        simp only
        rw [integrityCheck_cksum _ _ _ hcrc]
        exact ⟨rfl, hrf.trans hrf'⟩
      · rintro e g' ⟨h1, h2⟩; exact ⟨hrf.trans h1, hrf.faults_ne h2⟩
    · exact fun _ _ h => h

theorem preadBin_rframe (E : Env) (pos : Nat) (f : File) :
    Sp (preadBin E pos) f (fun _ g => RFrame f g) (fun _ g => RFrame f g) := by
  unfold preadBin
  apply Sp.get_bind
  split
  · unfold preadEncrypted
    apply Sp.bind' (readSkip_rframe _ _ f)
    · rintro ⟨h, p1⟩ g hg
      simp only
      split
      · exact hg
      · apply Sp.bind' (readSkip_rframe _ _ g)
        · rintro ⟨h, p1⟩ g' hg'
          simp only
          split <;> exact hg.trans hg'
        · intro _ _ h; exact hg.trans h
    · exact fun _ _ h => h
  · unfold preadPlain
    apply Sp.get_bind
    apply Sp.bind' (readSkip_rframe _ _ f)
    · rintro ⟨h, p1⟩ g hg
      simp only
      split
      · exact hg
      · apply Sp.bind' (readSkip_rframe _ _ g)
        · rintro ⟨h, p1⟩ g' hg'
          simp only
          split <;> exact hg.trans hg'
        · intro _ _ h; exact hg.trans h
    · exact fun _ _ h => h

/-- A compressed chunk. -/
def ZChunkAt (E : Env) (f : File) (pos : Nat) (b : Bytes) : Prop := ChunkAt E f pos (E.deflate b)

theorem preadCompressed_spec (E : Env) (L : E.Laws) (pos : Nat) (b : Bytes) (f : File)
    (hcrc : f.cfg.crcMode ≠ .unknown) (h : ZChunkAt E f pos b) :
    Sp (preadCompressed E pos) f (fun r g => r = b ∧ RFrame f g) (FailR f) := by
  unfold preadCompressed
  apply Sp.bind' (preadBin_spec E L pos _ f hcrc h)
  · rintro c g ⟨rfl, hrf⟩
    rw [L.inflate_deflate]
    exact ⟨rfl, hrf⟩
  · exact fun _ _ h => h

theorem preadCompressed_rframe (E : Env) (pos : Nat) (f : File) :
    Sp (preadCompressed E pos) f (fun _ g => RFrame f g) (fun _ g => RFrame f g) := by
  unfold preadCompressed
  apply Sp.bind' (preadBin_rframe E pos f)
  · intro c g hg
    split <;> exact hg
  · exact fun _ _ h => h

theorem dbWriteBufCompressed_spec (E : Env) (b : Bytes) (f : File) (w : f.WF) :
    Sp (dbWriteBufCompressed E b) f
      (fun r g => Ext f g ∧ r.1 = f.pos ∧ f.pos < g.pos ∧ ZChunkAt E g f.pos b ∧
        (∀ i, f.pos ≤ i → i < g.pos → i % blockSize = 0 → g.disk[i]? = some btData) ∧
        r.2 = (chunkBytes E f.cfg f.pos (E.deflate b)).length)
      (fun e g => FailExt f e g) := dbWriteBuf_spec E (E.deflate b) f w

/-! ### Headers -/

/-- The bytes after the block prefix of a header with body `b`. -/
def headerChunk (E : Env) (m : CrcMode) (b : Bytes) : Bytes :=
  (enc32 (b.length + 4) ++ enc32 (cksum E m b).toNat) ++ b

theorem alignToNextBlock_ge (p : Nat) : p ≤ alignToNextBlock p := by
  unfold alignToNextBlock blockSize; split <;> omega

theorem alignToNextBlock_mod (p : Nat) : alignToNextBlock p % blockSize = 0 := by
  unfold alignToNextBlock blockSize; split <;> omega

theorem writeHeader_spec (E : Env) (t : UInt8) (b : Bytes) (f : File) (w : f.WF) :
    Sp (writeHeader E t b) f
      (fun r g => r = alignToNextBlock f.pos ∧ Frame t r f g ∧ r < g.pos ∧ g.WF ∧
        g.disk[r]? = some t ∧ Stored g.disk (r + 1) (headerChunk E f.cfg.crcMode b) g.pos ∧
        (∀ i, r ≤ i → i < g.pos → i % blockSize = 0 → g.disk[i]? = some t))
      (fun e g => Frame t (alignToNextBlock f.pos) f g ∧ g.pos = f.pos ∧
        (f.faults ≠ [] ∨ e = .formatLimit)) := by
  unfold writeHeader
  apply Sp.get_bind
  have hmod := alignToNextBlock_mod f.pos
  generalize hP : alignToNextBlock f.pos = P at *
  split
  · exact ⟨Frame.refl _ _ _, rfl, Or.inr rfl⟩
  · rename_i hlim
    apply Sp.bind' (getChecksum_spec E b f.cfg.crcMode f w.crc)
    · rintro crc g ⟨rfl, rfl⟩
      generalize hh : enc32 (b.length + 4) ++ enc32 (cksum E g.cfg.crcMode b).toNat = hdr
      have hhl : hdr.length = 8 := by rw [← hh]; simp
      apply Sp.bind' (writeEntire_spec t (t :: hdr) P g (by
        intro i hi x hx
        cases i with
        | zero => simp at hx; exact hx.symm
        | succ i =>
          have := (List.getElem?_eq_some_iff.mp hx).1
          simp only [List.length_cons, hhl] at this
          unfold blockSize at *; omega))
      · rintro _ g1 ⟨hfr1, hpos1, hd1⟩
        have hl1 : P + 9 ≤ g1.disk.length := by
          have h8 := hd1 8 (by simp [hhl])
          have hs : (t :: hdr)[8]? = some ((t :: hdr)[8]'(by simp [hhl])) := List.getElem?_eq_getElem _
          rw [hs, List.getElem?_eq_some_iff] at h8
          have := h8.1; omega
        apply Sp.bind' (rawWrite_spec t b (P + 9) g1)
        · rintro n g2 ⟨hfr2, hpos2, hst2, hlen2, hpre2⟩
          have hfr := hfr1.trans (hfr2.mono (by omega))
          have hd2 : ∀ i, i < 9 → g2.disk[P + i]? = (t :: hdr)[i]? := by
            intro i hi
            rw [hfr2.agree _ (by omega) (by omega)]
            exact hd1 i (by simp [hhl]; omega)
          have hst1 : Stored g2.disk (P + 1) hdr (P + 9) := by
            have := stored_block (d := g2.disk) (bs := hdr) (p := P + 1)
              (by rw [hhl]; unfold blockSize at *; omega) (by unfold blockSize at *; omega)
              (fun i hi => by
                have := hd2 (i + 1) (by omega)
                rw [show P + 1 + i = P + (i + 1) by omega, this]; simp)
            rwa [hhl] at this
          have hlen : P + 9 + n ≤ g2.disk.length := by
            by_cases hb : b = []
            · subst hb
              simp [Stored] at hst2
              have := hfr2.len
              omega
            · exact hlen2 hb
          refine ⟨rfl, ?_, ?_, ?_, ?_, ?_, ?_⟩
          · exact ⟨hfr.agree, hfr.len, hfr.cfg, hfr.faults, hfr.log⟩
          · show P < P + 9 + n; omega
          · exact ⟨hlen, by show g2.cfg.crcMode ≠ _; rw [hfr.cfg]; exact w.crc⟩
          · have := hd2 0 (by omega); simpa using this
          · show Stored g2.disk (P + 1) (headerChunk E g.cfg.crcMode b) (P + 9 + n)
            unfold headerChunk; rw [hh]; exact hst1.append hst2
          · show ∀ i, P ≤ i → i < P + 9 + n → _
            intro i hi1 hi2 hm
            show g2.disk[i]? = _
            by_cases hi : i < P + 9
            · have : i = P := by unfold blockSize at *; omega
              subst this
              have := hd2 0 (by omega); simpa using this
            · exact hpre2 i (by omega) hi2 hm
        · rintro e g2 ⟨hfr2, hpos2, hne⟩
          exact ⟨hfr1.trans (hfr2.mono (by omega)), by omega, Or.inl (hfr1.faults_ne hne)⟩
      · rintro e g1 ⟨hfr1, hpos1, hne⟩
        exact ⟨hfr1, hpos1, Or.inl hne⟩
    · intro _ _ h; exact h.elim

theorem preadHeader_spec' (E : Env) (pos q mx : Nat) (b : Bytes) (f : File) (m : CrcMode)
    (hcrc : m ≠ .unknown) (hm : f.cfg.crcMode = m ∨ f.cfg.crcMode = .unknown) (hmx : b.length + 4 ≤ mx) (hl : b.length + 4 < 2 ^ 31)
    (h : Stored f.disk (pos + 1) (headerChunk E m b) q) :
    Sp (preadHeader E pos mx) f (fun r g => r = b ∧ RFrame f g) (FailR f) := by
  unfold preadHeader
  rw [if_neg (by omega)]
  apply Sp.get_bind
  unfold headerChunk at h
  obtain ⟨r, hs1, hs2⟩ := h.split
  apply Sp.bind' (readSkip_spec (pos + 1) _ r 8 f (by simp) hs1)
  · rintro ⟨h8, p1⟩ g ⟨he, hrf⟩
    simp only [Prod.mk.injEq] at he
    obtain ⟨rfl, rfl⟩ := he
    simp only
    rw [List.take_left' (by simp), List.drop_left' (by simp), beDec_beEnc 4 _ (by omega),
      beDec_beEnc 4 _ (by have := (cksum E m b).toNat_lt; omega), if_neg (by omega),
      if_neg (by omega), show b.length + 4 - 4 = b.length by omega]
    have hread : Sp (readSkip (skipP r) b.length) g (fun x g' => x.1 = b ∧ RFrame g g') (FailR g) := by
      by_cases hz : b = []
      · subst hz
        show Sp (readSkipLoop 0 _ 0 []) g _ _
        exact ⟨rfl, RFrame.refl _⟩
      · refine (readSkip_spec (skipP r) _ q _ g rfl
          (by rw [hrf.disk]; exact hs2.to_skip hz)).mono ?_ ?_
        · rintro x g' ⟨rfl, h⟩; exact ⟨rfl, h⟩
        · exact fun _ _ h => h
    apply Sp.bind' hread
    · rintro ⟨buf, p2⟩ g' ⟨rfl, hrf'⟩
      simp only
      rw [show integrityCheck E buf (cksum E m buf).toNat f.cfg.crcMode = true by
        rcases hm with hm | hm
        · rw [hm]; exact integrityCheck_cksum _ _ _ hcrc
        · rw [hm]; cases m <;> simp_all [integrityCheck, cksum]]
      exact ⟨rfl, hrf.trans hrf'⟩
    · rintro e g' ⟨h1, h2⟩; exact ⟨hrf.trans h1, hrf.faults_ne h2⟩
  · exact fun _ _ h => h

theorem preadHeader_spec (E : Env) (pos q mx : Nat) (b : Bytes) (f : File)
    (hcrc : f.cfg.crcMode ≠ .unknown) (hmx : b.length + 4 ≤ mx) (hl : b.length + 4 < 2 ^ 31)
    (h : Stored f.disk (pos + 1) (headerChunk E f.cfg.crcMode b) q) :
    Sp (preadHeader E pos mx) f (fun r g => r = b ∧ RFrame f g) (FailR f) :=
  preadHeader_spec' E pos q mx b f f.cfg.crcMode hcrc (Or.inl rfl) hmx hl h

theorem preadHeader_rframe (E : Env) (pos mx : Nat) (f : File) :
    Sp (preadHeader E pos mx) f (fun _ g => RFrame f g) (fun _ g => RFrame f g) := by
  unfold preadHeader
  split
  · exact RFrame.refl _
  · apply Sp.get_bind
    apply Sp.bind' (readSkip_rframe _ _ f)
    · rintro ⟨h, p1⟩ g hg
      simp only
      split
      · exact hg
      · split
        · exact hg
        · apply Sp.bind' (readSkip_rframe _ _ g)
          · rintro ⟨h, p1⟩ g' hg'
            simp only
            split <;> exact hg.trans hg'
          · intro _ _ h; exact hg.trans h
    · exact fun _ _ h => h

end Couchstore
