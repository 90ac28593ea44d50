import Verif.Lemmas.Nonce
import Verif.Spec.Env
import Verif.Spec.Append

/-! Property theorems C04 and the file-layer part of C05 and C35. -/

namespace Couchstore.Props

/-- `g` was reached from `f` by appending only. -/
def Later (f g : File) : Prop :=
  (∀ i, i < f.pos → g.disk[i]? = f.disk[i]?) ∧ f.pos ≤ g.pos ∧ g.cfg = f.cfg ∧ (f.WF → g.WF)

theorem Later.refl (f : File) : Later f f := ⟨fun _ _ => rfl, Nat.le_refl _, rfl, id⟩

theorem Later.trans {f g h : File} (a : Later f g) (b : Later g h) : Later f h :=
  ⟨fun i hi => (b.1 i (Nat.lt_of_lt_of_le hi a.2.1)).trans (a.1 i hi), Nat.le_trans a.2.1 b.2.1,
    b.2.2.1.trans a.2.2.1, fun w => b.2.2.2 (a.2.2.2 w)⟩

theorem later_ext {f g : File} (w : f.WF) (h : Ext f g) : Later f g :=
  ⟨fun i hi => h.frame.agree i hi (by have := w.pos_le; omega), h.pos, h.frame.cfg, h.wf⟩

theorem later_op (E : Env) (f : File) (w : f.WF) (op : AppendOp) : Later f (op.run E f) := by
  cases op with
  | buf b =>
    have h := dbWriteBuf_spec E b f w
    unfold Sp at h
    show Later f (match dbWriteBuf E b f with | .ok _ g => g | .error _ g => g)
    split <;> rename_i h' <;> rw [h'] at h
    · exact later_ext w h.1
    · exact later_ext w h.1
  | compressed b =>
    have h := dbWriteBufCompressed_spec E b f w
    unfold Sp at h
    show Later f (match dbWriteBufCompressed E b f with | .ok _ g => g | .error _ g => g)
    split <;> rename_i h' <;> rw [h'] at h
    · exact later_ext w h.1
    · exact later_ext w h.1
  | header t b =>
    have h := writeHeader_spec E t b f w
    unfold Sp at h
    show Later f (match writeHeader E t b f with | .ok _ g => g | .error _ g => g)
    have hge := alignToNextBlock_ge f.pos
    have hp := w.pos_le
    split <;> rename_i h' <;> rw [h'] at h
    · obtain ⟨rfl, hfr, hlt, hwf, -⟩ := h
      exact ⟨fun i hi => hfr.agree i (by omega) (by omega), by omega, hfr.cfg, fun _ => hwf⟩
    · obtain ⟨hfr, hpos, -⟩ := h
      exact ⟨fun i hi => hfr.agree i (by omega) (by omega), by omega, hfr.cfg,
        fun w => ⟨by have := hfr.len; omega, by rw [hfr.cfg]; exact w.crc⟩⟩

theorem later_ops (E : Env) (ops : List AppendOp) (f : File) (w : f.WF) :
    Later f (runAppends E f ops) := by
  induction ops generalizing f with
  | nil => exact Later.refl f
  | cons op ops ih =>
    have h1 := later_op E f w op
    exact h1.trans (ih _ (h1.2.2.2 w))

theorem readsAs_of {m : M Bytes} {f : File} {b : Bytes}
    (h : Sp m f (fun r g => r = b ∧ RFrame f g) (FailR f)) : ReadsAs m f b := by
  refine ⟨fun r g hr => (h.ok hr).1, fun hf => ?_⟩
  cases hm : m f with
  | ok r g => have := (h.ok hm).1; subst this; exact ⟨g, rfl⟩
  | error e g => exact absurd hf (h.error hm).2

/-! ## C04 A buffer appended to the file reads back exactly from the position returned -/

/-- For every file, end position and buffer, with or without encryption: a successful append
returns a position from which the buffer reads back, after any further appends whatever their
outcome.  A read never returns anything else. -/
theorem C04_append_read (E : Env) (L : E.Laws) (f g : File) (w : f.WF) (b : Bytes)
    (pos size : Nat) (h : dbWriteBuf E b f = .ok (pos, size) g) (later : List AppendOp) :
    ReadsAs (preadBin E pos) (runAppends E g later) b := by
  obtain ⟨hext, rfl, -, hc, -⟩ := (dbWriteBuf_spec E b f w).ok h
  have hl := later_ops E later g (hext.wf w)
  exact readsAs_of (preadBin_spec E L _ b _ (hl.2.2.2 (hext.wf w)).crc
    (hc.of_agree hl.1 hl.2.2.1 hl.2.1))

/-- The same for compressed buffers. -/
theorem C04_append_read_compressed (E : Env) (L : E.Laws) (f g : File) (w : f.WF) (b : Bytes)
    (pos size : Nat) (h : dbWriteBufCompressed E b f = .ok (pos, size) g) (later : List AppendOp) :
    ReadsAs (preadCompressed E pos) (runAppends E g later) b := by
  obtain ⟨hext, rfl, -, hc, -⟩ := (dbWriteBufCompressed_spec E b f w).ok h
  have hl := later_ops E later g (hext.wf w)
  exact readsAs_of (preadCompressed_spec E L _ b _ (hl.2.2.2 (hext.wf w)).crc
    (hc.of_agree hl.1 hl.2.2.1 hl.2.1))

/-- The same for file headers, read with any sufficient size limit; a header always starts at
a block boundary and its block carries the given marker. -/
theorem C04_header_read (E : Env) (f g : File) (w : f.WF) (t : UInt8) (b : Bytes)
    (pos mx : Nat) (h : writeHeader E t b f = .ok pos g) (later : List AppendOp)
    (hmx : b.length + 4 ≤ mx) (hl : b.length + 4 < 2 ^ 31) :
    pos % 4096 = 0 ∧ f.pos ≤ pos ∧ (runAppends E g later).disk[pos]? = some t ∧
      ReadsAs (preadHeader E pos mx) (runAppends E g later) b := by
  obtain ⟨rfl, hfr, hlt, hwf, ht, hst, -⟩ := (writeHeader_spec E t b f w).ok h
  have hl' := later_ops E later g hwf
  refine ⟨alignToNextBlock_mod _, alignToNextBlock_ge _, by rw [hl'.1 _ hlt, ht], ?_⟩
  refine readsAs_of (preadHeader_spec E _ g.pos mx b _ (hl'.2.2.2 hwf).crc hmx hl ?_)
  rw [hl'.2.2.1, hfr.cfg]
  exact hst.congr (fun i _ hi => hl'.1 i hi)

/-- An append never fails unless a raw operation misbehaves or a format limit is exceeded. -/
theorem C04_append_total (E : Env) (f : File) (w : f.WF) (b : Bytes) (hf : f.faults = [])
    (hb : b.length + E.macSize < 2 ^ 31) (hp : f.pos < 2 ^ 47) :
    ∃ r g, dbWriteBuf E b f = .ok r g := by
  cases h : dbWriteBuf E b f with
  | ok r g => exact ⟨r, g, rfl⟩
  | error e g =>
    exfalso
    obtain ⟨-, -, h2 | h2⟩ := (dbWriteBuf_spec E b f w).error h
    · exact h2 hf
    · have hnl : Sp (dbWriteBuf E b) f (fun _ _ => True) (fun e _ => e ≠ .formatLimit) := by
        unfold dbWriteBuf
        apply Sp.get_bind
        cases hc : f.cfg.cipher with
        | some k =>
          simp only
          unfold writeEncrypted
          apply Sp.get_bind
          dsimp only
          rw [if_neg (by omega)]
          apply Sp.bind
          show Sp _ { f with log := .encrypted k (offset2nonce f.pos) b :: f.log } _ _
          refine Sp.bind' (rawWrite_spec btData _ f.pos _) (fun _ _ _ => trivial) ?_
          rintro e g ⟨_, _, h⟩; exact absurd hf h
        | none =>
          simp only
          rw [if_neg (by omega)]
          apply Sp.bind' (getChecksum_spec E b f.cfg.crcMode f w.crc)
          · rintro _ g ⟨rfl, rfl⟩
            apply Sp.bind' (rawWrite_spec btData _ g.pos g)
            · rintro n g1 ⟨hfr, -⟩
              refine Sp.bind' (rawWrite_spec btData _ _ g1) (fun _ _ _ => trivial) ?_
              rintro e g ⟨_, _, h⟩; exact absurd hf (hfr.faults_ne h)
            · rintro e g ⟨_, _, h⟩; exact absurd hf h
          · exact fun _ _ h => h.elim
      exact hnl.error h h2

/-- Non-vacuity: appending just before a block boundary in a plain file, then reading after
another append. -/
example : ∃ g, dbWriteBuf Env.toy [1, 2, 3] { File.empty with pos := 4090, disk := List.replicate 4090 9 }
      = .ok (4090, 11) g := by
  obtain ⟨⟨p, n⟩, g, h⟩ := C04_append_total Env.toy
    { File.empty with pos := 4090, disk := List.replicate 4090 9 }
    ⟨by rw [List.length_replicate]; exact Nat.le_refl _, by decide⟩ [1, 2, 3] rfl (by decide) (by decide)
  have h' := (dbWriteBuf_spec Env.toy _ _
    ⟨by rw [List.length_replicate]; exact Nat.le_refl _, by decide⟩).ok h
  have h1 : p = 4090 := h'.2.1
  have h2 : n = 11 := h'.2.2.2.2.2
  subst h1 h2
  exact ⟨g, h⟩

example : ReadsAs (preadBin Env.toy 0)
    (runAppends Env.toy ((AppendOp.buf [1, 2, 3]).run Env.toy File.emptyEnc)
      [.header 1 [5], .compressed [6, 6]]) [1, 2, 3] :=
  C04_append_read Env.toy Env.toy_laws File.emptyEnc _ ⟨by decide, by decide⟩ [1, 2, 3] 0 23 rfl _



/-! ## C35 Encryption never uses one nonce for two stored chunks -/

/-- The uses of the cipher (key, nonce, plaintext) between two states of one file. -/
def cipherUses (f g : File) : List (Nat × Nat × Bytes) :=
  (g.log.take (g.log.length - f.log.length)).filterMap fun
    | .encrypted k n b => some (k, n, b)
    | _ => none

theorem cipherUses_of {f g : File} {evs : List Event} {k n : Nat} {b : Bytes}
    (h : g.log = evs ++ .encrypted k n b :: f.log) (hw : ∀ e ∈ evs, ∃ off b, e = .write off b) :
    cipherUses f g = [(k, n, b)] := by
  unfold cipherUses
  rw [h, show (evs ++ Event.encrypted k n b :: f.log).length - f.log.length = evs.length + 1 by simp;omega,
    List.take_append, List.take_of_length_le (by omega), show evs.length + 1 - evs.length = 1 by omega,
    List.filterMap_append]
  have : evs.filterMap (fun | .encrypted k n b => some (k, n, b) | _ => (none : Option (Nat × Nat × Bytes))) = [] := by
    rw [List.filterMap_eq_nil_iff]
    intro e he
    obtain ⟨off, b, rfl⟩ := hw e he
    rfl
  rw [this]
  rfl

/-- Two chunks successfully stored in one encrypted file, with any appends in between, each
use the cipher exactly once, on their own plaintext, and with different nonces.  (That each
is decrypted with the nonce it was encrypted with is part of `C04_append_read`.) -/
theorem C35_nonce_unique (E : Env) (f g1 g2 : File) (w : f.WF) (k : Nat)
    (hk : f.cfg.cipher = some k) (b1 b2 : Bytes) (r1 r2 : Nat × Nat) (between : List AppendOp)
    (h1 : dbWriteBuf E b1 f = .ok r1 g1)
    (h2 : dbWriteBuf E b2 (runAppends E g1 between) = .ok r2 g2) :
    ∃ n1 n2, cipherUses f g1 = [(k, n1, b1)] ∧
      cipherUses (runAppends E g1 between) g2 = [(k, n2, b2)] ∧ n1 ≠ n2 := by
  have s1 := (dbWriteBuf_spec E b1 f w).ok h1
  have hl := later_ops E between g1 (s1.1.wf w)
  have hk2 : (runAppends E g1 between).cfg.cipher = some k := by
    rw [hl.2.2.1, s1.1.frame.cfg, hk]
  obtain ⟨e1, l1, w1⟩ := (dbWriteBuf_enc E b1 f k hk).ok h1
  obtain ⟨e2, l2, w2⟩ := (dbWriteBuf_enc E b2 _ k hk2).ok h2
  refine ⟨_, _, cipherUses_of l1 w1, cipherUses_of l2 w2, ?_⟩
  obtain ⟨-, -, -, ⟨-, -, q, hq, hst⟩, -⟩ := s1
  have := hst.le
  have := chunkBytes_length_pos E g1.cfg f.pos b1
  have := hl.2.1
  unfold offset2nonce
  split <;> split <;> omega

/-- The proviso "successfully stored" is needed: when an encrypted append fails after the
cipher was used, the append position does not move, so the next append uses the same key and
nonce for a different plaintext (part of the first ciphertext may be on disk already). -/
theorem C35_failed_append_reuses_nonce :
    ∃ f g1 g2 k n b1 b2 r e, f.WF ∧ f.cfg.cipher = some k ∧
      dbWriteBuf Env.toy b1 f = .error e g1 ∧ dbWriteBuf Env.toy b2 g1 = .ok r g2 ∧ b1 ≠ b2 ∧
      cipherUses f g1 = [(k, n, b1)] ∧ cipherUses g1 g2 = [(k, n, b2)] := by
  refine ⟨{ File.emptyEnc with faults := [.none, .short 20, .err 5] }, _, _, 3, 1, [1], [2], _, _,
    ⟨by decide, by decide⟩, rfl, rfl, rfl, by decide, rfl, rfl⟩

example : ∃ g, dbWriteBuf Env.toy [1, 2] File.emptyEnc = .ok (0, 22) g := ⟨_, rfl⟩

end Couchstore.Props
