import Verif.Lemmas.Header
import Verif.Lemmas.ReadCache
import Verif.Lemmas.IoBuffer
import Verif.Spec.Stream

/-! Streams. -/

namespace Couchstore

/-! ### The raw stream -/

/-- Only reading has happened: the place and the faults may be different. -/
def SRead (s s' : Strm) : Prop :=
  ∃ fs p, s' = { s with file := { s.file with faults := fs }, pos := p } ∧ fs <:+ s.file.faults

theorem SRead.refl (s : Strm) : SRead s s := ⟨s.file.faults, s.pos, rfl, List.suffix_refl _⟩

theorem SRead.trans {a b c : Strm} (h : SRead a b) (h' : SRead b c) : SRead a c := by
  obtain ⟨fs, p, rfl, hs⟩ := h
  obtain ⟨fs', p', rfl, hs'⟩ := h'
  exact ⟨fs', p', rfl, hs'.trans hs⟩

theorem SRead.faults {a b : Strm} (h : SRead a b) : b.file.faults <:+ a.file.faults := by
  obtain ⟨fs, p, rfl, hs⟩ := h; exact hs

theorem SRead.disk {a b : Strm} (h : SRead a b) : b.file.disk = a.file.disk := by
  obtain ⟨fs, p, rfl, hs⟩ := h; rfl

theorem popFault_mem (f : File) :
    Sp popFault f (fun x g => (∃ fs, g = { f with faults := fs } ∧ fs <:+ f.faults) ∧ (x = .none ∨ x ∈ f.faults))
      (fun _ _ => False) := by
  unfold Sp popFault
  cases hf : f.faults with
  | nil => exact ⟨⟨[], by rw [← hf], List.suffix_refl _⟩, Or.inl rfl⟩
  | cons x xs => exact ⟨⟨xs, rfl, List.suffix_cons x xs⟩, Or.inr (by simp)⟩

theorem pread_mem (off n : Nat) (f : File) :
    Sp (pread off n) f
      (fun got g => (∃ fs, g = { f with faults := fs } ∧ fs <:+ f.faults) ∧
        (got = slice f.disk off n ∨ ∃ k, k ≤ n ∧ got = slice f.disk off k ∧ (k ≠ 0 ∨ .short 0 ∈ f.faults ∨ n = 0)))
      (fun e g => (∃ fs, g = { f with faults := fs } ∧ fs <:+ f.faults) ∧ f.faults ≠ [] ∧ e ≠ .diverge) := by
  unfold pread
  apply Sp.bind' (popFault_mem f)
  · rintro x g ⟨⟨fs, rfl, hs⟩, hx⟩
    cases x with
    | none => exact ⟨⟨fs, rfl, hs⟩, Or.inl rfl⟩
    | short k =>
      refine ⟨⟨fs, rfl, hs⟩, Or.inr ⟨min k n, by omega, rfl, ?_⟩⟩
      rcases hx with hx | hx
      · exact absurd hx (by simp)
      · by_cases hk : k = 0
        · subst hk; exact Or.inr (Or.inl hx)
        · omega
    | err e =>
      refine ⟨⟨fs, rfl, hs⟩, ?_, by simp⟩
      rcases hx with hx | hx
      · exact absurd hx (by simp)
      · exact List.ne_nil_of_mem hx
  · intro _ _ h; exact h.elim

theorem Sp.liftS {α : Type} {m : M α} {s : Strm} {Q : α → File → Prop} {R : Err → File → Prop} (h : Sp m s.file Q R) :
    Sp (Couchstore.liftS m) s (fun a s' => Q a s'.file ∧ s' = { s with file := s'.file })
      (fun e s' => R e s'.file ∧ s' = { s with file := s'.file }) := by
  unfold Sp at *
  unfold Couchstore.liftS
  cases hm : m s.file with
  | ok a f => rw [hm] at h; exact ⟨h, rfl⟩
  | error e f => rw [hm] at h; exact ⟨h, rfl⟩

/-- The raw stream gives the bytes at its place, or nothing if they are not all there. -/
theorem rawReadLoop_spec : ∀ (fuel n : Nat) (acc : Bytes) (s : Strm), n ≤ fuel →
    Sp (rawReadLoop fuel n acc) s
      (fun r s' => SRead s s' ∧
        (∀ b, r = some b → s.pos + n ≤ s.file.disk.length ∨ n = 0) ∧
        (∀ b, r = some b → b = acc ++ slice s.file.disk s.pos n ∧ s'.pos = s.pos + n) ∧
        (r = none → s.file.disk.length < s.pos + n ∨ .short 0 ∈ s.file.faults) ∧
        (r = none → s.pos ≤ s.file.disk.length → s'.pos ≤ s.file.disk.length) ∧
        (r = none → .short 0 ∉ s.file.faults → s.pos ≤ s.file.disk.length → s'.pos = s.file.disk.length))
      (fun e s' => SRead s s' ∧ s.file.faults ≠ [] ∧ e ≠ .diverge) := by
  intro fuel
  induction fuel with
  | zero =>
    intro n acc s h
    have : n = 0 := by omega
    subst this
    exact ⟨.refl s, fun _ _ => Or.inr rfl, fun b hb => by cases hb; simp [slice], by simp, by simp, by simp⟩
  | succ fuel ih =>
    intro n acc s h
    cases n with
    | zero => exact ⟨.refl s, fun _ _ => Or.inr rfl, fun b hb => by cases hb; simp [slice], by simp, by simp, by simp⟩
    | succ n =>
      unfold rawReadLoop
      apply Sp.get_bind
      apply Sp.bind' (Sp.liftS (pread_mem s.pos (n + 1) s.file))
      · rintro got s1 ⟨⟨⟨fs, hg, hs⟩, hgot⟩, h1⟩
        have hk : ∃ k, k ≤ n + 1 ∧ got = slice s.file.disk s.pos k ∧ (k ≠ 0 ∨ .short 0 ∈ s.file.faults) := by
          rcases hgot with hgot | ⟨k, h1, h2, h3⟩
          · exact ⟨n + 1, Nat.le_refl _, hgot, Or.inl (by omega)⟩
          · exact ⟨k, h1, h2, by rcases h3 with h3 | h3 | h3; exact Or.inl h3; exact Or.inr h3; omega⟩
        obtain ⟨k, hkn, rfl, hk0⟩ := hk
        rw [hg] at h1
        subst h1
        by_cases hnil : slice s.file.disk s.pos k = []
        · rw [if_pos hnil]
          have hl := length_slice s.file.disk s.pos k
          rw [hnil] at hl
          simp only [List.length_nil] at hl
          refine ⟨⟨fs, s.pos, rfl, hs⟩, by simp, by simp, fun _ => ?_, fun _ h => h, ?_⟩
          · rcases hk0 with hk0 | hk0
            · left; omega
            · exact Or.inr hk0
          · intro _ h0 hle
            rcases hk0 with hk0 | hk0
            · show s.pos = _; omega
            · exact absurd hk0 h0
        · rw [if_neg hnil]
          have hl := length_slice s.file.disk s.pos k
          have hpos : 0 < (slice s.file.disk s.pos k).length := List.length_pos_iff.2 hnil
          refine Sp.bind' (Q1 := fun _ s' => s' = { s with file := { s.file with faults := fs }, pos := s.pos + (slice s.file.disk s.pos k).length })
            (R1 := fun _ _ => False) rfl ?_ (fun _ _ h => h.elim)
          rintro _ _ rfl
          generalize hc : (slice s.file.disk s.pos k).length = c at *
          have hsl : slice s.file.disk s.pos k = slice s.file.disk s.pos c := by
            unfold slice at *
            rw [← hc, List.length_take, List.take_eq_take_iff]; omega
          refine (ih (n + 1 - c) _ _ (by omega)).mono ?_ ?_
          · rintro r s' ⟨hr, h1, h2, h3, h4, h5⟩
            refine ⟨SRead.trans ⟨fs, _, rfl, hs⟩ hr, ?_, ?_, ?_, ?_, ?_⟩
            · intro b hb
              have := h1 b hb
              simp only at this
              left; omega
            · intro b hb
              obtain ⟨e1, e2⟩ := h2 b hb
              simp only at e1 e2
              refine ⟨?_, by omega⟩
              rw [e1, hsl, List.append_assoc, ← slice_add]
              congr 2; omega
            · intro hn
              rcases h3 hn with h | h
              · left; simp only at h; omega
              · exact Or.inr (hs.subset h)
            · intro hn hle
              exact h4 hn (by simp only; omega)
            · intro hn h0 hle
              exact h5 hn (fun h => h0 (hs.subset h)) (by simp only; omega)
          · rintro _ s' ⟨hr, hne, hd⟩
            exact ⟨SRead.trans ⟨fs, _, rfl, hs⟩ hr, suffix_ne_nil hs hne, hd⟩
      · rintro e s1 ⟨⟨⟨fs, hg, hs⟩, hne⟩, h1⟩
        rw [hg] at h1
        exact ⟨⟨fs, s.pos, h1, hs⟩, hne⟩

theorem rawRead_spec (n : Nat) (s : Strm) :
    Sp (rawRead n) s
      (fun r s' => SRead s s' ∧
        (∀ b, r = some b → s.pos + n ≤ s.file.disk.length ∨ n = 0) ∧
        (∀ b, r = some b → b = slice s.file.disk s.pos n ∧ s'.pos = s.pos + n) ∧
        (r = none → s.file.disk.length < s.pos + n ∨ .short 0 ∈ s.file.faults) ∧
        (r = none → s.pos ≤ s.file.disk.length → s'.pos ≤ s.file.disk.length) ∧
        (r = none → .short 0 ∉ s.file.faults → s.pos ≤ s.file.disk.length → s'.pos = s.file.disk.length))
      (fun e s' => SRead s s' ∧ s.file.faults ≠ [] ∧ e ≠ .diverge) := by
  exact rawReadLoop_spec n n [] s (Nat.le_refl _)

/-- At the end of the file, bytes are appended. -/
theorem rawWriteBufLoop_spec : ∀ (fuel : Nat) (b : Bytes) (s : Strm), s.pos = s.file.disk.length →
    s.file.faults.length < fuel →
    Sp (rawWriteBufLoop fuel b) s
      (fun _ s' => s' = { s with file := s'.file, pos := s.pos + b.length } ∧ s'.file.disk = s.file.disk ++ b ∧
        s'.file.faults <:+ s.file.faults)
      (fun _ _ => s.file.faults ≠ []) := by
  intro fuel
  induction fuel with
  | zero => intro b s h h'; omega
  | succ fuel ih =>
    intro b s hp hf
    unfold rawWriteBufLoop
    by_cases hb : b = []
    · subst hb
      rw [if_pos rfl]
      exact ⟨rfl, by simp, List.suffix_refl _⟩
    · rw [if_neg hb]
      apply Sp.get_bind
      have hw : Sp (pwrite b s.pos) s.file
          (fun w g => w ≤ b.length ∧ g.disk = s.file.disk ++ b.take w ∧ g.faults <:+ s.file.faults ∧
            (w = b.length ∨ g.faults.length < s.file.faults.length))
          (fun _ _ => s.file.faults ≠ []) := by
        have hend : ∀ x, pwriteDisk s.file.disk s.pos x = s.file.disk ++ x := by
          intro x
          unfold pwriteDisk
          split
          · rename_i h; rw [h]; simp
          · rw [hp]; simp
        unfold pwrite
        apply Sp.bind' (popFault_spec s.file)
        · rintro x g ⟨⟨fs, rfl, hs⟩, hx, hl⟩
          cases x with
          | none => exact ⟨Nat.le_refl _, by show pwriteDisk _ _ _ = _; rw [hend]; simp, hs, Or.inl rfl⟩
          | short k =>
            refine ⟨by simp; omega, ?_, hs, Or.inr (hl (hx (by simp)))⟩
            show pwriteDisk _ _ _ = _
            rw [hend, List.length_take]
            congr 1
            rw [List.take_eq_take_iff]; omega
          | err e => exact hx (by simp)
        · intro _ _ h; exact h.elim
      apply Sp.bind' (Sp.liftS hw)
      · rintro w s1 ⟨⟨h1, h2, h3, h4⟩, h5⟩
        refine Sp.bind' (Q1 := fun _ s' => s' = { s1 with pos := s1.pos + w })
          (R1 := fun _ _ => False) rfl ?_ (fun _ _ h => h.elim)
        rintro _ _ rfl
        have hp1 : s1.pos = s.pos := by rw [h5]
        by_cases hwl : w = b.length
        · have hd : b.drop w = [] := by rw [hwl]; simp
          rw [hd]
          have : ∀ fuel s, rawWriteBufLoop fuel [] s = .ok () s := by
            intro fuel s; cases fuel <;> rfl
          unfold Sp
          rw [this]
          refine ⟨?_, ?_, h3⟩
          · rw [h5]; simp [hwl]
          · rw [h2, hwl]; simp
        · have hlt : s1.file.faults.length < s.file.faults.length := by
            rcases h4 with h | h; exact absurd h hwl; exact h
          refine (ih (b.drop w) _ ?_ ?_).mono ?_ ?_
          · simp only [hp1, h2, hp, List.length_append, List.length_take]; omega
          · simp only; omega
          · rintro _ s' ⟨e1, e2, e3⟩
            refine ⟨?_, ?_, e3.trans h3⟩
            · rw [e1, h5]
              simp only [List.length_drop, Strm.mk.injEq, true_and, and_true]
              omega
            · rw [e2]; simp only [h2]
              rw [List.append_assoc, List.take_append_drop]
          · intro _ _ h; exact suffix_ne_nil h3 h
      · rintro e s1 ⟨h, _⟩; exact h

theorem rawWriteBuf_spec (b : Bytes) (s : Strm) (h : s.pos = s.file.disk.length) :
    Sp (rawWriteBuf b) s
      (fun _ s' => s' = { s with file := s'.file, pos := s.pos + b.length } ∧ s'.file.disk = s.file.disk ++ b ∧
        s'.file.faults <:+ s.file.faults)
      (fun _ _ => s.file.faults ≠ []) :=
  rawWriteBufLoop_spec _ b s h (by omega)

/-! ### Chunks -/

theorem Chunk.hdr_le {E : Env} {K : StreamKind} {b e : Bytes} (h : Chunk E K b e) : K.hdr ≤ e.length := by
  cases K with
  | checksum => obtain ⟨_, rfl⟩ := h; simp [StreamKind.hdr, enc32]; omega
  | encrypted S => obtain ⟨m, _, _, _, rfl⟩ := h; simp [StreamKind.hdr, enc32]

theorem slice_at' {d : Bytes} {pos : Nat} {e : Bytes} (h : slice d pos e.length = e) (n m : Nat) (hle : n + m ≤ e.length) :
    slice d (pos + n) m = slice e n m := by
  rw [← h]
  unfold slice
  rw [List.drop_take, List.drop_drop, List.take_take]
  congr 1
  omega

theorem Chunk.unique {E : Env} {K : StreamKind} {b e b' e' d : Bytes} {pos : Nat} (h : Chunk E K b e) (h' : Chunk E K b' e')
    (hd : slice d pos e.length = e) (hd' : slice d pos e'.length = e') : b = b' ∧ e = e' := by
  have hh := h.hdr_le
  have hh' := h'.hdr_le
  have h4 : slice e 0 4 = slice e' 0 4 := by
    have k1 : 4 ≤ e.length := by cases K <;> simp [StreamKind.hdr] at hh <;> omega
    have k2 : 4 ≤ e'.length := by cases K <;> simp [StreamKind.hdr] at hh' <;> omega
    rw [← slice_at' hd 0 4 (by omega), ← slice_at' hd' 0 4 (by omega)]
  have hl : e.length = e'.length := by
    cases K with
    | checksum =>
      obtain ⟨hb, rfl⟩ := h
      obtain ⟨hb', rfl⟩ := h'
      rw [List.append_assoc, List.append_assoc, slice_prefix _ _ _ (by simp [enc32]), slice_prefix _ _ _ (by simp [enc32])] at h4
      have := beEnc_inj (w := 4) (by simpa using hb) (by simpa using hb') h4
      simp [enc32]; omega
    | encrypted S =>
      obtain ⟨m, hm, _, _, rfl⟩ := h
      obtain ⟨m', hm', _, _, rfl⟩ := h'
      rw [slice_prefix _ _ _ (by simp [enc32]), slice_prefix _ _ _ (by simp [enc32])] at h4
      have := beEnc_inj (w := 4) (by simpa using hm) (by simpa using hm') h4
      simp [enc32]; omega
  have he : e = e' := by rw [← hd, ← hd', hl]
  refine ⟨?_, he⟩
  subst he
  cases K with
  | checksum =>
    obtain ⟨hb, h1⟩ := h
    obtain ⟨hb', h2⟩ := h'
    rw [h1] at h2
    have e1 : b.length = b'.length := by
      have := congrArg List.length h2
      simp [enc32] at this; omega
    have := (List.append_inj' h2 e1).2
    exact this
  | encrypted S =>
    obtain ⟨m, _, _, hu, h1⟩ := h
    obtain ⟨m', _, _, hu', h2⟩ := h'
    rw [h1] at h2
    have : m = m' := by
      have e1 : m.length = m'.length := by
        have := congrArg List.length h2
        simp [enc32] at this; omega
      exact (List.append_inj' h2 e1).2
    subst this
    rw [hu] at hu'
    exact Option.some.inj hu'

/-- A chunk was read: it is in the file at the place. -/
def GotChunk (E : Env) (K : StreamKind) (s s' : Strm) : Prop :=
  ∃ e fs, Chunk E K s'.chunk e ∧ slice s.file.disk s.pos e.length = e ∧ s.pos + e.length ≤ s.file.disk.length ∧
    s' = { s with file := { s.file with faults := fs }, pos := s.pos + e.length, chunk := s'.chunk } ∧ fs <:+ s.file.faults

/-- There is a chunk at the place. -/
def HasChunk (E : Env) (K : StreamKind) (s : Strm) (b e : Bytes) : Prop :=
  Chunk E K b e ∧ slice s.file.disk s.pos e.length = e ∧ s.pos + e.length ≤ s.file.disk.length

theorem readChunk_spec (E : Env) (K : StreamKind) (s : Strm) :
    Sp (readChunk E K) s
      (fun ok s' => (ok = true → GotChunk E K s s') ∧
        (ok = false → SRead s s' ∧ (s.file.disk.length < s.pos + K.hdr ∨ .short 0 ∈ s.file.faults) ∧
          (s.pos ≤ s.file.disk.length → s'.pos ≤ s.file.disk.length) ∧
          (.short 0 ∉ s.file.faults → s.pos ≤ s.file.disk.length → s'.pos = s.file.disk.length)))
      (fun x _ => (s.file.faults ≠ [] ∨ (s.pos + K.hdr ≤ s.file.disk.length ∧ ¬ ∃ b e, HasChunk E K s b e)) ∧ x ≠ .diverge) := by
  cases K with
  | checksum =>
    unfold readChunk
    apply Sp.bind' (rawRead_spec 8 s)
    · rintro r s1 ⟨h1, h2, h3, h4, h5, h6⟩
      cases r with
      | none => exact ⟨by simp, fun _ => ⟨h1, h4 rfl, h5 rfl, h6 rfl⟩⟩
      | some h =>
        obtain ⟨hh, hp⟩ := h3 h rfl
        have hroom : s.pos + 8 ≤ s.file.disk.length := by
          rcases h2 h rfl with h | h <;> omega
        have hhl : h.length = 8 := by rw [hh, length_slice]; omega
        -- what a chunk at the place looks like
        have hat : ∀ b e, HasChunk E .checksum s b e →
            beDec (h.take 4) = b.length + 4 ∧ beDec (h.drop 4) = (E.crc32c b).toNat ∧
              slice s.file.disk (s.pos + 8) b.length = b ∧ s.pos + 8 + b.length ≤ s.file.disk.length := by
          rintro b e ⟨⟨hb, rfl⟩, hc2, hc3⟩
          have e8 : h = enc32 (b.length + 4) ++ enc32 (E.crc32c b).toNat := by
            rw [hh]
            have := slice_at' hc2 0 8 (by simp [enc32]; omega)
            rw [Nat.add_zero] at this
            rw [this, slice_prefix _ _ _ (by simp [enc32])]
          refine ⟨?_, ?_, ?_, ?_⟩
          · rw [e8, List.take_left' (by simp [enc32]), enc32, beDec_beEnc _ _ (by simpa using hb)]
          · rw [e8, List.drop_left' (by simp [enc32]), enc32, beDec_beEnc _ _ (by have := (E.crc32c b).toNat_lt; simpa using this)]
          · have := slice_at' hc2 8 b.length (by simp [enc32]; omega)
            rw [this, slice_cons_app _ _ _ _ (by simp [enc32]), slice_self _ _ rfl]
          · simp [enc32] at hc3; omega
        show Sp (if beDec (h.take 4) < 4 then _ else _) s1 _ _
        split
        · rename_i hlt
          refine ⟨Or.inr ⟨hroom, ?_⟩, by simp⟩
          rintro ⟨b, e, hbe⟩
          have := (hat b e hbe).1
          omega
        · rename_i hge
          apply Sp.bind' (rawRead_spec _ s1)
          · rintro r s2 ⟨k1, k2, k3, k4, k5, k6⟩
            cases r with
            | none =>
              refine ⟨?_, by simp⟩
              by_cases hf : s.file.faults = []
              · refine Or.inr ⟨hroom, ?_⟩
                rintro ⟨b, e, hbe⟩
                obtain ⟨g1, _, _, g4⟩ := hat b e hbe
                have := k4 rfl
                rw [h1.disk, hp, g1] at this
                rcases this with h | h
                · omega
                · have := h1.faults
                  rw [hf, List.suffix_nil] at this
                  rw [this] at h; cases h
              · exact Or.inl hf
            | some b =>
              obtain ⟨hb, hp2⟩ := k3 b rfl
              rw [h1.disk, hp] at hb
              have hroom2 : s1.pos + (beDec (h.take 4) - 4) ≤ s.file.disk.length := by
                have := k2 b rfl
                rw [h1.disk] at this
                rcases this with h | h <;> omega
              have hbl : b.length = beDec (h.take 4) - 4 := by rw [hb, length_slice]; omega
              refine Sp.bind' (Q1 := fun _ s' => s' = { s2 with chunk := b }) (R1 := fun _ _ => False) rfl ?_ (fun _ _ h => h.elim)
              rintro _ _ rfl
              split
              · rename_i hok
                simp only [integrityCheck, beq_iff_eq] at hok
                refine ⟨fun _ => ?_, by simp⟩
                have hlt : beDec (h.take 4) < 2 ^ 32 := by
                  have := beDec_lt (h.take 4)
                  rw [show (h.take 4).length = 4 by simp [hhl]] at this
                  simpa using this
                have ehd : h = enc32 (b.length + 4) ++ enc32 (E.crc32c b).toNat := by
                  have a1 : h.take 4 = enc32 (b.length + 4) := by
                    rw [hbl, show beDec (h.take 4) - 4 + 4 = beDec (h.take 4) by omega]
                    have := beEnc_beDec (h.take 4)
                    rw [show (h.take 4).length = 4 by simp [hhl]] at this
                    exact this.symm
                  have a2 : h.drop 4 = enc32 (E.crc32c b).toNat := by
                    rw [← hok]
                    have := beEnc_beDec (h.drop 4)
                    rw [show (h.drop 4).length = 4 by simp [hhl]] at this
                    exact this.symm
                  rw [← a1, ← a2, List.take_append_drop]
                obtain ⟨fs1, p1, rfl, hs1⟩ := h1
                obtain ⟨fs2, p2, rfl, hs2⟩ := k1
                simp only at hp hp2 hroom2 hb
                have hel : (enc32 (b.length + 4) ++ enc32 (E.crc32c b).toNat ++ b).length = 8 + b.length := by
                  simp [enc32]; omega
                have hc : Chunk E .checksum b (enc32 (b.length + 4) ++ enc32 (E.crc32c b).toNat ++ b) := ⟨by omega, rfl⟩
                refine ⟨enc32 (b.length + 4) ++ enc32 (E.crc32c b).toNat ++ b, fs2, hc, ?_, by omega, ?_, hs2.trans hs1⟩
                · rw [hel, slice_add, ← hh, ehd]
                  congr 1
                  rw [hbl]; exact hb.symm
                · simp only [Strm.mk.injEq, true_and, and_true]
                  omega
              · rename_i hbad
                refine ⟨Or.inr ⟨hroom, ?_⟩, by simp⟩
                rintro ⟨b', e, hbe⟩
                obtain ⟨g1, g2, g3, g4⟩ := hat b' e hbe
                apply hbad
                have : b = b' := by rw [hb, g1, ← g3]; simp [g3]
                simp only [integrityCheck, beq_iff_eq]
                rw [g2, this]
          · rintro _ s2 ⟨_, hne, hd⟩
            exact ⟨Or.inl (suffix_ne_nil h1.faults hne), hd⟩
    · rintro _ _ ⟨_, h, hd⟩; exact ⟨Or.inl h, hd⟩
  | encrypted S =>
    unfold readChunk
    apply Sp.bind' (rawRead_spec 4 s)
    · rintro r s1 ⟨h1, h2, h3, h4, h5, h6⟩
      cases r with
      | none => exact ⟨by simp, fun _ => ⟨h1, h4 rfl, h5 rfl, h6 rfl⟩⟩
      | some h =>
        obtain ⟨hh, hp⟩ := h3 h rfl
        have hroom : s.pos + 4 ≤ s.file.disk.length := by
          rcases h2 h rfl with h | h <;> omega
        have hhl : h.length = 4 := by rw [hh, length_slice]; omega
        have hat : ∀ b e, HasChunk E (.encrypted S) s b e →
            ∃ m, beDec h = m.length ∧ S.overhead + 1 ≤ m.length ∧ S.unlock m = some b ∧
              slice s.file.disk (s.pos + 4) m.length = m ∧ s.pos + 4 + m.length ≤ s.file.disk.length := by
          rintro b e ⟨⟨m, hm, ho, hu, rfl⟩, hc2, hc3⟩
          have e4 : h = enc32 m.length := by
            rw [hh]
            have := slice_at' hc2 0 4 (by simp [enc32])
            rw [Nat.add_zero] at this
            rw [this, slice_prefix _ _ _ (by simp [enc32])]
          refine ⟨m, ?_, ho, hu, ?_, ?_⟩
          · rw [e4, enc32, beDec_beEnc _ _ (by simpa using hm)]
          · have := slice_at' hc2 4 m.length (by simp [enc32])
            rw [this, slice_cons_app _ _ _ _ (by simp [enc32]), slice_self _ _ rfl]
          · simp [enc32] at hc3; omega
        show Sp (if beDec h < S.overhead + 1 then _ else _) s1 _ _
        split
        · rename_i hlt
          refine ⟨Or.inr ⟨hroom, ?_⟩, by simp⟩
          rintro ⟨b, e, hbe⟩
          obtain ⟨m, g1, g2, _⟩ := hat b e hbe
          omega
        · rename_i hge
          apply Sp.bind' (rawRead_spec _ s1)
          · rintro r s2 ⟨k1, k2, k3, k4, k5, k6⟩
            cases r with
            | none =>
              refine ⟨?_, by simp⟩
              by_cases hf : s.file.faults = []
              · refine Or.inr ⟨hroom, ?_⟩
                rintro ⟨b, e, hbe⟩
                obtain ⟨m, g1, _, _, _, g4⟩ := hat b e hbe
                have := k4 rfl
                rw [h1.disk, hp, g1] at this
                rcases this with h | h
                · omega
                · have := h1.faults
                  rw [hf, List.suffix_nil] at this
                  rw [this] at h; cases h
              · exact Or.inl hf
            | some b =>
              obtain ⟨hb, hp2⟩ := k3 b rfl
              rw [h1.disk, hp] at hb
              have hroom2 : s1.pos + beDec h ≤ s.file.disk.length := by
                have := k2 b rfl
                rw [h1.disk] at this
                rcases this with h | h <;> omega
              have hbl : b.length = beDec h := by rw [hb, length_slice]; omega
              refine Sp.bind' (Q1 := fun _ s' => s' = { s2 with chunk := b }) (R1 := fun _ _ => False) rfl ?_ (fun _ _ h => h.elim)
              rintro _ _ rfl
              cases hu : S.unlock b with
              | some p =>
                refine Sp.bind' (Q1 := fun _ s' => s' = { s2 with chunk := p }) (R1 := fun _ _ => False) rfl ?_ (fun _ _ h => h.elim)
                rintro _ _ rfl
                refine ⟨fun _ => ?_, by simp⟩
                have hlt : beDec h < 2 ^ 32 := by
                  have := beDec_lt h
                  rw [hhl] at this
                  simpa using this
                have ehd : h = enc32 b.length := by
                  rw [hbl]
                  have := beEnc_beDec h
                  rw [hhl] at this
                  exact this.symm
                obtain ⟨fs1, p1, rfl, hs1⟩ := h1
                obtain ⟨fs2, p2, rfl, hs2⟩ := k1
                simp only at hp hp2 hroom2 hb
                have hel : (enc32 b.length ++ b).length = 4 + b.length := by
                  simp [enc32]
                have hc : Chunk E (.encrypted S) p (enc32 b.length ++ b) := ⟨b, by omega, by omega, hu, rfl⟩
                refine ⟨enc32 b.length ++ b, fs2, hc, ?_, by omega, ?_, hs2.trans hs1⟩
                · rw [hel, slice_add, ← hh, ehd]
                  congr 1
                  rw [hbl]; exact hb.symm
                · simp only [Strm.mk.injEq, true_and, and_true]
                  omega
              | none =>
                refine ⟨Or.inr ⟨hroom, ?_⟩, by simp⟩
                rintro ⟨b', e, hbe⟩
                obtain ⟨m, g1, g2, g3, g4, g5⟩ := hat b' e hbe
                have : b = m := by rw [hb, g1, ← g4]; simp [g4]
                rw [this, g3] at hu
                cases hu
          · rintro _ s2 ⟨_, hne, hd⟩
            exact ⟨Or.inl (suffix_ne_nil h1.faults hne), hd⟩
    · rintro _ _ ⟨_, h, hd⟩; exact ⟨Or.inl h, hd⟩

/-- A chunk is appended. -/
theorem writeChunk_spec (E : Env) (K : StreamKind) (maxWrite : Nat) (hK : K.Fits maxWrite) (s : Strm)
    (hp : s.pos = s.file.disk.length) (hne : s.chunk ≠ []) (hl : s.chunk.length ≤ maxWrite) :
    Sp (writeChunk E K) s
      (fun _ s' => ∃ e u, Chunk E K s.chunk e ∧ s'.file.disk = s.file.disk ++ e ∧
        s' = { s with file := s'.file, pos := s.pos + e.length, used := u } ∧ s'.file.faults <:+ s.file.faults)
      (fun _ _ => s.file.faults ≠ []) := by
  cases K with
  | checksum =>
    unfold writeChunk
    apply Sp.get_bind
    apply Sp.bind' (rawWriteBuf_spec _ s hp)
    · rintro _ s1 ⟨h1, h2, h3⟩
      have hp1 : s1.pos = s1.file.disk.length := by
        rw [h2, List.length_append, ← hp, h1]
      refine (rawWriteBuf_spec s.chunk s1 hp1).mono ?_ (fun _ _ h => suffix_ne_nil h3 h)
      rintro _ s2 ⟨k1, k2, k3⟩
      refine ⟨enc32 (s.chunk.length + 4) ++ enc32 (E.crc32c s.chunk).toNat ++ s.chunk, s.used, ⟨?_, rfl⟩, ?_, ?_, k3.trans h3⟩
      · simp only [StreamKind.Fits] at hK; omega
      · rw [k2, h2, List.append_assoc]
      · rw [k1, h1]
        simp only [Strm.mk.injEq, true_and, and_true, List.length_append]; omega
    · intro _ _ h; exact h
  | encrypted S =>
    unfold writeChunk
    apply Sp.get_bind
    rw [if_neg hne]
    obtain ⟨hS, hlt⟩ := hK
    have hml := hS.length_lock s.used s.chunk
    refine Sp.bind' (Q1 := fun _ s' => s' = { s with used := s.used + 1 }) (R1 := fun _ _ => False) rfl ?_ (fun _ _ h => h.elim)
    rintro _ _ rfl
    apply Sp.bind' (rawWriteBuf_spec _ { s with used := s.used + 1 } hp)
    · rintro _ s1 ⟨h1, h2, h3⟩
      simp only at h1 h2 h3
      have hp1 : s1.pos = s1.file.disk.length := by
        rw [h2, List.length_append, ← hp, h1]
      refine (rawWriteBuf_spec _ s1 hp1).mono ?_ (fun _ _ h => suffix_ne_nil h3 h)
      rintro _ s2 ⟨k1, k2, k3⟩
      have := List.length_pos_iff.2 hne
      refine ⟨enc32 (S.lock s.used s.chunk).length ++ S.lock s.used s.chunk, s.used + 1,
        ⟨_, by omega, by omega, hS.unlock_lock _ _, rfl⟩, ?_, ?_, k3.trans h3⟩
      · rw [k2, h2, List.append_assoc]
      · rw [k1, h1]
        simp only [Strm.mk.injEq, true_and, and_true]
        rw [List.length_append]; omega
    · intro _ _ h; exact h

theorem Chunks.append {E : Env} {K : StreamKind} {a b : List Bytes} {x y : Bytes} (h : Chunks E K a x) (h' : Chunks E K b y) :
    Chunks E K (a ++ b) (x ++ y) := by
  induction h with
  | nil => exact h'
  | cons h1 _ ih => rw [List.cons_append, List.append_assoc]; exact .cons h1 ih

theorem Chunks.snoc {E : Env} {K : StreamKind} {a : List Bytes} {b x e : Bytes} (h : Chunks E K a x) (h' : Chunk E K b e) :
    Chunks E K (a ++ [b]) (x ++ e) := by
  have := h.append (.cons h' .nil)
  simpa using this

/-! ### Reading -/

/-- What is left to read: the rest of the chunk, and the chunks after the place. -/
def Reading (E : Env) (K : StreamKind) (s : Strm) (rem : Bytes) : Prop :=
  ∃ r pre es rest, s.readPos = some r ∧ r ≤ s.chunk.length ∧ s.file.disk = pre ++ es ∧ s.pos = pre.length ∧
    Chunks E K rest es ∧ (∀ c ∈ rest, c ≠ []) ∧ rem = s.chunk.drop r ++ rest.flatten

theorem chunkReadLoop_spec (E : Env) (K : StreamKind) : ∀ (fuel n : Nat) (acc : Bytes) (s : Strm) (rem : Bytes),
    Reading E K s rem → .short 0 ∉ s.file.faults →
    (2 * n ≤ fuel ∨ (2 * n ≤ fuel + 1 ∧ s.chunk.drop (s.readPos.getD 0) ≠ [])) →
    Sp (chunkReadLoop E K fuel n acc) s
      (fun res s' => Reading E K s' (rem.drop n) ∧ s'.file.disk = s.file.disk ∧ s'.file.faults <:+ s.file.faults ∧
        res = if n ≤ rem.length then some (acc ++ rem.take n) else none)
      (fun _ _ => s.file.faults ≠ []) := by
  intro fuel
  induction fuel with
  | zero =>
    intro n acc s rem hR h0 hf
    have hn : n = 0 := by omega
    subst hn
    exact ⟨by simpa using hR, rfl, List.suffix_refl _, by simp⟩
  | succ fuel ih =>
    intro n acc s rem hR h0 hf
    cases n with
    | zero => exact ⟨by simpa using hR, rfl, List.suffix_refl _, by simp⟩
    | succ n =>
      obtain ⟨r, pre, es, rest, hr, hle, hd, hp, hc, hne, hrem⟩ := hR
      unfold chunkReadLoop
      apply Sp.get_bind
      simp only [hr, Option.getD_some] at hf ⊢
      rw [if_neg (by omega)]
      by_cases hc0 : min (n + 1) (s.chunk.length - r) = 0
      · rw [if_pos hc0]
        have hdr : s.chunk.drop r = [] := List.drop_of_length_le (by omega)
        rw [hdr] at hrem hf
        apply Sp.bind' (readChunk_spec E K s)
        · rintro ok s1 ⟨h1, h2⟩
          cases ok with
          | false =>
            obtain ⟨k1, k2, k3, k4⟩ := h2 rfl
            have hnil : rest = [] ∧ es = [] := by
              cases hc with
              | nil => exact ⟨rfl, rfl⟩
              | cons hb hbs =>
                have := hb.hdr_le
                rcases k2 with k2 | k2
                · rw [hd] at k2; simp only [List.length_append] at k2; omega
                · exact absurd k2 h0
            obtain ⟨rfl, rfl⟩ := hnil
            rw [List.append_nil] at hd
            have hp' := k4 h0 (by rw [hd, hp]; exact Nat.le_refl _)
            obtain ⟨fs, p, rfl, hs⟩ := k1
            refine ⟨⟨r, pre, [], [], hr, hle, by simpa using hd, ?_, .nil, by simp, ?_⟩, rfl, hs, ?_⟩
            · rw [hp', hd]
            · rw [hrem, hdr]; simp
            · rw [hrem]; simp
          | true =>
            obtain ⟨e, fs, g1, g2, g3, g4, g5⟩ := h1 rfl
            simp only [if_true]
            refine Sp.bind' (Q1 := fun _ s' => s' = { s1 with readPos := some 0 }) (R1 := fun _ _ => False) rfl ?_ (fun _ _ h => h.elim)
            rintro _ _ rfl
            cases hc with
            | nil =>
              have := g1.hdr_le
              rw [hd, hp] at g3
              simp at g3
              have h8 : 0 < K.hdr := by cases K <;> simp [StreamKind.hdr]
              omega
            | @cons b e' bs es' hb hbs =>
              have hat : slice s.file.disk s.pos e'.length = e' := by
                rw [hd, hp, slice_cons_app _ _ _ _ rfl, slice_prefix _ _ _ rfl]
              obtain ⟨hbb, hee⟩ := Chunk.unique hb g1 hat g2
              subst hee
              have hbne : b ≠ [] := hne b (by simp)
              have hR' : Reading E K { s1 with readPos := some 0 } rem := by
                refine ⟨0, pre ++ e', es', bs, rfl, Nat.zero_le _, ?_, ?_, hbs, fun c hc => hne c (by simp [hc]), ?_⟩
                · rw [g4]; simp [hd]
                · rw [g4]; simp [hp]
                · rw [hrem, ← hbb]; simp
              have hs1 : s1.file.faults <:+ s.file.faults := by rw [g4]; exact g5
              refine (ih (n + 1) acc _ rem hR' (fun h => h0 (hs1.subset h)) ?_).mono ?_ ?_
              · right
                refine ⟨by simp at hf; omega, ?_⟩
                simp [← hbb, hbne]
              · rintro res s' ⟨a1, a2, a3, a4⟩
                refine ⟨a1, ?_, a3.trans hs1, a4⟩
                rw [a2]; simp only; rw [g4]
              · intro _ _ h; exact suffix_ne_nil hs1 h
        · rintro x _ ⟨h1, _⟩
          rcases h1 with h1 | h1
          · exact h1
          · by_cases hf : s.file.faults = []
            · cases hc with
              | nil =>
                have h8 : 0 < K.hdr := by cases K <;> simp [StreamKind.hdr]
                have := h1.1
                rw [hd, hp] at this
                simp at this
                omega
              | @cons b e' bs es' hb hbs =>
                exfalso
                apply h1.2
                refine ⟨b, e', hb, ?_, ?_⟩
                · rw [hd, hp, slice_cons_app _ _ _ _ rfl, slice_prefix _ _ _ rfl]
                · rw [hd, hp]; simp
            · exact hf
      · rw [if_neg hc0]
        generalize hcc : min (n + 1) (s.chunk.length - r) = c at *
        refine Sp.bind' (Q1 := fun _ s' => s' = { s with readPos := some (r + c) }) (R1 := fun _ _ => False) rfl ?_ (fun _ _ h => h.elim)
        rintro _ _ rfl
        have hR' : Reading E K { s with readPos := some (r + c) } (rem.drop c) := by
          refine ⟨r + c, pre, es, rest, rfl, by simp only; omega, hd, hp, hc, hne, ?_⟩
          rw [hrem, List.drop_append_of_le_length (by simp; omega), List.drop_drop]
        refine (ih (n + 1 - c) _ _ _ hR' h0 ?_).mono ?_ (fun _ _ h => h)
        · left; omega
        · rintro res s' ⟨a1, a2, a3, a4⟩
          refine ⟨?_, a2, a3, ?_⟩
          · rw [List.drop_drop, show c + (n + 1 - c) = n + 1 by omega] at a1
            exact a1
          · rw [a4]
            have hrl : rem.length = s.chunk.length - r + rest.flatten.length := by rw [hrem]; simp
            have htk : (s.chunk.drop r).take c = rem.take c := by
              rw [hrem, List.take_append_of_le_length (by simp; omega)]
            by_cases hb : n + 1 ≤ rem.length
            · rw [if_pos hb, if_pos (by simp; omega), htk, List.append_assoc]
              congr 2
              rw [← List.take_add]
              congr 1; omega
            · rw [if_neg hb, if_neg (by simp; omega)]

/-! ### Writing -/

/-- The state of a stream that was written: whole chunks in the file, the rest in memory. -/
def Writing (E : Env) (K : StreamKind) (maxWrite : Nat) (s : Strm) (data : Bytes) : Prop :=
  s.readPos = none ∧ s.chunk.length ≤ maxWrite ∧ s.pos = s.file.disk.length ∧
    ∃ cs, Chunks E K cs s.file.disk ∧ (∀ c ∈ cs, c ≠ []) ∧ data = cs.flatten ++ s.chunk

theorem writeChunk_writing {E : Env} {K : StreamKind} {maxWrite : Nat} (hK : K.Fits maxWrite) {s : Strm} {data : Bytes}
    (h : Writing E K maxWrite s data) (hne : s.chunk ≠ []) :
    Sp (writeChunk E K) s
      (fun _ s' => s'.readPos = none ∧ s'.pos = s'.file.disk.length ∧ s'.file.faults <:+ s.file.faults ∧
        ∃ cs, Chunks E K cs s'.file.disk ∧ (∀ c ∈ cs, c ≠ []) ∧ data = cs.flatten)
      (fun _ _ => s.file.faults ≠ []) := by
  obtain ⟨h1, h2, h3, cs, h4, h5, h6⟩ := h
  refine (writeChunk_spec E K maxWrite hK s h3 hne h2).mono ?_ (fun _ _ h => h)
  rintro _ s' ⟨e, u, k1, k2, k3, k4⟩
  refine ⟨by rw [k3]; exact h1, ?_, k4, cs ++ [s.chunk], ?_, ?_, ?_⟩
  · rw [k2, List.length_append, ← h3, k3]
  · rw [k2]; exact h4.snoc k1
  · intro c hc
    simp only [List.mem_append, List.mem_singleton] at hc
    rcases hc with hc | rfl
    · exact h5 c hc
    · exact hne
  · rw [h6]; simp

theorem chunkWriteLoop_spec {E : Env} {K : StreamKind} {maxWrite : Nat} (hK : K.Fits maxWrite) (hmw : 1 ≤ maxWrite) :
    ∀ (fuel : Nat) (b : Bytes) (s : Strm) (data : Bytes), Writing E K maxWrite s data →
    (2 * b.length ≤ fuel ∨ (2 * b.length ≤ fuel + 1 ∧ s.chunk.length < maxWrite)) →
    Sp (chunkWriteLoop E K maxWrite fuel b) s
      (fun _ s' => Writing E K maxWrite s' (data ++ b) ∧ s'.file.faults <:+ s.file.faults)
      (fun _ _ => s.file.faults ≠ []) := by
  intro fuel
  induction fuel with
  | zero =>
    intro b s data hW hf
    have hb : b = [] := List.eq_nil_of_length_eq_zero (by omega)
    subst hb
    unfold chunkWriteLoop
    rw [if_pos rfl]
    exact ⟨by simpa using hW, List.suffix_refl _⟩
  | succ fuel ih =>
    intro b s data hW hf
    unfold chunkWriteLoop
    by_cases hb : b = []
    · subst hb
      rw [if_pos rfl]
      exact ⟨by simpa using hW, List.suffix_refl _⟩
    · rw [if_neg hb]
      have hbl := List.length_pos_iff.2 hb
      have hmax := hW.2.1
      apply Sp.get_bind
      simp only
      rw [if_neg (by omega)]
      by_cases hc0 : min b.length (maxWrite - s.chunk.length) = 0
      · rw [if_pos hc0]
        have hne : s.chunk ≠ [] := by
          intro h; rw [h] at hc0; simp only [List.length_nil] at hc0; omega
        apply Sp.bind' (writeChunk_writing hK hW hne)
        · rintro _ s1 ⟨k1, k2, k3, cs, k4, k5, k6⟩
          refine Sp.bind' (Q1 := fun _ s' => s' = { s1 with chunk := [] }) (R1 := fun _ _ => False) rfl ?_ (fun _ _ h => h.elim)
          rintro _ _ rfl
          refine (ih b { s1 with chunk := [] } data ⟨k1, Nat.zero_le _, k2, cs, k4, k5, by simpa using k6⟩ ?_).mono ?_ ?_
          · right
            exact ⟨by omega, by simp only [List.length_nil]; omega⟩
          · rintro _ s' ⟨a1, a2⟩; exact ⟨a1, a2.trans k3⟩
          · intro _ _ h; exact suffix_ne_nil k3 h
        · intro _ _ h; exact h
      · rw [if_neg hc0]
        generalize hcc : min b.length (maxWrite - s.chunk.length) = c at *
        refine Sp.bind' (Q1 := fun _ s' => s' = { s with chunk := s.chunk ++ b.take c }) (R1 := fun _ _ => False) rfl ?_ (fun _ _ h => h.elim)
        rintro _ _ rfl
        obtain ⟨h1, h2, h3, cs, h4, h5, h6⟩ := hW
        refine (ih (b.drop c) { s with chunk := s.chunk ++ b.take c } (data ++ b.take c)
          ⟨h1, by simp; omega, h3, cs, h4, h5, by rw [h6]; simp⟩ ?_).mono ?_ (fun _ _ h => h)
        · left; simp; omega
        · rintro _ s' ⟨a1, a2⟩
          rw [List.append_assoc, List.take_append_drop] at a1
          exact ⟨a1, a2⟩

/-! ### A stream is a file of bytes -/

/-- A stream and the file it stands for. -/
def IsTape (E : Env) (K : StreamKind) (maxWrite : Nat) (s : Strm) (t : ByteTape) : Prop :=
  t.place ≤ t.data.length ∧
  ((t.dirty = true ∧ t.place = t.data.length ∧ Writing E K maxWrite s t.data) ∨
   (t.dirty = false ∧ Reading E K s (t.data.drop t.place) ∧
    ∃ cs, Chunks E K cs s.file.disk ∧ (∀ c ∈ cs, c ≠ []) ∧ t.data = cs.flatten))

theorem Reading.at_end {E : Env} {K : StreamKind} {s : Strm} (h : Reading E K s []) : s.pos = s.file.disk.length := by
  obtain ⟨r, pre, es, rest, _, _, hd, hp, hc, hne, hrem⟩ := h
  cases hc with
  | nil => rw [hd, hp]; simp
  | cons hb hbs =>
    have := hne _ (List.mem_cons_self ..)
    have h' := congrArg List.length hrem
    simp at h'
    have : (0:Nat) < _ := List.length_pos_iff.2 this
    omega

theorem chunkWrite_spec {E : Env} {K : StreamKind} {maxWrite : Nat} (hK : K.Fits maxWrite) (hmw : 1 ≤ maxWrite) (b : Bytes)
    {s : Strm} {t : ByteTape} (h : IsTape E K maxWrite s t) (hend : t.place = t.data.length) :
    Sp (chunkWrite E K maxWrite b) s
      (fun _ s' => IsTape E K maxWrite s' ⟨t.data ++ b, (t.data ++ b).length, true⟩ ∧ s'.file.faults <:+ s.file.faults)
      (fun _ _ => s.file.faults ≠ []) := by
  unfold chunkWrite
  apply Sp.get_bind
  have key : ∀ s1 : Strm, Writing E K maxWrite s1 t.data → s1.file = s.file →
      Sp (chunkWriteLoop E K maxWrite (2 * b.length + 1) b) s1
      (fun _ s' => IsTape E K maxWrite s' ⟨t.data ++ b, (t.data ++ b).length, true⟩ ∧ s'.file.faults <:+ s.file.faults)
      (fun _ _ => s.file.faults ≠ []) := by
    intro s1 hW he
    refine (chunkWriteLoop_spec hK hmw _ b s1 t.data hW (Or.inl (by omega))).mono ?_ ?_
    · rintro _ s' ⟨a1, a2⟩
      exact ⟨⟨Nat.le_refl _, Or.inl ⟨rfl, rfl, a1⟩⟩, he ▸ a2⟩
    · intro _ _ h; exact he ▸ h
  rcases h.2 with ⟨_, _, hW⟩ | ⟨_, hR, cs, hc, hne, hdata⟩
  · rw [if_neg (by simp [hW.1])]
    exact key s hW rfl
  · have hrp : s.readPos ≠ none := by
      obtain ⟨r, _, _, _, hr, _⟩ := hR; rw [hr]; simp
    rw [if_pos hrp]
    refine Sp.bind' (Q1 := fun _ s' => s' = { s with chunk := [], readPos := none }) (R1 := fun _ _ => False) rfl ?_ (fun _ _ h => h.elim)
    rintro _ _ rfl
    refine key _ ⟨rfl, Nat.zero_le _, ?_, cs, hc, hne, by simpa using hdata⟩ rfl
    rw [hend, List.drop_of_length_le (Nat.le_refl _)] at hR
    exact hR.at_end

/-- After a flush everything is in the file. -/
theorem chunkFlush_spec {E : Env} {K : StreamKind} {maxWrite : Nat} (hK : K.Fits maxWrite)
    {s : Strm} {t : ByteTape} (h : IsTape E K maxWrite s t) :
    Sp (chunkFlush E K) s
      (fun _ s' => s'.chunk = [] ∧ s'.readPos = some 0 ∧ (t.place = t.data.length → s'.pos = s'.file.disk.length) ∧
        s'.file.faults <:+ s.file.faults ∧ ∃ cs, Chunks E K cs s'.file.disk ∧ (∀ c ∈ cs, c ≠ []) ∧ t.data = cs.flatten)
      (fun _ _ => s.file.faults ≠ []) := by
  unfold chunkFlush
  apply Sp.get_bind
  rcases h.2 with ⟨_, hend, hW⟩ | ⟨_, hR, cs, hc, hne, hdata⟩
  · by_cases hch : s.chunk = []
    · rw [if_neg (by simp [hch])]
      obtain ⟨h1, h2, h3, cs, h4, h5, h6⟩ := hW
      refine ⟨rfl, rfl, fun _ => h3, List.suffix_refl _, cs, h4, h5, by rw [h6, hch]; simp⟩
    · rw [if_pos ⟨hW.1, hch⟩]
      apply Sp.bind' (writeChunk_writing hK hW hch)
      · rintro _ s1 ⟨k1, k2, k3, cs, k4, k5, k6⟩
        exact ⟨rfl, rfl, fun _ => k2, k3, cs, k4, k5, k6⟩
      · intro _ _ h; exact h
  · have hrp : s.readPos ≠ none := by
      obtain ⟨r, _, _, _, hr, _⟩ := hR; rw [hr]; simp
    rw [if_neg (by simp [hrp])]
    refine ⟨rfl, rfl, fun hend => ?_, List.suffix_refl _, cs, hc, hne, hdata⟩
    rw [hend, List.drop_of_length_le (Nat.le_refl _)] at hR
    exact hR.at_end

theorem chunkRead_tape {E : Env} {K : StreamKind} {maxWrite : Nat} (n : Nat)
    {s : Strm} {t : ByteTape} (h : IsTape E K maxWrite s t) (h0 : .short 0 ∉ s.file.faults) (hdirty : ¬ t.dirty = true) :
    Sp (chunkRead E K n) s
      (fun res s' => s'.file.faults <:+ s.file.faults ∧
        (t.place + n ≤ t.data.length → res = some (slice t.data t.place n) ∧ IsTape E K maxWrite s' { t with place := t.place + n }) ∧
        (¬ t.place + n ≤ t.data.length → res = none ∧ IsTape E K maxWrite s' { t with place := t.data.length }))
      (fun _ _ => s.file.faults ≠ []) := by
  rcases h.2 with ⟨hd, _⟩ | ⟨hd, hR, hcs⟩
  · exact absurd hd hdirty
  have hple := h.1
  unfold chunkRead
  apply Sp.get_bind
  have hrp : s.readPos ≠ none := by
    obtain ⟨r, _, _, _, hr, _⟩ := hR; rw [hr]; simp
  rw [if_neg hrp]
  refine (chunkReadLoop_spec E K (2 * n + s.file.disk.length + 2) n [] s _ hR h0 (Or.inl (by omega))).mono ?_ (fun _ _ h => h)
  rintro res s' ⟨a1, a2, a3, a4⟩
  rw [← a2] at hcs
  refine ⟨a3, fun hin => ?_, fun hout => ?_⟩
  · rw [if_pos (by simp; omega)] at a4
    subst a4
    refine ⟨rfl, ⟨hin, Or.inr ⟨hd, ?_, hcs⟩⟩⟩
    rw [List.drop_drop] at a1
    exact a1
  · rw [if_neg (by simp; omega)] at a4
    subst a4
    refine ⟨rfl, ⟨Nat.le_refl _, Or.inr ⟨hd, ?_, hcs⟩⟩⟩
    rw [List.drop_drop, List.drop_of_length_le (by omega)] at a1
    simp only [List.drop_length]
    exact a1

/-- An operation does what it should, or a raw operation misbehaved. -/
theorem streamOp_spec {E : Env} {K : StreamKind} {maxWrite : Nat} (hK : K.Fits maxWrite) (hmw : 1 ≤ maxWrite)
    {s : Strm} {t : ByteTape} (h : IsTape E K maxWrite s t) (h0 : .short 0 ∉ s.file.faults) (op : StreamOp) {r : StreamRes}
    {t' : ByteTape} (hop : t.step op = some (r, t')) :
    Sp (op.run E K maxWrite) s (fun x s' => x = r ∧ IsTape E K maxWrite s' t' ∧ s'.file.faults <:+ s.file.faults)
      (fun _ _ => s.file.faults ≠ []) := by
  cases op with
  | write b =>
    simp only [ByteTape.step] at hop
    split at hop
    · rename_i hend
      simp only [Option.some.injEq, Prod.mk.injEq] at hop
      obtain ⟨rfl, rfl⟩ := hop
      unfold StreamOp.run
      apply Sp.bind' (chunkWrite_spec hK hmw b h hend)
      · rintro _ s' ⟨a1, a2⟩; exact ⟨rfl, a1, a2⟩
      · intro _ _ h; exact h
    · cases hop
  | read n =>
    simp only [ByteTape.step] at hop
    split at hop
    · cases hop
    rename_i hdirty
    unfold StreamOp.run
    apply Sp.bind' (chunkRead_tape n h h0 hdirty)
    · rintro res s' ⟨a3, a1, a2⟩
      split at hop
      · rename_i hin
        simp only [Option.some.injEq, Prod.mk.injEq] at hop
        obtain ⟨rfl, rfl⟩ := hop
        obtain ⟨rfl, hT⟩ := a1 hin
        exact ⟨rfl, hT, a3⟩
      · rename_i hout
        simp only [Option.some.injEq, Prod.mk.injEq] at hop
        obtain ⟨rfl, rfl⟩ := hop
        obtain ⟨rfl, hT⟩ := a2 hout
        exact ⟨rfl, hT, a3⟩
    · intro _ _ h; exact h
  | flush =>
    simp only [ByteTape.step] at hop
    split at hop
    · rename_i hend
      simp only [Option.some.injEq, Prod.mk.injEq] at hop
      obtain ⟨rfl, rfl⟩ := hop
      unfold StreamOp.run
      apply Sp.bind' (chunkFlush_spec hK h)
      · rintro _ s' ⟨a1, a2, a3, a4, cs, a5, a6, a7⟩
        refine ⟨rfl, ⟨h.1, Or.inr ⟨rfl, ⟨0, s'.file.disk, [], [], a2, Nat.zero_le _, by simp, a3 hend, .nil, by simp, ?_⟩, cs, a5, a6, a7⟩⟩, a4⟩
        rw [a1, hend]; simp
      · intro _ _ h; exact h
    · cases hop
  | seekBegin =>
    simp only [ByteTape.step, Option.some.injEq, Prod.mk.injEq] at hop
    obtain ⟨rfl, rfl⟩ := hop
    unfold StreamOp.run chunkSeekBegin
    apply Sp.bind
    apply Sp.bind' (chunkFlush_spec hK h)
    · rintro _ s' ⟨a1, a2, a3, a4, cs, a5, a6, a7⟩
      refine ⟨rfl, ⟨Nat.zero_le _, Or.inr ⟨rfl, ⟨0, [], s'.file.disk, cs, a2, Nat.zero_le _, by simp, rfl, a5, a6, ?_⟩, cs, a5, a6, a7⟩⟩, a4⟩
      show t.data.drop 0 = s'.chunk.drop 0 ++ cs.flatten
      rw [a1, a7]; simp
    · intro _ _ h; exact h
  | seekEnd =>
    simp only [ByteTape.step, Option.some.injEq, Prod.mk.injEq] at hop
    obtain ⟨rfl, rfl⟩ := hop
    unfold StreamOp.run chunkSeekEnd
    apply Sp.bind
    apply Sp.bind' (chunkFlush_spec hK h)
    · rintro _ s1 ⟨a1, a2, a3, a4, cs, a5, a6, a7⟩
      have hg : Sp gotoEof s1.file (fun p g => p = s1.file.disk.length ∧ ∃ fs, g = { s1.file with faults := fs } ∧ fs <:+ s1.file.faults)
          (fun _ _ => s1.file.faults ≠ []) := by
        unfold gotoEof
        apply Sp.bind' (popFault_spec s1.file)
        · rintro x g ⟨⟨fs, rfl, hs⟩, hx, hl⟩
          cases x with
          | none => exact ⟨rfl, fs, rfl, hs⟩
          | short k => exact ⟨rfl, fs, rfl, hs⟩
          | err e => exact hx (by simp)
        · intro _ _ h; exact h.elim
      apply Sp.bind' (Sp.liftS hg)
      · rintro p s2 ⟨⟨rfl, fs, hg2, hs⟩, hs2⟩
        rw [hg2] at hs2
        subst hs2
        refine ⟨rfl, ⟨Nat.le_refl _, Or.inr ⟨rfl, ⟨0, s1.file.disk, [], [], a2, Nat.zero_le _, by simp, rfl, .nil, by simp, ?_⟩, cs, a5, a6, a7⟩⟩, hs.trans a4⟩
        show t.data.drop t.data.length = s1.chunk.drop 0 ++ _
        rw [a1]; simp
      · rintro _ _ ⟨h, _⟩; exact suffix_ne_nil a4 h
    · intro _ _ h; exact h

/-- A sequence of operations. -/
theorem runStream_spec {E : Env} {K : StreamKind} {maxWrite : Nat} (hK : K.Fits maxWrite) (hmw : 1 ≤ maxWrite) :
    ∀ (ops : List StreamOp) (s : Strm) (t : ByteTape) (rs : List StreamRes), IsTape E K maxWrite s t →
    .short 0 ∉ s.file.faults → t.run ops = some rs →
    (runStream E K maxWrite ops s).1 <+: rs ∧
      ((runStream E K maxWrite ops s).2 = none → (runStream E K maxWrite ops s).1 = rs) ∧
      ((runStream E K maxWrite ops s).2 ≠ none → s.file.faults ≠ []) := by
  intro ops
  induction ops with
  | nil =>
    intro s t rs _ _ hrun
    cases hrun
    exact ⟨List.prefix_refl _, fun _ => rfl, fun h => absurd rfl h⟩
  | cons op ops ih =>
    intro s t rs hT h0 hrun
    unfold ByteTape.run at hrun
    cases hst : t.step op with
    | none => rw [hst] at hrun; cases hrun
    | some rt =>
      obtain ⟨r, t'⟩ := rt
      rw [hst] at hrun
      simp only at hrun
      cases hr' : t'.run ops with
      | none => rw [hr'] at hrun; cases hrun
      | some rs' =>
        rw [hr'] at hrun
        cases hrun
        have hsp := streamOp_spec hK hmw hT h0 op hst
        unfold runStream
        cases hm : op.run E K maxWrite s with
        | ok x s' =>
          obtain ⟨rfl, hT', hs⟩ := hsp.ok hm
          obtain ⟨a1, a2, a3⟩ := ih s' t' rs' hT' (fun h => h0 (hs.subset h)) hr'
          refine ⟨?_, ?_, ?_⟩
          · exact (List.cons_prefix_cons).2 ⟨rfl, a1⟩
          · intro h; simp only; rw [a2 h]
          · intro h; exact suffix_ne_nil hs (a3 h)
        | error e s' =>
          exact ⟨List.nil_prefix, fun h => (nomatch h), fun _ => hsp.error hm⟩

/-- A new file. -/
theorem isTape_open (E : Env) (K : StreamKind) (maxWrite : Nat) (f : File) (hf : f.disk = []) :
    IsTape E K maxWrite (Strm.open f) ⟨[], 0, false⟩ :=
  ⟨Nat.zero_le _, Or.inr ⟨rfl, ⟨0, [], [], [], rfl, Nat.zero_le _, by simpa [Strm.open] using hf, rfl, .nil, by simp, rfl⟩,
    [], by show Chunks E K [] f.disk; rw [hf]; exact .nil, by simp, rfl⟩⟩

/-- A file of chunks. -/
theorem isTape_reopen (E : Env) (K : StreamKind) (maxWrite : Nat) (f : File) (cs : List Bytes) (h : Chunks E K cs f.disk)
    (hne : ∀ c ∈ cs, c ≠ []) : IsTape E K maxWrite (Strm.open f) ⟨cs.flatten, 0, false⟩ :=
  ⟨Nat.zero_le _, Or.inr ⟨rfl, ⟨0, [], f.disk, cs, rfl, Nat.zero_le _, rfl, rfl, h, hne, by simp [Strm.open]⟩,
    cs, h, hne, rfl⟩⟩

/-! ### Any file -/

/-- `got` was delivered, and is from chunks at the beginning of the file. -/
def Verified (E : Env) (K : StreamKind) (s : Strm) (got : Bytes) : Prop :=
  ∃ r cs pre tail, s.readPos = some r ∧ r ≤ s.chunk.length ∧ Chunks E K cs pre ∧ s.file.disk = pre ++ tail ∧ s.pos = pre.length ∧
    got ++ s.chunk.drop r = cs.flatten

theorem chunkReadLoop_any (E : Env) (K : StreamKind) : ∀ (fuel n : Nat) (acc : Bytes) (s : Strm) (got : Bytes),
    Verified E K s got → n + (s.file.disk.length - s.pos) ≤ fuel →
    Sp (chunkReadLoop E K fuel n acc) s
      (fun res s' => s'.file.disk = s.file.disk ∧ s'.file.faults <:+ s.file.faults ∧
        (∀ b, res = some b → ∃ x, b = acc ++ x ∧ x.length = n ∧ Verified E K s' (got ++ x)) ∧
        (res = none → ReadToEnd E K s.file got n))
      (fun e _ => e ≠ .diverge) := by
  intro fuel
  induction fuel with
  | zero =>
    intro n acc s got hV hf
    have hn : n = 0 := by omega
    subst hn
    exact ⟨rfl, List.suffix_refl _, fun b hb => ⟨[], by cases hb; simp, rfl, by simpa using hV⟩, by simp⟩
  | succ fuel ih =>
    intro n acc s got hV hf
    cases n with
    | zero => exact ⟨rfl, List.suffix_refl _, fun b hb => ⟨[], by cases hb; simp, rfl, by simpa using hV⟩, by simp⟩
    | succ n =>
      obtain ⟨r, cs, pre, tail, hr, hle, hc, hd, hp, hgot⟩ := hV
      unfold chunkReadLoop
      apply Sp.get_bind
      simp only [hr, Option.getD_some]
      rw [if_neg (by omega)]
      by_cases hc0 : min (n + 1) (s.chunk.length - r) = 0
      · rw [if_pos hc0]
        have hdr : s.chunk.drop r = [] := List.drop_of_length_le (by omega)
        rw [hdr, List.append_nil] at hgot
        apply Sp.bind' (readChunk_spec E K s)
        · rintro ok s1 ⟨h1, h2⟩
          cases ok with
          | false =>
            obtain ⟨k1, k2, k3, k4⟩ := h2 rfl
            refine ⟨k1.disk, k1.faults, by simp, fun _ => ⟨cs, pre, tail, hc, hd, by rw [hgot]; exact List.prefix_refl _, by rw [hgot]; omega, ?_⟩⟩
            rcases k2 with k2 | k2
            · left; rw [hd, hp] at k2; simp at k2; exact k2
            · exact Or.inr k2
          | true =>
            obtain ⟨e, fs, g1, g2, g3, g4, g5⟩ := h1 rfl
            simp only [if_true]
            refine Sp.bind' (Q1 := fun _ s' => s' = { s1 with readPos := some 0 }) (R1 := fun _ _ => False) rfl ?_ (fun _ _ h => h.elim)
            rintro _ _ rfl
            have he : tail = e ++ tail.drop e.length := by
              have : e = tail.take e.length := by
                rw [← g2, hd, hp, slice_cons_app _ _ _ _ rfl, slice]; simp
              have h := List.take_append_drop e.length tail
              rw [← this] at h
              exact h.symm
            have h8 : 0 < e.length := by
              have := g1.hdr_le
              have : 0 < K.hdr := by cases K <;> simp [StreamKind.hdr]
              omega
            have hV' : Verified E K { s1 with readPos := some 0 } got := by
              refine ⟨0, cs ++ [s1.chunk], pre ++ e, tail.drop e.length, rfl, Nat.zero_le _, hc.snoc g1, ?_, ?_, ?_⟩
              · rw [g4]; simp only [hd]; rw [List.append_assoc, ← he]
              · rw [g4]; simp [hp]
              · rw [hgot]; simp
            have hs1 : s1.file.faults <:+ s.file.faults := by rw [g4]; exact g5
            have hd1 : s1.file.disk = s.file.disk := by rw [g4]
            have hp1 : s1.pos = s.pos + e.length := by rw [g4]
            refine (ih (n + 1) acc _ got hV' ?_).mono ?_ (fun _ _ h => h)
            · simp only [hd1, hp1]; omega
            · rintro res s' ⟨a1, a2, a3, a4⟩
              refine ⟨a1.trans hd1, a2.trans hs1, a3, fun h => ?_⟩
              obtain ⟨cs', pre', tail', b1, b2, b3, b4, b5⟩ := a4 h
              exact ⟨cs', pre', tail', b1, hd1 ▸ b2, b3, b4, b5.imp id (fun h => hs1.subset h)⟩
        · rintro x _ ⟨_, h⟩; exact h
      · rw [if_neg hc0]
        generalize hcc : min (n + 1) (s.chunk.length - r) = c at *
        refine Sp.bind' (Q1 := fun _ s' => s' = { s with readPos := some (r + c) }) (R1 := fun _ _ => False) rfl ?_ (fun _ _ h => h.elim)
        rintro _ _ rfl
        have hV' : Verified E K { s with readPos := some (r + c) } (got ++ (s.chunk.drop r).take c) := by
          refine ⟨r + c, cs, pre, tail, rfl, by simp only; omega, hc, hd, hp, ?_⟩
          rw [← hgot, List.append_assoc]
          congr 1
          rw [← List.drop_drop]
          exact List.take_append_drop _ _
        have hcl : ((s.chunk.drop r).take c).length = c := by simp; omega
        refine (ih (n + 1 - c) _ _ _ hV' (by simp only; omega)).mono ?_ (fun _ _ h => h)
        rintro res s' ⟨a1, a2, a3, a4⟩
        refine ⟨a1, a2, ?_, ?_⟩
        · intro b hb
          obtain ⟨x, x1, x2, x3⟩ := a3 b hb
          refine ⟨(s.chunk.drop r).take c ++ x, by rw [x1, List.append_assoc], by rw [List.length_append, hcl]; omega, ?_⟩
          rw [← List.append_assoc]; exact x3
        · intro h
          obtain ⟨cs', pre', tail', b1, b2, b3, b4, b5⟩ := a4 h
          refine ⟨cs', pre', tail', b1, b2, (List.prefix_append _ _).trans b3, ?_, b5⟩
          rw [List.length_append, hcl] at b4
          omega

theorem reads_any (E : Env) (K : StreamKind) (maxWrite : Nat) : ∀ (ns : List Nat) (s : Strm) (got : Bytes), Verified E K s got →
    ∀ (bs : List Bytes) (more : List StreamRes),
    (runStream E K maxWrite (ns.map .read) s).1 = bs.map .bytes ++ more →
    bs.map List.length = ns.take bs.length ∧
    (∃ cs e, Chunks E K cs e ∧ e <+: s.file.disk ∧ got ++ bs.flatten <+: cs.flatten) ∧
    (more = [] → (runStream E K maxWrite (ns.map .read) s).2 ≠ some .diverge) ∧
    (∀ more', more = .eof :: more' → ∃ n, ns[bs.length]? = some n ∧ ReadToEnd E K s.file (got ++ bs.flatten) n) := by
  intro ns
  induction ns with
  | nil =>
    intro s got hV bs more hrun
    simp only [List.map_nil, runStream] at hrun
    obtain ⟨h1, h2⟩ := List.append_eq_nil_iff.1 hrun.symm
    rw [List.map_eq_nil_iff] at h1
    subst h1 h2
    obtain ⟨r, cs, pre, tail, hr, hle, hc, hd, hp, hgot⟩ := hV
    exact ⟨rfl, ⟨cs, pre, hc, by rw [hd]; exact List.prefix_append _ _, by rw [← hgot]; simp⟩, by simp [runStream], by simp⟩
  | cons n ns ih =>
    intro s got hV bs more hrun
    have hV0 := hV
    obtain ⟨r, cs, pre, tail, hr, hle, hc, hd, hp, hgot⟩ := hV0
    have hsp : Sp (chunkRead E K n) s
      (fun res s' => s'.file.disk = s.file.disk ∧ s'.file.faults <:+ s.file.faults ∧
        (∀ b, res = some b → b.length = n ∧ Verified E K s' (got ++ b)) ∧
        (res = none → ReadToEnd E K s.file got n))
      (fun e _ => e ≠ .diverge) := by
      unfold chunkRead
      apply Sp.get_bind
      rw [if_neg (by rw [hr]; simp)]
      refine (chunkReadLoop_any E K (2 * n + s.file.disk.length + 2) n [] s got hV (by omega)).mono ?_ (fun _ _ h => h)
      rintro res s' ⟨a1, a2, a3, a4⟩
      refine ⟨a1, a2, fun b hb => ?_, a4⟩
      obtain ⟨x, x1, x2, x3⟩ := a3 b hb
      simp only [List.nil_append] at x1
      subst x1
      exact ⟨x2, x3⟩
    have hop : Sp ((StreamOp.read n).run E K maxWrite) s
      (fun res s' => s'.file.disk = s.file.disk ∧ s'.file.faults <:+ s.file.faults ∧
        ((∃ b, res = .bytes b ∧ b.length = n ∧ Verified E K s' (got ++ b)) ∨
        (res = .eof ∧ ReadToEnd E K s.file got n)))
      (fun e _ => e ≠ .diverge) := by
      unfold StreamOp.run
      apply Sp.bind' hsp
      · rintro res s' ⟨a1, a2, a3, a4⟩
        cases res with
        | none => exact ⟨a1, a2, Or.inr ⟨rfl, a4 rfl⟩⟩
        | some b => exact ⟨a1, a2, Or.inl ⟨b, rfl, a3 b rfl⟩⟩
      · intro _ _ h; exact h
    simp only [List.map_cons, runStream] at hrun ⊢
    cases hm : (StreamOp.read n).run E K maxWrite s with
    | error e s' =>
      rw [hm] at hrun
      simp only at hrun ⊢
      obtain ⟨h1, h2⟩ := List.append_eq_nil_iff.1 hrun.symm
      rw [List.map_eq_nil_iff] at h1
      subst h1 h2
      refine ⟨rfl, ⟨cs, pre, hc, by rw [hd]; exact List.prefix_append _ _, by rw [← hgot]; simp⟩, fun _ h => ?_, by simp⟩
      exact hop.error hm (Option.some.inj h)
    | ok x s' =>
      rw [hm] at hrun
      simp only at hrun ⊢
      obtain ⟨a1, a2, a3⟩ := hop.ok hm
      cases bs with
      | nil =>
        simp only [List.map_nil, List.nil_append] at hrun
        subst hrun
        refine ⟨rfl, ⟨cs, pre, hc, by rw [hd]; exact List.prefix_append _ _, by rw [← hgot]; simp⟩, fun h => (nomatch h), ?_⟩
        intro more' hm'
        simp only [List.cons.injEq] at hm'
        rcases a3 with ⟨b, hb, _⟩ | ⟨_, h⟩
        · rw [hb] at hm'; exact absurd hm'.1 (by simp)
        · exact ⟨n, rfl, by simpa using h⟩
      | cons b bs =>
        simp only [List.map_cons, List.cons_append, List.cons.injEq] at hrun
        rcases a3 with ⟨b', hb, hl, hV'⟩ | ⟨hb, _⟩
        · rw [hb] at hrun
          obtain ⟨h1, h2⟩ := hrun
          cases h1
          obtain ⟨c1, ⟨cs', e', c2, c3, c4⟩, c5, c6⟩ := ih s' _ hV' bs more h2
          refine ⟨?_, ⟨cs', e', c2, a1 ▸ c3, by simpa using c4⟩, c5, ?_⟩
          · simp [c1, hl]
          · intro more' hm'
            obtain ⟨n', d1, ⟨cs2, pre2, tail2, d2, d3, d4, d5, d6⟩⟩ := c6 more' hm'
            refine ⟨n', by simpa using d1, cs2, pre2, tail2, d2, a1 ▸ d3, by simpa using d4, by simpa using d5, d6.imp id (fun h => a2.subset h)⟩
        · rw [hb] at hrun
          exact absurd hrun.1 (by simp)

theorem verified_open (E : Env) (K : StreamKind) (f : File) : Verified E K (Strm.open f) [] :=
  ⟨0, [], [], f.disk, rfl, Nat.zero_le _, .nil, rfl, rfl, rfl⟩

/-! ### Records -/

/-- A record in the file of bytes. -/
def recordBytes (kv : Bytes × Bytes) : Bytes := enc32 kv.1.length ++ enc32 kv.2.length ++ kv.1 ++ kv.2

theorem writeRecords_spec {E : Env} {K : StreamKind} {maxWrite : Nat} (hK : K.Fits maxWrite) (hmw : 1 ≤ maxWrite) :
    ∀ (kvs : List (Bytes × Bytes)) (s : Strm) (t : ByteTape), IsTape E K maxWrite s t → t.place = t.data.length →
    Sp (treeWriteRecords E K maxWrite kvs) s
      (fun _ s' => ∃ d, IsTape E K maxWrite s' ⟨t.data ++ (kvs.map recordBytes).flatten, (t.data ++ (kvs.map recordBytes).flatten).length, d⟩ ∧
        s'.file.faults <:+ s.file.faults)
      (fun _ _ => s.file.faults ≠ []) := by
  intro kvs
  induction kvs with
  | nil =>
    intro s t hT hend
    refine ⟨t.dirty, ?_, List.suffix_refl _⟩
    simp only [List.map_nil, List.flatten_nil, List.append_nil, ← hend]
    exact hT
  | cons kv kvs ih =>
    intro s t hT hend
    obtain ⟨k, v⟩ := kv
    unfold treeWriteRecords
    apply Sp.bind' (Q1 := fun _ s' => IsTape E K maxWrite s' ⟨t.data ++ recordBytes (k, v), (t.data ++ recordBytes (k, v)).length, true⟩ ∧
        s'.file.faults <:+ s.file.faults) (R1 := fun _ _ => s.file.faults ≠ [])
    · unfold treeWriteRecord
      apply Sp.bind' (chunkWrite_spec hK hmw _ hT hend)
      · rintro _ s1 ⟨a1, a2⟩
        apply Sp.bind' (chunkWrite_spec hK hmw k a1 rfl)
        · rintro _ s2 ⟨b1, b2⟩
          refine (chunkWrite_spec hK hmw v b1 rfl).mono ?_ ?_
          · rintro _ s3 ⟨c1, c2⟩
            refine ⟨?_, c2.trans (b2.trans a2)⟩
            simpa [recordBytes] using c1
          · intro _ _ h; exact suffix_ne_nil (b2.trans a2) h
        · intro _ _ h; exact suffix_ne_nil a2 h
      · intro _ _ h; exact h
    · rintro _ s1 ⟨a1, a2⟩
      refine (ih s1 _ a1 rfl).mono ?_ ?_
      · rintro _ s2 ⟨d, b1, b2⟩
        refine ⟨d, ?_, b2.trans a2⟩
        simpa using b1
      · intro _ _ h; exact suffix_ne_nil a2 h
    · intro _ _ h; exact h

theorem treeReadRecord_spec {E : Env} {K : StreamKind} {maxWrite : Nat} {s : Strm} {t : ByteTape} (h : IsTape E K maxWrite s t)
    (h0 : .short 0 ∉ s.file.faults) (hd : ¬ t.dirty = true) (k v rest : Bytes) (hk : k.length < 2 ^ 32) (hv : v.length < 2 ^ 32)
    (hrest : t.data.drop t.place = recordBytes (k, v) ++ rest) :
    Sp (treeReadRecord E K) s
      (fun res s' => res = some (k, v) ∧ ∃ p, IsTape E K maxWrite s' { t with place := p } ∧ t.data.drop p = rest ∧
        s'.file.faults <:+ s.file.faults)
      (fun _ _ => s.file.faults ≠ []) := by
  have hlen : t.data.length - t.place = 8 + k.length + v.length + rest.length := by
    have := congrArg List.length hrest
    simp [recordBytes, enc32] at this; omega
  have hsl : ∀ a n, slice t.data (t.place + a) n = slice (recordBytes (k, v) ++ rest) a n := by
    intro a n
    rw [← hrest, slice, slice, List.drop_drop]
  unfold treeReadRecord
  apply Sp.bind' (chunkRead_tape 8 h h0 hd)
  · rintro res s1 ⟨a1, a2, _⟩
    obtain ⟨rfl, hT1⟩ := a2 (by omega)
    have e1 : slice t.data t.place 8 = enc32 k.length ++ enc32 v.length := by
      have := hsl 0 8
      rw [Nat.add_zero] at this
      rw [this]
      simp only [recordBytes]
      rw [List.append_assoc, List.append_assoc]
      exact slice_prefix _ _ _ (by simp [enc32])
    have e2 : beDec ((slice t.data t.place 8).take 4) = k.length := by
      rw [e1, List.take_left' (by simp [enc32]), enc32, beDec_beEnc _ _ (by simpa using hk)]
    have e3 : beDec ((slice t.data t.place 8).drop 4) = v.length := by
      rw [e1, List.drop_left' (by simp [enc32]), enc32, beDec_beEnc _ _ (by simpa using hv)]
    simp only [e2, e3]
    apply Sp.bind' (chunkRead_tape k.length hT1 (fun h => h0 (a1.subset h)) hd)
    · rintro res s2 ⟨b1, b2, _⟩
      obtain ⟨rfl, hT2⟩ := b2 (by simp only; omega)
      simp only at hT2 ⊢
      apply Sp.bind' (chunkRead_tape v.length hT2 (fun h => h0 ((b1.trans a1).subset h)) hd)
      · rintro res s3 ⟨c1, c2, _⟩
        obtain ⟨rfl, hT3⟩ := c2 (by simp only; omega)
        simp only at hT3 ⊢
        refine ⟨?_, _, hT3, ?_, c1.trans (b1.trans a1)⟩
        · have f1 : slice t.data (t.place + 8) k.length = k := by
            rw [hsl, recordBytes]
            exact slice_at (enc32 k.length ++ enc32 v.length) k (v ++ rest) (by simp) (by simp [enc32]) rfl
          have f2 : slice t.data (t.place + 8 + k.length) v.length = v := by
            rw [Nat.add_assoc, hsl, recordBytes]
            exact slice_at (enc32 k.length ++ enc32 v.length ++ k) v rest (by simp) (by simp [enc32]; omega) rfl
          simp [f1, f2]
        · rw [Nat.add_assoc, Nat.add_assoc, ← List.drop_drop, hrest, List.drop_left' (by simp [recordBytes, enc32]; omega)]
      · intro _ _ h; exact suffix_ne_nil (b1.trans a1) h
    · intro _ _ h; exact suffix_ne_nil a1 h
  · intro _ _ h; exact h

theorem readRecords_spec {E : Env} {K : StreamKind} {maxWrite : Nat} :
    ∀ (kvs : List (Bytes × Bytes)) (fuel : Nat) (s : Strm) (t : ByteTape), IsTape E K maxWrite s t → .short 0 ∉ s.file.faults →
    ¬ t.dirty = true → (∀ kv ∈ kvs, kv.1.length < 2 ^ 32 ∧ kv.2.length < 2 ^ 32) →
    t.data.drop t.place = (kvs.map recordBytes).flatten → kvs.length < fuel →
    Sp (treeReadRecords E K fuel) s (fun out _ => out = kvs) (fun _ _ => s.file.faults ≠ []) := by
  intro kvs
  induction kvs with
  | nil =>
    intro fuel s t hT h0 hd _ hrest hf
    cases fuel with
    | zero => simp at hf
    | succ fuel =>
      unfold treeReadRecords
      apply Sp.bind' (Q1 := fun res _ => res = none) (R1 := fun _ _ => s.file.faults ≠ [])
      · unfold treeReadRecord
        apply Sp.bind' (chunkRead_tape 8 hT h0 hd)
        · rintro res s1 ⟨a1, _, a2⟩
          have := congrArg List.length hrest
          simp at this
          obtain ⟨rfl, _⟩ := a2 (by omega)
          rfl
        · intro _ _ h; exact h
      · rintro _ s1 rfl; rfl
      · intro _ _ h; exact h
  | cons kv kvs ih =>
    intro fuel s t hT h0 hd hl hrest hf
    cases fuel with
    | zero => simp at hf
    | succ fuel =>
      obtain ⟨k, v⟩ := kv
      unfold treeReadRecords
      have hkv := hl (k, v) (by simp)
      apply Sp.bind' (treeReadRecord_spec hT h0 hd k v (kvs.map recordBytes).flatten hkv.1 hkv.2 (by simpa using hrest))
      · rintro _ s1 ⟨rfl, p, a1, a2, a3⟩
        simp only
        apply Sp.bind' (ih fuel s1 _ a1 (fun h => h0 (a3.subset h)) hd (fun x hx => hl x (by simp [hx])) a2 (by simp at hf; omega))
        · rintro _ s2 rfl; rfl
        · intro _ _ h; exact suffix_ne_nil a3 h
      · intro _ _ h; exact h

end Couchstore
