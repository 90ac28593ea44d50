import Verif.Spec.Buffer
import Verif.Lemmas.Trace

/-! Helper lemmas about the I/O buffer. -/

namespace Couchstore

/-! ### Writes on top of writes -/

theorem pwriteDisk_nil (d : Bytes) (o : Nat) : pwriteDisk d o [] = d := by
  unfold pwriteDisk; rw [if_pos rfl]

theorem pwriteDisk_over (d : Bytes) (o : Nat) (x : Bytes) (off : Nat) (y : Bytes)
    (h1 : o ≤ off) (h2 : off ≤ o + x.length) :
    pwriteDisk (pwriteDisk d o x) off y =
      pwriteDisk d o (x.take (off - o) ++ y ++ x.drop (off - o + y.length)) := by
  by_cases hy : y = []
  · subst hy; simp [pwriteDisk_nil]
  by_cases hx : x = []
  · subst hx
    have : off = o := by simp at h2; omega
    subst this
    simp [pwriteDisk_nil]
  have hxy : x.take (off - o) ++ y ++ x.drop (off - o + y.length) ≠ [] := by
    intro h; simp at h; exact hy h.2.1
  have hyl : 0 < y.length := List.length_pos_iff.mpr hy
  have hxl : 0 < x.length := List.length_pos_iff.mpr hx
  apply List.ext_getElem?
  intro i
  rw [getElem?_pwriteDisk _ _ _ _ hy, getElem?_pwriteDisk _ _ _ _ hx, getElem?_pwriteDisk _ _ _ _ hxy,
    pwriteDisk_length, if_neg hx]
  simp only [List.length_append, List.length_take, List.length_drop]
  by_cases hio : i < o
  · rw [if_pos (by omega)]
    by_cases hid : i < d.length
    · rw [if_pos (by omega), if_pos hio, if_pos hid, if_pos hio]
    · rw [if_pos (by omega), if_pos hio, if_neg hid, if_pos hio]
  rw [if_neg hio, if_neg hio]
  by_cases hi2 : i < off
  · rw [if_pos hi2, if_pos (by omega), if_pos (by omega), if_pos (by omega), List.append_assoc,
      List.getElem?_append_left (by simp; omega), List.getElem?_take, if_pos (by omega)]
  rw [if_neg hi2]
  by_cases hi3 : i < off + y.length
  · rw [if_pos hi3, if_pos (by omega), List.append_assoc, List.getElem?_append_right (by simp; omega),
      List.getElem?_append_left (by simp; omega)]
    congr 1; simp; omega
  rw [if_neg hi3]
  by_cases hi4 : i < o + x.length
  · rw [if_pos hi4, if_pos (by omega), List.getElem?_append_right (by simp; omega),
      List.getElem?_drop]
    congr 1; simp; omega
  · rw [if_neg hi4, if_neg (by omega)]

theorem pwriteDisk_append (d : Bytes) (o : Nat) (x y : Bytes) :
    pwriteDisk (pwriteDisk d o x) (o + x.length) y = pwriteDisk d o (x ++ y) := by
  rw [pwriteDisk_over d o x _ y (by omega) (by omega)]
  congr 1
  rw [List.take_of_length_le (by omega), List.drop_eq_nil_of_le (by omega), List.append_nil]

/-! ### The raw operations -/

/-- Only the injected faults differ. -/
structure OnlyFaults (f g : File) : Prop where
  disk : g.disk = f.disk
  log : g.log = f.log
  faults : g.faults <:+ f.faults

theorem OnlyFaults.refl (f : File) : OnlyFaults f f := ⟨rfl, rfl, List.suffix_refl _⟩

theorem OnlyFaults.trans {f g k : File} (h1 : OnlyFaults f g) (h2 : OnlyFaults g k) :
    OnlyFaults f k :=
  ⟨h2.disk.trans h1.disk, h2.log.trans h1.log, h2.faults.trans h1.faults⟩

theorem pread_cases (off n : Nat) (f : File) :
    (∃ g k, pread off n f = .ok (slice f.disk off k) g ∧ k ≤ n ∧ OnlyFaults f g ∧
      (f.faults = [] → k = n)) ∨
    (∃ g e, pread off n f = .error e g ∧ OnlyFaults f g ∧ f.faults ≠ []) := by
  obtain ⟨disk, pos, cfg, faults, log⟩ := f
  cases faults with
  | nil => exact .inl ⟨_, n, rfl, Nat.le_refl _, OnlyFaults.refl _, fun _ => rfl⟩
  | cons x xs =>
    cases x with
    | none =>
      exact .inl ⟨_, n, rfl, Nat.le_refl _, ⟨rfl, rfl, List.suffix_cons _ _⟩, fun _ => rfl⟩
    | short k =>
      exact .inl ⟨_, min k n, rfl, Nat.min_le_right _ _, ⟨rfl, rfl, List.suffix_cons _ _⟩,
        by simp⟩
    | err e => exact .inr ⟨_, _, rfl, ⟨rfl, rfl, List.suffix_cons _ _⟩, by simp⟩

theorem pwrite_cases (b : Bytes) (off : Nat) (f : File) :
    (∃ g k, pwrite b off f = .ok k g ∧ k ≤ b.length ∧ g.disk = pwriteDisk f.disk off (b.take k) ∧
      g.log = .write off (b.take k) :: f.log ∧ g.faults = f.faults.tail ∧
      (f.faults = [] → k = b.length)) ∨
    (∃ g e, pwrite b off f = .error e g ∧ g.disk = f.disk ∧ g.log = f.log ∧
      g.faults = f.faults.tail ∧ f.faults ≠ []) := by
  obtain ⟨disk, pos, cfg, faults, log⟩ := f
  cases faults with
  | nil =>
    refine .inl ⟨_, b.length, rfl, Nat.le_refl _, ?_, ?_, rfl, fun _ => rfl⟩ <;>
      simp [List.take_length]
  | cons x xs =>
    cases x with
    | none =>
      refine .inl ⟨_, b.length, rfl, Nat.le_refl _, ?_, ?_, rfl, fun _ => rfl⟩ <;>
        simp [List.take_length]
    | short k =>
      have e : b.take (b.take k).length = b.take k := by
        rw [List.length_take]
        rcases Nat.le_total k b.length with h | h
        · rw [Nat.min_eq_left h]
        · rw [Nat.min_eq_right h, List.take_of_length_le h, List.take_of_length_le (Nat.le_refl _)]
      refine .inl ⟨_, (b.take k).length, rfl, by simp; omega, ?_, ?_, rfl, by simp⟩ <;> simp only [e]
    | err e => exact .inr ⟨_, _, rfl, rfl, rfl, rfl, by simp⟩

/-! ### Crash images -/

/-- Every image a crash may leave after `l` may also be left after `L`. -/
def CrashLe (d : Bytes) (l L : List Event) : Prop := ∀ img, CrashImage d l img → CrashImage d L img

/-- `P` holds at every moment from the log `a` to the log `b`. -/
def Between (a b : List Event) (P : List Event → Prop) : Prop := ∀ l, a <:+ l → l <:+ b → P l

theorem Between.refl {a : List Event} {P : List Event → Prop} (h : P a) : Between a a P := by
  intro l h1 h2
  rwa [← h1.eq_of_length_le h2.length_le]

theorem Between.trans {a b c : List Event} {P : List Event → Prop} (h1 : Between a b P)
    (h2 : Between b c P) (hbc : b <:+ c) : Between a c P := by
  intro l hl1 hl2
  rcases List.suffix_or_suffix_of_suffix hl2 hbc with h | h
  · exact h1 l hl1 h
  · exact h2 l h hl2

theorem Between.mono {a b : List Event} {P Q : List Event → Prop} (h : Between a b P)
    (hpq : ∀ l, P l → Q l) : Between a b Q := fun l h1 h2 => hpq l (h l h1 h2)

theorem Between.one {a : List Event} {e : Event} {P : List Event → Prop} (h1 : P a)
    (h2 : P (e :: a)) : Between a (e :: a) P := by
  intro l ha hl
  rcases List.suffix_cons_iff.mp hl with h | h
  · exact h ▸ h2
  · rwa [← ha.eq_of_length_le h.length_le]

/-! ### The write buffer -/

/-- `i` is the position of a byte waiting in the buffer. -/
def FileBuf.Covers (b : FileBuf) (i : Nat) : Prop :=
  b.off.toNat ≤ i ∧ i < b.off.toNat + b.data.length

/-- What holds of a write buffer and the raw file, if the same operations would have led to the
events `L` without a buffer. -/
structure WInv (d : Bytes) (L : List Event) (b : FileBuf) (f : File) : Prop where
  raw : replay d f.log = f.disk
  content : replay d L = pwriteDisk f.disk b.off.toNat b.data
  poss : ∀ i x, Poss d f.log i x → Poss d L i x
  pend : ∀ i x, b.data[i]? = some x → Poss d L (b.off.toNat + i) x
  synced : syncedLen d f.log = syncedLen d L
  off : b.data ≠ [] → 0 ≤ b.off ∧ b.dirty = true
  cap : b.data.length ≤ b.cap

theorem WInv.crashLe {d : Bytes} {L : List Event} {b : FileBuf} {f : File} (h : WInv d L b f) :
    CrashLe d f.log L := by
  intro img ⟨h1, h2, h3⟩
  refine ⟨h.synced ▸ h1, ?_, fun i x hx => h.poss i x (h3 i x hx)⟩
  rw [h.content]
  rw [h.raw] at h2
  exact Nat.le_trans h2 (pwriteDisk_length_ge _ _ _)

theorem WInv.faults {d : Bytes} {L : List Event} {b : FileBuf} {f g : File} (h : WInv d L b f)
    (h1 : g.disk = f.disk) (h2 : g.log = f.log) : WInv d L b g :=
  ⟨by rw [h1, h2]; exact h.raw, by rw [h1]; exact h.content, by rw [h2]; exact h.poss, h.pend,
    by rw [h2]; exact h.synced, h.off, h.cap⟩

/-- A raw write of the first `k` bytes of the buffer. -/
theorem WInv.step {d : Bytes} {L : List Event} {b : FileBuf} {f g : File} (h : WInv d L b f)
    {k : Nat} (hk : k ≤ b.data.length) (hne : b.data ≠ [])
    (h1 : g.disk = pwriteDisk f.disk b.off.toNat (b.data.take k))
    (h2 : g.log = .write b.off.toNat (b.data.take k) :: f.log) :
    WInv d L { b with data := b.data.drop k, off := b.off + k } g := by
  have ho : (b.off + (k : Int)).toNat = b.off.toNat + k := by have := (h.off hne).1; omega
  refine ⟨?_, ?_, ?_, ?_, ?_, ?_, ?_⟩
  · rw [h2, h1]; show pwriteDisk (replay d f.log) _ _ = _; rw [h.raw]
  · show _ = pwriteDisk g.disk (b.off + (k : Int)).toNat (b.data.drop k)
    rw [ho, h1, h.content]
    have : b.off.toNat + k = b.off.toNat + (b.data.take k).length := by simp; omega
    rw [this, pwriteDisk_append, List.take_append_drop]
  · rw [h2]
    intro i x hx
    rcases hx with hx | ⟨hi, hx⟩
    · exact h.poss i x hx
    · rw [List.getElem?_take] at hx
      split at hx
      · have := h.pend _ _ hx
        rwa [show b.off.toNat + (i - b.off.toNat) = i by omega] at this
      · exact absurd hx (by simp)
  · intro i x hx
    show Poss d L ((b.off + (k : Int)).toNat + i) x
    rw [ho]
    have hx : (b.data.drop k)[i]? = some x := hx
    rw [List.getElem?_drop] at hx
    have := h.pend _ _ hx
    rwa [show b.off.toNat + k + i = b.off.toNat + (k + i) by omega]
  · rw [h2]; exact h.synced
  · intro _
    have := h.off hne
    exact ⟨by show 0 ≤ b.off + (k : Int); omega, this.2⟩
  · show (b.data.drop k).length ≤ b.cap
    have := h.cap
    simp; omega

/-- What `flush_buffer` does. -/
structure Flushed (d : Bytes) (L : List Event) (b : FileBuf) (f : File) (e : Option Err)
    (b' : FileBuf) (f' : File) : Prop where
  inv : WInv d L b' f'
  empty : e = none → b'.data = []
  error : e ≠ none → f.faults ≠ []
  faults : f'.faults <:+ f.faults
  log : f.log <:+ f'.log
  crash : Between f.log f'.log (CrashLe d · L)
  cap : b'.cap = b.cap
  keeps : ∀ i x, f.disk[i]? = some x → ¬ b.Covers i → f'.disk[i]? = some x
  range : ∀ i, b'.Covers i → b.Covers i

theorem flushLoop_spec {d : Bytes} {L : List Event} : ∀ (fuel : Nat) (b : FileBuf) (f : File),
    WInv d L b f → f.faults.length + (if b.data = [] then 1 else 2) ≤ fuel →
    Flushed d L b f (flushLoop fuel b f).1 (flushLoop fuel b f).2.1 (flushLoop fuel b f).2.2
  | 0, b, f, _, hf => by split at hf <;> omega
  | fuel + 1, b, f, h, hf => by
    unfold flushLoop
    by_cases hb : b.data = []
    · rw [if_neg (by simp [hb])]
      refine ⟨⟨h.raw, h.content, h.poss, h.pend, h.synced, fun hx => absurd hb hx, h.cap⟩,
        fun _ => hb, fun hx => absurd rfl hx, List.suffix_refl _, List.suffix_refl _,
        Between.refl h.crashLe, rfl, fun _ _ hx _ => hx, fun _ hx => hx⟩
    · rw [if_pos ⟨hb, (h.off hb).2⟩]
      rw [if_neg hb] at hf
      rcases pwrite_cases b.data b.off.toNat f with
        ⟨g, k, hp, hk, h1, h2, h3, h4⟩ | ⟨g, e, hp, h1, h2, h3, h4⟩
      · rw [hp]
        dsimp only
        have hs := h.step hk hb h1 h2
        have hfl : g.faults.length + (if b.data.drop k = [] then 1 else 2) ≤ fuel := by
          rw [h3]
          by_cases hff : f.faults = []
          · rw [h4 hff, List.drop_length, if_pos rfl, hff]
            rw [hff] at hf
            simp at hf ⊢
            omega
          · have : 0 < f.faults.length := List.length_pos_iff.mpr hff
            have : f.faults.tail.length + 1 = f.faults.length := by rw [List.length_tail]; omega
            split <;> omega
        have ih := flushLoop_spec fuel _ g hs hfl
        have hlog : f.log <:+ g.log := h2 ▸ List.suffix_cons _ _
        have ho : (b.off + (k : Int)).toNat = b.off.toNat + k := by have := (h.off hb).1; omega
        have hcov : ∀ i, FileBuf.Covers { b with data := b.data.drop k, off := b.off + k } i →
            b.Covers i := by
          intro i ⟨h5, h6⟩
          simp only [ho, List.length_drop] at h5 h6
          exact ⟨by omega, by omega⟩
        refine ⟨ih.inv, ih.empty, fun hx => ?_, ih.faults.trans (h3 ▸ List.tail_suffix _),
          hlog.trans ih.log, ?_, ih.cap, ?_, fun i hx => hcov i (ih.range i hx)⟩
        · intro hff
          exact ih.error hx (by rw [h3, hff]; rfl)
        · refine Between.trans ?_ ih.crash ih.log
          rw [h2]
          have := hs.crashLe
          rw [h2] at this
          exact Between.one h.crashLe this
        · intro i x hx hc
          refine ih.keeps i x ?_ (fun hx => hc (hcov i hx))
          rw [h1]
          by_cases hk0 : b.data.take k = []
          · rw [hk0, pwriteDisk_nil]; exact hx
          · rw [getElem?_pwriteDisk _ _ _ _ hk0]
            have hlt : i < f.disk.length := (List.getElem?_eq_some_iff.mp hx).1
            have hl : (b.data.take k).length ≤ b.data.length := by simp; omega
            by_cases hi : i < b.off.toNat
            · rw [if_pos hi, if_pos hlt]; exact hx
            · rw [if_neg hi, if_neg]
              · exact hx
              · intro hi2
                exact hc ⟨by omega, by omega⟩
      · rw [hp]
        dsimp only
        exact ⟨h.faults h1 h2, fun hx => by simp at hx, fun _ => h4, h3 ▸ List.tail_suffix _,
          h2 ▸ List.suffix_refl _, by rw [h2]; exact Between.refl h.crashLe, rfl,
          fun i x hx _ => by rw [h1]; exact hx, fun _ hx => hx⟩

theorem flushBuffer_spec {d : Bytes} {L : List Event} {b : FileBuf} {f : File}
    (h : WInv d L b f) :
    Flushed d L b f (flushBuffer b f).1 (flushBuffer b f).2.1 (flushBuffer b f).2.2 := by
  apply flushLoop_spec _ _ _ h
  split <;> omega

theorem WInv.wrote0 {d : Bytes} {L : List Event} {b : FileBuf} {f : File} (h : WInv d L b f)
    (off : Nat) : WInv d (.write off [] :: L) b f := by
  refine ⟨h.raw, ?_, fun i x hx => .inl (h.poss i x hx), fun i x hx => .inl (h.pend i x hx),
    h.synced, h.off, h.cap⟩
  show pwriteDisk (replay d L) off [] = _
  rw [pwriteDisk_nil, h.content]

/-- What `write_to_buffer` does. -/
structure Buffered (d : Bytes) (L : List Event) (b : FileBuf) (f : File) (bs : Bytes) (off : Nat)
    (b' : FileBuf) (k : Nat) : Prop where
  inv : WInv d (.write off (bs.take k) :: L) b' f
  le : k ≤ bs.length
  cap : b'.cap = b.cap
  range : ∀ i, b'.Covers i → b.Covers i ∨ off ≤ i ∧ i < off + k
  fits : b.data = [] → bs.length ≤ b.cap → k = bs.length
  full : k < bs.length → k = 0 ∨ b'.data.length = b'.cap

theorem writeToBuffer_spec {d : Bytes} {L : List Event} {b : FileBuf} {f : File}
    (h : WInv d L b f) (bs : Bytes) (off : Nat) :
    Buffered d L b f bs off (writeToBuffer b bs off).1 (writeToBuffer b bs off).2 := by
  unfold writeToBuffer
  by_cases hb : b.data = []
  · rw [if_pos hb]
    dsimp only
    refine ⟨⟨h.raw, ?_, fun i x hx => .inl (h.poss i x hx), ?_, h.synced, ?_, ?_⟩,
      Nat.min_le_right _ _, rfl, ?_, fun _ hl => by omega, ?_⟩
    · show pwriteDisk (replay d L) off _ = pwriteDisk f.disk _ _
      rw [h.content, hb, pwriteDisk_nil]
      rfl
    · intro i x hx
      refine .inr ⟨?_, ?_⟩
      · show off ≤ (off : Int).toNat + i; omega
      · show _ = _
        rw [show ((off : Int).toNat + i) - off = i by omega]
        exact hx
    · intro _; exact ⟨by show (0 : Int) ≤ (off : Int); omega, rfl⟩
    · show (bs.take _).length ≤ b.cap
      simp; omega
    · intro i hx
      have h1 : (off : Int).toNat ≤ i := hx.1
      have h2 : i < (off : Int).toNat + (bs.take (min b.cap bs.length)).length := hx.2
      rw [List.length_take] at h2
      exact .inr ⟨by omega, by omega⟩
    · intro hk
      refine .inr ?_
      show (bs.take (min b.cap bs.length)).length = b.cap
      rw [List.length_take]; omega
  · rw [if_neg hb]
    by_cases hr : (off : Int) < b.off ∨ b.off + b.data.length < off
    · rw [if_pos hr]
      dsimp only
      refine ⟨by rw [List.take_zero]; exact h.wrote0 off, Nat.zero_le _, rfl, fun i hx => .inl hx,
        fun hx => absurd hx hb, fun _ => .inl rfl⟩
    · rw [if_neg hr]
      have hr : b.off ≤ off ∧ (off : Int) ≤ b.off + b.data.length := by omega
      have h0 := (h.off hb).1
      dsimp only
      have hcap := h.cap
      generalize hi : ((off : Int) - b.off).toNat = i at *
      have hio : i = off - b.off.toNat := by omega
      have hkk : (bs.take (min (b.cap - i) bs.length)).length = min (b.cap - i) bs.length := by
        rw [List.length_take]; omega
      have hil : i ≤ b.data.length := by omega
      generalize hk : min (b.cap - i) bs.length = k at *
      refine ⟨⟨h.raw, ?_, fun i x hx => .inl (h.poss i x hx), ?_, h.synced, ?_, ?_⟩,
        by omega, rfl, ?_, fun hx => absurd hx hb, ?_⟩
      · show pwriteDisk (replay d L) off _ = pwriteDisk f.disk _ _
        rw [h.content, pwriteDisk_over _ _ _ _ _ (by omega) (by omega), hkk, ← hio]
      · intro j x hx
        have hx : (b.data.take i ++ bs.take k ++ b.data.drop (i + k))[j]? = some x := hx
        by_cases h1 : j < i
        · rw [List.append_assoc, List.getElem?_append_left (by simp; omega),
            List.getElem?_take, if_pos h1] at hx
          exact .inl (h.pend j x hx)
        · by_cases h2 : j < i + k
          · rw [List.append_assoc, List.getElem?_append_right (by simp; omega),
              List.getElem?_append_left (by simp; omega)] at hx
            refine .inr ⟨?_, ?_⟩
            · show off ≤ b.off.toNat + j; omega
            · have : b.off.toNat + j - off = j - (b.data.take i).length := by simp; omega
              show (bs.take k)[b.off.toNat + j - off]? = _
              rw [this]; exact hx
          · rw [List.getElem?_append_right (by simp; omega), List.getElem?_drop] at hx
            have : i + k + (j - (b.data.take i ++ bs.take k).length) = j := by simp; omega
            rw [this] at hx
            exact .inl (h.pend j x hx)
      · intro _; exact ⟨h0, rfl⟩
      · show (b.data.take i ++ bs.take k ++ b.data.drop (i + k)).length ≤ b.cap
        simp; omega
      · intro j hx
        have h1 : b.off.toNat ≤ j := hx.1
        have h2 : j < b.off.toNat + (b.data.take i ++ bs.take k ++ b.data.drop (i + k)).length := hx.2
        simp only [List.length_append, List.length_take, List.length_drop] at h2
        by_cases h3 : j < b.off.toNat + b.data.length
        · exact .inl ⟨h1, h3⟩
        · exact .inr ⟨by omega, by omega⟩
      · intro hkb
        refine .inr ?_
        show (b.data.take i ++ bs.take k ++ b.data.drop (i + k)).length = b.cap
        simp only [List.length_append, List.length_take, List.length_drop]
        omega

end Couchstore
