import Verif.Spec.Crash
import Verif.Lemmas.Node

/-! Helper lemmas about the file layer. -/

namespace Couchstore

/-! ### A small program logic -/

/-- `Sp m f Q R`: running `m` from `f` ends in a state satisfying `Q` if it succeeds and in one
satisfying `R` if it fails. -/
def Sp {S α : Type} (m : EStateM Err S α) (f : S) (Q : α → S → Prop) (R : Err → S → Prop) : Prop :=
  match m f with
  | .ok a f' => Q a f'
  | .error e f' => R e f'

variable {S α β : Type}

theorem Sp.pure {a : α} {f : S} {Q : α → S → Prop} {R} (h : Q a f) :
    Sp (Pure.pure a : EStateM Err S α) f Q R := h

theorem Sp.throw {e : Err} {f : S} {Q : α → S → Prop} {R} (h : R e f) :
    Sp (MonadExcept.throw e : EStateM Err S α) f Q R := h

theorem Sp.throw' {e : Err} {f : S} {Q : α → S → Prop} {R : Err → S → Prop} (h : R e f) :
    Sp (throwThe Err e : EStateM Err S α) f Q R := h

theorem Sp.bind {m : EStateM Err S α} {k : α → EStateM Err S β} {f : S} {Q : β → S → Prop} {R}
    (h : Sp m f (fun a f' => Sp (k a) f' Q R) R) : Sp (m >>= k) f Q R := by
  unfold Sp at *
  show match EStateM.bind m k f with | .ok a f' => Q a f' | .error e f' => R e f'
  unfold EStateM.bind
  cases hm : m f with
  | ok a f' => rw [hm] at h; exact h
  | error e f' => rw [hm] at h; exact h

theorem Sp.mono {m : EStateM Err S α} {f : S} {Q Q' : α → S → Prop} {R R' : Err → S → Prop}
    (h : Sp m f Q R) (hq : ∀ a f', Q a f' → Q' a f') (hr : ∀ e f', R e f' → R' e f') :
    Sp m f Q' R' := by
  unfold Sp at *
  cases hm : m f with
  | ok a f' => rw [hm] at h; exact hq _ _ h
  | error e f' => rw [hm] at h; exact hr _ _ h

theorem Sp.bind' {m : EStateM Err S α} {k : α → EStateM Err S β} {f : S} {Q : β → S → Prop} {R}
    {Q1 : α → S → Prop} {R1 : Err → S → Prop}
    (h : Sp m f Q1 R1) (hk : ∀ a f', Q1 a f' → Sp (k a) f' Q R) (hr : ∀ e f', R1 e f' → R e f') :
    Sp (m >>= k) f Q R :=
  Sp.bind (h.mono hk hr)

theorem Sp.get_bind {k : S → EStateM Err S β} {f : S} {Q : β → S → Prop} {R}
    (h : Sp (k f) f Q R) : Sp (MonadState.get >>= k) f Q R := h

theorem Sp.getThe_bind {k : S → EStateM Err S β} {f : S} {Q : β → S → Prop} {R}
    (h : Sp (k f) f Q R) : Sp (getThe S >>= k) f Q R := h

theorem Sp.and {m : EStateM Err S α} {f : S} {Q Q' : α → S → Prop} {R R' : Err → S → Prop}
    (h : Sp m f Q R) (h' : Sp m f Q' R') :
    Sp m f (fun a g => Q a g ∧ Q' a g) (fun e g => R e g ∧ R' e g) := by
  unfold Sp at *
  cases hm : m f with
  | ok a f' => rw [hm] at h h'; exact ⟨h, h'⟩
  | error e f' => rw [hm] at h h'; exact ⟨h, h'⟩

theorem Sp.ok {m : EStateM Err S α} {f f' : S} {a : α} {Q : α → S → Prop} {R}
    (h : Sp m f Q R) (e : m f = .ok a f') : Q a f' := by
  unfold Sp at h; rw [e] at h; exact h

theorem Sp.error {m : EStateM Err S α} {f f' : S} {x : Err} {Q : α → S → Prop} {R}
    (h : Sp m f Q R) (e : m f = .error x f') : R x f' := by
  unfold Sp at h; rw [e] at h; exact h

theorem Sp.of {m : EStateM Err S α} {f : S} {Q : α → S → Prop} {R : Err → S → Prop}
    (h1 : ∀ a f', m f = .ok a f' → Q a f') (h2 : ∀ e f', m f = .error e f' → R e f') :
    Sp m f Q R := by
  unfold Sp
  cases hm : m f with
  | ok a f' => exact h1 _ _ hm
  | error e f' => exact h2 _ _ hm

/-! ### pwriteDisk -/

theorem pwriteDisk_length (d : Bytes) (off : Nat) (b : Bytes) :
    (pwriteDisk d off b).length = if b = [] then d.length else max d.length (off + b.length) := by
  unfold pwriteDisk
  split
  · rfl
  · simp; omega

theorem pwriteDisk_length_ge (d : Bytes) (off : Nat) (b : Bytes) :
    d.length ≤ (pwriteDisk d off b).length := by
  rw [pwriteDisk_length]; split <;> omega

theorem pwriteDisk_before (d : Bytes) (off : Nat) (b : Bytes) (i : Nat) (h : i < off)
    (hd : i < d.length) : (pwriteDisk d off b)[i]? = d[i]? := by
  unfold pwriteDisk
  split
  · rfl
  · rw [List.append_assoc, List.append_assoc, List.getElem?_append_left (by simp; omega),
      List.getElem?_take_of_lt h]

theorem pwriteDisk_gap (d : Bytes) (off : Nat) (b : Bytes) (i : Nat) (h : i < off)
    (hd : d.length ≤ i) (hb : b ≠ []) : (pwriteDisk d off b)[i]? = some 0 := by
  unfold pwriteDisk
  rw [if_neg hb, List.append_assoc, List.append_assoc,
    List.getElem?_append_right (by simp; omega),
    List.getElem?_append_left (by simp; omega), List.getElem?_replicate]
  rw [if_pos (by simp; omega)]

theorem pwriteDisk_at (d : Bytes) (off : Nat) (b : Bytes) (i : Nat) (h : i < b.length) :
    (pwriteDisk d off b)[off + i]? = b[i]? := by
  unfold pwriteDisk
  have hb : b ≠ [] := by intro hb; subst hb; simp at h
  rw [if_neg hb, List.append_assoc,
    List.getElem?_append_right (by simp; omega)]
  rw [List.getElem?_append_left (by simp; omega)]
  congr 1
  simp
  omega

theorem pwriteDisk_after (d : Bytes) (off : Nat) (b : Bytes) (i : Nat) (h : off + b.length ≤ i) :
    (pwriteDisk d off b)[i]? = d[i]? := by
  unfold pwriteDisk
  split
  · rfl
  · rw [List.getElem?_append_right (by simp; omega), List.getElem?_drop]
    congr 1
    simp
    omega

/-! ### Frames -/

/-- The events that writing blocks of type `t` at or after `lo` may produce. -/
def EvOk (t : UInt8) (lo : Nat) : Event → Prop
  | .write off b => lo ≤ off ∧ ∀ i, (off + i) % blockSize = 0 → ∀ x, b[i]? = some x → x = t
  | .sync => False
  | .encrypted _ n _ => lo ≤ n

/-- `f'` is reached from `f` by writing blocks of type `t` at or after `lo`. -/
structure Frame (t : UInt8) (lo : Nat) (f f' : File) : Prop where
  agree : ∀ i, i < lo → i < f.disk.length → f'.disk[i]? = f.disk[i]?
  len : f.disk.length ≤ f'.disk.length
  cfg : f'.cfg = f.cfg
  faults : f'.faults <:+ f.faults
  log : ∃ evs, f'.log = evs ++ f.log ∧ (∀ e ∈ evs, EvOk t lo e) ∧ f'.disk = replay f.disk evs

theorem replay_append (d : Bytes) (a b : List Event) : replay d (a ++ b) = replay (replay d b) a := by
  induction a with
  | nil => rfl
  | cons e a ih => cases e <;> simp only [List.cons_append, replay, ih]

theorem Frame.refl (t : UInt8) (lo : Nat) (f : File) : Frame t lo f f :=
  ⟨fun _ _ _ => rfl, Nat.le_refl _, rfl, List.suffix_refl _, [], rfl, by simp, rfl⟩

theorem Frame.trans {t lo} {f g h : File} (a : Frame t lo f g) (b : Frame t lo g h) :
    Frame t lo f h := by
  refine ⟨fun i hi hl => ?_, Nat.le_trans a.len b.len, b.cfg.trans a.cfg,
    List.IsSuffix.trans b.faults a.faults, ?_⟩
  · rw [b.agree i hi (Nat.lt_of_lt_of_le hl a.len), a.agree i hi hl]
  · obtain ⟨e1, h1, k1, r1⟩ := a.log
    obtain ⟨e2, h2, k2, r2⟩ := b.log
    refine ⟨e2 ++ e1, by rw [h2, h1, List.append_assoc], ?_, by rw [replay_append, ← r1, ← r2]⟩
    intro e he
    rcases List.mem_append.mp he with he | he
    · exact k2 e he
    · exact k1 e he

theorem EvOk.mono {t lo hi e} (h : lo ≤ hi) (he : EvOk t hi e) : EvOk t lo e := by
  cases e with
  | write off b => exact ⟨Nat.le_trans h he.1, he.2⟩
  | sync => exact he
  | encrypted k n p => exact Nat.le_trans h he

theorem Frame.mono {t lo hi} {f g : File} (h : lo ≤ hi) (a : Frame t hi f g) : Frame t lo f g := by
  refine ⟨fun i hi' hl => a.agree i (by omega) hl, a.len, a.cfg, a.faults, ?_⟩
  obtain ⟨e1, h1, k1, r1⟩ := a.log
  exact ⟨e1, h1, fun e he => (k1 e he).mono h, r1⟩

theorem suffix_ne_nil {γ : Type} {a b : List γ} (h : a <:+ b) (ha : a ≠ []) : b ≠ [] := by
  intro hb; subst hb
  exact ha (List.suffix_nil.mp h)

theorem Frame.faults_ne {t lo} {f g : File} (h : Frame t lo f g) (hg : g.faults ≠ []) :
    f.faults ≠ [] := suffix_ne_nil h.faults hg

/-! ### raw writes -/

theorem popFault_spec (f : File) :
    Sp popFault f (fun x g => (∃ fs, g = { f with faults := fs } ∧ fs <:+ f.faults) ∧
        (x ≠ .none → f.faults ≠ []) ∧ (f.faults ≠ [] → g.faults.length < f.faults.length))
      (fun _ _ => False) := by
  unfold Sp popFault
  cases hf : f.faults with
  | nil => exact ⟨⟨[], by rw [← hf], List.suffix_refl _⟩, fun h => absurd rfl h, fun h => absurd rfl h⟩
  | cons x xs => exact ⟨⟨xs, rfl, List.suffix_cons x xs⟩, fun _ => by simp, fun _ => by simp⟩

theorem pwrite_spec (t : UInt8) (b : Bytes) (off : Nat) (f : File)
    (hev : ∀ i, (off + i) % blockSize = 0 → ∀ x, b[i]? = some x → x = t) :
    Sp (pwrite b off) f
      (fun w g => w ≤ b.length ∧ Frame t off f g ∧ g.pos = f.pos ∧
        g.disk = pwriteDisk f.disk off (b.take w) ∧ (f.faults = [] → w = b.length) ∧
        (w = b.length ∨ g.faults.length < f.faults.length))
      (fun _ g => Frame t off f g ∧ g.pos = f.pos ∧ f.faults ≠ []) := by
  unfold pwrite
  apply Sp.bind' (popFault_spec f)
  · rintro x g ⟨⟨fs, rfl, hs⟩, hx, hl⟩
    have hframe : ∀ b', (∃ k, b' = b.take k) → Frame t off f
        { f with faults := fs, disk := pwriteDisk f.disk off b', log := .write off b' :: f.log } := by
      rintro b' ⟨k, rfl⟩
      refine ⟨fun i hi hd => pwriteDisk_before _ _ _ _ hi hd, pwriteDisk_length_ge _ _ _, rfl, hs,
        [.write off (b.take k)], rfl, ?_, rfl⟩
      intro e he
      simp at he; subst he
      refine ⟨Nat.le_refl _, fun i hi x hx' => hev i hi x ?_⟩
      rw [List.getElem?_take] at hx'
      split at hx'
      · exact hx'
      · simp at hx'
    cases x with
    | none =>
      refine ⟨Nat.le_refl _, ?_, rfl, ?_, fun _ => rfl, Or.inl rfl⟩
      · exact hframe b ⟨b.length, by simp⟩
      · simp
    | short k =>
      have hne := hx (by simp)
      refine ⟨by simp; omega, ?_, rfl, ?_, fun h => absurd h hne, Or.inr (hl hne)⟩
      · exact hframe _ ⟨k, rfl⟩
      · show pwriteDisk f.disk off (b.take k) = _
        congr 1
        rw [List.length_take, List.take_eq_take_iff]
        omega
    | err e =>
      refine ⟨?_, rfl, hx (by simp)⟩
      exact ⟨fun i _ _ => rfl, Nat.le_refl _, rfl, hs, [], rfl, by simp, rfl⟩
  · intro _ _ h; exact h.elim

theorem writeEntireLoop_spec (t : UInt8) (fuel : Nat) (b : Bytes) (off : Nat) (f : File)
    (hfuel : f.faults.length + 2 ≤ fuel ∨ (b = [] ∧ 1 ≤ fuel))
    (hev : ∀ i, (off + i) % blockSize = 0 → ∀ x, b[i]? = some x → x = t) :
    Sp (writeEntireLoop fuel b off) f
      (fun _ g => Frame t off f g ∧ g.pos = f.pos ∧ (∀ i, i < b.length → g.disk[off + i]? = b[i]?))
      (fun _ g => Frame t off f g ∧ g.pos = f.pos ∧ f.faults ≠ []) := by
  induction fuel generalizing b off f with
  | zero => omega
  | succ fuel ih =>
    unfold writeEntireLoop
    split
    · rename_i hb; subst hb
      exact ⟨Frame.refl _ _ _, rfl, by simp⟩
    · rename_i hb
      have hfuel : f.faults.length + 2 ≤ fuel + 1 := by
        rcases hfuel with h | h
        · exact h
        · exact absurd h.1 hb
      apply Sp.bind' (pwrite_spec t b off f hev)
      · rintro w g ⟨hw, hfr, hpos, hd, hall, hprog⟩
        have hfuel' : g.faults.length + 2 ≤ fuel ∨ (b.drop w = [] ∧ 1 ≤ fuel) := by
          rcases hprog with h | h
          · right; exact ⟨by simp [h], by omega⟩
          · left; omega
        have := ih (b.drop w) (off + w) g hfuel' (by
          intro i hi x hx
          rw [List.getElem?_drop] at hx
          exact hev (w + i) (by rw [← Nat.add_assoc]; exact hi) x hx)
        refine this.mono ?_ ?_
        · rintro _ g' ⟨hfr', hpos', hd'⟩
          refine ⟨hfr.trans (hfr'.mono (by omega)), hpos'.trans hpos, ?_⟩
          intro i hi
          by_cases hiw : i < w
          · have hlt : off + i < g.disk.length := by
              rw [hd, pwriteDisk_length, if_neg]
              · rw [List.length_take]; omega
              · intro h0
                have := congrArg List.length h0
                rw [List.length_take] at this
                simp only [List.length_nil] at this; omega
            rw [hfr'.agree (off + i) (by omega) hlt, hd, pwriteDisk_at _ _ _ _ (by simp; omega),
              List.getElem?_take_of_lt hiw]
          · have := hd' (i - w) (by simp; omega)
            rw [show off + w + (i - w) = off + i by omega] at this
            rw [this, List.getElem?_drop]
            congr 1; omega
        · rintro _ g' ⟨hfr', hpos', hne⟩
          exact ⟨hfr.trans (hfr'.mono (by omega)), hpos'.trans hpos, hfr.faults_ne hne⟩
      · intro _ _ h; exact h

theorem writeEntire_spec (t : UInt8) (b : Bytes) (off : Nat) (f : File)
    (hev : ∀ i, (off + i) % blockSize = 0 → ∀ x, b[i]? = some x → x = t) :
    Sp (writeEntire b off) f
      (fun _ g => Frame t off f g ∧ g.pos = f.pos ∧ (∀ i, i < b.length → g.disk[off + i]? = b[i]?))
      (fun _ g => Frame t off f g ∧ g.pos = f.pos ∧ f.faults ≠ []) :=
  writeEntireLoop_spec t (f.faults.length + 2) b off f (Or.inl (Nat.le_refl _)) hev

/-! ### Data interrupted by block prefixes -/

/-- Where the data byte for position `p` is: the byte after the prefix, at a block start. -/
def skipP (p : Nat) : Nat := if p % blockSize = 0 then p + 1 else p

/-- `bs` is stored in `d` from position `p`, skipping block prefixes, up to `q`. -/
def Stored (d : Bytes) : Nat → Bytes → Nat → Prop
  | p, [], q => q = p
  | p, b :: bs, q => d[skipP p]? = some b ∧ Stored d (skipP p + 1) bs q

theorem skipP_le (p : Nat) : p ≤ skipP p := by unfold skipP; split <;> omega

theorem skipP_ne (p : Nat) : skipP p % blockSize ≠ 0 := by
  unfold skipP blockSize
  split <;> omega

theorem skipP_idem (p : Nat) : skipP (skipP p) = skipP p := by
  show (if skipP p % blockSize = 0 then skipP p + 1 else skipP p) = skipP p
  rw [if_neg (skipP_ne p)]

theorem skipP_of_ne {p : Nat} (h : p % blockSize ≠ 0) : skipP p = p := by
  unfold skipP; rw [if_neg h]

theorem Stored.le {d : Bytes} : ∀ {p bs q}, Stored d p bs q → p + bs.length ≤ q
  | p, [], q, h => by simp [Stored] at h; simp [h]
  | p, b :: bs, q, h => by
    have := Stored.le h.2
    have := skipP_le p
    simp only [List.length_cons]
    omega

theorem Stored.append {d : Bytes} : ∀ {a b p r q}, Stored d p a r → Stored d r b q →
    Stored d p (a ++ b) q
  | [], b, p, r, q, h1, h2 => by simp [Stored] at h1; subst h1; exact h2
  | x :: a, b, p, r, q, h1, h2 => ⟨h1.1, Stored.append h1.2 h2⟩

theorem Stored.split {d : Bytes} : ∀ {a b p q}, Stored d p (a ++ b) q →
    ∃ r, Stored d p a r ∧ Stored d r b q
  | [], b, p, q, h => ⟨p, rfl, h⟩
  | x :: a, b, p, q, h => by
    obtain ⟨r, h1, h2⟩ := Stored.split (a := a) h.2
    exact ⟨r, ⟨h.1, h1⟩, h2⟩

/-- Only the bytes that are not block prefixes matter. -/
theorem Stored.congr' {d d' : Bytes} : ∀ {bs p q}, Stored d p bs q →
    (∀ i, p ≤ i → i < q → i % blockSize ≠ 0 → d'[i]? = d[i]?) → Stored d' p bs q
  | [], p, q, h, _ => h
  | b :: bs, p, q, h, ha => by
    have h1 := Stored.le h.2
    have h2 := skipP_le p
    refine ⟨?_, Stored.congr' h.2 (fun i hi hq => ha i (by omega) hq)⟩
    rw [ha _ h2 (by omega) (skipP_ne p)]; exact h.1

theorem Stored.congr {d d' : Bytes} {bs p q} (h : Stored d p bs q)
    (ha : ∀ i, p ≤ i → i < q → d'[i]? = d[i]?) : Stored d' p bs q :=
  h.congr' fun i h1 h2 _ => ha i h1 h2

theorem Stored.of_skip {d : Bytes} {bs p q} (hb : bs ≠ []) (h : Stored d (skipP p) bs q) :
    Stored d p bs q := by
  cases bs with
  | nil => exact absurd rfl hb
  | cons b bs =>
    unfold Stored at *
    rw [skipP_idem] at h; exact h

theorem Stored.to_skip {d : Bytes} {bs p q} (hb : bs ≠ []) (h : Stored d p bs q) :
    Stored d (skipP p) bs q := by
  cases bs with
  | nil => exact absurd rfl hb
  | cons b bs =>
    unfold Stored at *
    rw [skipP_idem]; exact h

theorem Stored.fun {d : Bytes} : ∀ {bs p q q'}, Stored d p bs q → Stored d p bs q' → q = q'
  | [], p, q, q', h, h' => by simp [Stored] at h h'; omega
  | b :: bs, p, q, q', h, h' => Stored.fun h.2 h'.2

/-- Bytes inside one block are contiguous. -/
theorem stored_block {d : Bytes} : ∀ {bs p}, bs.length ≤ blockSize - p % blockSize →
    p % blockSize ≠ 0 → (∀ i, i < bs.length → d[p + i]? = bs[i]?) → Stored d p bs (p + bs.length)
  | [], p, _, _, _ => by simp [Stored]
  | b :: bs, p, hl, hp, h => by
    have h0 := h 0 (by simp)
    refine ⟨by rw [skipP_of_ne hp]; simpa using h0, ?_⟩
    rw [skipP_of_ne hp]
    simp only [List.length_cons] at hl h
    by_cases hb : bs = []
    · subst hb; simp [Stored]
    · have hpos : 0 < bs.length := by
        cases bs with
        | nil => exact absurd rfl hb
        | cons => simp
      have hm : (p + 1) % blockSize = p % blockSize + 1 := by unfold blockSize at *; omega
      have := stored_block (d := d) (bs := bs) (p := p + 1) (by rw [hm]; omega) (by rw [hm]; omega)
        (fun i hi => by
          have := h (i + 1) (by omega)
          rw [show p + 1 + i = p + (i + 1) by omega, this]; simp)
      rw [show p + (b :: bs).length = p + 1 + bs.length by simp; omega]
      exact this

theorem stored_block_inv {d : Bytes} : ∀ {bs p q}, Stored d p bs q → ∀ n, n ≤ bs.length →
    n ≤ blockSize - skipP p % blockSize →
    (∀ i, i < n → d[skipP p + i]? = bs[i]?) ∧ Stored d (if n = 0 then p else skipP p + n) (bs.drop n) q
  | bs, p, q, h, 0, _, _ => ⟨by simp, by simpa using h⟩
  | [], p, q, h, n + 1, hn, _ => by simp at hn
  | b :: bs, p, q, h, n + 1, hn, hB => by
    simp only [List.length_cons] at hn
    have hs := skipP_ne p
    generalize hP : skipP p = P at *
    have h1 : d[P]? = some b := by have := h.1; rwa [hP] at this
    have h2 : Stored d (P + 1) bs q := by have := h.2; rwa [hP] at this
    by_cases hn0 : n = 0
    · subst hn0
      refine ⟨fun i hi => ?_, by simpa using h2⟩
      rw [show i = 0 by omega]; simpa using h1
    · have hPm : (P + 1) % blockSize = P % blockSize + 1 := by unfold blockSize at *; omega
      have hsk : skipP (P + 1) = P + 1 := skipP_of_ne (by omega)
      obtain ⟨i1, i2⟩ := stored_block_inv h2 n (by omega) (by rw [hsk, hPm]; omega)
      rw [hsk] at i1 i2
      rw [if_neg hn0] at i2
      constructor
      · intro i hi
        cases i with
        | zero => simpa using h1
        | succ i =>
          have := i1 i (by omega)
          rw [show P + (i + 1) = P + 1 + i by omega, this]; simp
      · simp only [Nat.add_eq_zero_iff, Nat.succ_ne_self, and_false, if_false, List.drop_succ_cons]
        rw [show P + (n + 1) = P + 1 + n by omega]; simpa using i2

theorem rawWriteLoop_spec (t : UInt8) (fuel : Nat) (b : Bytes) (wpos : Nat) (f : File)
    (hfuel : 2 * b.length ≤ fuel ∨ (2 * b.length ≤ fuel + 1 ∧ wpos % blockSize ≠ 0)) :
    Sp (rawWriteLoop t fuel b wpos) f
      (fun r g => Frame t wpos f g ∧ g.pos = f.pos ∧ Stored g.disk wpos b r ∧
        (b ≠ [] → r ≤ g.disk.length) ∧
        (∀ i, wpos ≤ i → i < r → i % blockSize = 0 → g.disk[i]? = some t))
      (fun _ g => Frame t wpos f g ∧ g.pos = f.pos ∧ f.faults ≠ []) := by
  induction fuel generalizing b wpos f with
  | zero =>
    have hb : b = [] := by
      cases b with
      | nil => rfl
      | cons x xs => simp at hfuel; omega
    subst hb
    unfold rawWriteLoop
    exact ⟨Frame.refl _ _ _, rfl, rfl, by simp, by omega⟩
  | succ fuel ih =>
    unfold rawWriteLoop
    split
    · rename_i hb; subst hb
      exact ⟨Frame.refl _ _ _, rfl, rfl, by simp, by omega⟩
    · rename_i hb
      have hbl : 0 < b.length := by
        cases b with
        | nil => exact absurd rfl hb
        | cons => simp
      split
      · rename_i hm
        apply Sp.bind' (writeEntire_spec t [t] wpos f (by
          intro i _ x hx
          cases i with
          | zero => simp at hx; exact hx.symm
          | succ i => simp at hx))
        · rintro _ g ⟨hfr, hpos, hd⟩
          have hm' : (wpos + 1) % blockSize ≠ 0 := by unfold blockSize at *; omega
          refine (ih b (wpos + 1) g (by right; omega)).mono ?_ ?_
          · rintro r g' ⟨hfr', hpos', hst, hlen, hpre⟩
            refine ⟨hfr.trans (hfr'.mono (by omega)), hpos'.trans hpos, ?_, hlen, ?_⟩
            · refine Stored.of_skip hb ?_
              have : skipP wpos = wpos + 1 := by unfold skipP; rw [if_pos hm]
              rw [this]; exact hst
            · intro i hi hr him
              by_cases hiw : i = wpos
              · subst hiw
                have h0 := hd 0 (by simp)
                simp only [Nat.add_zero, List.getElem?_cons_zero] at h0
                have hlt : i < g.disk.length := by
                  rw [List.getElem?_eq_some_iff] at h0; exact h0.1
                rw [hfr'.agree i (by omega) hlt, h0]
              · exact hpre i (by omega) hr him
          · rintro _ g' ⟨hfr', hpos', hne⟩
            exact ⟨hfr.trans (hfr'.mono (by omega)), hpos'.trans hpos, hfr.faults_ne hne⟩
        · intro _ _ h; exact h
      · rename_i hm
        generalize hn : min (blockSize - wpos % blockSize) b.length = n
        have hn0 : 0 < n := by unfold blockSize at *; omega
        have hnl : n ≤ b.length := by omega
        have hnB : n ≤ blockSize - wpos % blockSize := by omega
        have htl : (b.take n).length = n := by simp; omega
        show Sp (writeEntire (b.take n) wpos >>= fun _ => rawWriteLoop t fuel (b.drop n) (wpos + n)) f _ _
        apply Sp.bind' (writeEntire_spec t (b.take n) wpos f (by
          intro i hi x hx
          have : i < n := by
            have := (List.getElem?_eq_some_iff.mp hx).1; omega
          unfold blockSize at *; omega))
        · rintro _ g ⟨hfr, hpos, hd⟩
          refine (ih (b.drop n) (wpos + n) g (by left; simp; omega)).mono ?_ ?_
          · rintro r g' ⟨hfr', hpos', hst, hlen, hpre⟩
            have hlt : ∀ i, i < n → wpos + i < g.disk.length := by
              intro i hi
              have := hd i (by omega)
              have hs : (b.take n)[i]? = some ((b.take n)[i]'(by omega)) := List.getElem?_eq_getElem _
              rw [hs, List.getElem?_eq_some_iff] at this
              exact this.1
            have hblk : Stored g'.disk wpos (b.take n) (wpos + n) := by
              have := stored_block (d := g'.disk) (bs := b.take n) (p := wpos) (by rw [htl]; exact hnB) hm
                (fun i hi => by
                  rw [hfr'.agree (wpos + i) (by omega) (hlt i (by omega))]
                  exact hd i hi)
              rwa [htl] at this
            refine ⟨hfr.trans (hfr'.mono (by omega)), hpos'.trans hpos, ?_, ?_, ?_⟩
            · have := hblk.append hst
              rwa [List.take_append_drop] at this
            · intro _
              by_cases hdr : b.drop n = []
              · rw [hdr] at hst
                simp [Stored] at hst
                have h1 := hlt (n - 1) (by omega)
                have h2 := hfr'.len
                omega
              · exact hlen hdr
            · intro i hi hr him
              by_cases hiw : i < wpos + n
              · exfalso; unfold blockSize at *; omega
              · exact hpre i (by omega) hr him
          · rintro _ g' ⟨hfr', hpos', hne⟩
            exact ⟨hfr.trans (hfr'.mono (by omega)), hpos'.trans hpos, hfr.faults_ne hne⟩
        · intro _ _ h; exact h

theorem rawWrite_spec (t : UInt8) (b : Bytes) (pos : Nat) (f : File) :
    Sp (rawWrite t b pos) f
      (fun n g => Frame t pos f g ∧ g.pos = f.pos ∧ Stored g.disk pos b (pos + n) ∧
        (b ≠ [] → pos + n ≤ g.disk.length) ∧
        (∀ i, pos ≤ i → i < pos + n → i % blockSize = 0 → g.disk[i]? = some t))
      (fun _ g => Frame t pos f g ∧ g.pos = f.pos ∧ f.faults ≠ []) := by
  unfold rawWrite
  apply Sp.bind' (rawWriteLoop_spec t (2 * b.length) b pos f (Or.inl (Nat.le_refl _)))
  · rintro r g ⟨h1, h2, h3, h4, h5⟩
    have hle := h3.le
    refine ⟨h1, h2, ?_, ?_, ?_⟩
    · rw [show pos + (r - pos) = r by omega]; exact h3
    · rw [show pos + (r - pos) = r by omega]; exact h4
    · rw [show pos + (r - pos) = r by omega]; exact h5
  · intro _ _ h; exact h

/-! ### reads -/

/-- Reading changes nothing but the remaining faults. -/
def RFrame (f f' : File) : Prop := f'.faults <:+ f.faults ∧ f' = { f with faults := f'.faults }

theorem RFrame.refl (f : File) : RFrame f f := ⟨List.suffix_refl _, rfl⟩

theorem RFrame.trans {f g h : File} (a : RFrame f g) (b : RFrame g h) : RFrame f h := by
  refine ⟨b.1.trans a.1, ?_⟩
  rw [b.2, a.2]

theorem RFrame.disk {f g : File} (a : RFrame f g) : g.disk = f.disk := by rw [a.2]
theorem RFrame.pos {f g : File} (a : RFrame f g) : g.pos = f.pos := by rw [a.2]
theorem RFrame.cfg {f g : File} (a : RFrame f g) : g.cfg = f.cfg := by rw [a.2]
theorem RFrame.log {f g : File} (a : RFrame f g) : g.log = f.log := by rw [a.2]
theorem RFrame.faults_ne {f g : File} (a : RFrame f g) (h : g.faults ≠ []) : f.faults ≠ [] :=
  suffix_ne_nil a.1 h

theorem RFrame.frame {f g : File} (a : RFrame f g) (t : UInt8) (lo : Nat) : Frame t lo f g :=
  ⟨fun i _ _ => by rw [a.disk], by rw [a.disk]; exact Nat.le_refl _, a.cfg, a.1, [], by rw [a.log]; rfl, by simp, a.disk⟩

theorem pread_spec (off n : Nat) (f : File) :
    Sp (pread off n) f
      (fun got g => RFrame f g ∧ (∃ k, k ≤ n ∧ got = slice f.disk off k ∧ (k < n → f.faults ≠ [])))
      (fun _ g => RFrame f g ∧ f.faults ≠ []) := by
  unfold pread
  apply Sp.bind' (popFault_spec f)
  · rintro x g ⟨⟨fs, rfl, hs⟩, hx, hl⟩
    cases x with
    | none => exact ⟨⟨hs, rfl⟩, n, Nat.le_refl _, rfl, by omega⟩
    | short k => exact ⟨⟨hs, rfl⟩, min k n, by omega, rfl, fun _ => hx (by simp)⟩
    | err e => exact ⟨⟨hs, rfl⟩, hx (by simp)⟩
  · intro _ _ h; exact h.elim

theorem pread_rframe (off n : Nat) (f : File) :
    Sp (pread off n) f (fun _ g => RFrame f g) (fun _ g => RFrame f g) :=
  (pread_spec off n f).mono (fun _ _ h => h.1) (fun _ _ h => h.1)

theorem slice_eq_of_getElem {d : Bytes} {off n : Nat} {bs : Bytes} (hn : n ≤ bs.length)
    (h : ∀ i, i < n → d[off + i]? = bs[i]?) : slice d off n = bs.take n := by
  apply List.ext_getElem?
  intro i
  unfold slice
  rw [List.getElem?_take, List.getElem?_take]
  split
  · rename_i hi
    rw [List.getElem?_drop, h i hi]
  · rfl

theorem readSkipLoop_spec (fuel p : Nat) (bs : Bytes) (q : Nat) (acc : Bytes) (f : File)
    (hfuel : bs.length ≤ fuel) (hst : Stored f.disk p bs q) :
    Sp (readSkipLoop fuel (skipP p) bs.length acc) f
      (fun r g => r = (acc ++ bs, skipP q) ∧ RFrame f g)
      (fun _ g => RFrame f g ∧ f.faults ≠ []) := by
  induction fuel generalizing p bs acc f with
  | zero =>
    have hb : bs = [] := by
      cases bs with
      | nil => rfl
      | cons x xs => simp at hfuel
    subst hb
    simp [Stored] at hst; subst hst
    unfold readSkipLoop
    exact ⟨by simp, RFrame.refl _⟩
  | succ fuel ih =>
    cases hbs : bs with
    | nil =>
      subst hbs
      simp [Stored] at hst; subst hst
      unfold readSkipLoop
      exact ⟨by simp, RFrame.refl _⟩
    | cons b0 bs0 =>
      have hlen : bs.length = bs0.length + 1 := by simp [hbs]
      show Sp (readSkipLoop (fuel + 1) (skipP p) (bs0.length + 1) acc) f _ _
      unfold readSkipLoop
      rw [show bs0.length.succ = bs.length from hlen.symm, ← hbs]
      generalize hN : min (blockSize - skipP p % blockSize) bs.length = N
      have hN0 : 0 < N := by
        have := skipP_ne p
        unfold blockSize at *; omega
      apply Sp.bind' (pread_spec (skipP p) N f)
      · rintro got g ⟨hrf, k, hk, hgot, hkf⟩
        obtain ⟨i1, i2⟩ := stored_block_inv hst k (by omega) (by omega)
        have hgot' : got = bs.take k := by rw [hgot]; exact slice_eq_of_getElem (by omega) i1
        have hgl : got.length = k := by rw [hgot']; simp; omega
        by_cases hk0 : k = 0
        · have : got = [] := by rw [hgot', hk0]; rfl
          rw [if_pos this]
          exact ⟨hrf, hkf (by omega)⟩
        · have hne : got ≠ [] := by
            intro h0; rw [h0] at hgl; simp at hgl; omega
          rw [if_neg hne]
          rw [if_neg hk0] at i2
          have hpos : (if (skipP p + got.length) % blockSize = 0 then skipP p + got.length + 1
              else skipP p + got.length) = skipP (skipP p + k) := by
            rw [hgl]; rfl
          have hl' : bs.length - got.length = (bs.drop k).length := by simp [hgl]
          have := ih (skipP p + k) (bs.drop k) (acc ++ got) g (by simp; omega)
            (by rw [hrf.disk]; exact i2)
          simp only
          rw [hpos, hl']
          refine Sp.mono this ?_ ?_
          · rintro r g' ⟨rfl, hrf'⟩
            refine ⟨?_, hrf.trans hrf'⟩
            rw [hgot', List.append_assoc, List.take_append_drop]
          · rintro _ g' ⟨hrf', hne'⟩
            exact ⟨hrf.trans hrf', hrf.faults_ne hne'⟩
      · rintro _ g ⟨h1, h2⟩; exact ⟨h1, h2⟩

theorem readSkip_spec (p : Nat) (bs : Bytes) (q n : Nat) (f : File) (hn : n = bs.length)
    (hst : Stored f.disk p bs q) :
    Sp (readSkip p n) f
      (fun r g => r = (bs, skipP q) ∧ RFrame f g)
      (fun _ g => RFrame f g ∧ f.faults ≠ []) := by
  subst hn
  unfold readSkip
  have := readSkipLoop_spec bs.length p bs q [] f (Nat.le_refl _) hst
  simpa [skipP] using this

theorem readSkipLoop_rframe (fuel p n : Nat) (acc : Bytes) (f : File) :
    Sp (readSkipLoop fuel p n acc) f (fun _ g => RFrame f g) (fun _ g => RFrame f g) := by
  induction fuel generalizing p n acc f with
  | zero =>
    cases n with
    | zero => unfold readSkipLoop; exact RFrame.refl _
    | succ n => unfold readSkipLoop; exact RFrame.refl _
  | succ fuel ih =>
    cases n with
    | zero => unfold readSkipLoop; exact RFrame.refl _
    | succ n =>
      unfold readSkipLoop
      apply Sp.bind' (pread_rframe _ _ f)
      · intro got g hg
        split
        · exact hg
        · exact (ih _ _ _ g).mono (fun _ _ h => hg.trans h) (fun _ _ h => hg.trans h)
      · intro _ _ h; exact h

theorem readSkip_rframe (p n : Nat) (f : File) :
    Sp (readSkip p n) f (fun _ g => RFrame f g) (fun _ g => RFrame f g) := by
  unfold readSkip; exact readSkipLoop_rframe _ _ _ _ f

end Couchstore
