import Verif.Lemmas.OpenDb
import Verif.Spec.HeaderBlock

/-! Searching the newest header in a file with arbitrary content. -/

namespace Couchstore

/-! ### Reading arbitrary content -/

/-- An error that reading gives: the end of the file, or an error of a raw operation. -/
def ReadErr (f : File) (e : Err) : Prop := e = .read ∨ ∃ c, e = .io c ∧ .err c ∈ f.faults

theorem RFrame.mem {f g : File} (h : RFrame f g) {x : Fault} (hx : x ∈ g.faults) : x ∈ f.faults :=
  h.1.mem hx

theorem ReadErr.mono {f g : File} {e : Err} (h : RFrame f g) (he : ReadErr g e) : ReadErr f e := by
  rcases he with rfl | ⟨c, rfl, hc⟩
  · exact Or.inl rfl
  · exact Or.inr ⟨c, rfl, h.mem hc⟩

theorem popFault_any (f : File) :
    Sp popFault f (fun x g => RFrame f g ∧ (x = .none ∨ x ∈ f.faults)) (fun _ _ => False) := by
  unfold popFault Sp
  dsimp only
  cases hf : f.faults with
  | nil => exact ⟨RFrame.refl _, Or.inl rfl⟩
  | cons x xs => exact ⟨⟨by rw [hf]; exact List.suffix_cons _ _, rfl⟩, Or.inr (by simp)⟩

theorem pread_any (off n : Nat) (f : File) :
    Sp (pread off n) f
      (fun got g => RFrame f g ∧ ∃ k, k ≤ n ∧ got = slice f.disk off k)
      (fun e g => RFrame f g ∧ ReadErr f e) := by
  unfold pread
  apply Sp.bind' (popFault_any f)
  · rintro x g ⟨hr, hx⟩
    cases x with
    | none => exact ⟨hr, n, Nat.le_refl _, by rw [← hr.disk]⟩
    | short k => exact ⟨hr, min k n, by omega, by rw [← hr.disk]⟩
    | err e => exact ⟨hr, Or.inr ⟨e, rfl, by simpa using hx⟩⟩
  · intro _ _ h; exact h.elim

theorem slice_getElem? (d : Bytes) (off n i : Nat) (h : i < (slice d off n).length) :
    d[off + i]? = (slice d off n)[i]? := by
  unfold slice at *
  simp only [List.length_take, List.length_drop] at h
  rw [List.getElem?_take, if_pos (by omega), List.getElem?_drop]

theorem readSkipLoop_any (fuel p n : Nat) (acc : Bytes) (f : File) (hfuel : n ≤ fuel) :
    Sp (readSkipLoop fuel (skipP p) n acc) f
      (fun r g => RFrame f g ∧ ∃ bs q, r = (acc ++ bs, skipP q) ∧ bs.length = n ∧ Stored f.disk p bs q)
      (fun e g => RFrame f g ∧ ReadErr f e) := by
  induction fuel generalizing p n acc f with
  | zero =>
    have : n = 0 := by omega
    subst this
    unfold readSkipLoop
    exact ⟨RFrame.refl _, [], p, by simp, rfl, rfl⟩
  | succ fuel ih =>
    cases n with
    | zero =>
      unfold readSkipLoop
      exact ⟨RFrame.refl _, [], p, by simp, rfl, rfl⟩
    | succ n =>
      unfold readSkipLoop
      generalize hN : min (blockSize - skipP p % blockSize) n.succ = N
      apply Sp.bind' (pread_any (skipP p) N f)
      · rintro got g ⟨hr, k, hk, hgot⟩
        by_cases hg : got = []
        · rw [if_pos hg]; exact ⟨hr, Or.inl rfl⟩
        · rw [if_neg hg]
          have hgl : got.length ≤ N := by rw [hgot, length_slice]; omega
          have hg0 : 0 < got.length := List.length_pos_iff.mpr hg
          have hpos : (if (skipP p + got.length) % blockSize = 0 then skipP p + got.length + 1
              else skipP p + got.length) = skipP (skipP p + got.length) := rfl
          simp only
          rw [hpos]
          have hst : Stored f.disk (skipP p) got (skipP p + got.length) :=
            stored_block (by omega) (skipP_ne p) (by
              intro i hi
              rw [hgot] at hi ⊢
              exact slice_getElem? _ _ _ _ hi)
          refine (ih (skipP p + got.length) (n + 1 - got.length) (acc ++ got) g (by omega)).mono ?_ ?_
          · rintro r g' ⟨hr', bs, q, rfl, hl, hs⟩
            refine ⟨hr.trans hr', got ++ bs, q, by simp, by simp; omega, ?_⟩
            rw [hr.disk] at hs
            exact (hst.of_skip hg).append hs
          · rintro e g' ⟨hr', he⟩
            exact ⟨hr.trans hr', he.mono hr⟩
      · exact fun _ _ h => h

theorem readSkip_any (p n : Nat) (f : File) :
    Sp (readSkip p n) f
      (fun r g => RFrame f g ∧ r.1.length = n ∧ ∃ q, r.2 = skipP q ∧ Stored f.disk p r.1 q)
      (fun e g => RFrame f g ∧ ReadErr f e ∧
        (f.faults = [] → ∀ bs q, bs.length = n → ¬ Stored f.disk p bs q)) := by
  have h1 := readSkipLoop_any n p n [] f (Nat.le_refl _)
  apply Sp.of
  · intro r g h
    obtain ⟨hr, bs, q, rfl, hl, hs⟩ := h1.ok h
    exact ⟨hr, by simpa using hl, q, rfl, by simpa using hs⟩
  · intro e g h
    obtain ⟨hr, he⟩ := h1.error h
    exact ⟨hr, he, fun hf bs q hb hs => ((readSkip_spec p bs q n f hb.symm hs).error h).2 hf⟩

theorem cksum_mode {E : Env} {b : Bytes} {c : Nat} (h : integrityCheck E b c .unknown = true) :
    c = (E.crc32c b).toNat ∨ c = (E.crc32 b).toNat := by
  simpa [integrityCheck] using h

theorem Stored.unique {d : Bytes} : ∀ {a b p q q'}, Stored d p a q → Stored d p b q' → a.length = b.length → a = b
  | [], [], _, _, _, _, _, _ => rfl
  | x :: a, y :: b, p, q, q', h1, h2, hl => by
    have : some x = some y := h1.1.symm.trans h2.1
    cases this
    rw [Stored.unique h1.2 h2.2 (by simpa using hl)]

theorem StoredBody.unique {E : Env} {mx : Nat} {d : Bytes} {P : Nat} {a b : Bytes} (hmx : mx < 2 ^ 31 := by decide)
    (h1 : StoredBody E mx d P a) (h2 : StoredBody E mx d P b) : a = b := by
  obtain ⟨l1, c1, _, q1, s1⟩ := h1
  obtain ⟨l2, c2, _, q2, s2⟩ := h2
  rw [List.append_assoc] at s1 s2
  obtain ⟨r1, t1, u1⟩ := s1.split
  obtain ⟨r2, t2, u2⟩ := s2.split
  have hl : enc32 (a.length + 4) = enc32 (b.length + 4) := t1.unique t2 (by simp)
  have hl : a.length = b.length := by
    have := beEnc_inj (w := 4) (by omega) (by omega) hl
    omega
  cases (hl ▸ t1 : Stored d (P + 1) (enc32 (b.length + 4)) r1).fun t2
  have := u1.unique u2 (by simp [hl])
  exact (List.append_inj this (by simp)).2

/-- Reading the body of a header at any place of any file. -/
theorem preadHeader_any (E : Env) (P mx : Nat) (f : File) (hmx : mx ≠ 0) (hmx2 : mx < 2 ^ 31)
    (hm : f.cfg.crcMode = .unknown) :
    Sp (preadHeader E P mx) f
      (fun b g => RFrame f g ∧ StoredBody E mx f.disk P b)
      (fun e g => RFrame f g ∧ (e = .corrupt ∨ e = .checksumFail ∨ ReadErr f e) ∧
        (f.faults = [] → ∀ b, ¬ StoredBody E mx f.disk P b)) := by
  unfold preadHeader
  rw [if_neg hmx]
  apply Sp.get_bind
  -- a stored body determines what is read
  have hdet : ∀ b h8 q, StoredBody E mx f.disk P b → h8.length = 8 → Stored f.disk (P + 1) h8 q →
      ∃ crc, h8 = enc32 (b.length + 4) ++ enc32 crc ∧ crc < 2 ^ 32 ∧
        (crc = (E.crc32c b).toNat ∨ crc = (E.crc32 b).toNat) ∧ ∃ q', Stored f.disk q b q' := by
    rintro b h8 q ⟨hb, crc, hc, q', hs⟩ hl hst
    have hlt : crc < 2 ^ 32 := by
      rcases hc with rfl | rfl
      · exact (E.crc32c b).toNat_lt
      · exact (E.crc32 b).toNat_lt
    obtain ⟨r, hs1, hs2⟩ := hs.split
    have : h8 = enc32 (b.length + 4) ++ enc32 crc := hst.unique hs1 (by simp [hl])
    subst this
    cases hst.fun hs1
    exact ⟨crc, rfl, hlt, hc, q', hs2⟩
  apply Sp.bind' (readSkip_any (P + 1) 8 f)
  · rintro ⟨h8, p1⟩ g ⟨hr, hl, q, hp1, hst⟩
    dsimp only at hl hp1 hst ⊢
    subst hp1
    have hsplit : h8 = h8.take 4 ++ h8.drop 4 := (List.take_append_drop 4 h8).symm
    have hl1 : (h8.take 4).length = 4 := by simp [hl]
    have hl2 : (h8.drop 4).length = 4 := by simp [hl]
    have hlen : ∀ b, StoredBody E mx f.disk P b → beDec (h8.take 4) = b.length + 4 ∧ b.length + 4 ≤ mx := by
      intro b hb
      obtain ⟨crc, h8e, _, _, _⟩ := hdet b h8 q hb hl hst
      refine ⟨?_, hb.1⟩
      rw [h8e, List.take_left' (by simp), beDec_beEnc 4 _ (by have := hb.1; omega)]
    by_cases c1 : beDec (h8.take 4) ≥ 2 ^ 31
    · rw [if_pos c1]
      exact ⟨hr, Or.inl rfl, fun _ b hb => by have := hlen b hb; omega⟩
    rw [if_neg c1]
    by_cases c2 : beDec (h8.take 4) < 4 ∨ beDec (h8.take 4) > mx
    · rw [if_pos c2]
      exact ⟨hr, Or.inl rfl, fun _ b hb => by have := hlen b hb; omega⟩
    rw [if_neg c2]
    have hskip : ∀ bs q', bs.length = beDec (h8.take 4) - 4 → Stored f.disk q bs q' → ∃ q', Stored f.disk (skipP q) bs q' := by
      intro bs q' _ hs
      by_cases hb : bs = []
      · subst hb; exact ⟨skipP q, rfl⟩
      · exact ⟨q', hs.to_skip hb⟩
    apply Sp.bind' (readSkip_any (skipP q) (beDec (h8.take 4) - 4) g)
    · rintro ⟨buf, p2⟩ g' ⟨hr', hl', q', hp2, hst'⟩
      dsimp only at hl' hst' ⊢
      rw [hr.disk] at hst'
      rw [hm]
      by_cases c3 : integrityCheck E buf (beDec (h8.drop 4)) .unknown = true
      · rw [if_pos c3]
        refine ⟨hr.trans hr', by omega, beDec (h8.drop 4), cksum_mode c3, ?_⟩
        have e1 : enc32 (buf.length + 4) = h8.take 4 := by
          rw [hl', show beDec (h8.take 4) - 4 + 4 = beDec (h8.take 4) by omega]
          conv => rhs; rw [← beEnc_beDec (h8.take 4), hl1]
        have e2 : enc32 (beDec (h8.drop 4)) = h8.drop 4 := by
          conv => rhs; rw [← beEnc_beDec (h8.drop 4), hl2]
        rw [e1, e2, ← hsplit]
        by_cases hb : buf = []
        · subst hb
          exact ⟨q, by rw [List.append_nil]; exact hst⟩
        · exact ⟨q', hst.append (hst'.of_skip hb)⟩
      · rw [if_neg c3]
        refine ⟨hr.trans hr', Or.inr (Or.inl rfl), fun _ b hb => c3 ?_⟩
        obtain ⟨crc, h8e, hlt, hc, q2, hs2⟩ := hdet b h8 q hb hl hst
        have hlb := (hlen b hb).1
        obtain ⟨q3, hs3⟩ := hskip b q2 (by omega) hs2
        have : buf = b := hst'.unique hs3 (by omega)
        subst this
        rw [h8e, List.drop_left' (by simp), beDec_beEnc 4 _ (by simpa using hlt)]
        simpa [integrityCheck] using hc
    · rintro e g' ⟨hr', he, hno⟩
      refine ⟨hr.trans hr', Or.inr (Or.inr (he.mono hr)), fun hf b hb => ?_⟩
      obtain ⟨crc, h8e, hlt, hc, q2, hs2⟩ := hdet b h8 q hb hl hst
      have hlb := (hlen b hb).1
      obtain ⟨q3, hs3⟩ := hskip b q2 (by omega) hs2
      refine hno ?_ b q3 (by omega) (by rw [hr.disk]; exact hs3)
      have := hr.1
      rw [hf] at this
      exact List.suffix_nil.mp this
  · rintro e g ⟨hr, he, hno⟩
    refine ⟨hr, Or.inr (Or.inr he), fun hf b hb => ?_⟩
    obtain ⟨_, crc, hc, q, hs⟩ := hb
    obtain ⟨r, hs1, _⟩ := hs.split
    exact hno hf _ r (by simp) hs1

/-! ### Decoding an arbitrary header body -/

theorem drop_slice (b : Bytes) (i n : Nat) : b.drop i = slice b i n ++ b.drop (i + n) := by
  unfold slice
  rw [← List.drop_drop, List.take_append_drop]

theorem enc_slice {b : Bytes} {i n : Nat} (h : i + n ≤ b.length) : beEnc n (beDec (slice b i n)) = slice b i n := by
  have hl : (slice b i n).length = n := by rw [length_slice]; omega
  conv => rhs; rw [← beEnc_beDec (slice b i n), hl]

theorem enc48_slice {b : Bytes} {i : Nat} (h : i + 6 ≤ b.length) : enc48 (beDec (slice b i 6)) = slice b i 6 :=
  enc_slice h
theorem enc16_slice {b : Bytes} {i : Nat} (h : i + 2 ≤ b.length) : enc16 (beDec (slice b i 2)) = slice b i 2 :=
  enc_slice h

/-- The root encoded by `b`. -/
def rootOf (b : Bytes) : Option NodePointer := if b = [] then none else readRoot b

/-- Is it a root that is accepted in a header at `pos`? -/
def RootOk (pos : Nat) (b : Bytes) : Prop := b = [] ∨ 12 ≤ b.length ∧ beDec (slice b 0 6) < pos

theorem encode_rootOf {pos : Nat} {b : Bytes} (h : RootOk pos b) : encodeRoot (rootOf b) = b := by
  unfold rootOf
  rcases h with rfl | ⟨h, _⟩
  · rfl
  · rw [if_neg (by intro hb; rw [hb] at h; simp at h)]
    unfold readRoot
    rw [if_neg (by omega)]
    unfold encodeRoot
    dsimp only
    rw [enc48_slice (by omega), enc48_slice (by omega), List.append_assoc]
    have h1 := drop_slice b 0 6
    have h2 := drop_slice b 6 6
    rw [List.drop_zero, Nat.zero_add] at h1
    exact ((h1.trans (by rw [h2]))).symm

theorem rootOf_fits {pos : Nat} {b : Bytes} (h : RootOk pos b) (hl : b.length < 2 ^ 16) : rootFits (rootOf b) = true := by
  unfold rootOf
  rcases h with rfl | ⟨h, _⟩
  · rfl
  · rw [if_neg (by intro hb; rw [hb] at h; simp at h)]
    unfold readRoot
    rw [if_neg (by omega)]
    have h1 := beDec_lt (slice b 0 6)
    have h2 := beDec_lt (slice b 6 6)
    rw [length_slice, show min 6 (b.length - 0) = 6 by omega] at h1
    rw [length_slice, show min 6 (b.length - 6) = 6 by omega] at h2
    simp only [rootFits, Bool.and_eq_true, decide_eq_true_eq, List.length_drop]
    exact ⟨⟨h1, h2⟩, by omega⟩

theorem rootOf_ptr {pos : Nat} {b : Bytes} (h : RootOk pos b) (p : NodePointer) (hp : rootOf b = some p) :
    p.pointer < pos ∧ p.key = [] := by
  unfold rootOf at hp
  rcases h with rfl | ⟨h, h'⟩
  · cases hp
  · rw [if_neg (by intro hb; rw [hb] at h; simp at h)] at hp
    unfold readRoot at hp
    rw [if_neg (by omega)] at hp
    cases hp
    exact ⟨h', rfl⟩

theorem readDbRoot_any (set : Option NodePointer → Header → Header) (b : Bytes) (db : Db)
    (hp : ∀ h x, (set x h).position = h.position) :
    Sp (readDbRoot set b) db
      (fun _ db' => RootOk db.header.position b ∧ db' = { db with header := set (rootOf b) db.header })
      (fun e db' => e = .corrupt ∧ ¬ RootOk db.header.position b ∧ db' = { db with header := db'.header }) := by
  unfold readDbRoot
  by_cases c1 : b.length > 0
  · have hne : b ≠ [] := List.length_pos_iff.mp c1
    rw [if_pos c1]
    by_cases c2 : b.length < 12
    · rw [if_pos c2]
      exact ⟨rfl, fun h => h.elim hne (fun h => by omega), rfl⟩
    · rw [if_neg c2]
      have hr : rootOf b = readRoot b := by unfold rootOf; rw [if_neg hne]
      rw [← hr]
      obtain ⟨p, hpp, hptr⟩ : ∃ p, rootOf b = some p ∧ p.pointer = beDec (slice b 0 6) := by
        rw [hr]; unfold readRoot; rw [if_neg c2]; exact ⟨_, rfl, rfl⟩
      rw [hpp]
      dsimp only
      unfold Sp
      rw [bind_ok (setHeader_eq _ _), bind_ok (get_eq _)]
      dsimp only
      by_cases c3 : p.pointer < (set (some p) db.header).position
      · rw [if_pos c3]
        rw [hp] at c3
        exact ⟨Or.inr ⟨by omega, by omega⟩, rfl⟩
      · rw [if_neg c3]
        rw [hp] at c3
        exact ⟨rfl, fun h => h.elim hne (fun h => by omega), rfl⟩
  · rw [if_neg c1]
    have : b = [] := by cases b with | nil => rfl | cons x xs => simp at c1
    subst this
    exact ⟨Or.inl rfl, rfl⟩

theorem splitHeader (b : Bytes) (size s1 s2 s3 : Nat) (h25 : 25 ≤ size) (hl : b.length = size + s1 + s2 + s3) :
    b = slice b 0 1 ++ (slice b 1 6 ++ (slice b 7 6 ++ (slice b 13 6 ++ (slice b 19 2 ++ (slice b 21 2 ++
      (slice b 23 2 ++ (slice b 25 (size - 25) ++ (slice b size s1 ++ (slice b (size + s1) s2 ++
      slice b (size + s1 + s2) s3))))))))) := by
  have e0 := drop_slice b 0 1
  have e1 := drop_slice b 1 6
  have e2 := drop_slice b 7 6
  have e3 := drop_slice b 13 6
  have e4 := drop_slice b 19 2
  have e5 := drop_slice b 21 2
  have e6 := drop_slice b 23 2
  have e7 := drop_slice b 25 (size - 25)
  have e8 := drop_slice b size s1
  have e9 := drop_slice b (size + s1) s2
  have e10 := drop_slice b (size + s1 + s2) s3
  rw [List.drop_eq_nil_of_le (by omega : b.length ≤ size + s1 + s2 + s3), List.append_nil] at e10
  rw [show 25 + (size - 25) = size by omega] at e7
  rw [← e10, ← e9, ← e8, ← e7, ← e6, ← e5, ← e4, ← e3, ← e2, ← e1, ← e0, List.drop_zero]

/-- The header that `b` encodes at `pos`. -/
def headerOf (pos : Nat) (b : Bytes) (v size : Nat) : Header :=
  { decodeFixed v b { zeroHeader' with position := pos } with
    bySeqRoot := rootOf (slice b size (beDec (slice b 19 2)))
    byIdRoot := rootOf (slice b (size + beDec (slice b 19 2)) (beDec (slice b 21 2)))
    localRoot := rootOf (slice b (size + beDec (slice b 19 2) + beDec (slice b 21 2)) (beDec (slice b 23 2))) }
where zeroHeader' : Header :=
  { diskVersion := 0, updateSeq := 0, byIdRoot := none, bySeqRoot := none, localRoot := none
    purgeSeq := 0, purgePtr := 0, position := 0, timestamp := 0, prevHeaderPos := 0, haveMeta := false }

theorem encodeHeader_headerOf {pos : Nat} {b : Bytes} {v : UInt8} {size : Nat} (hv : b.head? = some v)
    (hs : headerFixedSize v.toNat = some size)
    (hl : b.length = size + beDec (slice b 19 2) + beDec (slice b 21 2) + beDec (slice b 23 2))
    (h1 : RootOk pos (slice b size (beDec (slice b 19 2))))
    (h2 : RootOk pos (slice b (size + beDec (slice b 19 2)) (beDec (slice b 21 2))))
    (h3 : RootOk pos (slice b (size + beDec (slice b 19 2) + beDec (slice b 21 2)) (beDec (slice b 23 2)))) :
    encodeHeader (headerOf pos b v.toNat size) = b := by
  have hsz : v.toNat = 11 ∧ size = 25 ∨ v.toNat = 12 ∧ size = 25 ∨ v.toNat = 13 ∧ size = 33 ∨ v.toNat = 14 ∧ size = 39 := by
    unfold headerFixedSize at hs
    split at hs <;> simp_all
  have hsplit := splitHeader b size _ _ _ (by omega) hl
  unfold encodeHeader headerOf decodeFixed
  dsimp only
  rw [encode_rootOf h1, encode_rootOf h2, encode_rootOf h3]
  rw [length_slice, length_slice, length_slice]
  rw [show min (beDec (slice b 19 2)) (b.length - size) = beDec (slice b 19 2) by omega,
    show min (beDec (slice b 21 2)) (b.length - (size + beDec (slice b 19 2))) = beDec (slice b 21 2) by omega,
    show min (beDec (slice b 23 2)) (b.length - (size + beDec (slice b 19 2) + beDec (slice b 21 2))) =
      beDec (slice b 23 2) by omega]
  rw [enc48_slice (by omega : 1 + 6 ≤ b.length), enc48_slice (by omega : 7 + 6 ≤ b.length),
    enc48_slice (by omega : 13 + 6 ≤ b.length), enc16_slice (by omega : 19 + 2 ≤ b.length),
    enc16_slice (by omega : 21 + 2 ≤ b.length), enc16_slice (by omega : 23 + 2 ≤ b.length)]
  have hv1 : enc8 v.toNat = slice b 0 1 := by
    cases b with
    | nil => cases hv
    | cons x xs =>
      simp at hv
      subst hv
      simp [slice, beEnc]
  have hmid : (if 13 ≤ v.toNat then beEnc 8 (if 13 ≤ v.toNat then beDec (slice b 25 8) else 0) else []) ++
      (if 14 ≤ v.toNat then enc48 (2 * (if 14 ≤ v.toNat then beDec (slice b 33 6) / 2 else unknownPrevHeaderPos) +
        (if (if 14 ≤ v.toNat then beDec (slice b 33 6) % 2 == 1 else false) = true then 1 else 0)) else []) =
      slice b 25 (size - 25) := by
    rcases hsz with ⟨a, rfl⟩ | ⟨a, rfl⟩ | ⟨a, rfl⟩ | ⟨a, rfl⟩ <;> rw [a]
    · simp [slice]
    · simp [slice]
    · simp only [Nat.le_refl, if_true]
      rw [if_neg (by decide), List.append_nil, enc_slice (by omega)]
    · simp only [show (13 : Nat) ≤ 14 by decide, Nat.le_refl, if_true]
      rw [enc_slice (by omega)]
      have : 2 * (beDec (slice b 33 6) / 2) + (if (beDec (slice b 33 6) % 2 == 1) = true then 1 else 0) =
          beDec (slice b 33 6) := by
        by_cases h : beDec (slice b 33 6) % 2 = 1
        · rw [if_pos (by simp [h])]; omega
        · rw [if_neg (by simpa using h)]; omega
      rw [this, enc48_slice (by omega)]
      have e := drop_slice b 25 8
      have e' := drop_slice b 33 6
      have e'' := drop_slice b 25 14
      rw [e', e''] at e
      rw [← List.append_assoc] at e
      exact (List.append_cancel_right e).symm
  conv => rhs; rw [hsplit]
  rw [hv1, ← hmid]
  simp only [List.append_assoc]

theorem headerOf_fits {pos : Nat} {b : Bytes} {v : UInt8} {size : Nat}
    (hs : headerFixedSize v.toNat = some size)
    (hl : b.length = size + beDec (slice b 19 2) + beDec (slice b 21 2) + beDec (slice b 23 2))
    (h1 : RootOk pos (slice b size (beDec (slice b 19 2))))
    (h2 : RootOk pos (slice b (size + beDec (slice b 19 2)) (beDec (slice b 21 2))))
    (h3 : RootOk pos (slice b (size + beDec (slice b 19 2) + beDec (slice b 21 2)) (beDec (slice b 23 2)))) :
    headerFits (headerOf pos b v.toNat size) = true := by
  have hsz : v.toNat = 11 ∧ size = 25 ∨ v.toNat = 12 ∧ size = 25 ∨ v.toNat = 13 ∧ size = 33 ∨ v.toNat = 14 ∧ size = 39 := by
    unfold headerFixedSize at hs
    split at hs <;> simp_all
  have hlt : ∀ i n, i + n ≤ b.length → beDec (slice b i n) < 256 ^ n := by
    intro i n h
    have := beDec_lt (slice b i n)
    rwa [length_slice, show min n (b.length - i) = n by omega] at this
  have hr : ∀ i n, n < 2 ^ 16 → (slice b i n).length < 2 ^ 16 := by
    intro i n h
    rw [length_slice]; omega
  have a1 := hlt 1 6 (by omega)
  have a2 := hlt 7 6 (by omega)
  have a3 := hlt 13 6 (by omega)
  have a4 := hlt 19 2 (by omega)
  have a5 := hlt 21 2 (by omega)
  have a6 := hlt 23 2 (by omega)
  simp only [headerFits, Bool.and_eq_true, decide_eq_true_eq, Bool.or_eq_true]
  refine ⟨⟨⟨⟨⟨⟨⟨a1, a2⟩, a3⟩, ?_⟩, ?_⟩, rootOf_fits h2 (hr _ _ a5)⟩, rootOf_fits h1 (hr _ _ a4)⟩, rootOf_fits h3 (hr _ _ a6)⟩
  · show (if 13 ≤ v.toNat then beDec (slice b 25 8) else 0) < _
    split
    · exact hlt 25 8 (by omega)
    · decide
  · show v.toNat < 14 ∨ (if 14 ≤ v.toNat then beDec (slice b 33 6) / 2 else unknownPrevHeaderPos) < _
    by_cases h : 14 ≤ v.toNat
    · rw [if_pos h]
      have := hlt 33 6 (by omega)
      exact Or.inr (by omega)
    · exact Or.inl (by omega)

/-- What loading a header body does. -/
theorem loadHeader_any (E : Env) (P : Nat) (b : Bytes) (db : Db) (d : Bytes) (hm : d[P]? = some btHeader)
    (hst : StoredBody E maxDbHeaderSize d P b) :
    Sp (loadHeader P b) db
      (fun _ db' => ∃ h, IntactHeader E d P h ∧ db' = { db with header := h })
      (fun e db' => (e = .corrupt ∨ ForeignHeader E d P ∧ (e = .headerVersion ∨ e = .assertFail)) ∧
        (∀ h, b ≠ encodeHeader h ∨ ¬ IntactHeader E d P h) ∧
        db' = { db with header := db'.header }) := by
  -- an intact header would be loaded
  have hint : ∀ h, b = encodeHeader h → IntactHeader E d P h → ∃ db', loadHeader P b db = .ok () db' := by
    rintro h rfl H
    have hr : ∀ r ∈ [h.byIdRoot, h.bySeqRoot, h.localRoot], rootPtrLt r P := fun r hr p hp => (H.roots r hr p hp).1
    exact ⟨_, loadHeader_encode h P db H.version H.fits H.purge (hr _ (by simp)) (hr _ (by simp)) (hr _ (by simp))⟩
  have hint' : ∀ e db', loadHeader P b db = .error e db' → ∀ h, b ≠ encodeHeader h ∨ ¬ IntactHeader E d P h := by
    intro e db' he h
    by_cases hb : b = encodeHeader h
    · refine Or.inr fun H => ?_
      obtain ⟨_, h'⟩ := hint h hb H
      rw [he] at h'
      cases h'
    · exact Or.inl hb
  suffices hmain : Sp (loadHeader P b) db
      (fun _ db' => ∃ h, IntactHeader E d P h ∧ db' = { db with header := h })
      (fun e db' => (e = .corrupt ∨ ForeignHeader E d P ∧ (e = .headerVersion ∨ e = .assertFail)) ∧
        db' = { db with header := db'.header }) by
    apply Sp.of
    · intro a db' h; exact hmain.ok h
    · intro e db' h
      have := hmain.error h
      exact ⟨this.1, hint' e db' h, this.2⟩
  clear hint hint'
  cases b with
  | nil =>
    exact ⟨Or.inr ⟨⟨hm, [], hst, by intro v hv; cases hv⟩, Or.inr rfl⟩, rfl⟩
  | cons v rest =>
    generalize hb : v :: rest = b at *
    have hv : b.head? = some v := by rw [← hb]; rfl
    rw [← hb]
    unfold loadHeader
    dsimp only
    rw [hb]
    unfold Sp
    rw [bind_ok (setHeader_eq _ _)]
    cases hs : headerFixedSize v.toNat with
    | none =>
      refine ⟨Or.inr ⟨⟨hm, b, hst, ?_⟩, Or.inl rfl⟩, rfl⟩
      intro v' hv' ⟨h1, h2⟩
      rw [hv] at hv'
      cases hv'
      have : v.toNat = 11 ∨ v.toNat = 12 ∨ v.toNat = 13 ∨ v.toNat = 14 := by omega
      rcases this with h | h | h | h <;> rw [h] at hs <;> cases hs
    | some size =>
      dsimp only
      by_cases c1 : b.length < size
      · rw [if_pos c1]; exact ⟨Or.inl rfl, rfl⟩
      rw [if_neg c1, bind_ok (setHeader_eq _ _), bind_ok (get_eq _)]
      dsimp only
      by_cases c2 : (decodeFixed v.toNat b { db.header with position := P, diskVersion := v.toNat }).purgePtr > P
      · rw [if_pos c2]; exact ⟨Or.inl rfl, rfl⟩
      rw [if_neg c2]
      by_cases c3 : b.length ≠ size + beDec (slice b 19 2) + beDec (slice b 21 2) + beDec (slice b 23 2)
      · rw [if_pos c3]; exact ⟨Or.inl rfl, rfl⟩
      rw [if_neg c3]
      have c3 : b.length = size + beDec (slice b 19 2) + beDec (slice b 21 2) + beDec (slice b 23 2) := by omega
      -- the three roots
      have r1 := readDbRoot_any (fun r h => { h with bySeqRoot := r }) (slice b size (beDec (slice b 19 2)))
        { db with header := decodeFixed v.toNat b { db.header with position := P, diskVersion := v.toNat } } (fun _ _ => rfl)
      apply Sp.bind' r1
      · rintro _ db1 ⟨k1, rfl⟩
        have r2 := fun db => readDbRoot_any (fun r h => { h with byIdRoot := r })
          (slice b (size + beDec (slice b 19 2)) (beDec (slice b 21 2))) db (fun _ _ => rfl)
        apply Sp.bind' (r2 _)
        · rintro _ db2 ⟨k2, rfl⟩
          have r3 := fun db => readDbRoot_any (fun r h => { h with localRoot := r })
            (slice b (size + beDec (slice b 19 2) + beDec (slice b 21 2)) (beDec (slice b 23 2))) db (fun _ _ => rfl)
          refine (r3 _).mono ?_ ?_
          · rintro _ db3 ⟨k3, rfl⟩
            have k1 : RootOk P (slice b size (beDec (slice b 19 2))) := k1
            have k2 : RootOk P (slice b (size + beDec (slice b 19 2)) (beDec (slice b 21 2))) := k2
            have k3 : RootOk P (slice b (size + beDec (slice b 19 2) + beDec (slice b 21 2)) (beDec (slice b 23 2))) := k3
            refine ⟨headerOf P b v.toNat size, ⟨hm, ?_, headerOf_fits hs c3 k1 k2 k3, ?_, rfl, ?_, ?_, ?_, ?_⟩, rfl⟩
            · rw [encodeHeader_headerOf hv hs c3 k1 k2 k3]; exact hst
            · show v.toNat = 11 ∨ v.toNat = 12 ∨ v.toNat = 13 ∨ v.toNat = 14
              unfold headerFixedSize at hs
              split at hs <;> simp_all
            · have : ¬ beDec (slice b 13 6) > P := c2
              show beDec (slice b 13 6) ≤ P
              omega
            · intro r hr p hp
              simp only [List.mem_cons, List.not_mem_nil, or_false] at hr
              rcases hr with rfl | rfl | rfl
              · exact rootOf_ptr k2 p hp
              · exact rootOf_ptr k1 p hp
              · exact rootOf_ptr k3 p hp
            · intro h
              have h : v.toNat < 13 := h
              show (if 13 ≤ v.toNat then _ else 0) = 0
              rw [if_neg (by omega)]
            · intro h
              have h : v.toNat < 14 := h
              constructor
              · show (if 14 ≤ v.toNat then _ else _) = _
                rw [if_neg (by omega)]
              · show (if 14 ≤ v.toNat then _ else _) = _
                rw [if_neg (by omega)]
          · rintro e db3 ⟨rfl, _, h⟩
            exact ⟨Or.inl rfl, by rw [h]⟩
        · rintro e db2 ⟨rfl, _, h⟩
          exact ⟨Or.inl rfl, by rw [h]⟩
      · rintro e db1 ⟨rfl, _, h⟩
        exact ⟨Or.inl rfl, by rw [h]⟩

/-! ### The search -/

/-- No raw operation fails with the number of `NO_HEADER`. -/
def NoCode6 (fs : List Fault) : Prop := .err (-6) ∉ fs

/-- A data or metadata block. -/
def DataBlock (d : Bytes) (P : Nat) : Prop := d[P]? = some btData ∨ d[P]? = some btMeta

/-- The errors that recovery mode skips. -/
def Skippable (e : Err) : Prop := e = .corrupt ∨ e = .checksumFail ∨ e = .read

theorem DataBlock.not_intact {E : Env} {d : Bytes} {P : Nat} (h : DataBlock d P) (x : Header) : ¬ IntactHeader E d P x := by
  intro hx
  have := hx.marker
  rcases h with h | h <;> rw [h] at this <;> revert this <;> decide

/-- How the search for a header failed at a block. -/
structure NotAt (E : Env) (db : Db) (P : Nat) (e : Err) (db' : Db) : Prop where
  frame : RFrame db.file db'.file
  eq : db' = { db with file := db'.file, header := db'.header }
  none : db.file.faults = [] → ∀ h, ¬ IntactHeader E db.file.disk P h
  absent : NoCode6 db.file.faults → e.code = Err.noHeader.code → DataBlock db.file.disk P ∨ P = 0
  kinds : db.file.faults = [] → Skippable e ∨ e = .noHeader ∨ ForeignHeader E db.file.disk P
  data : db.file.faults = [] → DataBlock db.file.disk P → e = .noHeader

theorem ReadErr.code6 {f : File} {e : Err} (h : ReadErr f e) (hn : NoCode6 f.faults) : e.code ≠ Err.noHeader.code := by
  rcases h with rfl | ⟨c, rfl, hc⟩
  · decide
  · intro h
    have : c = -6 := by simpa [Err.code] using h
    subst this
    exact hn hc

theorem ReadErr.skip {f : File} {e : Err} (h : ReadErr f e) (hf : f.faults = []) : Skippable e := by
  rcases h with rfl | ⟨c, rfl, hc⟩
  · exact Or.inr (Or.inr rfl)
  · rw [hf] at hc; cases hc

theorem NoCode6.mono {f g : File} (h : RFrame f g) (hn : NoCode6 f.faults) : NoCode6 g.faults :=
  fun hx => hn (h.mem hx)

theorem findHeaderAtPos_any (E : Env) (P : Nat) (db : Db) (hm : db.file.cfg.crcMode = .unknown) :
    Sp (findHeaderAtPos E P) db
      (fun _ db' => ∃ h, IntactHeader E db.file.disk P h ∧ RFrame db.file db'.file ∧
        db' = { db with file := db'.file, header := h })
      (NotAt E db P) := by
  unfold findHeaderAtPos
  apply Sp.bind' (Q1 := fun got db' => RFrame db.file db'.file ∧ db' = { db with file := db'.file } ∧
      (db.file.faults = [] → ∀ t, db.file.disk[P]? = some t → got = [t]) ∧
      (∀ t, got = [t] → db.file.disk[P]? = some t))
    (R1 := fun e db' => RFrame db.file db'.file ∧ db' = { db with file := db'.file } ∧ db.file.faults ≠ [] ∧ ReadErr db.file e)
  · apply Sp.of
    · intro got db' h
      obtain ⟨h1, hr, k, hk, hg⟩ := (liftF_spec (pread_any P 1 db.file)).ok h
      refine ⟨hr, h1, ?_, ?_⟩
      · intro hf t ht
        obtain ⟨_, _ | ⟨_, hx⟩⟩ := (preadType_spec P db ht).ok h
        · assumption
        · exact absurd hf hx
      · rintro t rfl
        have := slice_getElem? db.file.disk P k 0 (by rw [← hg]; simp)
        rw [← hg] at this
        simpa using this
    · intro e db' h
      obtain ⟨h1, hr, he⟩ := (liftF_spec (pread_any P 1 db.file)).error h
      exact ⟨hr, h1, ((liftF_spec (pread_spec P 1 db.file)).error h).2.2, he⟩
  · rintro got db1 ⟨hr, h1, hg, hg'⟩
    have hshort : ∀ x : Bytes, (∀ t, x ≠ [t]) → got = x → NotAt E db P .read db1 := by
      rintro x hx rfl
      refine ⟨hr, by rw [h1], fun hf h hh => hx _ (hg hf _ hh.marker), fun _ h => absurd h (by decide),
        fun _ => Or.inl (Or.inr (Or.inr rfl)), fun hf h => ?_⟩
      rcases h with h | h <;> exact absurd (hg hf _ h) (hx _)
    match got, hg' with
    | [], _ => exact hshort [] (by simp) rfl
    | _ :: _ :: _, _ => exact hshort _ (by simp) rfl
    | [t], hg' =>
      have ht := hg' t rfl
      dsimp only
      by_cases c1 : t = btData ∨ t = btMeta
      · rw [if_pos c1]
        have hd : DataBlock db.file.disk P := by
          rcases c1 with rfl | rfl
          · exact Or.inl ht
          · exact Or.inr ht
        exact ⟨hr, by rw [h1], fun _ h => hd.not_intact h, fun _ _ => Or.inl hd, fun _ => Or.inr (Or.inl rfl), fun _ _ => rfl⟩
      · rw [if_neg c1]
        have hnd : ¬ DataBlock db.file.disk P := by
          rintro (h | h) <;> rw [ht] at h <;> cases h <;> simp at c1
        by_cases c2 : t ≠ btHeader
        · rw [if_pos c2]
          refine ⟨hr, by rw [h1], fun _ h hh => ?_, fun _ h => absurd h (by decide), fun _ => Or.inl (Or.inl rfl),
            fun _ h => absurd h hnd⟩
          have := hh.marker
          rw [ht] at this
          cases this
          exact c2 rfl
        · rw [if_neg c2]
          have ht : db.file.disk[P]? = some btHeader := by
            have : t = btHeader := Decidable.not_not.mp c2
            rw [ht, this]
          have hbody : ∀ h, IntactHeader E db.file.disk P h → StoredBody E maxDbHeaderSize db.file.disk P (encodeHeader h) :=
            fun h hh => hh.body
          apply Sp.bind' (Q1 := fun b db' => RFrame db1.file db'.file ∧ db' = { db1 with file := db'.file } ∧
              StoredBody E maxDbHeaderSize db1.file.disk P b ∧
              (db1.file.faults = [] → ∀ b', StoredBody E maxDbHeaderSize db1.file.disk P b' → b' = b))
            (R1 := fun e db' => RFrame db1.file db'.file ∧ db' = { db1 with file := db'.file } ∧
              (P = 0 ∧ e = .noHeader ∨ e = .corrupt ∨ e = .checksumFail ∨ ReadErr db1.file e) ∧
              (db1.file.faults = [] → ∀ b, ¬ StoredBody E maxDbHeaderSize db1.file.disk P b))
          · have hs := liftF_spec (db := db1) (preadHeader_any E P maxDbHeaderSize db1.file (by decide) (by decide)
              (by rw [hr.cfg]; exact hm))
            unfold preadDbHeader Sp at *
            cases hp : liftF (preadHeader E P maxDbHeaderSize) db1 with
            | ok b db' =>
              rw [hp] at hs
              dsimp only
              rw [hp]
              exact ⟨hs.2.1, hs.1, hs.2.2, fun _ b' hb' => (StoredBody.unique (by decide) hs.2.2 hb').symm⟩
            | error e db' =>
              rw [hp] at hs
              dsimp only
              rw [hp]
              refine ⟨hs.2.1, hs.1, ?_, hs.2.2.2⟩
              by_cases hz : P = 0
              · rw [if_pos hz]; exact Or.inl ⟨hz, rfl⟩
              · rw [if_neg hz]; exact Or.inr hs.2.2.1
          · rintro b db2 ⟨hr2, h2, hst, huniq⟩
            rw [hr.disk] at hst
            refine (loadHeader_any E P b db2 db.file.disk ht hst).mono ?_ ?_
            · rintro _ db' ⟨h, hi, rfl⟩
              exact ⟨h, hi, hr.trans hr2, by rw [h2, h1]⟩
            · rintro e db' ⟨he, hno, heq⟩
              have hfr : RFrame db.file db'.file := by rw [heq]; exact hr.trans hr2
              refine ⟨hfr, by rw [heq, h2, h1], ?_, ?_, ?_, fun _ h => absurd h hnd⟩
              · intro hf h hh
                rcases hno h with k | k
                · exact k (huniq (hr.nil hf) _ (by rw [hr.disk]; exact hbody h hh)).symm
                · exact k hh
              · intro _ hc
                rcases he with rfl | ⟨_, rfl | rfl⟩ <;> exact absurd hc (by decide)
              · intro _
                rcases he with rfl | ⟨h, _⟩
                · exact Or.inl (Or.inl rfl)
                · exact Or.inr (Or.inr h)
          · rintro e db2 ⟨hr2, h2, he, hno⟩
            refine ⟨hr.trans hr2, by rw [h2, h1], ?_, ?_, ?_, fun _ h => absurd h hnd⟩
            · intro hf h hh
              exact hno (hr.nil hf) _ (by rw [hr.disk]; exact hbody h hh)
            · intro hn hc
              rcases he with ⟨h, _⟩ | rfl | rfl | h
              · exact Or.inr h
              · exact absurd hc (by decide)
              · exact absurd hc (by decide)
              · exact absurd hc (h.code6 (hn.mono hr))
            · intro hf
              rcases he with ⟨_, h⟩ | rfl | rfl | h
              · exact Or.inr (Or.inl h)
              · exact Or.inl (Or.inl rfl)
              · exact Or.inl (Or.inr (Or.inl rfl))
              · exact Or.inl (h.skip (hr.nil hf))
  · rintro e db' ⟨hr, h1, hf, he⟩
    exact ⟨hr, by rw [h1], fun h => absurd h hf, fun hn h => absurd h (he.code6 hn), fun h => absurd h hf,
      fun h => absurd h hf⟩

/-- How the whole search failed. -/
structure NotFound (E : Env) (skip : Bool) (db : Db) (n : Nat) (last e : Err) (db' : Db) : Prop where
  frame : RFrame db.file db'.file
  eq : db' = { db with file := db'.file, header := db'.header }
  recovery : db.file.faults = [] → skip = true → ∀ Q h, Q % blockSize = 0 → Q ≤ n * blockSize →
    IntactHeader E db.file.disk Q h → ∃ Q', Q' % blockSize = 0 ∧ Q < Q' ∧ Q' ≤ n * blockSize ∧ ForeignHeader E db.file.disk Q'
  strict : db.file.faults = [] → skip = false → ∀ Q h, Q % blockSize = 0 → Q ≤ n * blockSize →
    IntactHeader E db.file.disk Q h → ∃ Q', Q' % blockSize = 0 ∧ Q < Q' ∧ Q' ≤ n * blockSize ∧ ¬ DataBlock db.file.disk Q'
  reported : NoCode6 db.file.faults → skip = false → e.code = Err.noHeader.code →
    ∀ Q, Q % blockSize = 0 → 0 < Q → Q ≤ n * blockSize → DataBlock db.file.disk Q
  absent : db.file.faults = [] → (∀ Q, Q % blockSize = 0 → Q ≤ n * blockSize → DataBlock db.file.disk Q) → e = last

theorem findHeaderLoop_any (E : Env) (skip : Bool) (n : Nat) (last : Err) (db : Db)
    (hm : db.file.cfg.crcMode = .unknown) :
    Sp (findHeaderLoop E skip n last) db
      (fun _ db' => ∃ P h, P % blockSize = 0 ∧ P ≤ n * blockSize ∧ IntactHeader E db.file.disk P h ∧
        RFrame db.file db'.file ∧ db' = { db with file := db'.file, header := h } ∧
        (NoCode6 db.file.faults → skip = false → ∀ Q, Q % blockSize = 0 → P < Q → Q ≤ n * blockSize →
          DataBlock db.file.disk Q) ∧
        (db.file.faults = [] → ∀ Q x, Q % blockSize = 0 → P < Q → Q ≤ n * blockSize →
          ¬ IntactHeader E db.file.disk Q x))
      (NotFound E skip db n last) := by
  induction n generalizing last db with
  | zero =>
    have hs := findHeaderAtPos_any E (0 * blockSize) db hm
    have hz : ∀ Q, Q ≤ 0 * blockSize → Q = 0 * blockSize := by intro Q h; omega
    unfold Sp findHeaderLoop at *
    cases hr : findHeaderAtPos E (0 * blockSize) db with
    | ok a db' =>
      rw [hr] at hs
      obtain ⟨h, hi, hf, he⟩ := hs
      exact ⟨_, h, by simp, Nat.le_refl _, hi, hf, he, fun _ _ Q _ h1 h2 => by omega, fun _ Q x _ h1 h2 => by omega⟩
    | error e db' =>
      rw [hr] at hs
      dsimp only
      have hno : ∀ e', (e.code = Err.noHeader.code → e' = last ∨ e' = e) →
          (e = .noHeader → e' = last) →
          NotFound E skip db 0 last e' db' := by
        intro e' h1 h2
        refine ⟨hs.frame, hs.eq, ?_, ?_, ?_, ?_⟩
        · intro hf _ Q h _ hQ hi; rw [hz Q hQ] at hi; exact absurd hi (hs.none hf h)
        · intro hf _ Q h _ hQ hi; rw [hz Q hQ] at hi; exact absurd hi (hs.none hf h)
        · intro _ _ _ Q _ h1 h2; omega
        · intro hf hd
          exact h2 (hs.data hf (hd _ (by simp) (Nat.le_refl _)))
      by_cases c1 : e.code = Err.noHeader.code
      · rw [if_pos c1]; exact hno last (fun _ => Or.inl rfl) (fun _ => rfl)
      · rw [if_neg c1]
        have hne : e ≠ .noHeader := by rintro rfl; exact c1 rfl
        by_cases c2 : e.code = Err.checksumFail.code ∨ e.code = Err.corrupt.code ∨ e.code = Err.read.code
        · rw [if_pos c2]
          by_cases c3 : skip = true
          · rw [if_pos c3]; exact hno e (fun _ => Or.inr rfl) (fun h => absurd h hne)
          · rw [if_neg c3]; exact hno e (fun _ => Or.inr rfl) (fun h => absurd h hne)
        · rw [if_neg c2]; exact hno e (fun _ => Or.inr rfl) (fun h => absurd h hne)
  | succ n ih =>
    have hs := findHeaderAtPos_any E ((n + 1) * blockSize) db hm
    have hmul : (n + 1) * blockSize % blockSize = 0 := Nat.mul_mod_left _ _
    have hcase : ∀ Q, Q % blockSize = 0 → Q ≤ (n + 1) * blockSize → Q = (n + 1) * blockSize ∨ Q ≤ n * blockSize := by
      intro Q h1 h2
      have hbs : blockSize = 4096 := rfl
      simp only [hbs] at h1 h2 ⊢
      omega
    have hlt : n * blockSize < (n + 1) * blockSize := by
      have hbs : blockSize = 4096 := rfl
      simp only [hbs]; omega
    have hpos : 0 < (n + 1) * blockSize := by omega
    unfold Sp findHeaderLoop
    cases hr : findHeaderAtPos E ((n + 1) * blockSize) db with
    | ok a db' =>
      unfold Sp at hs
      rw [hr] at hs
      obtain ⟨h, hi, hf, he⟩ := hs
      exact ⟨_, h, hmul, Nat.le_refl _, hi, hf, he, fun _ _ Q _ h1 h2 => by omega, fun _ Q x _ h1 h2 => by omega⟩
    | error e db1 =>
      have hs := hs.error hr
      dsimp only
      have hd1 : db1.file.disk = db.file.disk := hs.frame.disk
      -- going on
      have hnext : ∀ last', (NoCode6 db.file.faults → skip = false → DataBlock db.file.disk ((n + 1) * blockSize)) →
          (db.file.faults = [] → DataBlock db.file.disk ((n + 1) * blockSize) → last' = last) →
          Sp (findHeaderLoop E skip n last') db1
            (fun _ db' => ∃ P h, P % blockSize = 0 ∧ P ≤ (n + 1) * blockSize ∧ IntactHeader E db.file.disk P h ∧
              RFrame db.file db'.file ∧ db' = { db with file := db'.file, header := h } ∧
              (NoCode6 db.file.faults → skip = false → ∀ Q, Q % blockSize = 0 → P < Q → Q ≤ (n + 1) * blockSize →
                DataBlock db.file.disk Q) ∧
              (db.file.faults = [] → ∀ Q x, Q % blockSize = 0 → P < Q → Q ≤ (n + 1) * blockSize →
                ¬ IntactHeader E db.file.disk Q x))
            (NotFound E skip db (n + 1) last) := by
        intro last' hdata hlast
        refine (ih last' db1 (by rw [hs.frame.cfg]; exact hm)).mono ?_ ?_
        · rintro _ db' ⟨P, h, a1, a2, a3, a4, a5, a6, a7⟩
          rw [hd1] at a3 a6 a7
          refine ⟨P, h, a1, by omega, a3, hs.frame.trans a4, by rw [a5, hs.eq], ?_, ?_⟩
          · intro hn hsk Q q1 q2 q3
            rcases hcase Q q1 q3 with rfl | q
            · exact hdata hn hsk
            · exact a6 (hn.mono hs.frame) hsk Q q1 q2 q
          · intro hf Q x q1 q2 q3
            rcases hcase Q q1 q3 with rfl | q
            · exact hs.none hf x
            · exact a7 (hs.frame.nil hf) Q x q1 q2 q
        · rintro e' db' ⟨b1, b2, b3, b4, b5, b6⟩
          rw [hd1] at b3 b4 b5 b6
          refine ⟨hs.frame.trans b1, by rw [b2, hs.eq], ?_, ?_, ?_, ?_⟩
          · intro hf hsk Q x q1 q3 hi
            rcases hcase Q q1 q3 with rfl | q
            · exact absurd hi (hs.none hf x)
            · obtain ⟨Q', c1, c2, c3, c4⟩ := b3 (hs.frame.nil hf) hsk Q x q1 q hi
              exact ⟨Q', c1, c2, by omega, c4⟩
          · intro hf hsk Q x q1 q3 hi
            rcases hcase Q q1 q3 with rfl | q
            · exact absurd hi (hs.none hf x)
            · obtain ⟨Q', c1, c2, c3, c4⟩ := b4 (hs.frame.nil hf) hsk Q x q1 q hi
              exact ⟨Q', c1, c2, by omega, c4⟩
          · intro hn hsk he Q q1 q2 q3
            rcases hcase Q q1 q3 with rfl | q
            · exact hdata hn hsk
            · exact b5 (hn.mono hs.frame) hsk he Q q1 q2 q
          · intro hf hd
            rw [b6 (hs.frame.nil hf) (fun Q h1 h2 => hd Q h1 (by omega))]
            exact hlast hf (hd _ hmul (Nat.le_refl _))
      -- stopping
      have hstop : e.code ≠ Err.noHeader.code →
          (db.file.faults = [] → skip = true → ForeignHeader E db.file.disk ((n + 1) * blockSize)) →
          NotFound E skip db (n + 1) last e db1 := by
        intro hne hfor
        refine ⟨hs.frame, hs.eq, ?_, ?_, ?_, ?_⟩
        · intro hf hsk Q x q1 q3 hi
          rcases hcase Q q1 q3 with rfl | q
          · exact absurd hi (hs.none hf x)
          · exact ⟨_, hmul, by omega, Nat.le_refl _, hfor hf hsk⟩
        · intro hf hsk Q x q1 q3 hi
          rcases hcase Q q1 q3 with rfl | q
          · exact absurd hi (hs.none hf x)
          · refine ⟨_, hmul, by omega, Nat.le_refl _, fun hd => ?_⟩
            rw [hs.data hf hd] at hne
            exact hne rfl
        · intro _ _ he
          exact absurd he hne
        · intro hf hd
          rw [hs.data hf (hd _ hmul (Nat.le_refl _))] at hne
          exact absurd rfl hne
      by_cases c1 : e.code = Err.noHeader.code
      · rw [if_pos c1]
        refine hnext last (fun hn _ => ?_) (fun _ _ => rfl)
        rcases hs.absent hn c1 with h | h
        · exact h
        · omega
      · rw [if_neg c1]
        by_cases c2 : e.code = Err.checksumFail.code ∨ e.code = Err.corrupt.code ∨ e.code = Err.read.code
        · rw [if_pos c2]
          by_cases c3 : skip = true
          · rw [if_pos c3]
            refine hnext e (fun _ h => by rw [c3] at h; cases h) (fun hf hd => ?_)
            rw [hs.data hf hd] at c1
            exact absurd rfl c1
          · rw [if_neg c3]
            exact hstop c1 (fun _ h => absurd h c3)
        · rw [if_neg c2]
          refine hstop c1 (fun hf _ => ?_)
          rcases hs.kinds hf with (rfl | rfl | rfl) | rfl | h
          · exact absurd (Or.inr (Or.inl rfl)) c2
          · exact absurd (Or.inl rfl) c2
          · exact absurd (Or.inr (Or.inr rfl)) c2
          · exact absurd rfl c1
          · exact h

/-! ### Opening -/

/-- The header is determined by the block. -/
theorem IntactHeader.unique {E : Env} {d : Bytes} {P : Nat} {h h' : Header} (H : IntactHeader E d P h)
    (H' : IntactHeader E d P h') : h = h' := by
  have hd : ∀ {x : Header}, IntactHeader E d P x → diskHeader x P = x := by
    intro x X
    have hr : ∀ r ∈ [x.byIdRoot, x.bySeqRoot, x.localRoot], diskRoot r = r := by
      intro r hr
      cases r with
      | none => rfl
      | some p =>
        have := (X.roots _ hr p rfl).2
        obtain ⟨a, b, c, e⟩ := p
        simp only [] at this
        subst this
        rfl
    have h3 := X.noTimestamp
    have h4 := X.noPrev
    have h5 := X.position
    have r1 := hr x.byIdRoot (by simp)
    have r2 := hr x.bySeqRoot (by simp)
    have r3 := hr x.localRoot (by simp)
    unfold diskHeader
    obtain ⟨v, a, b, c, e, f, g, pos, t, pr, m⟩ := x
    dsimp only at *
    subst h5
    rw [r1, r2, r3]
    congr 1
    · split
      · rfl
      · rw [h3 (by omega)]
    · split
      · rfl
      · rw [(h4 (by omega)).1]
    · split
      · rfl
      · rw [(h4 (by omega)).2]
  have hl : ∀ {x : Header}, IntactHeader E d P x → ∀ db, loadHeader P (encodeHeader x) db = .ok () { db with header := x } := by
    intro x X db
    have hr : ∀ r ∈ [x.byIdRoot, x.bySeqRoot, x.localRoot], rootPtrLt r P := fun r hr p hp => (X.roots r hr p hp).1
    rw [loadHeader_encode x P db X.version X.fits X.purge (hr _ (by simp)) (hr _ (by simp)) (hr _ (by simp)), hd X]
  have he : encodeHeader h = encodeHeader h' := H.body.unique (by decide) H'.body
  have a := hl H (newHandle ⟨false, false, false, false, false, false, 0, 0⟩ (crashedFile [] []))
  rw [he, hl H'] at a
  have := congrArg (fun r => match r with | .ok _ db => db.header | .error _ db => db.header) a
  exact this.symm

theorem readMetadataHeader_rframe (E : Env) (f : File) :
    Sp (readMetadataHeader E) f (fun _ g => RFrame f g) (fun _ g => RFrame f g) := by
  unfold readMetadataHeader
  apply Sp.bind' (pread_any 0 1 f)
  · rintro got g ⟨hr, _⟩
    split
    · split
      · exact hr
      apply Sp.bind' (preadHeader_rframe E 0 blockSize g)
      · intro b g2 hr2
        have := hr.trans hr2
        split
        · exact this
        split
        · exact this
        split
        · exact this
        split
        · exact this
        · exact this
      · intro e g2 hr2; exact hr.trans hr2
    · exact hr
  · rintro e g ⟨hr, _⟩; exact hr

theorem readKey_any (E : Env) (getKey : KeyGetter) (db : Db) :
    Sp (readAndSetEncryptionKey E getKey) db
      (fun _ db' => db'.header = db.header ∧ db'.file.disk = db.file.disk ∧ db'.file.log = db.file.log)
      (fun _ db' => db'.header = db.header ∧ db'.file.disk = db.file.disk ∧ db'.file.log = db.file.log) := by
  have hmeta : Sp (metadataOrNoKey E) db (fun _ db' => db'.header = db.header ∧ db'.file.disk = db.file.disk ∧ db'.file.log = db.file.log)
      (fun _ db' => db'.header = db.header ∧ db'.file.disk = db.file.disk ∧ db'.file.log = db.file.log) := by
    have hs := liftF_spec (db := db) (readMetadataHeader_rframe E db.file)
    unfold metadataOrNoKey Sp at *
    dsimp only
    cases hp : liftF (readMetadataHeader E) db with
    | ok b db' =>
      rw [hp] at hs
      exact ⟨by rw [hs.1], hs.2.disk, hs.2.log⟩
    | error e db' =>
      rw [hp] at hs
      exact ⟨by rw [hs.1], hs.2.disk, hs.2.log⟩
  unfold readAndSetEncryptionKey
  apply Sp.get_bind
  split
  · exact ⟨rfl, rfl, rfl⟩
  split
  · exact ⟨rfl, rfl, rfl⟩
  split
  · exact ⟨rfl, rfl, rfl⟩
  apply Sp.bind' hmeta
  · rintro ⟨v', id', ctx'⟩ db1 h
    dsimp only
    split
    · exact h
    split
    · exact h
    split
    · exact h
    split
    · exact h
    split
    · exact h
    · exact h
  · intro e db' h; exact h

/-- The result of opening a non-empty file, whatever it contains. -/
theorem openBody_any (E : Env) (flags : OpenFlags) (getKey : KeyGetter) (ctx : Bytes) (f : File)
    (hpos : f.disk ≠ []) :
    Sp (openBody E flags getKey ctx) (newHandle flags f)
      (fun _ db' => db'.file.disk = f.disk ∧ db'.file.log = f.log ∧
        ∃ P, P % blockSize = 0 ∧ P + 2 ≤ f.disk.length ∧ IntactHeader E f.disk P db'.header ∧
        (NoCode6 f.faults → flags.recovery = false → ∀ Q, Q % blockSize = 0 → P < Q → Q + 2 ≤ f.disk.length →
          DataBlock f.disk Q) ∧
        (f.faults = [] → ∀ Q x, Q % blockSize = 0 → P < Q → Q + 2 ≤ f.disk.length → ¬ IntactHeader E f.disk Q x))
      (fun e db' => db'.file.disk = f.disk ∧ db'.file.log = f.log ∧
        (f.faults = [] → ∀ P h, P % blockSize = 0 → P + 2 ≤ f.disk.length → IntactHeader E f.disk P h →
          (h.diskVersion ≠ 11 ∧ flags.legacyCrc = true) ∨ h.haveMeta = true ∨
          ∃ Q, Q % blockSize = 0 ∧ P < Q ∧ Q + 2 ≤ f.disk.length ∧
            if flags.recovery then ForeignHeader E f.disk Q ∨ ∃ x, IntactHeader E f.disk Q x else ¬ DataBlock f.disk Q) ∧
        (f.faults = [] → (∀ Q, Q % blockSize = 0 → Q + 2 ≤ f.disk.length → DataBlock f.disk Q) → e = .noHeader) ∧
        (f.faults = [] → flags.recovery = false → e = .noHeader →
          (∀ Q, Q % blockSize = 0 → 0 < Q → Q + 2 ≤ f.disk.length → DataBlock f.disk Q) ∨
          ∃ P h, P % blockSize = 0 ∧ P + 2 ≤ f.disk.length ∧ IntactHeader E f.disk P h ∧
            ∀ Q, Q % blockSize = 0 → P < Q → Q + 2 ≤ f.disk.length → DataBlock f.disk Q)) := by
  have hlen0 : 0 < f.disk.length := List.length_pos_iff.mpr hpos
  unfold openBody
  apply Sp.bind' (liftF_spec (db := newHandle flags f) (gotoEof_spec _))
  · rintro n db1 ⟨h1, rfl, hr⟩
    have hf1 : db1.file = { f with pos := 0, cfg := ⟨.unknown, none, flags.kvThr, flags.kpThr⟩
                                   faults := db1.file.faults } := hr.2
    generalize hfs : db1.file.faults = fs1 at hf1
    have hsuf1 : fs1 <:+ f.faults := by rw [← hfs]; exact hr.1
    have h1' : db1 = { newHandle flags f with file := { f with
        pos := 0, cfg := ⟨.unknown, none, flags.kvThr, flags.kpThr⟩, faults := fs1 } } := by
      rw [h1, hf1]
    clear h1 hr hfs hf1
    subst h1'
    show Sp (liftF (setPos f.disk.length) >>= _) _ _ _
    have hset : liftF (setPos f.disk.length) { newHandle flags f with file := { f with
        pos := 0, cfg := ⟨.unknown, none, flags.kvThr, flags.kpThr⟩, faults := fs1 } } =
        .ok () { newHandle flags f with file := { f with
        pos := f.disk.length, cfg := ⟨.unknown, none, flags.kvThr, flags.kpThr⟩, faults := fs1 } } := rfl
    have hgoal : ∀ {α : Type} {m : DbM α} {k : α → DbM Unit} {s s' : Db} {a : α} {Q R}, m s = .ok a s' → Sp (k a) s' Q R →
        Sp (m >>= k) s Q R := by
      intro α m k s s' a Q R h1 h2
      unfold Sp
      rw [bind_ok h1]
      exact h2
    refine hgoal hset ?_
    dsimp only
    have hlen : (newHandle flags f).file.disk.length = f.disk.length := rfl
    rw [hlen, if_neg (by omega)]
    generalize hs0 : ({ newHandle flags f with file := { f with
        pos := f.disk.length, cfg := ⟨.unknown, none, flags.kvThr, flags.kpThr⟩, faults := fs1 } } : Db) = s0
    have hd0 : s0.file.disk = f.disk := by rw [← hs0]
    have hl0 : s0.file.log = f.log := by rw [← hs0]
    have hm0 : s0.file.cfg.crcMode = .unknown := by rw [← hs0]
    have hc0 : s0.file.cfg.cipher = none := by rw [← hs0]
    have hf0 : f.faults = [] → s0.file.faults = [] := by
      intro h; rw [← hs0]; exact List.suffix_nil.mp (h ▸ hsuf1)
    have hn0 : NoCode6 f.faults → NoCode6 s0.file.faults := by
      intro h; rw [← hs0]; exact fun hx => h (hsuf1.subset hx)
    by_cases hsm : f.disk.length < 2
    · have : findHeaderBefore E f.disk.length flags.recovery = throw .noHeader := by
        unfold findHeaderBefore; rw [if_pos hsm]
      rw [this]
      refine ⟨hd0, hl0, ?_, fun _ _ => rfl, ?_⟩
      · intro _ P h _ hP; omega
      · intro _ _ _; exact Or.inl fun Q _ _ hQ => by omega
    · have hfb : findHeaderBefore E f.disk.length flags.recovery =
          findHeaderLoop E flags.recovery ((f.disk.length - 2) / blockSize) .noHeader := by
        unfold findHeaderBefore findHeader; rw [if_neg hsm]
      rw [hfb]
      have hiff : ∀ Q, Q % blockSize = 0 → (Q ≤ (f.disk.length - 2) / blockSize * blockSize ↔ Q + 2 ≤ f.disk.length) := by
        intro Q hQ
        have hbs : blockSize = 4096 := rfl
        simp only [hbs] at hQ ⊢
        omega
      apply Sp.bind' (findHeaderLoop_any E flags.recovery ((f.disk.length - 2) / blockSize) .noHeader s0 hm0)
      · rintro _ db2 ⟨P, h, p1, p2, p3, p4, p5, p6, p7⟩
        rw [hd0] at p3 p6 p7
        have hd2 : db2.file.disk = f.disk := by rw [p4.disk, hd0]
        have hl2 : db2.file.log = f.log := by rw [p4.log, hl0]
        have hh2 : db2.header = h := by rw [p5]
        have hc2 : db2.file.cfg.cipher = none := by rw [p4.cfg, hc0]
        have hno : (f.faults = [] → ∀ P' h', P' % blockSize = 0 → P' + 2 ≤ f.disk.length → IntactHeader E f.disk P' h' →
            (h.diskVersion ≠ 11 ∧ flags.legacyCrc = true ∨ h.haveMeta = true) →
            (h'.diskVersion ≠ 11 ∧ flags.legacyCrc = true) ∨ h'.haveMeta = true ∨
            ∃ Q, Q % blockSize = 0 ∧ P' < Q ∧ Q + 2 ≤ f.disk.length ∧
            if flags.recovery then ForeignHeader E f.disk Q ∨ ∃ x, IntactHeader E f.disk Q x else ¬ DataBlock f.disk Q) := by
          intro hf P' h' q1 q2 q3 hx
          rcases Nat.lt_trichotomy P P' with hlt | rfl | hgt
          · exact absurd q3 (p7 (hf0 hf) P' h' q1 hlt ((hiff P' q1).mpr q2))
          · cases q3.unique p3
            rcases hx with h | h
            · exact Or.inl h
            · exact Or.inr (Or.inl h)
          · refine Or.inr (Or.inr ⟨P, p1, hgt, (hiff P p1).mp p2, ?_⟩)
            split
            · exact Or.inr ⟨h, p3⟩
            · exact fun hd => hd.not_intact h p3
        apply Sp.get_bind
        refine hgoal (a := ()) rfl ?_
        apply Sp.get_bind
        dsimp only
        rw [hh2]
        have hver : ¬ h.diskVersion ≤ 11 → h.diskVersion ≠ 11 := by omega
        by_cases hl : (if h.diskVersion ≤ 11 then CrcMode.crc32 else .crc32c) = .crc32c ∧ flags.legacyCrc = true
        · rw [if_pos hl]
          refine ⟨hd2, hl2, ?_, ?_, ?_⟩
          · intro hf P' h' q1 q2 q3
            refine hno hf P' h' q1 q2 q3 (Or.inl ⟨?_, hl.2⟩)
            apply hver
            intro hle
            rw [if_pos hle] at hl
            exact absurd hl.1 (by decide)
          · intro hf hd
            exact absurd p3 ((hd P p1 ((hiff P p1).mp p2)).not_intact h)
          · intro _ _ he; cases he
        · rw [if_neg hl]
          apply Sp.get_bind
          dsimp only
          rw [hc2]
          by_cases hmt : h.haveMeta = true ∧ (none : Option Nat) = none
          · rw [if_pos hmt]
            refine (readKey_any E getKey _).mono ?_ ?_
            · rintro _ db' ⟨k1, k2, k3⟩
              refine ⟨by rw [k2]; exact hd2, by rw [k3]; exact hl2, P, p1, (hiff P p1).mp p2, ?_, ?_, ?_⟩
              · rw [k1]; exact hh2 ▸ p3
              · intro hn hrec Q q1 q2 q3
                exact p6 (hn0 hn) hrec Q q1 q2 ((hiff Q q1).mpr q3)
              · intro hf Q x q1 q2 q3
                exact p7 (hf0 hf) Q x q1 q2 ((hiff Q q1).mpr q3)
            · rintro e db' ⟨k1, k2, k3⟩
              refine ⟨by rw [k2]; exact hd2, by rw [k3]; exact hl2, ?_, ?_, ?_⟩
              · intro hf P' h' q1 q2 q3
                exact hno hf P' h' q1 q2 q3 (Or.inr hmt.1)
              · intro hf hd
                exact absurd p3 ((hd P p1 ((hiff P p1).mp p2)).not_intact h)
              · intro hf hrec _
                exact Or.inr ⟨P, h, p1, (hiff P p1).mp p2, p3, fun Q q1 q2 q3 => p6 (hn0 (by rw [hf]; intro h; cases h)) hrec Q q1 q2 ((hiff Q q1).mpr q3)⟩
          · rw [if_neg hmt]
            refine ⟨hd2, hl2, P, p1, (hiff P p1).mp p2, hh2 ▸ p3, ?_, ?_⟩
            · intro hn hrec Q q1 q2 q3
              exact p6 (hn0 hn) hrec Q q1 q2 ((hiff Q q1).mpr q3)
            · intro hf Q x q1 q2 q3
              exact p7 (hf0 hf) Q x q1 q2 ((hiff Q q1).mpr q3)
      · rintro e db' ⟨b1, b2, b3, b4, b5, b6⟩
        rw [hd0] at b3 b4 b5 b6
        refine ⟨by rw [b1.disk, hd0], by rw [b1.log, hl0], ?_, ?_, ?_⟩
        · intro hf P h q1 q2 q3
          right; right
          by_cases hrec : flags.recovery = true
          · obtain ⟨Q, c1, c2, c3, c4⟩ := b3 (hf0 hf) hrec P h q1 ((hiff P q1).mpr q2) q3
            exact ⟨Q, c1, c2, (hiff Q c1).mp c3, by rw [if_pos hrec]; exact Or.inl c4⟩
          · obtain ⟨Q, c1, c2, c3, c4⟩ := b4 (hf0 hf) (by simpa using hrec) P h q1 ((hiff P q1).mpr q2) q3
            exact ⟨Q, c1, c2, (hiff Q c1).mp c3, by rw [if_neg hrec]; exact c4⟩
        · intro hf hd
          exact b6 (hf0 hf) (fun Q h1 h2 => hd Q h1 ((hiff Q h1).mp h2))
        · intro hf hrec he
          refine Or.inl fun Q q1 q2 q3 => ?_
          exact b5 (by rw [hf0 hf]; intro h; cases h) hrec (by rw [he]) Q q1 q2 ((hiff Q q1).mpr q3)
  · rintro e db' ⟨h1, hr, hne⟩
    have hne : f.faults ≠ [] := hne
    refine ⟨hr.disk, hr.log, fun h => absurd h hne, fun h => absurd h hne, fun h => absurd h hne⟩

end Couchstore
