import Verif.Lemmas.ReadCache

/-! Helper lemmas: one operation through the I/O buffer. -/

namespace Couchstore

/-- The write buffer, or the one that the next write would allocate. -/
def BFile.pending (h : BFile) : FileBuf :=
  h.wbuf.getD (FileBuf.new (if h.params.readOnly then 0 else h.params.writeCap))

/-- The read buffers are valid and hold no byte at a position in `P`. -/
def RInv (p : BufParams) (rb : Option (List FileBuf)) (disk : Bytes) (P : Nat → Prop) : Prop :=
  ∀ bufs, rb = some bufs → RBufs p disk bufs ∧ ∀ b ∈ bufs, ∀ i, b.Covers i → ¬ P i

theorem RInv.mono {p : BufParams} {rb : Option (List FileBuf)} {disk : Bytes} {P Q : Nat → Prop}
    (h : RInv p rb disk P) (hpq : ∀ i, Q i → P i) : RInv p rb disk Q :=
  fun bufs hb => ⟨(h bufs hb).1, fun b hm i hi hq => (h bufs hb).2 b hm i hi (hpq i hq)⟩

theorem RInv.change {p : BufParams} {rb : Option (List FileBuf)} {disk disk' : Bytes}
    {P : Nat → Prop} (h : RInv p rb disk P)
    (hk : ∀ i x, disk[i]? = some x → ¬ P i → disk'[i]? = some x) : RInv p rb disk' P := by
  intro bufs hb
  obtain ⟨h1, h2⟩ := h bufs hb
  refine ⟨⟨fun b hm => ?_, h1.nodup⟩, h2⟩
  have hr := h1.all b hm
  refine ⟨hr.cap, hr.clean, hr.off, hr.aligned, hr.len, fun i x hx => ?_⟩
  refine hk _ _ (hr.holds i x hx) (h2 b hm _ ⟨by omega, ?_⟩)
  have := (List.getElem?_eq_some_iff.mp hx).1
  omega

theorem aligned_le {a b c : Nat} (ha : a % c = 0) (hb : b % c = 0) (h : a < b) : a + c ≤ b := by
  have h1 := Nat.div_add_mod a c
  have h2 := Nat.div_add_mod b c
  rw [ha] at h1
  rw [hb] at h2
  have : a / c < b / c := by
    rcases Nat.lt_or_ge (a / c) (b / c) with h3 | h3
    · exact h3
    · have := Nat.mul_le_mul_left c h3
      omega
  have := Nat.mul_le_mul_left c (show a / c + 1 ≤ b / c from this)
  rw [Nat.mul_add] at this
  omega

theorem RInv.invalidate {p : BufParams} {rb : Option (List FileBuf)} {disk : Bytes} {P : Nat → Prop}
    (h : RInv p rb disk P) (hcap : 0 < p.readCap) (off n : Nat) (hn : n ≠ 0) :
    RInv p (rb.map (fun bufs => invalidateRange bufs off n p.readCap)) disk
      (fun i => P i ∨ off ≤ i ∧ i < off + n) := by
  intro bufs hb
  cases hrb : rb with
  | none => rw [hrb] at hb; simp at hb
  | some bs =>
    rw [hrb] at hb
    simp only [Option.map_some, Option.some.injEq] at hb
    obtain ⟨h1, h2⟩ := h bs hrb
    unfold invalidateRange at hb
    rw [if_neg (by omega)] at hb
    subst hb
    have hcov : ∀ b ∈ bs, ∀ c, c = (if Int.ofNat (off - off % p.readCap) ≤ b.off ∧
        b.off < Int.ofNat (off + n) ∧ b.off % Int.ofNat p.readCap = 0
        then { b with data := [] } else b) →
        RBuf p disk c ∧ c.off = b.off ∧ ∀ i, c.Covers i → b.Covers i ∧ ¬ (off ≤ i ∧ i < off + n) := by
      intro b hb c hc
      have hr := h1.all b hb
      split at hc
      · subst hc
        refine ⟨⟨hr.cap, hr.clean, hr.off, hr.aligned, by simp, by intro i x hx; simp at hx⟩, rfl, ?_⟩
        intro i ⟨h3, h4⟩
        have h3 : b.off.toNat ≤ i := h3
        have h4 : i < b.off.toNat + 0 := h4
        exfalso
        omega
      · rename_i hno
        rw [hc]
        refine ⟨hr, rfl, fun i hi => ⟨hi, ?_⟩⟩
        intro ⟨h3, h4⟩
        apply hno
        have h0 := hr.off
        have hal := hr.aligned
        have hlen := hr.len
        have hi1 := hi.1
        have hi2 := hi.2
        have hoff : b.off = Int.ofNat b.off.toNat := by simp; omega
        refine ⟨?_, ?_, ?_⟩
        · rcases Nat.lt_or_ge b.off.toNat (off - off % p.readCap) with hlt | hge
          · have hal2 : (off - off % p.readCap) % p.readCap = 0 := by
              have := Nat.div_add_mod off p.readCap
              rw [show off - off % p.readCap = p.readCap * (off / p.readCap) by omega]
              exact Nat.mul_mod_right _ _
            have := aligned_le hal hal2 hlt
            have : off - off % p.readCap ≤ off := Nat.sub_le _ _
            omega
          · rw [hoff]; exact Int.ofNat_le.mpr hge
        · rw [hoff]; exact Int.ofNat_lt.mpr (by omega)
        · rw [hoff]
          show ((b.off.toNat : Int) % (p.readCap : Int)) = 0
          rw [← Int.natCast_emod, hal]
          rfl
    refine ⟨⟨?_, ?_⟩, ?_⟩
    · intro c hc
      obtain ⟨b, hb, he⟩ := List.mem_map.mp hc
      exact (hcov b hb c he.symm).1
    · have : (List.map (fun b => if Int.ofNat (off - off % p.readCap) ≤ b.off ∧
        b.off < Int.ofNat (off + n) ∧ b.off % Int.ofNat p.readCap = 0
        then { b with data := [] } else b) bs).map (·.off) = bs.map (·.off) := by
        rw [List.map_map]
        apply List.map_congr_left
        intro b hb
        exact (hcov b hb _ rfl).2.1
      rw [this]
      exact h1.nodup
    · intro c hc i hi
      obtain ⟨b, hb, he⟩ := List.mem_map.mp hc
      have := (hcov b hb c he.symm).2.2 i hi
      rintro (h3 | h3)
      · exact h2 b hb i this.1 h3
      · exact this.2 h3

/-- What holds of a handle, if the same operations would have led to the events `L` without a
buffer. -/
structure BInv (d : Bytes) (h : BFile) (L : List Event) : Prop where
  w : WInv d L h.pending h.raw
  r : RInv h.params h.rbufs h.raw.disk h.pending.Covers

/-- One operation through the buffer is one operation without it. -/
structure StepOk (d : Bytes) (L : List Event) (h : BFile) (op : FOp) (r : FRes) (h' : BFile)
    (L' : List Event) : Prop where
  direct : Direct d L op r L'
  inv : BInv d h' L'
  log : h.raw.log <:+ h'.raw.log
  crash : Between h.raw.log h'.raw.log (fun l => CrashLe d l L ∨ CrashLe d l L')
  faults : h'.raw.faults <:+ h.raw.faults
  params : h'.params = h.params
  sync : op = .sync → r = .done → h'.pending.data = []
  clean : h.pending.data = [] → (∀ off b, op ≠ .write off b) → h'.pending.data = []
  exact : h.raw.faults = [] → ∀ g : File, g.faults = [] → g.log = L → g.disk = replay d L →
    (rawOp op g).1 = r ∧ (rawOp op g).2.log = L' ∧ (rawOp op g).2.disk = replay d L' ∧
      (rawOp op g).2.faults = []

theorem Flushed.clean {d : Bytes} {L : List Event} {b : FileBuf} {f : File} {e : Option Err}
    {b' : FileBuf} {f' : File} (h : Flushed d L b f e b' f') (hb : b.data = []) : b'.data = [] := by
  cases hb' : b'.data with
  | nil => rfl
  | cons x xs =>
    have := h.range b'.off.toNat ⟨Nat.le_refl _, by rw [hb']; simp⟩
    have h1 := this.1
    have h2 := this.2
    rw [hb] at h2
    simp at h2
    omega

/-- Writing out what is pending changes neither the events of the direct use nor the cache. -/
theorem BInv.flush {d : Bytes} {L : List Event} {h : BFile} (hi : BInv d h L)
    {e : Option Err} {b' : FileBuf} {f' : File} (hf : Flushed d L h.pending h.raw e b' f') :
    BInv d { h with wbuf := some b', raw := f' } L :=
  ⟨hf.inv, (hi.r.change hf.keeps).mono hf.range⟩

/-- The common beginning of `pread` and `sync`. -/
def flushWrites (h : BFile) : Option Err × BFile :=
  match h.wbuf with
  | none => (none, h)
  | some b =>
    let (e, b, f) := flushBuffer b h.raw
    (e, { h with wbuf := some b, raw := f })

/-- What `flushWrites` does. -/
structure FlushedFile (d : Bytes) (L : List Event) (h : BFile) (e : Option Err) (h' : BFile) :
    Prop where
  inv : BInv d h' L
  empty : e = none → h'.pending.data = []
  error : e ≠ none → h.raw.faults ≠ []
  faults : h'.raw.faults <:+ h.raw.faults
  log : h.raw.log <:+ h'.raw.log
  crash : Between h.raw.log h'.raw.log (CrashLe d · L)
  clean : h.pending.data = [] → h'.pending.data = []
  params : h'.params = h.params

theorem flushWrites_spec {d : Bytes} {L : List Event} {h : BFile} (hi : BInv d h L) :
    FlushedFile d L h (flushWrites h).1 (flushWrites h).2 := by
  unfold flushWrites
  cases hw : h.wbuf with
  | none =>
    dsimp only
    refine ⟨hi, fun _ => ?_, fun hx => absurd rfl hx, List.suffix_refl _, List.suffix_refl _,
      Between.refl hi.w.crashLe, fun hx => hx, rfl⟩
    unfold BFile.pending; rw [hw]; rfl
  | some b =>
    have hp : h.pending = b := by unfold BFile.pending; rw [hw]; rfl
    have hf : Flushed d L h.pending h.raw _ _ _ := flushBuffer_spec hi.w
    have hb := hi.flush hf
    rw [← hp]
    dsimp only
    generalize hfl : flushBuffer h.pending h.raw = fl at *
    obtain ⟨e, b', f'⟩ := fl
    exact ⟨hb, hf.empty, hf.error, hf.faults, hf.log, hf.crash, hf.clean, rfl⟩

theorem bufPread_step {d : Bytes} {L : List Event} {h : BFile} (hi : BInv d h L)
    (hcap : 0 < h.params.readCap) (hmax : 0 < h.params.maxRead) (off n : Nat) :
    ∃ L', StepOk d L h (.read off n) (bufOp (.read off n) h).1 (bufOp (.read off n) h).2 L' := by
  have hf := flushWrites_spec hi
  have heq : bufPread off n h = match flushWrites h with
      | (some e, h) => .error e h
      | (none, h) => bufReadLoop (n + 1) (h.rbufs.getD []) n off []
          { h with rbufs := some (h.rbufs.getD []) } := by
    unfold bufPread flushWrites
    cases h.wbuf with
    | none => rfl
    | some b =>
      dsimp only
      rcases flushBuffer b h.raw with ⟨e, b', f'⟩
      cases e <;> rfl
  unfold bufOp
  dsimp only
  rw [heq]
  generalize flushWrites h = fl at hf
  obtain ⟨e, h1⟩ := fl
  dsimp only at hf
  refine ⟨L, ?_⟩
  cases e with
  | some e =>
    dsimp only
    exact ⟨.readFail _ _ _, hf.inv, hf.log, hf.crash.mono fun _ hx => .inl hx, hf.faults, hf.params,
      (fun hx => nomatch hx), fun hx _ => hf.clean hx,
      fun hff => absurd hff (hf.error (by simp))⟩
  | none =>
    dsimp only
    have hempty := hf.empty rfl
    have hp := hf.params
    have hbufs : RBufs h1.params h1.raw.disk (h1.rbufs.getD []) := by
      cases hr : h1.rbufs with
      | none => exact ⟨fun b hb => by simp at hb, by simp⟩
      | some bufs => exact (hf.inv.r bufs hr).1
    have hcontent : replay d L = h1.raw.disk := by
      rw [hf.inv.w.content, hempty, pwriteDisk_nil]
    have hR := bufReadLoop_spec (n + 1) (h1.rbufs.getD []) n off []
      { h1 with rbufs := some (h1.rbufs.getD []) } (by omega) (hp ▸ hcap) (hp ▸ hmax) hbufs
    have hinv : ∀ f' bufs', OnlyFaults h1.raw f' → RBufs h1.params h1.raw.disk bufs' →
        BInv d { h1 with raw := f', rbufs := some bufs' } L := by
      intro f' bufs' h2 h3
      refine ⟨hf.inv.w.faults h2.disk h2.log, ?_⟩
      intro bufs hb
      cases hb
      refine ⟨by show RBufs h1.params f'.disk _; rw [h2.disk]; exact h3, ?_⟩
      intro b _ i _ hc
      have h4 : i < h1.pending.off.toNat + h1.pending.data.length := hc.2
      have h5 : h1.pending.off.toNat ≤ i := hc.1
      rw [hempty] at h4
      simp at h4
      omega
    generalize bufReadLoop (n + 1) (h1.rbufs.getD []) n off []
      { h1 with rbufs := some (h1.rbufs.getD []) } = r at hR
    cases r with
    | ok bs h2 =>
      obtain ⟨f', bufs', m, h3, h4, h5, h6, h7, h8⟩ := hR.ok bs h2 rfl
      have h4 : OnlyFaults h1.raw f' := h4
      dsimp only
      subst h3
      refine ⟨?_, hinv f' bufs' h4 h5, ?_, ?_, h4.faults.trans hf.faults, hf.params,
        (fun hx => nomatch hx), fun _ _ => hempty, ?_⟩
      · rw [List.nil_append] at h7
        subst h7
        rcases Nat.lt_or_ge m n with hm | hm
        · show Direct d L _ (.data (slice h1.raw.disk off m)) L
          rw [← hcontent]
          exact .readShort off n m hm
        · have hm : m = n := by omega
          subst hm
          show Direct d L _ (.data (slice h1.raw.disk off m)) L
          rw [← hcontent]
          exact .read off m
      · show h.raw.log <:+ f'.log
        rw [h4.log]; exact hf.log
      · show Between h.raw.log f'.log _
        rw [h4.log]; exact hf.crash.mono fun _ hx => .inl hx
      · intro hff g hg1 hg2 hg3
        have h8 := h8 (show h1.raw.faults = [] from List.eq_nil_of_suffix_nil (hff ▸ hf.faults))
        have hp : pread off n g = .ok (slice g.disk off n) g := by
          obtain ⟨disk, pos, cfg, faults, log⟩ := g
          simp only at hg1
          subst hg1
          rfl
        unfold rawOp
        dsimp only
        rw [hp]
        refine ⟨?_, hg2, hg3, hg1⟩
        show FRes.data _ = _
        rw [h7, List.nil_append, h8, hg3, hcontent]
    | error e h2 =>
      obtain ⟨f', bufs', h3, h4, h5, h6⟩ := hR.error e h2 rfl
      have h4 : OnlyFaults h1.raw f' := h4
      have h6 : h1.raw.faults ≠ [] := h6
      dsimp only
      subst h3
      refine ⟨.readFail _ _ _, hinv f' bufs' h4 h5, ?_, ?_, h4.faults.trans hf.faults, hf.params,
        (fun hx => nomatch hx), fun _ _ => hempty, ?_⟩
      · show h.raw.log <:+ f'.log
        rw [h4.log]; exact hf.log
      · show Between h.raw.log f'.log _
        rw [h4.log]; exact hf.crash.mono fun _ hx => .inl hx
      · intro hff
        exact absurd (List.eq_nil_of_suffix_nil (hff ▸ hf.faults)) h6

theorem syncFile_cases (f : File) :
    (∃ g, syncFile f = .ok () g ∧ g.disk = f.disk ∧ g.log = .sync :: f.log ∧
      g.faults <:+ f.faults) ∨
    (∃ g e, syncFile f = .error e g ∧ OnlyFaults f g ∧ f.faults ≠ []) := by
  obtain ⟨disk, pos, cfg, faults, log⟩ := f
  cases faults with
  | nil => exact .inl ⟨_, rfl, rfl, rfl, List.suffix_refl _⟩
  | cons x xs =>
    cases x with
    | none => exact .inl ⟨_, rfl, rfl, rfl, List.suffix_cons _ _⟩
    | short k => exact .inl ⟨_, rfl, rfl, rfl, List.suffix_cons _ _⟩
    | err e => exact .inr ⟨_, _, rfl, ⟨rfl, rfl, List.suffix_cons _ _⟩, by simp⟩

theorem bufSync_step {d : Bytes} {L : List Event} {h : BFile} (hi : BInv d h L) :
    ∃ L', StepOk d L h .sync (bufOp .sync h).1 (bufOp .sync h).2 L' := by
  have hf := flushWrites_spec hi
  have heq : bufSync h = match flushWrites h with
      | (some e, h) => .error e h
      | (none, h) => match syncFile h.raw with
        | .error e f => .error e { h with raw := f }
        | .ok () f => .ok () { h with raw := f } := by
    unfold bufSync flushWrites
    cases h.wbuf with
    | none => rfl
    | some b =>
      dsimp only
      rcases flushBuffer b h.raw with ⟨e, b', f'⟩
      cases e <;> rfl
  unfold bufOp
  dsimp only
  rw [heq]
  generalize flushWrites h = fl at hf
  obtain ⟨e, h1⟩ := fl
  dsimp only at hf
  cases e with
  | some e =>
    dsimp only
    exact ⟨L, .syncFail _, hf.inv, hf.log, hf.crash.mono fun _ hx => .inl hx, hf.faults, hf.params,
      (fun _ hx => nomatch hx), fun hx _ => hf.clean hx,
      fun hff => absurd hff (hf.error (by simp))⟩
  | none =>
    dsimp only
    have hempty := hf.empty rfl
    have hcontent : replay d L = h1.raw.disk := by
      rw [hf.inv.w.content, hempty, pwriteDisk_nil]
    rcases syncFile_cases h1.raw with ⟨g, hs, h2, h3, h4⟩ | ⟨g, e, hs, h2, h3⟩
    · rw [hs]
      dsimp only
      have hw := hf.inv.w
      have hw' : WInv d (.sync :: L) h1.pending g := by
        refine ⟨by rw [h3, h2]; exact hw.raw, by rw [h2]; exact hw.content, ?_, ?_, ?_, hw.off, hw.cap⟩
        · rw [h3]
          intro i x hx
          show _ ∨ _
          have hx : (replay d h1.raw.log)[i]? = some x ∨ (replay d h1.raw.log).length ≤ i ∧ x = 0 := hx
          rw [hcontent, ← hw.raw]; exact hx
        · rw [hempty]; intro i x hx; simp at hx
        · rw [h3]
          show (replay d h1.raw.log).length = (replay d L).length
          rw [hw.raw, hcontent]
      refine ⟨.sync :: L, .sync, ⟨hw', ?_⟩, ?_, ?_, h4.trans hf.faults, hf.params, fun _ _ => hempty,
        fun _ _ => hempty, ?_⟩
      · show RInv h1.params h1.rbufs g.disk h1.pending.Covers
        rw [h2]; exact hf.inv.r
      · show _ <:+ g.log
        rw [h3]; exact hf.log.trans (List.suffix_cons _ _)
      · show Between _ g.log _
        have h5 : Between h1.raw.log g.log (fun l => CrashLe d l L ∨ CrashLe d l (.sync :: L)) := by
          have := hw'.crashLe
          rw [h3] at this ⊢
          exact Between.one (.inl hw.crashLe) (.inr this)
        refine Between.trans (hf.crash.mono fun _ hx => .inl hx) h5 ?_
        rw [h3]; exact List.suffix_cons _ _
      · intro hff g' hg1 hg2 hg3
        obtain ⟨disk, pos, cfg, faults, log⟩ := g'
        simp only at hg1 hg2 hg3
        subst hg1 hg2 hg3
        exact ⟨rfl, rfl, rfl, rfl⟩
    · rw [hs]
      dsimp only
      refine ⟨L, .syncFail _, ⟨hf.inv.w.faults h2.disk h2.log, ?_⟩, ?_, ?_, h2.faults.trans hf.faults,
        hf.params, (fun _ hx => nomatch hx), fun _ _ => hempty, ?_⟩
      · show RInv h1.params h1.rbufs g.disk h1.pending.Covers
        rw [h2.disk]; exact hf.inv.r
      · show _ <:+ g.log
        rw [h2.log]; exact hf.log
      · show Between _ g.log _
        rw [h2.log]; exact hf.crash.mono fun _ hx => .inl hx
      · intro hff
        exact absurd (List.eq_nil_of_suffix_nil (hff ▸ hf.faults)) h3

theorem bufFree_step {d : Bytes} {L : List Event} {h : BFile} (hi : BInv d h L)
    (hc : h.pending.data = []) :
    StepOk d L h .release (bufOp .release h).1 (bufOp .release h).2 L := by
  have hw := hi.w
  have hpn : (bufFree h).pending.data = [] := rfl
  refine ⟨.release, ⟨⟨hw.raw, ?_, hw.poss, ?_, hw.synced, ?_, ?_⟩, ?_⟩, List.suffix_refl _,
    Between.refl (.inl hw.crashLe), List.suffix_refl _, rfl, (fun hx => nomatch hx),
    fun _ _ => rfl, ?_⟩
  · show _ = pwriteDisk h.raw.disk _ (bufFree h).pending.data
    rw [hpn, pwriteDisk_nil, hw.content, hc, pwriteDisk_nil]
  · intro i x hx
    have hx : (bufFree h).pending.data[i]? = some x := hx
    rw [hpn] at hx; simp at hx
  · intro hx; exact absurd hpn hx
  · show (bufFree h).pending.data.length ≤ _
    rw [hpn]; exact Nat.zero_le _
  · intro bufs hb; cases hb
  · intro _ g hg1 hg2 hg3
    exact ⟨rfl, hg2, hg3, hg1⟩

theorem Poss.merge {d : Bytes} {L : List Event} {off : Nat} {x y : Bytes} {i : Nat} {v : UInt8}
    (h : Poss d (.write (off + x.length) y :: .write off x :: L) i v) :
    Poss d (.write off (x ++ y) :: L) i v := by
  rcases h with (h | ⟨h1, h2⟩) | ⟨h1, h2⟩
  · exact .inl h
  · have := (List.getElem?_eq_some_iff.mp h2).1
    exact .inr ⟨h1, by rw [List.getElem?_append_left this]; exact h2⟩
  · refine .inr ⟨by omega, ?_⟩
    rw [List.getElem?_append_right (by omega), ← h2]
    congr 1; omega

theorem WInv.merge {d : Bytes} {L : List Event} {off : Nat} {x y : Bytes} {b : FileBuf} {f : File}
    (h : WInv d (.write (off + x.length) y :: .write off x :: L) b f) :
    WInv d (.write off (x ++ y) :: L) b f := by
  refine ⟨h.raw, ?_, fun i v hv => (h.poss i v hv).merge, fun i v hv => (h.pend i v hv).merge,
    h.synced, h.off, h.cap⟩
  rw [← h.content]
  exact (pwriteDisk_append _ _ _ _).symm

/-- A write that goes to the raw file while the buffer is empty. -/
theorem WInv.through {d : Bytes} {L : List Event} {b : FileBuf} {f g : File} (h : WInv d L b f)
    (hb : b.data = []) {off : Nat} {y : Bytes} (h1 : g.disk = pwriteDisk f.disk off y)
    (h2 : g.log = .write off y :: f.log) : WInv d (.write off y :: L) b g := by
  refine ⟨?_, ?_, ?_, ?_, ?_, h.off, h.cap⟩
  · rw [h2, h1, ← h.raw]; rfl
  · show pwriteDisk (replay d L) off y = _
    rw [h.content, hb, pwriteDisk_nil, pwriteDisk_nil, h1]
  · rw [h2]
    rintro i x (hx | hx)
    · exact .inl (h.poss i x hx)
    · exact .inr hx
  · rw [hb]; intro i x hx; simp at hx
  · rw [h2]; exact h.synced

theorem CrashLe.extend (d : Bytes) (L : List Event) (off : Nat) (x y : Bytes) :
    CrashLe d (.write off x :: L) (.write off (x ++ y) :: L) := by
  intro img ⟨h1, h2, h3⟩
  refine ⟨h1, ?_, ?_⟩
  · refine Nat.le_trans h2 ?_
    show (pwriteDisk _ _ _).length ≤ (pwriteDisk _ _ _).length
    rw [← pwriteDisk_append]
    exact pwriteDisk_length_ge _ _ _
  · intro i v hv
    exact Poss.merge (.inl (h3 i v hv))

theorem CrashLe.trans {d : Bytes} {a b c : List Event} (h1 : CrashLe d a b) (h2 : CrashLe d b c) :
    CrashLe d a c := fun img hi => h2 img (h1 img hi)

theorem pwriteDisk_keeps {disk y : Bytes} {off i : Nat} {x : UInt8} (h : disk[i]? = some x)
    (hi : ¬ (off ≤ i ∧ i < off + y.length)) : (pwriteDisk disk off y)[i]? = some x := by
  by_cases hy : y = []
  · rw [hy, pwriteDisk_nil]; exact h
  · rw [getElem?_pwriteDisk _ _ _ _ hy]
    have := (List.getElem?_eq_some_iff.mp h).1
    by_cases h1 : i < off
    · rw [if_pos h1, if_pos this]; exact h
    · rw [if_neg h1, if_neg (by omega)]; exact h

theorem rawWrite_exact {d : Bytes} {L : List Event} (off : Nat) (b : Bytes) (g : File)
    (h1 : g.faults = []) (h2 : g.log = L) (h3 : g.disk = replay d L) :
    (rawOp (.write off b) g).1 = .wrote b.length ∧
    (rawOp (.write off b) g).2.log = .write off b :: L ∧
    (rawOp (.write off b) g).2.disk = replay d (.write off b :: L) ∧
    (rawOp (.write off b) g).2.faults = [] := by
  obtain ⟨disk, pos, cfg, faults, log⟩ := g
  simp only at h1 h2 h3
  subst h1 h2 h3
  exact ⟨rfl, rfl, rfl, rfl⟩

theorem bufPwrite_step {d : Bytes} {L : List Event} {h : BFile} (hi : BInv d h L)
    (hcap : 0 < h.params.readCap) (off : Nat) (b : Bytes) :
    ∃ L', StepOk d L h (.write off b) (bufOp (.write off b) h).1 (bufOp (.write off b) h).2 L' := by
  unfold bufOp
  dsimp only
  unfold bufPwrite
  by_cases hb : b = []
  · rw [if_pos hb]
    dsimp only
    subst hb
    have hw := hi.w.wrote0 off
    refine ⟨_, .write off [] 0 (by simp), ⟨hw, hi.r⟩, List.suffix_refl _,
      Between.refl (.inr hw.crashLe), List.suffix_refl _, rfl, (fun hx => nomatch hx),
      fun _ hx => absurd rfl (hx off []), ?_⟩
    intro _ g h1 h2 h3
    exact rawWrite_exact off [] g h1 h2 h3
  rw [if_neg hb]
  dsimp only
  have hbl : b.length ≠ 0 := fun hx => hb (List.length_eq_zero_iff.mp hx)
  have hR0 := hi.r.invalidate hcap off b.length hbl
  generalize h.rbufs.map (fun bufs => invalidateRange bufs off b.length h.params.readCap) = rb at hR0 ⊢
  have hB := writeToBuffer_spec hi.w b off
  change ∃ L', StepOk d L h _ _ _ L'
  rw [show h.wbuf.getD (FileBuf.new (if h.params.readOnly then 0 else h.params.writeCap)) = h.pending
    from rfl]
  generalize writeToBuffer h.pending b off = wb at hB ⊢
  obtain ⟨b1, k⟩ := wb
  dsimp only at hB ⊢
  -- the read buffers hold nothing that is pending or about to be written
  have hR1 : RInv h.params rb h.raw.disk (fun i => b1.Covers i ∨ off ≤ i ∧ i < off + b.length) := by
    refine hR0.mono ?_
    rintro i (hx | hx)
    · rcases hB.range i hx with h1 | h1
      · exact .inl h1
      · have := hB.le
        exact .inr ⟨h1.1, by omega⟩
    · exact .inr hx
  -- writing out the buffer, or not
  have hF : ∃ e b2 f2, (if b1.data.length = b1.cap ∨ k = 0 then flushBuffer b1 h.raw
      else (none, b1, h.raw)) = (e, b2, f2) ∧ WInv d (.write off (b.take k) :: L) b2 f2 ∧
      (e ≠ none → h.raw.faults ≠ []) ∧ f2.faults <:+ h.raw.faults ∧ h.raw.log <:+ f2.log ∧
      Between h.raw.log f2.log (CrashLe d · (.write off (b.take k) :: L)) ∧ b2.cap = b1.cap ∧
      (∀ i x, h.raw.disk[i]? = some x → ¬ b1.Covers i → f2.disk[i]? = some x) ∧
      (∀ i, b2.Covers i → b1.Covers i) ∧
      (e = none → b1.data.length = b1.cap ∨ k = 0 → b2.data = []) := by
    by_cases hc : b1.data.length = b1.cap ∨ k = 0
    · have := flushBuffer_spec hB.inv
      rw [if_pos hc]
      exact ⟨_, _, _, rfl, this.inv, this.error, this.faults, this.log, this.crash, this.cap,
        this.keeps, this.range, fun he _ => this.empty he⟩
    · rw [if_neg hc]
      exact ⟨none, b1, h.raw, rfl, hB.inv, fun hx => absurd rfl hx, List.suffix_refl _,
        List.suffix_refl _, Between.refl hB.inv.crashLe, rfl, fun _ _ hx _ => hx, fun _ hx => hx,
        fun _ hx => absurd hx hc⟩
  obtain ⟨e, b2, f2, hfe, hw2, herr, hfaults, hlog, hcrash, hcap2, hkeeps, hrange, hempty⟩ := hF
  rw [hfe]
  have hR2 : RInv h.params rb f2.disk (fun i => b1.Covers i ∨ off ≤ i ∧ i < off + b.length) :=
    hR1.change fun i x hx hn => hkeeps i x hx (fun hc => hn (.inl hc))
  cases e with
  | some e =>
    dsimp only
    refine ⟨_, .writeFail off b k e, ⟨hw2, hR2.mono fun i hx => .inl (hrange i hx)⟩, hlog,
      hcrash.mono fun _ hx => .inr hx, hfaults, rfl, (fun hx => nomatch hx),
      fun _ hx => absurd rfl (hx off b), fun hff => absurd hff (herr (by simp))⟩
  | none =>
    dsimp only
    have hle := hB.le
    by_cases hrest : b.drop k = []
    · rw [if_pos hrest]
      dsimp only
      have hk : k = b.length := by
        have := List.drop_eq_nil_iff.mp hrest
        omega
      refine ⟨_, .write off b k hle, ⟨hw2, hR2.mono fun i hx => .inl (hrange i hx)⟩, hlog,
        hcrash.mono fun _ hx => .inr hx, hfaults, rfl, (fun hx => nomatch hx),
        fun _ hx => absurd rfl (hx off b), ?_⟩
      intro _ g h1 h2 h3
      rw [hk, List.take_length]
      exact rawWrite_exact off b g h1 h2 h3
    · rw [if_neg hrest]
      have hklt : k < b.length := by
        rcases Nat.lt_or_ge k b.length with h1 | h1
        · exact h1
        · exact absurd (List.drop_eq_nil_of_le h1) hrest
      have hb2 : b2.data = [] := by
        apply hempty rfl
        rcases hB.full hklt with h1 | h1
        · exact .inr h1
        · exact .inl h1
      have htk : (b.take k).length = k := by rw [List.length_take]; omega
      have hdl : (b.drop k).length = b.length - k := List.length_drop
      by_cases hfit : (b.drop k).length ≤ b2.cap - b2.data.length
      · rw [if_pos hfit]
        have hB3 := writeToBuffer_spec hw2 (b.drop k) (off + k)
        generalize writeToBuffer b2 (b.drop k) (off + k) = wb3 at hB3 ⊢
        obtain ⟨b3, w⟩ := wb3
        dsimp only at hB3 ⊢
        have hw : w = (b.drop k).length := hB3.fits hb2 (by rw [hb2] at hfit; simpa using hfit)
        have hkw : k + w = b.length := by omega
        have hinv := hB3.inv
        rw [show off + k = off + (b.take k).length by rw [htk]] at hinv
        have hinv := hinv.merge
        rw [← List.take_add] at hinv
        refine ⟨_, .write off b (k + w) (by omega), ⟨hinv, ?_⟩, hlog, ?_, hfaults, rfl,
          (fun hx => nomatch hx), fun _ hx => absurd rfl (hx off b), ?_⟩
        · refine hR2.mono ?_
          intro i hx
          rcases hB3.range i hx with h1 | h1
          · exact .inl (hrange i h1)
          · exact .inr ⟨by omega, by omega⟩
        · refine hcrash.mono fun l hl => .inr (hl.trans ?_)
          rw [List.take_add]
          exact CrashLe.extend _ _ _ _ _
        · intro _ g h1 h2 h3
          rw [hkw, List.take_length]
          exact rawWrite_exact off b g h1 h2 h3
      · rw [if_neg hfit]
        rcases pwrite_cases (b.drop k) (off + k) f2 with
          ⟨g, w, hp, hw, h1, h2, h3, h4⟩ | ⟨g, e, hp, h1, h2, h3, h4⟩
        · rw [hp]
          dsimp only
          have hinv := hw2.through hb2 h1 h2
          rw [show off + k = off + (b.take k).length by rw [htk]] at hinv
          have hinv := hinv.merge
          rw [← List.take_add] at hinv
          refine ⟨_, .write off b (k + w) (by omega), ⟨hinv, ?_⟩, ?_, ?_, ?_, rfl,
            (fun hx => nomatch hx), fun _ hx => absurd rfl (hx off b), ?_⟩
          · show RInv h.params rb g.disk _
            rw [h1]
            refine RInv.mono (RInv.change hR2 ?_) fun i hx => .inl (hrange i hx)
            intro i x hx hn
            refine pwriteDisk_keeps hx ?_
            intro ⟨h5, h6⟩
            rw [List.length_take] at h6
            exact hn (.inr ⟨by omega, by omega⟩)
          · show _ <:+ g.log
            rw [h2]; exact hlog.trans (List.suffix_cons _ _)
          · show Between _ g.log _
            have hex : CrashLe d (.write off (b.take k) :: L) (.write off (b.take (k + w)) :: L) := by
              rw [List.take_add]
              exact CrashLe.extend _ _ _ _ _
            have hcr := hinv.crashLe
            refine Between.trans (hcrash.mono fun l hl => .inr (hl.trans hex)) ?_
              (by rw [h2]; exact List.suffix_cons _ _)
            rw [h2] at hcr ⊢
            exact Between.one (.inr (hw2.crashLe.trans hex)) (.inr hcr)
          · show g.faults <:+ _
            rw [h3]; exact (List.tail_suffix _).trans hfaults
          · intro hff g' hg1 hg2 hg3
            have := h4 (List.eq_nil_of_suffix_nil (hff ▸ hfaults))
            rw [show k + w = b.length by omega, List.take_length]
            exact rawWrite_exact off b g' hg1 hg2 hg3
        · rw [hp]
          dsimp only
          refine ⟨_, .writeFail off b k e, ⟨hw2.faults h1 h2, ?_⟩, ?_, ?_, ?_, rfl,
            (fun hx => nomatch hx), fun _ hx => absurd rfl (hx off b), ?_⟩
          · show RInv h.params rb g.disk _
            rw [h1]
            exact hR2.mono fun i hx => .inl (hrange i hx)
          · show _ <:+ g.log
            rw [h2]; exact hlog
          · show Between _ g.log _
            rw [h2]; exact hcrash.mono fun _ hx => .inr hx
          · show g.faults <:+ _
            rw [h3]; exact (List.tail_suffix _).trans hfaults
          · intro hff
            exact absurd (List.eq_nil_of_suffix_nil (hff ▸ hfaults)) h4

end Couchstore
