import Verif.Lemmas.IoBuffer

/-! Helper lemmas about the read buffers. -/

namespace Couchstore

theorem slice_add (l : Bytes) (off a m : Nat) :
    slice l off (a + m) = slice l off a ++ slice l (off + a) m := by
  unfold slice
  rw [List.take_add, List.drop_drop]

theorem getElem?_slice (l : Bytes) (off n i : Nat) :
    (slice l off n)[i]? = if i < n then l[off + i]? else none := by
  unfold slice
  rw [List.getElem?_take]
  split
  · rw [List.getElem?_drop]
  · rfl

/-- What is stored at `o` in `l` is `x`, so a slice of `x` is a slice of `l`. -/
theorem slice_of_holds {l x : Bytes} {o : Nat}
    (h : ∀ i y, x[i]? = some y → l[o + i]? = some y) (i n : Nat) :
    slice x i n = slice l (o + i) (slice x i n).length := by
  apply List.ext_getElem?
  intro j
  rw [getElem?_slice l]
  by_cases hj : j < (slice x i n).length
  · rw [if_pos hj]
    have h1 : (slice x i n)[j]? = some (slice x i n)[j] := List.getElem?_eq_getElem hj
    have h2 := h1
    rw [getElem?_slice] at h2
    split at h2
    · rw [h1, Nat.add_assoc]; exact (h _ _ h2).symm
    · cases h2
  · rw [if_neg hj]; exact List.getElem?_eq_none (by omega)

/-- A valid read buffer: it holds a part of the raw file, beginning at a multiple of its size. -/
structure RBuf (p : BufParams) (disk : Bytes) (b : FileBuf) : Prop where
  cap : b.cap = p.readCap
  clean : b.dirty = false
  off : 0 ≤ b.off
  aligned : b.off.toNat % p.readCap = 0
  len : b.data.length ≤ p.readCap
  holds : ∀ i x, b.data[i]? = some x → disk[b.off.toNat + i]? = some x

/-- All read buffers are valid, and no two are for the same block. -/
structure RBufs (p : BufParams) (disk : Bytes) (bufs : List FileBuf) : Prop where
  all : ∀ b ∈ bufs, RBuf p disk b
  nodup : (bufs.map (·.off)).Nodup

/-- What `findBuffer` gives: a buffer at a place of the list. -/
structure FoundBuf (p : BufParams) (disk : Bytes) (blk : Int) (pre : List FileBuf) (buf : FileBuf)
    (post : List FileBuf) : Prop where
  others : ∀ b ∈ pre ++ post, RBuf p disk b ∧ b.off ≠ blk ∧ b.off ≠ buf.off
  nodup : ((pre ++ post).map (·.off)).Nodup
  cap : buf.cap = p.readCap
  clean : buf.dirty = false
  buf : RBuf p disk buf ∨ buf.data = []

theorem nodup_mid {α : Type} {pre post : List α} {a : α} (h : (pre ++ post).Nodup)
    (ha : a ∉ pre ++ post) : (pre ++ a :: post).Nodup :=
  (List.perm_middle.nodup_iff).mpr (List.nodup_cons.mpr ⟨ha, h⟩)

theorem FoundBuf.put {p : BufParams} {disk : Bytes} {blk : Int} {pre post : List FileBuf}
    {buf b : FileBuf} (h : FoundBuf p disk blk pre buf post) (hb : RBuf p disk b)
    (ho : b.off = blk ∨ b.off = buf.off) : RBufs p disk (pre ++ b :: post) := by
  constructor
  · intro c hc
    rcases List.mem_append.mp hc with h1 | h1
    · exact (h.others c (List.mem_append.mpr (.inl h1))).1
    · rcases List.mem_cons.mp h1 with h2 | h2
      · exact h2 ▸ hb
      · exact (h.others c (List.mem_append.mpr (.inr h2))).1
  · rw [List.map_append, List.map_cons]
    apply nodup_mid
    · rw [← List.map_append]; exact h.nodup
    · rw [← List.map_append]
      intro hm
      obtain ⟨c, hc, he⟩ := List.mem_map.mp hm
      have := h.others c hc
      rcases ho with ho | ho
      · exact this.2.1 (he.trans ho)
      · exact this.2.2 (he.trans ho)

theorem getElem_cons_eraseIdx_perm {α : Type} : ∀ (l : List α) (i : Nat) (h : i < l.length),
    (l[i] :: l.eraseIdx i).Perm l
  | [], _, h => by simp at h
  | a :: l, 0, _ => List.Perm.refl _
  | a :: l, i + 1, h => by
    have hi : i < l.length := by simpa using h
    have ih := getElem_cons_eraseIdx_perm l i hi
    show (l[i] :: a :: l.eraseIdx i).Perm (a :: l)
    exact (List.Perm.swap a _ _).trans (ih.cons a)

theorem findBuffer_spec {p : BufParams} {disk : Bytes} {bufs : List FileBuf} (h : RBufs p disk bufs)
    (hmax : 0 < p.maxRead) (off : Nat) :
    ∃ pre buf post, findBuffer p bufs off = .ok (pre ++ buf :: post, pre.length) ∧
      FoundBuf p disk (off - off % p.readCap : Nat) pre buf post := by
  unfold findBuffer
  dsimp only
  generalize hblk : (((off - off % p.readCap : Nat)) : Int) = blk
  cases hf : bufs.findIdx? (fun b => b.off = blk) with
  | some i =>
    dsimp only
    obtain ⟨hi, hb, -⟩ := List.findIdx?_eq_some_iff_getElem.mp hf
    have hb : bufs[i].off = blk := by simpa using hb
    rw [List.getElem?_eq_getElem hi]
    dsimp only
    have hperm := getElem_cons_eraseIdx_perm bufs i hi
    have hn : ((bufs[i] :: bufs.eraseIdx i).map (·.off)).Nodup :=
      ((hperm.map _).nodup_iff).mpr h.nodup
    rw [List.map_cons, List.nodup_cons] at hn
    have hbi := h.all _ (List.getElem_mem hi)
    refine ⟨[], bufs[i], bufs.eraseIdx i, rfl, ?_, hn.2, hbi.cap, hbi.clean, .inl hbi⟩
    intro b hbm
    have hbm : b ∈ bufs.eraseIdx i := hbm
    have hne : b.off ≠ bufs[i].off := by
      intro he
      exact hn.1 (List.mem_map.mpr ⟨b, hbm, he⟩)
    exact ⟨h.all b (List.mem_of_mem_eraseIdx hbm), hb ▸ hne, hne⟩
  | none =>
    dsimp only
    have hno : ∀ b ∈ bufs, b.off ≠ blk := by
      intro b hb
      have := List.findIdx?_eq_none_iff.mp hf b hb
      simpa using this
    by_cases hl : bufs.length < p.maxRead
    · rw [if_pos hl]
      refine ⟨[], FileBuf.new p.readCap, bufs, rfl, ?_, h.nodup, rfl, rfl, .inr rfl⟩
      intro b hb
      have hb : b ∈ bufs := hb
      have := h.all b hb
      refine ⟨this, hno b hb, ?_⟩
      show b.off ≠ -1
      have := this.off
      omega
    · rw [if_neg hl]
      have hne : bufs ≠ [] := by intro hx; rw [hx] at hl; exact hl hmax
      rw [if_neg hne]
      have hdl := List.dropLast_concat_getLast hne
      have hbl := h.all _ (List.getLast_mem hne)
      have hn := h.nodup
      rw [← hdl, List.map_append, List.map_cons, List.map_nil] at hn
      have hn2 := (List.nodup_append.mp hn)
      refine ⟨bufs.dropLast, bufs.getLast hne, [], ?_, ?_, ?_, hbl.cap, hbl.clean, .inl hbl⟩
      · rw [hdl, List.length_dropLast]
      · intro b hb
        rw [List.append_nil] at hb
        have hbm : b ∈ bufs := (List.dropLast_sublist bufs).mem hb
        exact ⟨h.all b hbm, hno b hbm, fun he => hn2.2.2 _ (List.mem_map_of_mem hb) _ (by simp) he⟩
      · rw [List.append_nil]; exact hn2.1

theorem modify_mid {α : Type} (pre : List α) (a : α) (post : List α) (g : α → α) :
    (pre ++ a :: post).modify pre.length g = pre ++ g a :: post := by
  induction pre with
  | nil => rfl
  | cons x pre ih => simpa using ih

theorem set_mid {α : Type} (pre : List α) (a b : α) (post : List α) :
    (pre ++ a :: post).set pre.length b = pre ++ b :: post := by
  induction pre with
  | nil => rfl
  | cons x pre ih => simp

theorem get_mid {α : Type} (pre : List α) (a : α) (post : List α) :
    (pre ++ a :: post)[pre.length]? = some a := by
  rw [List.getElem?_append_right (Nat.le_refl _), Nat.sub_self]; rfl

theorem relocateBuffer_spec {p : BufParams} {disk : Bytes} {blk : Int} {pre post : List FileBuf}
    {buf : FileBuf} (h : FoundBuf p disk blk pre buf post) (new : Int) :
    relocateBuffer (pre ++ buf :: post) buf.off new =
      pre ++ { buf with off := new, data := [] } :: post := by
  unfold relocateBuffer
  have : (pre ++ buf :: post).findIdx? (fun b => b.off = buf.off) = some pre.length := by
    rw [List.findIdx?_append]
    have : pre.findIdx? (fun b => b.off = buf.off) = none := by
      rw [List.findIdx?_eq_none_iff]
      intro b hb
      simpa using (h.others b (List.mem_append.mpr (.inl hb))).2.2
    rw [this]
    simp [List.findIdx?_cons]
  rw [this]
  dsimp only
  rw [modify_mid]

/-- What `load_buffer_from` does. -/
structure LoadedBuf (b : FileBuf) (f : File) (e : Option Err) (b' : FileBuf) (f' : File) :
    Prop where
  only : OnlyFaults f f'
  off : b'.off = b.off
  cap : b'.cap = b.cap
  dirty : b'.dirty = b.dirty
  len : b'.data.length ≤ b.cap
  holds : ∀ i x, b'.data[i]? = some x → f.disk[b.off.toNat + i]? = some x
  error : e ≠ none → f.faults ≠ []
  full : f.faults = [] → ∀ i, i < b.cap → b'.data[i]? = f.disk[b.off.toNat + i]?

theorem loadLoop_spec : ∀ (fuel : Nat) (b : FileBuf) (f : File), 0 ≤ b.off →
    b.data.length < b.cap → b.cap - b.data.length < fuel →
    (∀ i x, b.data[i]? = some x → f.disk[b.off.toNat + i]? = some x) →
    LoadedBuf b f (loadLoop fuel b f).1 (loadLoop fuel b f).2.1 (loadLoop fuel b f).2.2
  | 0, b, f, _, _, hf, _ => by omega
  | fuel + 1, b, f, h0, hl, hf, hh => by
    unfold loadLoop
    have ho : (b.off + (b.data.length : Int)).toNat = b.off.toNat + b.data.length := by omega
    rw [ho]
    rcases pread_cases (b.off.toNat + b.data.length) (b.cap - b.data.length) f with
      ⟨g, k, hp, hk, h1, h2⟩ | ⟨g, e, hp, h1, h2⟩
    · rw [hp]
      dsimp only
      by_cases hb : slice f.disk (b.off.toNat + b.data.length) k = []
      · rw [if_pos hb]
        refine ⟨h1, rfl, rfl, rfl, Nat.le_of_lt hl, hh, fun hx => absurd rfl hx, ?_⟩
        intro hff i hi
        cases hx : b.data[i]? with
        | some x => rw [hh i x hx]
        | none =>
          rw [h2 hff] at hb
          have hil : b.data.length ≤ i := by
            exact List.getElem?_eq_none_iff.mp hx
          have : (slice f.disk (b.off.toNat + b.data.length) (b.cap - b.data.length))[i - b.data.length]?
              = none := by rw [hb]; rfl
          rw [getElem?_slice, if_pos (by omega)] at this
          rw [← this]
          congr 1; omega
      · rw [if_neg hb]
        have hsl : (slice f.disk (b.off.toNat + b.data.length) k).length ≤ k := by
          unfold slice; simp; omega
        have hsp : 0 < (slice f.disk (b.off.toNat + b.data.length) k).length :=
          List.length_pos_iff.mpr hb
        generalize hbs : slice f.disk (b.off.toNat + b.data.length) k = bs at *
        have hh' : ∀ i x, (b.data ++ bs)[i]? = some x → f.disk[b.off.toNat + i]? = some x := by
          intro i x hx
          by_cases hi : i < b.data.length
          · rw [List.getElem?_append_left hi] at hx; exact hh i x hx
          · rw [List.getElem?_append_right (by omega), ← hbs, getElem?_slice] at hx
            split at hx
            · rw [← hx]; congr 1; omega
            · cases hx
        by_cases hlt : (b.data ++ bs).length < b.cap
        · rw [if_pos hlt]
          have ih := loadLoop_spec fuel { b with data := b.data ++ bs } g h0 hlt
            (by show b.cap - (b.data ++ bs).length < fuel
                rw [List.length_append]; omega)
            (by rw [h1.disk]; exact hh')
          exact ⟨h1.trans ih.only, ih.off, ih.cap, ih.dirty, ih.len,
            fun i x hx => h1.disk ▸ ih.holds i x hx,
            fun hx hff => ih.error hx (List.eq_nil_of_suffix_nil (hff ▸ h1.faults)),
            fun hff i hi => by
              have := ih.full (List.eq_nil_of_suffix_nil (hff ▸ h1.faults)) i hi
              rw [h1.disk] at this; exact this⟩
        · rw [if_neg hlt]
          rw [List.length_append] at hlt
          refine ⟨h1, rfl, rfl, rfl, ?_, hh', fun hx => absurd rfl hx, ?_⟩
          · show (b.data ++ bs).length ≤ b.cap
            rw [List.length_append]; omega
          · intro _ i hi
            show (b.data ++ bs)[i]? = _
            have hi' : i < (b.data ++ bs).length := by rw [List.length_append]; omega
            rw [List.getElem?_eq_getElem hi', hh' i _ (List.getElem?_eq_getElem hi')]
    · rw [hp]
      dsimp only
      exact ⟨h1, rfl, rfl, rfl, Nat.le_of_lt hl, hh, fun _ => h2, fun hff => absurd hff h2⟩

theorem loadBufferFrom_spec (b : FileBuf) (off n : Nat) (f : File) (hc : b.dirty = false)
    (ho : b.off = off) (hd : b.data = []) (hcap : 0 < b.cap) :
    LoadedBuf b f (loadBufferFrom b off n f).1 (loadBufferFrom b off n f).2.1
      (loadBufferFrom b off n f).2.2 := by
  unfold loadBufferFrom
  rw [if_neg (by simp [hc])]
  dsimp only
  have : (if (off : Int) < b.off ∨ b.off + b.cap < ((off + n : Nat) : Int)
      then { b with off := off, data := [] } else b) = b := by
    split
    · cases b; simp only at ho hd; subst ho hd; rfl
    · rfl
  rw [this]
  exact loadLoop_spec _ b f (by omega) (by rw [hd]; exact hcap) (by rw [hd]; simp)
    (by rw [hd]; intro i x hx; simp at hx)

/-- What a valid buffer delivers is what the file holds. -/
theorem readFromBuffer_spec {disk : Bytes} {b : FileBuf} (h0 : 0 ≤ b.off)
    (h : ∀ i x, b.data[i]? = some x → disk[b.off.toNat + i]? = some x) (n off : Nat) :
    readFromBuffer b n off = slice disk off (readFromBuffer b n off).length := by
  unfold readFromBuffer
  split
  · simp [slice]
  · rename_i hr
    have := slice_of_holds h ((off : Int) - b.off).toNat n
    rwa [show b.off.toNat + ((off : Int) - b.off).toNat = off by omega] at this

theorem readFromBuffer_length (b : FileBuf) (n off : Nat) : (readFromBuffer b n off).length ≤ n := by
  unfold readFromBuffer
  split
  · simp
  · unfold slice; simp; omega

/-- What reading through the buffers does. -/
structure ReadDone (h : BFile) (n off : Nat) (acc : Bytes) (r : EStateM.Result Err BFile Bytes) :
    Prop where
  ok : ∀ bs h', r = .ok bs h' → ∃ f' bufs' m, h' = { h with raw := f', rbufs := some bufs' } ∧
    OnlyFaults h.raw f' ∧ RBufs h.params h.raw.disk bufs' ∧ m ≤ n ∧
    bs = acc ++ slice h.raw.disk off m ∧
    (h.raw.faults = [] → slice h.raw.disk off m = slice h.raw.disk off n)
  error : ∀ e h', r = .error e h' → ∃ f' bufs', h' = { h with raw := f', rbufs := some bufs' } ∧
    OnlyFaults h.raw f' ∧ RBufs h.params h.raw.disk bufs' ∧ h.raw.faults ≠ []

theorem ReadDone.more {h : BFile} {f : File} {n off : Nat} {acc got : Bytes}
    {r : EStateM.Result Err BFile Bytes} (hf : OnlyFaults h.raw f)
    (hg : got = slice h.raw.disk off got.length) (hn : got.length ≤ n)
    (hr : ReadDone { h with raw := f } (n - got.length) (off + got.length) (acc ++ got) r) :
    ReadDone h n off acc r := by
  constructor
  · intro bs h' he
    obtain ⟨f', bufs', m, h1, h2, h3, h4, h5, h6⟩ := hr.ok bs h' he
    refine ⟨f', bufs', got.length + m, h1, hf.trans h2, hf.disk ▸ h3, by omega, ?_, ?_⟩
    · rw [h5, slice_add, ← hg, List.append_assoc]
      show _ ++ (_ ++ slice f.disk _ _) = _
      rw [hf.disk]
    · intro hff
      have h6 : slice f.disk _ _ = slice f.disk _ _ :=
        h6 (List.eq_nil_of_suffix_nil (hff ▸ hf.faults))
      rw [hf.disk] at h6
      rw [slice_add, h6, ← slice_add]
      congr 1; omega
  · intro e h' he
    obtain ⟨f', bufs', h1, h2, h3, h4⟩ := hr.error e h' he
    exact ⟨f', bufs', h1, hf.trans h2, hf.disk ▸ h3,
      fun hff => h4 (List.eq_nil_of_suffix_nil (hff ▸ hf.faults))⟩

theorem bufReadLoop_spec : ∀ (fuel : Nat) (bufs : List FileBuf) (n off : Nat) (acc : Bytes)
    (h : BFile), n < fuel → 0 < h.params.readCap → 0 < h.params.maxRead →
    RBufs h.params h.raw.disk bufs → ReadDone h n off acc (bufReadLoop fuel bufs n off acc h)
  | 0, _, _, _, _, _, hn, _, _, _ => by omega
  | fuel + 1, bufs, n, off, acc, h, hn, hcap, hmax, hbufs => by
    unfold bufReadLoop
    by_cases h0 : n = 0
    · rw [if_pos h0]
      constructor
      · intro bs h' he
        cases he
        refine ⟨h.raw, bufs, 0, rfl, OnlyFaults.refl _, hbufs, Nat.zero_le _, ?_, ?_⟩
        · simp [slice]
        · intro _; rw [h0]
      · intro e h' he; cases he
    rw [if_neg h0, if_neg (by omega)]
    obtain ⟨pre, buf, post, hfind, hF⟩ := findBuffer_spec hbufs hmax off
    rw [hfind]
    dsimp only
    rw [get_mid]
    dsimp only
    have hgot : readFromBuffer buf n off ≠ [] → RBuf h.params h.raw.disk buf := by
      intro hg
      rcases hF.buf with hb | hb
      · exact hb
      · exfalso
        apply hg
        unfold readFromBuffer
        split
        · rfl
        · rw [hb]; simp [slice]
    by_cases hg : readFromBuffer buf n off = []
    · rw [if_neg (by simp [hg]), relocateBuffer_spec hF, get_mid]
      dsimp only
      have hmod : off % h.params.readCap < h.params.readCap := Nat.mod_lt _ hcap
      have hmle : off % h.params.readCap ≤ off := Nat.mod_le _ _
      generalize hst : off - off % h.params.readCap = start at *
      have hL := loadBufferFrom_spec { buf with off := start, data := [] } start (off + n - start)
        h.raw hF.clean rfl rfl (hF.cap ▸ hcap)
      generalize hld : loadBufferFrom { buf with off := start, data := [] } start (off + n - start)
        h.raw = ld at *
      obtain ⟨e, b2, f2⟩ := ld
      have hoff : b2.off = (start : Int) := hL.off
      have hotn : ((start : Nat) : Int).toNat = start := by omega
      have hb2 : RBuf h.params h.raw.disk b2 := by
        refine ⟨hL.cap.trans hF.cap, hL.dirty.trans hF.clean, by omega, ?_, ?_, ?_⟩
        · rw [hoff, hotn, ← hst]
          have := Nat.div_add_mod off h.params.readCap
          rw [show off - off % h.params.readCap = h.params.readCap * (off / h.params.readCap) by omega]
          exact Nat.mul_mod_right _ _
        · exact hF.cap ▸ hL.len
        · intro i x hx
          rw [hoff]
          exact hL.holds i x hx
      have hput : RBufs h.params h.raw.disk (pre ++ b2 :: post) := hF.put hb2 (.inl hoff)
      cases e with
      | some e =>
        dsimp only
        rw [set_mid]
        constructor
        · intro _ _ he; cases he
        · intro e' h' he
          cases he
          exact ⟨f2, _, rfl, hL.only, hput, hL.error (by simp)⟩
      | none =>
        dsimp only
        rw [set_mid]
        have hr2 := readFromBuffer_spec (by omega) hb2.holds n off
        by_cases hg2 : readFromBuffer b2 n off = []
        · rw [if_pos hg2]
          constructor
          · intro bs h' he
            cases he
            refine ⟨f2, _, 0, rfl, hL.only, hput, Nat.zero_le _, by simp [slice], ?_⟩
            intro hff
            have hfull := hL.full hff (off % h.params.readCap) (by rw [hF.cap]; exact hmod)
            have hoff2 : start + off % h.params.readCap = off := by omega
            have hfull : b2.data[off % h.params.readCap]? = h.raw.disk[start + off % h.params.readCap]? := hfull
            rw [hoff2] at hfull
            have hnone : h.raw.disk[off]? = none := by
              rw [← hfull]
              unfold readFromBuffer at hg2
              split at hg2
              · rename_i hr
                rw [hoff] at hr
                exact List.getElem?_eq_none (by omega)
              · rw [hoff] at hg2
                have : (slice b2.data ((off : Int) - (start : Int)).toNat n)[0]? = none := by
                  rw [hg2]; rfl
                rw [getElem?_slice, if_pos (by omega)] at this
                rw [← this]
                congr 1; omega
            have hle := List.getElem?_eq_none_iff.mp hnone
            unfold slice
            rw [List.drop_eq_nil_of_le hle, List.take_nil, List.take_nil]
          · intro _ _ he; cases he
        · rw [if_neg hg2]
          have hpos : 0 < (readFromBuffer b2 n off).length := List.length_pos_iff.mpr hg2
          have hle := readFromBuffer_length b2 n off
          have ih := bufReadLoop_spec fuel (pre ++ b2 :: post) (n - (readFromBuffer b2 n off).length)
            (off + (readFromBuffer b2 n off).length) (acc ++ readFromBuffer b2 n off)
            { h with raw := f2 } (by omega) hcap hmax (by
              show RBufs h.params f2.disk _
              rw [hL.only.disk]; exact hput)
          exact ReadDone.more hL.only hr2 hle ih
    · rw [if_pos hg]
      have hb := hgot hg
      have hpos : 0 < (readFromBuffer buf n off).length := List.length_pos_iff.mpr hg
      have hle := readFromBuffer_length buf n off
      have ih := bufReadLoop_spec fuel (pre ++ buf :: post) (n - (readFromBuffer buf n off).length)
        (off + (readFromBuffer buf n off).length) (acc ++ readFromBuffer buf n off) h (by omega) hcap
        hmax (hF.put hb (.inr rfl))
      exact ReadDone.more (f := h.raw) (OnlyFaults.refl _)
        (readFromBuffer_spec hb.off hb.holds n off) hle ih

end Couchstore
