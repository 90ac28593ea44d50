import Verif.Spec.Arena

/-! Arenas. -/

namespace Couchstore

/-- The blocks are apart and in the chunks, those of the current chunk before `next`. -/
structure Fits (next : Nat) (cs : List AChunk) (bs : List (Nat × Nat)) : Prop where
  apart : bs.Pairwise fun x y => BytesApart x.1 x.2 y.1 y.2
  inside : ∀ b ∈ bs, ∃ c ∈ cs, c.start ≤ b.1 ∧ b.1 + b.2 ≤ c.stop ∧ (∀ c0, cs.head? = some c0 → c = c0 → b.1 + b.2 ≤ next)

/-- A mark that can be used: it is null and there are no chunks, or in the current one. -/
def GoodMark (v : Nat) (cs : List AChunk) (bs : List (Nat × Nat)) : Prop :=
  (v = 0 ∧ cs = [] ∧ bs = []) ∨ ∃ c t, cs = c :: t ∧ c.start ≤ v ∧ v ≤ c.stop ∧ Fits v cs bs

/-- Marks, each good for older chunks and blocks than the ones before it. -/
def MarksOk : List AChunk → List (Nat × Nat) → List (Nat × Nat) → Prop
  | _, _, [] => True
  | cs, bs, (v, k) :: ms => ∃ cs' bs', cs' <:+ cs ∧ bs' <:+ bs ∧ bs'.length = k ∧ GoodMark v cs' bs' ∧ MarksOk cs' bs' ms

theorem MarksOk.mono {cs cs' : List AChunk} {bs bs' ms : List (Nat × Nat)} (h : MarksOk cs bs ms) (hc : cs <:+ cs') (hb : bs <:+ bs') :
    MarksOk cs' bs' ms := by
  cases ms with
  | nil => trivial
  | cons m ms =>
    obtain ⟨a, b, h1, h2, h3⟩ := h
    exact ⟨a, b, h1.trans hc, h2.trans hb, h3⟩

theorem MarksOk.drop {cs : List AChunk} {bs : List (Nat × Nat)} : ∀ {ms : List (Nat × Nat)} (i : Nat), MarksOk cs bs ms → MarksOk cs bs (ms.drop i)
  | ms, 0, h => by simpa using h
  | [], i + 1, _ => by simp [MarksOk]
  | (v, k) :: ms, i + 1, h => by
    obtain ⟨a, b, h1, h2, _, _, h3⟩ := h
    rw [List.drop_succ_cons]
    exact (h3.mono h1 h2).drop i

/-- Everything that holds of a client. -/
structure ArenaInv (c : Client) : Prop where
  chunksApart : c.arena.chunks.Pairwise fun x y => BytesApart x.addr (16 + x.size) y.addr (16 + y.size)
  pos : ∀ x ∈ c.arena.chunks, x.addr ≠ 0
  here : (c.arena.next = 0 ∧ c.arena.stop = 0 ∧ c.arena.chunks = []) ∨
    ∃ x t, c.arena.chunks = x :: t ∧ c.arena.stop = x.stop ∧ x.start ≤ c.arena.next
  fits : Fits c.arena.next c.arena.chunks c.blocks
  marks : MarksOk c.arena.chunks c.blocks c.marks

theorem apart_start {x y : AChunk} (h : BytesApart x.addr (16 + x.size) y.addr (16 + y.size)) {v : Nat} (h1 : y.start ≤ v) (h2 : v ≤ y.stop) :
    v < x.start ∨ v > x.stop := by
  simp only [BytesApart, AChunk.start, AChunk.stop] at *
  omega

/-- Freeing stops at the chunk of the mark. -/
theorem freeChunks_suffix {y : AChunk} {t : List AChunk} {v : Nat} (h1 : y.start ≤ v) (h2 : v ≤ y.stop) :
    ∀ {cs : List AChunk}, cs.Pairwise (fun x y => BytesApart x.addr (16 + x.size) y.addr (16 + y.size)) → (y :: t) <:+ cs →
    freeChunks v cs = y :: t
  | [], _, h => absurd (List.suffix_nil.1 h) (by simp)
  | x :: cs, hp, h => by
    rw [List.suffix_cons_iff] at h
    rw [List.pairwise_cons] at hp
    rcases h with h | h
    · obtain ⟨rfl, rfl⟩ := List.cons.inj h
      unfold freeChunks
      rw [if_neg (by omega)]
    · unfold freeChunks
      rw [if_pos (apart_start (hp.1 y (h.subset (by simp))) h1 h2)]
      exact freeChunks_suffix h1 h2 hp.2 h

theorem freeChunks_zero : ∀ cs : List AChunk, freeChunks 0 cs = []
  | [] => rfl
  | c :: cs => by
    unfold freeChunks
    rw [if_pos (by simp only [AChunk.start]; omega)]
    exact freeChunks_zero cs

/-- A block in a new chunk. -/
theorem addChunk_inv {c : Client} (h : ArenaInv c) (n : Nat) (size p : Nat) (hn : size + p = n) (addr : Nat)
    (hm : MallocOk c.arena (max n c.arena.chunkSize) (some addr)) (next' : Nat) :
    ArenaInv { c with arena := (addChunk { c.arena with next := next' } n (some addr)).2,
                      blocks := ((addChunk { c.arena with next := next' } n (some addr)).1 + p, size) :: c.blocks } := by
  obtain ⟨hm1, hm2, hm3⟩ := hm addr rfl
  have hsz : (if n > c.arena.chunkSize then n else c.arena.chunkSize) = max n c.arena.chunkSize := by
    split <;> omega
  simp only [addChunk, hsz]
  have hge : n ≤ max n c.arena.chunkSize := by omega
  generalize hM : max n c.arena.chunkSize = M at *
  refine ⟨?_, ?_, ?_, ⟨?_, ?_⟩, ?_⟩
  · rw [List.pairwise_cons]
    exact ⟨fun y hy => hm3 y hy, h.chunksApart⟩
  · intro x hx
    simp only [List.mem_cons] at hx
    rcases hx with rfl | hx
    · exact hm1
    · exact h.pos x hx
  · exact Or.inr ⟨_, _, rfl, rfl, by simp only [AChunk.start]; omega⟩
  · rw [List.pairwise_cons]
    refine ⟨fun b hb => ?_, h.fits.apart⟩
    obtain ⟨x, hx, h1, h2, _⟩ := h.fits.inside b hb
    have := hm3 x hx
    simp only [BytesApart, AChunk.start, AChunk.stop] at *
    omega
  · intro b hb
    simp only [List.mem_cons] at hb
    rcases hb with rfl | hb
    · refine ⟨_, List.mem_cons_self .., ?_, ?_, ?_⟩
      · simp only [AChunk.start]; omega
      · simp only [AChunk.start, AChunk.stop]; omega
      · intro _ _ _; simp only [AChunk.start]; omega
    · obtain ⟨x, hx, h1, h2, _⟩ := h.fits.inside b hb
      refine ⟨x, List.mem_cons_of_mem _ hx, h1, h2, ?_⟩
      intro c0 hc0 hxc
      simp only [List.head?_cons, Option.some.injEq] at hc0
      subst hxc
      subst hc0
      have := hm3 _ hx
      simp only [BytesApart] at this
      omega
  · exact h.marks.mono (List.suffix_cons ..) (List.suffix_cons ..)

/-- A block in the current chunk. -/
theorem bump_inv {c : Client} (h : ArenaInv c) (n size p : Nat) (hn : size + p = n) (h0 : c.arena.next ≠ 0)
    (hle : c.arena.next + n ≤ c.arena.stop) :
    ArenaInv { c with arena := { c.arena with next := c.arena.next + n }, blocks := (c.arena.next + p, size) :: c.blocks } := by
  rcases h.here with ⟨h1, _⟩ | ⟨x, t, h1, h2, h3⟩
  · exact absurd h1 h0
  refine ⟨h.chunksApart, h.pos, Or.inr ⟨x, t, h1, h2, ?_⟩, ⟨?_, ?_⟩, ?_⟩
  · simp only; omega
  · rw [List.pairwise_cons]
    refine ⟨fun b hb => ?_, h.fits.apart⟩
    obtain ⟨y, hy, k1, k2, k3⟩ := h.fits.inside b hb
    by_cases hyx : y = x
    · have := k3 x (by rw [h1]; rfl) hyx
      simp only [BytesApart]; omega
    · have hp := h.chunksApart
      rw [h1, List.pairwise_cons] at hp
      rw [h1] at hy
      simp only [List.mem_cons] at hy
      rcases hy with hy | hy
      · exact absurd hy hyx
      have := hp.1 y hy
      simp only [BytesApart, AChunk.start, AChunk.stop] at *
      omega
  · intro b hb
    simp only [List.mem_cons] at hb
    rcases hb with rfl | hb
    · refine ⟨x, by rw [h1]; simp, ?_, ?_, ?_⟩
      · simp only; omega
      · simp only; omega
      · intro _ _ _; simp only; omega
    · obtain ⟨y, hy, k1, k2, k3⟩ := h.fits.inside b hb
      refine ⟨y, hy, k1, k2, fun c0 hc0 e => ?_⟩
      have := k3 c0 hc0 e
      simp only; omega
  · exact h.marks.mono (List.suffix_refl _) (List.suffix_cons ..)

/-- A failed allocation. -/
theorem fail_inv {c : Client} (h : ArenaInv c) (n : Nat) (hz : c.arena.next = 0 → n = 0) :
    ArenaInv { c with arena := { c.arena with next := c.arena.next + n } } := by
  refine ⟨h.chunksApart, h.pos, ?_, ⟨h.fits.apart, ?_⟩, h.marks⟩
  · rcases h.here with ⟨h1, h2, h3⟩ | ⟨x, t, h1, h2, h3⟩
    · exact Or.inl ⟨by simp only; rw [hz h1, h1], h2, h3⟩
    · exact Or.inr ⟨x, t, h1, h2, by simp only; omega⟩
  · intro b hb
    obtain ⟨y, hy, k1, k2, k3⟩ := h.fits.inside b hb
    refine ⟨y, hy, k1, k2, fun c0 hc0 e => ?_⟩
    have := k3 c0 hc0 e
    simp only; omega

/-- An allocation of `n` bytes, of which the last `size` are the block. -/
theorem allocUnaligned_inv {c : Client} (h : ArenaInv c) (n size p : Nat) (hn : size + p = n) (m : Option Nat)
    (hm : MallocOk c.arena (max n c.arena.chunkSize) m) (hp : p ≠ 0 → m ≠ none) :
    ((allocUnaligned c.arena n m).1 ≠ 0 →
      ArenaInv { c with arena := (allocUnaligned c.arena n m).2, blocks := ((allocUnaligned c.arena n m).1 + p, size) :: c.blocks }) ∧
    ((allocUnaligned c.arena n m).1 = 0 → m = none ∧ ArenaInv { c with arena := (allocUnaligned c.arena n m).2 }) := by
  unfold allocUnaligned
  have key : ∀ next', (c.arena.next = 0 → next' = 0) → (c.arena.next ≤ next') →
      ((addChunk { c.arena with next := next' } n m).1 ≠ 0 →
        ArenaInv { c with arena := (addChunk { c.arena with next := next' } n m).2,
                          blocks := ((addChunk { c.arena with next := next' } n m).1 + p, size) :: c.blocks }) ∧
      ((addChunk { c.arena with next := next' } n m).1 = 0 → m = none ∧ ArenaInv { c with arena := (addChunk { c.arena with next := next' } n m).2 }) := by
    intro next' hz hle
    cases m with
    | none =>
      refine ⟨fun h => absurd rfl h, fun _ => ⟨rfl, ?_⟩⟩
      have := fail_inv h (next' - c.arena.next) (by omega)
      rw [show c.arena.next + (next' - c.arena.next) = next' by omega] at this
      exact this
    | some addr =>
      refine ⟨fun _ => addChunk_inv h n size p hn addr hm next', fun h0 => ?_⟩
      simp only [addChunk, AChunk.start] at h0
      omega
  by_cases h0 : c.arena.next ≠ 0
  · rw [if_pos h0]
    simp only
    by_cases hc : c.arena.next + n > c.arena.stop ∨ n > c.arena.chunkSize
    · rw [if_pos hc]
      exact key _ (by omega) (by omega)
    · rw [if_neg hc]
      exact ⟨fun _ => bump_inv h n size p hn h0 (by omega), fun hz => absurd hz h0⟩
  · rw [if_neg h0]
    exact key c.arena.next (fun h => h) (Nat.le_refl _)

theorem arenaInv_new (n : Nat) : ArenaInv ⟨newArena n, [], []⟩ :=
  ⟨.nil, by simp [newArena], Or.inl ⟨rfl, rfl, rfl⟩, ⟨.nil, by simp⟩, trivial⟩

/-- Freeing from a mark. -/
theorem free_inv {c : Client} (h : ArenaInv c) {v k : Nat} {ms : List (Nat × Nat)} (hm : MarksOk c.arena.chunks c.blocks ((v, k) :: ms)) :
    ∃ a, freeFromMark c.arena v = some a ∧
      ArenaInv { arena := a, blocks := c.blocks.drop (c.blocks.length - k), marks := (v, k) :: ms } := by
  obtain ⟨cs', bs', h1, h2, h3, h4, h5⟩ := hm
  have hb : c.blocks.drop (c.blocks.length - k) = bs' := by
    obtain ⟨t, ht⟩ := h2
    rw [← ht, List.length_append, h3]
    exact List.drop_left' (by omega)
  rw [hb]
  have hmk : MarksOk cs' bs' ((v, k) :: ms) := ⟨cs', bs', List.suffix_refl _, List.suffix_refl _, h3, h4, h5⟩
  rcases h4 with ⟨rfl, rfl, rfl⟩ | ⟨x, t, rfl, hv1, hv2, hf⟩
  · refine ⟨⟨0, 0, [], c.arena.chunkSize⟩, ?_, ?_⟩
    · unfold freeFromMark
      rw [freeChunks_zero, if_neg (by simp)]
    · exact ⟨.nil, by simp, Or.inl ⟨rfl, rfl, rfl⟩, ⟨.nil, by simp⟩, hmk⟩
  · refine ⟨⟨v, x.stop, x :: t, c.arena.chunkSize⟩, ?_, ?_⟩
    · unfold freeFromMark
      rw [freeChunks_suffix hv1 hv2 h.chunksApart h1, if_neg (by simp)]
    · exact ⟨h.chunksApart.sublist h1.sublist, fun y hy => h.pos y (h1.subset hy), Or.inr ⟨x, t, rfl, rfl, hv1⟩, hf, hmk⟩

theorem step_inv {c : Client} (h : ArenaInv c) (op : ArenaOp) (ha : op.Allowed c) : ∃ c', c.step op = some c' ∧ ArenaInv c' := by
  cases op with
  | alloc aligned size m =>
    obtain ⟨ha1, ha2⟩ := ha
    have key : ∀ (R : Nat × Arena), R.1 ≠ 0 → ArenaInv { c with arena := R.2, blocks := (R.1, size) :: c.blocks } →
        ∃ c', (some (if R.1 = 0 then { c with arena := R.2 } else { c with arena := R.2, blocks := (R.1, size) :: c.blocks }) : Option Client) =
          some c' ∧ ArenaInv c' := by
      intro R h0 hi
      rw [if_neg h0]
      exact ⟨_, rfl, hi⟩
    unfold Client.step
    by_cases hp : aligned = true ∧ c.arena.next % 4 ≠ 0
    · have hpad : padded c.arena aligned size = size + (4 - c.arena.next % 4) := by
        unfold padded; rw [if_pos hp]
      rw [hpad] at ha1 ha2
      have hmn : m ≠ none := ha2 (by omega)
      obtain ⟨k1, k2⟩ := allocUnaligned_inv h _ size (4 - c.arena.next % 4) rfl m ha1 (fun _ => hmn)
      simp only [hp.1, if_true]
      refine key _ ?_ ?_
      · unfold arenaAlloc
        rw [if_neg hp.2]
        show (allocUnaligned c.arena (size + (4 - c.arena.next % 4)) m).1 + (4 - c.arena.next % 4) ≠ 0
        omega
      · unfold arenaAlloc
        rw [if_neg hp.2]
        exact k1 fun h0 => hmn (k2 h0).1
    · have hpad : padded c.arena aligned size = size := by
        unfold padded; rw [if_neg hp]
      rw [hpad] at ha1
      have he : (if aligned = true then arenaAlloc c.arena size m else allocUnaligned c.arena size m) = allocUnaligned c.arena size m := by
        split
        · rename_i hal
          unfold arenaAlloc
          rw [if_pos (Decidable.not_not.1 fun h => hp ⟨hal, h⟩)]
        · rfl
      simp only [he]
      obtain ⟨k1, k2⟩ := allocUnaligned_inv h size size 0 (by omega) m ha1 (fun h => absurd rfl h)
      by_cases h0 : (allocUnaligned c.arena size m).1 = 0
      · rw [if_pos h0]
        exact ⟨_, rfl, (k2 h0).2⟩
      · exact key _ h0 (k1 h0)
  | mark =>
    refine ⟨_, rfl, h.chunksApart, h.pos, h.here, h.fits, ?_⟩
    refine ⟨_, _, List.suffix_refl _, List.suffix_refl _, rfl, ?_, h.marks⟩
    rcases h.here with ⟨h1, h2, h3⟩ | ⟨x, t, h1, h2, h3⟩
    · refine Or.inl ⟨h1, h3, ?_⟩
      cases hb : c.blocks with
      | nil => rfl
      | cons b bs =>
        obtain ⟨y, hy, _⟩ := h.fits.inside b (by rw [hb]; simp)
        rw [h3] at hy; cases hy
    · exact Or.inr ⟨x, t, h1, h3, by have : c.arena.next ≤ c.arena.stop := ha; unfold arenaMark; omega, h.fits⟩
  | free i =>
    have hi : i < c.marks.length := ha
    have hm := h.marks.drop i
    unfold Client.step
    cases hd : c.marks.drop i with
    | nil =>
      have := congrArg List.length hd
      simp at this; omega
    | cons m ms =>
      obtain ⟨v, k⟩ := m
      rw [hd] at hm
      obtain ⟨a, e, hinv⟩ := free_inv h hm
      refine ⟨_, ?_, hinv⟩
      simp only [hd, e, Option.map_some]
  | freeAll =>
    refine ⟨⟨⟨0, 0, [], c.arena.chunkSize⟩, [], []⟩, ?_, .nil, by simp, Or.inl ⟨rfl, rfl, rfl⟩, ⟨.nil, by simp⟩, trivial⟩
    simp only [Client.step, freeAll, freeFromMark]
    rw [freeChunks_zero, if_neg (by simp)]
    rfl

theorem arenaRun_inv {n : Nat} {c : Client} (h : ArenaRun n c) : ArenaInv c := by
  induction h with
  | new => exact arenaInv_new n
  | step op _ ha hs ih =>
    obtain ⟨c', e, hi⟩ := step_inv ih op ha
    rw [hs] at e
    cases e
    exact hi

end Couchstore
