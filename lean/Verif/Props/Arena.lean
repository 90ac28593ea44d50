import Verif.Lemmas.Arena

/-! C54, C55: memory from arenas. -/

namespace Couchstore.Props

/-- **C54.**  The blocks that a client has got from an arena and not given back are apart from each other and lie in the contents
of chunks that the arena has and `malloc` gave to it; the chunks are apart too. -/
theorem C54_blocks_apart (chunkSize : Nat) (c : Client) (h : ArenaRun chunkSize c) :
    (c.blocks.Pairwise fun x y => BytesApart x.1 x.2 y.1 y.2) ∧
    (∀ b ∈ c.blocks, ∃ k ∈ c.arena.chunks, k.addr + 16 ≤ b.1 ∧ b.1 + b.2 ≤ k.addr + 16 + k.size) ∧
    (c.arena.chunks.Pairwise fun x y => BytesApart x.addr (16 + x.size) y.addr (16 + y.size)) := by
  have hi := arenaRun_inv h
  refine ⟨hi.fits.apart, fun b hb => ?_, hi.chunksApart⟩
  obtain ⟨k, hk, h1, h2, _⟩ := hi.fits.inside b hb
  exact ⟨k, hk, h1, h2⟩

/-- **C54.**  No assertion fails: each step that is allowed is possible, and freeing from a mark keeps just the blocks that there were
when the mark was taken. -/
theorem C54_steps (chunkSize : Nat) (c : Client) (h : ArenaRun chunkSize c) (op : ArenaOp) (ha : op.Allowed c) :
    ∃ c', c.step op = some c' ∧ ArenaRun chunkSize c' := by
  obtain ⟨c', e, _⟩ := step_inv (arenaRun_inv h) op ha
  exact ⟨c', e, .step op h ha e⟩

/-- **C54.**  An allocation for which `malloc` has memory gives a block. -/
theorem C54_success (c : Client) (aligned : Bool) (size addr : Nat) (c' : Client) (hs : c.step (.alloc aligned size (some addr)) = some c') :
    ∃ p, p ≠ 0 ∧ c'.blocks = (p, size) :: c.blocks := by
  have hu : ∀ n, (allocUnaligned c.arena n (some addr)).1 ≠ 0 := by
    intro n
    unfold allocUnaligned
    split
    · rename_i h0
      simp only
      split
      · simp only [addChunk, AChunk.start]; omega
      · exact h0
    · simp only [addChunk, AChunk.start]; omega
  have hr : (if aligned = true then arenaAlloc c.arena size (some addr) else allocUnaligned c.arena size (some addr)).1 ≠ 0 := by
    split
    · unfold arenaAlloc
      split
      · exact hu _
      · show (allocUnaligned _ _ _).1 + _ ≠ 0
        have := hu (size + (4 - c.arena.next % 4))
        omega
    · exact hu _
  unfold Client.step at hs
  simp only [if_neg hr] at hs
  cases hs
  exact ⟨_, hr, rfl⟩

/-- **C55** (partial).  A block from `arena_alloc` begins at a multiple of 4 if it is in the current chunk or if no padding was needed.
Missing: a padded block in a new chunk (`C55_misaligned`), and what happens if there is no memory (`C55_failure_not_null`,
`C55_mark_after_failure`). -/
theorem C55_aligned_partial (a : Arena) (size : Nat) (m : Option Nat) (hm : ∀ addr, m = some addr → addr % 16 = 0)
    (h : a.next % 4 = 0 ∨ (a.next + size + (4 - a.next % 4) ≤ a.stop ∧ size + (4 - a.next % 4) ≤ a.chunkSize)) :
    (arenaAlloc a size m).1 % 4 = 0 := by
  unfold arenaAlloc
  split
  · rename_i h4
    unfold allocUnaligned
    have hc : ∀ a' : Arena, (addChunk a' size m).1 % 4 = 0 := by
      intro a'
      cases m with
      | none => rfl
      | some addr =>
        have := hm addr rfl
        simp only [addChunk, AChunk.start]; omega
    split
    · simp only
      split
      · exact hc _
      · exact h4
    · exact hc _
  · rename_i h4
    rcases h with h | ⟨h1, h2⟩
    · exact absurd h h4
    · show ((allocUnaligned a (size + (4 - a.next % 4)) m).1 + (4 - a.next % 4)) % 4 = 0
      unfold allocUnaligned
      rw [if_pos (by omega)]
      simp only
      rw [if_neg (by omega)]
      simp only; omega

/-! ### Non-vacuity and witnesses -/

instance (p n q m : Nat) : Decidable (BytesApart p n q m) := inferInstanceAs (Decidable (_ ∨ _))

instance (a : Arena) (n : Nat) (m : Option Nat) : Decidable (MallocOk a n m) :=
  match m with
  | none => isTrue (fun _ h => nomatch h)
  | some addr =>
    if h : addr ≠ 0 ∧ addr % 16 = 0 ∧ ∀ c ∈ a.chunks, BytesApart addr (16 + n) c.addr (16 + c.size) then
      isTrue (fun x hx => by cases hx; exact h)
    else isFalse (fun hx => h (hx addr rfl))

instance (c : Client) (op : ArenaOp) : Decidable (op.Allowed c) := by
  cases op <;> simp only [ArenaOp.Allowed] <;> infer_instance

/-- Steps one after the other, if they are allowed. -/
def arenaSteps : Client → List ArenaOp → Option Client
  | c, [] => some c
  | c, op :: ops =>
    if op.Allowed c then
      match c.step op with
      | none => none
      | some c' => arenaSteps c' ops
    else none

theorem arenaSteps_run {n : Nat} : ∀ (ops : List ArenaOp) {c c' : Client}, ArenaRun n c → arenaSteps c ops = some c' → ArenaRun n c'
  | [], c, c', h, e => by cases e; exact h
  | op :: ops, c, c', h, e => by
    unfold arenaSteps at e
    split at e
    · rename_i ha
      cases hs : c.step op with
      | none => rw [hs] at e; cases e
      | some c1 => rw [hs] at e; exact arenaSteps_run ops (.step op h ha hs) e
    · cases e

def sampleArenaOps : List ArenaOp :=
  [.alloc true 10 (some 0x10000), .mark, .alloc true 5 (some 0x18000), .alloc false 9000 (some 0x20000), .alloc true 4000 (some 0x40000),
    .mark, .free 1, .alloc true 3 (some 0x18000)]

def sampleClient : Client :=
  { arena := ⟨0x1001f, 0x12000, [⟨0x10000, 8176⟩], 8176⟩, blocks := [(0x1001c, 3), (0x10010, 10)], marks := [(0x1001a, 1)] }

theorem sample_client_run : ArenaRun 4096 sampleClient := arenaSteps_run sampleArenaOps .new (by decide +kernel)

example := C54_blocks_apart 4096 sampleClient sample_client_run
example : arenaSteps ⟨newArena 4096, [], []⟩ (sampleArenaOps.take 5) = some
    { arena := ⟨0x40010 + 4000, 0x42000, [⟨0x40000, 8176⟩, ⟨0x20000, 9000⟩, ⟨0x10000, 8176⟩], 8176⟩,
      blocks := [(0x40010, 4000), (0x20010, 9000), (0x1001c, 5), (0x10010, 10)], marks := [(0x1001a, 1)] } := by decide +kernel
example := C54_steps 4096 sampleClient sample_client_run (.free 0) (by decide)
example := C54_success sampleClient true 9000 0x20000 _ rfl
example := C55_aligned_partial sampleClient.arena 100 none (by simp) (Or.inr (by decide))

/-- **C55** (negative).  A client that only uses `arena_alloc` can get a block that is not at a multiple of 4: the padding for the
old chunk is also left at the beginning of a new one. -/
theorem C55_misaligned :
    ∃ c, ArenaRun 4096 c ∧ (ArenaOp.alloc true 8000 (some 0x20000)).Allowed c ∧ (arenaAlloc c.arena 8000 (some 0x20000)).1 % 4 ≠ 0 :=
  ⟨⟨⟨0x10010 + 8001, 0x12000, [⟨0x10000, 8176⟩], 8176⟩, [(0x10010, 8001)], []⟩,
    arenaSteps_run [.alloc true 8001 (some 0x10000)] .new (by decide +kernel), by decide, by decide⟩

/-- **C55** (negative).  If `malloc` has no memory for a padded allocation, `arena_alloc` returns a pointer that is not null and not
in any chunk. -/
theorem C55_failure_not_null :
    ∃ c, ArenaRun 4096 c ∧ (arenaAlloc c.arena 8000 none).1 = 3 :=
  ⟨⟨⟨0x10010 + 8001, 0x12000, [⟨0x10000, 8176⟩], 8176⟩, [(0x10010, 8001)], []⟩,
    arenaSteps_run [.alloc true 8001 (some 0x10000)] .new (by decide +kernel), by decide⟩

/-- **C55** (negative).  A mark that is taken after an allocation failed cannot be used: all chunks are freed and the assertion fails. -/
theorem C55_mark_after_failure :
    ∃ c c', ArenaRun 4096 c ∧ (ArenaOp.alloc true 9000 none).Allowed c ∧ c.step (.alloc true 9000 none) = some c' ∧
      (freeFromMark c'.arena (arenaMark c'.arena)) = none :=
  ⟨⟨⟨0x10010 + 8000, 0x12000, [⟨0x10000, 8176⟩], 8176⟩, [(0x10010, 8000)], []⟩, _,
    arenaSteps_run [.alloc true 8000 (some 0x10000)] .new (by decide +kernel), by decide, rfl, by decide⟩

end Couchstore.Props
