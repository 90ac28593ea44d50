import Verif.Lemmas.Chunk

/-! Helper lemmas: raw writes log writes only. -/

namespace Couchstore

/-- Only raw writes happened between `f` and `g`. -/
def OnlyWrites (f g : File) : Prop :=
  ∃ evs, g.log = evs ++ f.log ∧ ∀ e ∈ evs, ∃ off b, e = .write off b

theorem OnlyWrites.refl (f : File) : OnlyWrites f f := ⟨[], rfl, by simp⟩

theorem OnlyWrites.trans {f g h : File} (a : OnlyWrites f g) (b : OnlyWrites g h) :
    OnlyWrites f h := by
  obtain ⟨e1, h1, h1'⟩ := a
  obtain ⟨e2, h2, h2'⟩ := b
  refine ⟨e2 ++ e1, by rw [h2, h1, List.append_assoc], ?_⟩
  intro e he
  rcases List.mem_append.mp he with h | h
  · exact h2' e h
  · exact h1' e h

theorem popFault_log (f : File) : Sp popFault f (fun _ g => g.log = f.log) (fun _ _ => False) := by
  unfold Sp popFault
  split <;> rename_i h <;> split at h <;> simp_all <;> (obtain ⟨_, rfl⟩ := h; rfl)

theorem pwrite_onlyWrites (b : Bytes) (off : Nat) (f : File) :
    Sp (pwrite b off) f (fun _ g => OnlyWrites f g) (fun _ g => OnlyWrites f g) := by
  unfold pwrite
  apply Sp.bind' (popFault_log f)
  · intro x g hg
    cases x with
    | none => exact ⟨[.write off b], by show _ :: g.log = _; rw [hg]; rfl, by simp⟩
    | short k => exact ⟨[.write off (b.take k)], by show _ :: g.log = _; rw [hg]; rfl, by simp⟩
    | err e => exact ⟨[], by show g.log = _; rw [hg]; rfl, by simp⟩
  · exact fun _ _ h => h.elim

theorem writeEntireLoop_onlyWrites (fuel : Nat) (b : Bytes) (off : Nat) (f : File) :
    Sp (writeEntireLoop fuel b off) f (fun _ g => OnlyWrites f g) (fun _ g => OnlyWrites f g) := by
  induction fuel generalizing b off f with
  | zero => exact OnlyWrites.refl _
  | succ fuel ih =>
    unfold writeEntireLoop
    split
    · exact OnlyWrites.refl _
    · apply Sp.bind' (pwrite_onlyWrites b off f)
      · intro w g hg
        exact (ih _ _ g).mono (fun _ _ h => hg.trans h) (fun _ _ h => hg.trans h)
      · exact fun _ _ h => h

theorem rawWriteLoop_onlyWrites (t : UInt8) (fuel : Nat) (b : Bytes) (off : Nat) (f : File) :
    Sp (rawWriteLoop t fuel b off) f (fun _ g => OnlyWrites f g) (fun _ g => OnlyWrites f g) := by
  induction fuel generalizing b off f with
  | zero => unfold rawWriteLoop; split <;> exact OnlyWrites.refl _
  | succ fuel ih =>
    unfold rawWriteLoop
    split
    · exact OnlyWrites.refl _
    · split
      · apply Sp.bind' (writeEntireLoop_onlyWrites _ _ _ f)
        · intro w g hg
          exact (ih _ _ g).mono (fun _ _ h => hg.trans h) (fun _ _ h => hg.trans h)
        · exact fun _ _ h => h
      · apply Sp.bind' (writeEntireLoop_onlyWrites _ _ _ f)
        · intro w g hg
          exact (ih _ _ g).mono (fun _ _ h => hg.trans h) (fun _ _ h => hg.trans h)
        · exact fun _ _ h => h

theorem rawWrite_onlyWrites (t : UInt8) (b : Bytes) (off : Nat) (f : File) :
    Sp (rawWrite t b off) f (fun _ g => OnlyWrites f g) (fun _ g => OnlyWrites f g) := by
  unfold rawWrite
  apply Sp.bind' (rawWriteLoop_onlyWrites _ _ _ _ f)
  · exact fun _ _ h => h
  · exact fun _ _ h => h

/-- An encrypted append uses the cipher exactly once. -/
theorem dbWriteBuf_enc (E : Env) (b : Bytes) (f : File) (k : Nat) (hk : f.cfg.cipher = some k) :
    Sp (dbWriteBuf E b) f
      (fun _ g => ∃ evs, g.log = evs ++ .encrypted k (offset2nonce f.pos) b :: f.log ∧
        ∀ e ∈ evs, ∃ off b, e = .write off b)
      (fun _ _ => True) := by
  unfold dbWriteBuf
  apply Sp.get_bind
  rw [hk]
  simp only
  unfold writeEncrypted
  apply Sp.get_bind
  dsimp only
  split
  · trivial
  · apply Sp.bind
    show Sp _ { f with log := .encrypted k (offset2nonce f.pos) b :: f.log } _ _
    apply Sp.bind' (rawWrite_onlyWrites btData _ f.pos _)
    · rintro n g ⟨evs, h1, h2⟩
      exact ⟨evs, h1, h2⟩
    · exact fun _ _ _ => trivial

end Couchstore
