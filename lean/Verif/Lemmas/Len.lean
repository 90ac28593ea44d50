import Verif.Lemmas.Chunk

/-! Helper lemmas about the length of the file. -/

namespace Couchstore


theorem length_pwriteDisk_le (d : Bytes) (off : Nat) (b : Bytes) :
    (pwriteDisk d off b).length ≤ max d.length (off + b.length) := by
  unfold pwriteDisk
  split
  · omega
  · simp; omega

theorem pwrite_len (b : Bytes) (off : Nat) (f : File) :
    Sp (pwrite b off) f (fun w g => w ≤ b.length ∧ g.disk.length ≤ max f.disk.length (off + w))
      (fun _ _ => True) := by
  unfold pwrite
  apply Sp.bind' (popFault_spec f)
  · rintro x g ⟨⟨fs, rfl, hs⟩, hx, hl⟩
    cases x with
    | none => exact ⟨Nat.le_refl _, length_pwriteDisk_le _ _ _⟩
    | short k =>
      refine ⟨by simp; omega, ?_⟩
      exact length_pwriteDisk_le f.disk off (b.take k)
    | err e => trivial
  · intro _ _ h; exact h.elim

theorem writeEntireLoop_len (fuel : Nat) (b : Bytes) (off : Nat) (f : File) :
    Sp (writeEntireLoop fuel b off) f (fun _ g => g.disk.length ≤ max f.disk.length (off + b.length))
      (fun _ _ => True) := by
  induction fuel generalizing b off f with
  | zero => trivial
  | succ fuel ih =>
    unfold writeEntireLoop
    split
    · show f.disk.length ≤ _
      omega
    · apply Sp.bind' (pwrite_len b off f)
      · rintro w g ⟨h1, h2⟩
        refine (ih (b.drop w) (off + w) g).mono ?_ (fun _ _ h => h)
        intro _ g' h
        rw [List.length_drop] at h
        omega
      · exact fun _ _ h => h

theorem writeEntire_len (b : Bytes) (off : Nat) (f : File) :
    Sp (writeEntire b off) f (fun _ g => g.disk.length ≤ max f.disk.length (off + b.length))
      (fun _ _ => True) := writeEntireLoop_len _ b off f

theorem rawWriteLoop_len (t : UInt8) (fuel : Nat) (b : Bytes) (wpos : Nat) (f : File) :
    Sp (rawWriteLoop t fuel b wpos) f (fun r g => wpos ≤ r ∧ g.disk.length ≤ max f.disk.length r)
      (fun _ _ => True) := by
  induction fuel generalizing b wpos f with
  | zero =>
    unfold rawWriteLoop
    split
    · exact ⟨Nat.le_refl _, by omega⟩
    · trivial
  | succ fuel ih =>
    unfold rawWriteLoop
    split
    · exact ⟨Nat.le_refl _, by omega⟩
    · split
      · apply Sp.bind' (writeEntire_len [t] wpos f)
        · intro _ g h
          refine (ih b (wpos + 1) g).mono ?_ (fun _ _ h => h)
          rintro r g' ⟨h1, h2⟩
          simp at h
          omega
        · exact fun _ _ h => h
      · dsimp only
        apply Sp.bind' (writeEntire_len _ wpos f)
        · intro _ g h
          refine (ih _ _ g).mono ?_ (fun _ _ h => h)
          rintro r g' ⟨h1, h2⟩
          rw [List.length_take] at h
          omega
        · exact fun _ _ h => h

theorem writeHeader_len (E : Env) (t : UInt8) (b : Bytes) (f : File) :
    Sp (writeHeader E t b) f (fun _ g => g.disk.length ≤ max f.disk.length g.pos) (fun _ _ => True) := by
  unfold writeHeader
  apply Sp.get_bind
  dsimp only
  split
  · trivial
  · have hck : Sp (getChecksum E b f.cfg.crcMode) f (fun _ g => g = f) (fun _ _ => True) := by
      unfold getChecksum
      split
      · exact rfl
      · exact rfl
      · trivial
    apply Sp.bind' hck
    · rintro crc g rfl
      apply Sp.bind' (writeEntire_len _ _ g)
      · intro _ g1 h1
        unfold rawWrite
        apply Sp.bind
        apply Sp.bind' (rawWriteLoop_len t (2 * b.length) b (alignToNextBlock g.pos + 9) g1)
        · rintro r g2 ⟨h2, h3⟩
          show g2.disk.length ≤ max g.disk.length (alignToNextBlock g.pos + 9 + (r - (alignToNextBlock g.pos + 9)))
          simp at h1
          omega
        · exact fun _ _ h => h
      · exact fun _ _ h => h
    · exact fun _ _ h => h

end Couchstore
