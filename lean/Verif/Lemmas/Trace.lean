import Verif.Lemmas.Disk
import Verif.Spec.Crash

/-! Helper lemmas about event logs: the content of the file, and what may be left after a crash. -/

namespace Couchstore

theorem getElem?_pwriteDisk (d : Bytes) (off : Nat) (b : Bytes) (i : Nat) (hb : b ≠ []) :
    (pwriteDisk d off b)[i]? =
      if i < off then (if i < d.length then d[i]? else some 0)
      else if i < off + b.length then b[i - off]? else d[i]? := by
  unfold pwriteDisk
  rw [if_neg hb]
  by_cases h1 : i < off
  · rw [if_pos h1]
    by_cases h2 : i < d.length
    · rw [if_pos h2]
      rw [List.append_assoc, List.append_assoc, List.getElem?_append_left (by simp; omega),
        List.getElem?_take, if_pos h1]
    · rw [if_neg h2, List.append_assoc, List.append_assoc, List.getElem?_append_right (by simp; omega),
        List.getElem?_append_left (by simp; omega), List.getElem?_replicate, if_pos (by simp; omega)]
  · rw [if_neg h1]
    have hl : (d.take off ++ List.replicate (off - d.length) 0).length = off := by simp; omega
    rw [List.append_assoc, List.getElem?_append_right (by rw [hl]; omega), hl]
    by_cases h2 : i < off + b.length
    · rw [if_pos h2, List.getElem?_append_left (by omega)]
    · rw [if_neg h2, List.getElem?_append_right (by omega), List.getElem?_drop]
      congr 1; omega

theorem length_pwriteDisk (d : Bytes) (off : Nat) (b : Bytes) :
    d.length ≤ (pwriteDisk d off b).length := by
  unfold pwriteDisk
  split
  · exact Nat.le_refl _
  · simp; omega

theorem length_replay (d : Bytes) (l : List Event) : d.length ≤ (replay d l).length := by
  induction l with
  | nil => exact Nat.le_refl _
  | cons e l ih =>
    cases e with
    | write off b => exact Nat.le_trans ih (length_pwriteDisk _ _ _)
    | sync => exact ih
    | encrypted _ _ _ => exact ih

theorem length_replay_append (d : Bytes) (a l : List Event) :
    (replay d l).length ≤ (replay d (a ++ l)).length := by
  rw [replay_append]; exact length_replay _ _

theorem syncedLen_le (d : Bytes) (l : List Event) : syncedLen d l ≤ (replay d l).length := by
  induction l with
  | nil => exact Nat.le_refl _
  | cons e l ih =>
    cases e with
    | write off b => exact Nat.le_trans ih (length_pwriteDisk _ _ _)
    | sync => exact Nat.le_refl _
    | encrypted _ _ _ => exact ih

/-- The content of the file is always possible. -/
theorem poss_replay (d : Bytes) (l : List Event) (i : Nat) :
    (∀ x, (replay d l)[i]? = some x → Poss d l i x) ∧ ((replay d l).length ≤ i → Poss d l i 0) := by
  induction l with
  | nil => exact ⟨fun x h => Or.inl h, fun h => Or.inr ⟨h, rfl⟩⟩
  | cons e l ih =>
    cases e with
    | write off b =>
      refine ⟨fun x h => ?_, fun h => Or.inl (ih.2 (Nat.le_trans (length_pwriteDisk _ _ _) h))⟩
      by_cases hb : b = []
      · subst hb
        exact Or.inl (ih.1 x h)
      · rw [replay, getElem?_pwriteDisk _ _ _ _ hb] at h
        split at h
        · split at h
          · exact Or.inl (ih.1 x h)
          · cases h; exact Or.inl (ih.2 (by omega))
        · split at h
          · exact Or.inr ⟨by omega, h⟩
          · exact Or.inl (ih.1 x h)
    | sync => exact ⟨fun x h => Or.inl h, fun h => Or.inr ⟨h, rfl⟩⟩
    | encrypted _ _ _ => exact ih

/-- The present content may be what is left. -/
theorem crashImage_replay (d : Bytes) (l : List Event) : CrashImage d l (replay d l) :=
  ⟨syncedLen_le d l, Nat.le_refl _, fun i x h => (poss_replay d l i).1 x h⟩

/-- A value of a byte after some events without a sync. -/
theorem poss_append {d : Bytes} {evs l : List Event} (hs : ∀ e ∈ evs, e ≠ .sync) {i : Nat} {x : UInt8}
    (h : Poss d (evs ++ l) i x) :
    Poss d l i x ∨ ∃ off b, .write off b ∈ evs ∧ off ≤ i ∧ b[i - off]? = some x := by
  induction evs with
  | nil => exact Or.inl h
  | cons e evs ih =>
    have ih' := ih fun e he => hs e (by simp [he])
    cases e with
    | write off b =>
      rcases h with h | h
      · rcases ih' h with h | ⟨o, b', h1, h2⟩
        · exact Or.inl h
        · exact Or.inr ⟨o, b', by simp [h1], h2⟩
      · exact Or.inr ⟨off, b, by simp, h⟩
    | sync => exact absurd rfl (hs .sync (by simp))
    | encrypted _ _ _ =>
      rcases ih' h with h | ⟨o, b', h1, h2⟩
      · exact Or.inl h
      · exact Or.inr ⟨o, b', by simp [h1], h2⟩

theorem poss_mono {d : Bytes} {evs l : List Event} (hs : ∀ e ∈ evs, e ≠ .sync) {i : Nat} {x : UInt8}
    (h : Poss d l i x) : Poss d (evs ++ l) i x := by
  induction evs with
  | nil => exact h
  | cons e evs ih =>
    have ih' := ih fun e he => hs e (by simp [he])
    cases e with
    | write off b => exact Or.inl ih'
    | sync => exact absurd rfl (hs .sync (by simp))
    | encrypted _ _ _ => exact ih'

theorem syncedLen_append {d : Bytes} {evs l : List Event} (hs : ∀ e ∈ evs, e ≠ .sync) :
    syncedLen d (evs ++ l) = syncedLen d l := by
  induction evs with
  | nil => rfl
  | cons e evs ih =>
    have ih' := ih fun e he => hs e (by simp [he])
    cases e with
    | write off b => exact ih'
    | sync => exact absurd rfl (hs .sync (by simp))
    | encrypted _ _ _ => exact ih'

/-- Byte `i` is on the storage and is not about to change. -/
def Cert (d : Bytes) (l : List Event) (i : Nat) : Prop :=
  i < syncedLen d l ∧ ∀ x, Poss d l i x → (replay d l)[i]? = some x

theorem Cert.image {d : Bytes} {l : List Event} {i : Nat} (h : Cert d l i) {img : Bytes}
    (hi : CrashImage d l img) : img[i]? = (replay d l)[i]? := by
  have hl : i < img.length := Nat.lt_of_lt_of_le h.1 hi.1
  rw [List.getElem?_eq_getElem hl]
  exact (h.2 _ (hi.2.2 i _ (List.getElem?_eq_getElem hl))).symm

theorem cert_nil {d : Bytes} {i : Nat} (h : i < d.length) : Cert d [] i := by
  refine ⟨h, fun x hx => ?_⟩
  rcases hx with hx | hx
  · exact hx
  · omega

theorem cert_sync {d : Bytes} {l : List Event} {i : Nat} (h : i < (replay d l).length) :
    Cert d (.sync :: l) i := by
  refine ⟨h, fun x hx => ?_⟩
  rcases hx with hx | hx
  · exact hx
  · omega

theorem poss_sync {d : Bytes} {l : List Event} {i : Nat} {x : UInt8} (h : Poss d (.sync :: l) i x) :
    Poss d l i x := by
  rcases h with h | ⟨h, rfl⟩
  · exact (poss_replay d l i).1 x h
  · exact (poss_replay d l i).2 h

/-- A certain byte stays so if nothing is written to it. -/
theorem Cert.append {d : Bytes} {evs l : List Event} {i : Nat} (h : Cert d l i)
    (hs : ∀ e ∈ evs, e ≠ .sync) (hw : ∀ off b, .write off b ∈ evs → off ≤ i → b[i - off]? = none) :
    Cert d (evs ++ l) i ∧ (replay d (evs ++ l))[i]? = (replay d l)[i]? := by
  have hp : ∀ x, Poss d (evs ++ l) i x → Poss d l i x := by
    intro x hx
    rcases poss_append hs hx with hx | ⟨o, b, h1, h2, h3⟩
    · exact hx
    · rw [hw o b h1 h2] at h3; cases h3
  have hl : i < (replay d (evs ++ l)).length :=
    Nat.lt_of_lt_of_le h.1 (Nat.le_trans (syncedLen_le d l) (length_replay_append d evs l))
  have hv : (replay d (evs ++ l))[i]? = (replay d l)[i]? := by
    rw [List.getElem?_eq_getElem hl]
    exact (h.2 _ (hp _ ((poss_replay d _ i).1 _ (List.getElem?_eq_getElem hl)))).symm
  refine ⟨⟨by rw [syncedLen_append hs]; exact h.1, fun x hx => ?_⟩, hv⟩
  rw [hv]
  exact h.2 x (hp x hx)

theorem Cert.sync {d : Bytes} {l : List Event} {i : Nat} (h : Cert d l i) : Cert d (.sync :: l) i :=
  cert_sync (Nat.lt_of_lt_of_le h.1 (syncedLen_le d l))

end Couchstore
