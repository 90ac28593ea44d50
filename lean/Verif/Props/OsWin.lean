import Verif.Spec.OsWin

/-! C76: the file operations on Windows: synchronisation every N bytes, offsets, errors. -/

namespace Couchstore.Props

open Couchstore

private theorem unsynced_append (log : List WinEvent) (ev : WinEvent) : winUnsynced (log ++ [ev]) =
    match ev with
    | .write _ _ _ (.ok n) => ((winUnsynced log).1 + n, (winUnsynced log).2 + 1)
    | .flush _ => (0, 0)
    | _ => winUnsynced log := by
  unfold winUnsynced
  rw [List.foldl_append]
  rfl

private def Counted (s : WinState) : Prop := (winUnsynced s.log).2 ≤ s.file.sinceSync

private theorem counted_sync (s : WinState) (a : Except Nat Unit) : (winUnsynced (winSync s a).2.log).2 = 0 ∧ (winSync s a).2.file = s.file := by
  unfold winSync
  cases a <;> exact ⟨by dsimp only; rw [unsynced_append], rfl⟩

private theorem write_cases (s : WinState) (hs : Counted s) (buf : Bytes) (off : Nat) (a : Except Nat Nat) (fl : Except Nat Unit) :
    Counted (winPwrite s buf off a fl).2 ∧ (winPwrite s buf off a fl).2.file.period = s.file.period ∧
      ∀ n, (winPwrite s buf off a fl).1 = .ok n → s.file.period > 0 →
        (winUnsynced (winPwrite s buf off a fl).2.log).2 < s.file.period := by
  unfold winPwrite Counted at *
  cases a with
  | error e => exact ⟨by dsimp only; rw [unsynced_append]; exact hs, rfl, fun n h => nomatch h⟩
  | ok k =>
    dsimp only
    split
    · rename_i h
      cases fl with
      | error e => exact ⟨by simp only [winSync, unsynced_append]; exact Nat.le_refl _, rfl, fun n h => nomatch h⟩
      | ok u =>
        exact ⟨by simp only [winSync, unsynced_append]; exact Nat.le_refl _, rfl, fun n _ hpos => by
          simp only [winSync, unsynced_append]; exact hpos⟩
    · rename_i h
      refine ⟨?_, rfl, fun n _ hpos => ?_⟩
      · dsimp only; rw [unsynced_append]; dsimp only; omega
      · dsimp only; rw [unsynced_append]; dsimp only
        omega

private theorem counted_after (fh : Nat) (ops : List WinOp) : Counted (winAfter fh ops) := by
  unfold winAfter
  have : ∀ (ops : List WinOp) (s : WinState), Counted s → Counted (ops.foldl winDo s) := by
    intro ops
    induction ops with
    | nil => intro s h; exact h
    | cons op ops ih =>
      intro s h
      refine ih _ ?_
      cases op with
      | read n off a =>
        unfold winDo winPread Counted at *
        cases a with
        | ok bs => dsimp only; rw [unsynced_append]; exact h
        | error e => dsimp only; split <;> (dsimp only; rw [unsynced_append]; exact h)
      | write buf off a fl => exact (write_cases s h buf off a fl).1
      | sync a =>
        have := counted_sync s a
        show (winUnsynced (winSync s a).2.log).2 ≤ _
        omega
      | setPeriod n => exact h
  exact this ops _ (Nat.le_refl 0)

/-- With a period of N, after a successful write there are fewer than N writes that are not synchronised, whatever came before.  Missing:
fewer than N bytes, which is false, see `C76_bytes_not_counted`. -/
theorem C76_periodic_sync_partial (fh : Nat) (ops : List WinOp) (buf : Bytes) (off n : Nat) (a : Except Nat Nat) (fl : Except Nat Unit)
    (h : (winPwrite (winAfter fh ops) buf off a fl).1 = .ok n) (hp : (winAfter fh ops).file.period > 0) :
    (winUnsynced (winPwrite (winAfter fh ops) buf off a fl).2.log).2 < (winAfter fh ops).file.period :=
  (write_cases _ (counted_after fh ops) buf off a fl).2.2 n h hp

/-- With a period of one byte everything that was written has been handed to `FlushFileBuffers` after a successful write, which has
succeeded. -/
theorem C76_every_write (fh : Nat) (ops : List WinOp) (buf : Bytes) (off n : Nat) (a : Except Nat Nat) (fl : Except Nat Unit)
    (h : (winPwrite (winAfter fh ops) buf off a fl).1 = .ok n) (hp : (winAfter fh ops).file.period = 1) :
    (winPwrite (winAfter fh ops) buf off a fl).2.log.getLast? = some (.flush (.ok ())) ∧ a = .ok n := by
  generalize winAfter fh ops = s at *
  unfold winPwrite at h ⊢
  cases a with
  | error e => exact nomatch h
  | ok k =>
    dsimp only at h ⊢
    rw [if_pos ⟨by omega, by omega⟩] at h ⊢
    cases fl with
    | error e => exact nomatch h
    | ok u =>
      cases h
      exact ⟨by simp [winSync], rfl⟩

/-- A failed synchronisation makes the write fail, with the error code of the system, and so does a failed write. -/
theorem C76_failure_reported (s : WinState) (buf : Bytes) (off : Nat) (a : Except Nat Nat) (fl : Except Nat Unit) (e : Nat)
    (h : a = .error e ∨ ((∃ n, a = .ok n) ∧ fl = .error e ∧ s.file.period > 0 ∧ s.file.sinceSync + 1 ≥ s.file.period)) :
    (winPwrite s buf off a fl).1 = .error (.io (-7)) ∧ (winPwrite s buf off a fl).2.errinfo = some e := by
  rcases h with rfl | ⟨⟨n, rfl⟩, rfl, h1, h2⟩
  · exact ⟨rfl, rfl⟩
  · unfold winPwrite
    dsimp only
    rw [if_pos ⟨h1, h2⟩]
    exact ⟨rfl, rfl⟩

/-- The bytes are written, and read, at the offset that was asked for, as long as it is less than 2^63; no two such offsets are mixed
up. -/
theorem C76_offset (s : WinState) (buf : Bytes) (off : Nat) (h : off < 2 ^ 63) (a : Except Nat Nat) (fl : Except Nat Unit) :
    ∃ low high rest, (winPwrite s buf off a fl).2.log = s.log ++ .write (buf.take (buf.length % 2 ^ 32)) low high a :: rest ∧
      low + 2 ^ 32 * high = off ∧ low < 2 ^ 32 := by
  refine ⟨off % 2 ^ 32, off / 2 ^ 32 % 2 ^ 31, ?_⟩
  have h1 : off % 2 ^ 32 + 2 ^ 32 * (off / 2 ^ 32 % 2 ^ 31) = off ∧ off % 2 ^ 32 < 2 ^ 32 := by omega
  unfold winPwrite winOffset
  cases a with
  | error e => exact ⟨[], rfl, h1⟩
  | ok n =>
    dsimp only
    split
    · cases fl with
      | ok u => exact ⟨[.flush (.ok u)], by simp [winSync], h1⟩
      | error e => exact ⟨[.flush (.error e)], by simp [winSync], h1⟩
    · exact ⟨[], rfl, h1⟩

theorem C76_read_offset (s : WinState) (n off : Nat) (h : off < 2 ^ 63) (hn : n < 2 ^ 32) (a : Except Nat Bytes) :
    ∃ low high, (winPread s n off a).2.log = s.log ++ [.read n low high a] ∧ low + 2 ^ 32 * high = off ∧ low < 2 ^ 32 := by
  refine ⟨off % 2 ^ 32, off / 2 ^ 32 % 2 ^ 31, ?_, by omega, by omega⟩
  have : n % 2 ^ 32 = n := Nat.mod_eq_of_lt hn
  unfold winPread winOffset
  rw [this]
  cases a with
  | ok bs => rfl
  | error e => dsimp only; split <;> rfl

/-- Reading at the end of the file is not an error; any other error is one. -/
theorem C76_read (s : WinState) (n off : Nat) (a : Except Nat Bytes) :
    (∀ bs, a = .ok bs → (winPread s n off a).1 = .ok bs) ∧ (a = .error 38 → (winPread s n off a).1 = .ok []) ∧
      ∀ e, a = .error e → e ≠ 38 → (winPread s n off a).1 = .error .read ∧ (winPread s n off a).2.errinfo = some e := by
  refine ⟨?_, ?_, ?_⟩
  · rintro bs rfl; rfl
  · rintro rfl; rfl
  · rintro e rfl he
    unfold winPread winEof
    dsimp only
    rw [if_neg he]
    exact ⟨rfl, rfl⟩

/-- Opening a file that is not open: it has the handle of the system, with nothing to synchronise and no period; a missing file is told
from other errors, and the error code is kept. -/
theorem C76_open (s : WinState) (hs : s.file.fh = none) (a : Except Nat Nat) :
    ∃ r s', winOpen s a = some (r, s') ∧ s'.log = s.log ∧
      match a with
      | .ok fh => r = .ok () ∧ s'.file.fh = some fh ∧ s'.file.period = 0 ∧ s'.file.sinceSync = 0
      | .error e => s'.file = s.file ∧ s'.errinfo = some e ∧ (e = 2 → r = .error .noSuchFile) ∧ (e ≠ 2 → e ≠ 0 → r = .error .openFile) := by
  unfold winOpen
  rw [hs, if_neg (by decide)]
  cases a with
  | ok fh => exact ⟨_, _, rfl, rfl, rfl, rfl, rfl, rfl⟩
  | error e =>
    refine ⟨_, _, rfl, rfl, rfl, rfl, ?_, ?_⟩
    · intro h; rw [if_pos (.inl h)]
    · intro h h0; rw [if_neg (by omega)]

/-- Closing and synchronising report what the system answered. -/
theorem C76_close_sync (s : WinState) (a : Except Nat Unit) :
    (winClose s a).1 = (match a with | .ok _ => .ok () | .error _ => .error (.io (-17))) ∧
      (winSync s a).1 = (match a with | .ok _ => .ok () | .error _ => .error (.io (-7))) ∧
      (winSync s a).2.log = s.log ++ [.flush a] ∧
      ∀ e, a = .error e → (winClose s a).2.errinfo = some e ∧ (winSync s a).2.errinfo = some e := by
  cases a with
  | ok u => exact ⟨rfl, rfl, rfl, fun e h => nomatch h⟩
  | error e => exact ⟨rfl, rfl, rfl, fun e' h => by cases h; exact ⟨rfl, rfl⟩⟩

/-- (negative) Bytes are not counted: with a period of 2 bytes, any number of bytes that one write can take is not synchronised
after a successful write. -/
theorem C76_bytes_not_counted (buf : Bytes) (h : buf.length < 2 ^ 32) (off : Nat) (fl : Except Nat Unit) :
    let s := winAfter 5 [.setPeriod 2]
    s.file.period = 2 ∧ (winPwrite s buf off (.ok buf.length) fl).1 = .ok buf.length ∧
      (∃ low high, (winPwrite s buf off (.ok buf.length) fl).2.log = [.write buf low high (.ok buf.length)]) ∧
      (winUnsynced (winPwrite s buf off (.ok buf.length) fl).2.log).1 = buf.length := by
  refine ⟨rfl, rfl, ⟨off % 2 ^ 32, off / 2 ^ 32 % 2 ^ 31, ?_⟩, ?_⟩
  · show [WinEvent.write (buf.take (buf.length % 2 ^ 32)) _ _ _] = _
    rw [Nat.mod_eq_of_lt h, List.take_length]
  · show 0 + buf.length = buf.length
    omega

/-- (negative) A write of 2^32 bytes asks the system to write nothing. -/
theorem C76_huge_write (s : WinState) (buf : Bytes) (h : buf.length = 2 ^ 32) (fl : Except Nat Unit) (a : Except Nat Nat) :
    ∃ rest, (winPwrite s buf 0 a fl).2.log = s.log ++ .write [] 0 0 a :: rest := by
  obtain ⟨low, high, rest, h1, h2, h3⟩ := C76_offset s buf 0 (by decide) a fl
  have : low = 0 ∧ high = 0 := by omega
  rw [this.1, this.2, h, Nat.mod_self, List.take_zero] at h1
  exact ⟨rest, h1⟩

/-- (negative) A file that was closed cannot be opened again: an assertion fails. -/
theorem C76_not_reopened (s : WinState) (hs : s.file.fh.isSome = true) (a : Except Nat Nat) :
    winOpen (winClose s (.ok ())).2 a = none := by
  unfold winOpen winClose
  rw [if_pos hs]

/-- The hypotheses can be met: writes of 2, 1 and 2 bytes with a period of 3, the third one synchronises. -/
example : let s := winAfter 5 [.setPeriod 3, .write [1, 2] 0 (.ok 2) (.ok ()), .read 7 0 (.ok []), .write [3] 2 (.ok 1) (.ok ())]
    s.file.period > 0 ∧ winUnsynced s.log = (3, 2) ∧ (winPwrite s [4, 5] 3 (.ok 2) (.ok ())).1 = .ok 2 ∧
      winUnsynced (winPwrite s [4, 5] 3 (.ok 2) (.ok ())).2.log = (0, 0) ∧ s.file.fh.isSome = true :=
  ⟨by decide, rfl, rfl, rfl, rfl⟩

example := C76_open { file := { fh := none, period := 7 } } rfl (.error 2)
example := C76_every_write 5 [.setPeriod 1] [4, 5] 3 2 (.ok 2) (.ok ()) rfl rfl
example := C76_offset (winAfter 5 []) [4, 5] (2 ^ 40 + 7) (by decide) (.ok 2) (.ok ())

end Couchstore.Props
