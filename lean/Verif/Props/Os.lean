import Verif.Lemmas.Os
import Verif.Spec.Env

/-!
C56, C57 and C58: the file operations on top of the system calls.
-/

namespace Couchstore.Props

open Couchstore

/-- **C56.**  With periodic synchronisation, after a successful write less than a period is not synchronised. -/
theorem C56_periodic_sync (E : Env) (s : OsState) (hs : OsRun E s) (tmp buf : Bytes) (ht : tmp.length = 8192) (off n : Nat)
    (s' : OsState) (h : osPwrite E tmp buf off s = .ok (.ok n) s') (hp : s'.file.period > 0) :
    unsynced s'.log < s'.file.period :=
  (osPwrite_unsynced E tmp buf off ht s s' _ h (fun h => nomatch h) hs.counted).2 n rfl hp

/-- **C56.**  If the synchronisation in a write fails, the write fails. -/
theorem C56_failure_reported (E : Env) (s : OsState) (tmp buf : Bytes) (ht : tmp.length = 8192) (off : Nat)
    (r : Except Err Nat) (s' : OsState) (h : osPwrite E tmp buf off s = .ok r s') :
    ∃ new, s'.log = s.log ++ new ∧
      ∀ e, (SysCall.fdatasync, SysAns.fail e) ∈ new → r = .error (.io (-7)) ∧ s'.errinfo = some e := by
  obtain ⟨k, a, rest, hi, hl, hc⟩ := (osPwrite_sp E tmp buf off ht s).ok h
  refine ⟨interrupted (.pwrite buf off) k ++ [(.pwrite buf off, a)] ++ rest, by rw [hl]; simp, fun e he => ?_⟩
  have hrest : (SysCall.fdatasync, SysAns.fail e) ∈ rest := by
    rcases List.mem_append.1 he with he | he
    · rcases List.mem_append.1 he with he | he
      · exact nomatch (List.eq_of_mem_replicate he)
      · exact nomatch (List.mem_singleton.1 he)
    · exact he
  rcases hc with ⟨_, _, _, _, rfl, _⟩ | ⟨n, reads, tail, _, _, rfl, ho, _, hc⟩
  · exact nomatch hrest
  have htail : (SysCall.fdatasync, SysAns.fail e) ∈ tail := by
    rcases List.mem_append.1 hrest with he | he
    · obtain ⟨_, _, hx⟩ := ho _ he
      exact nomatch hx
    · exact he
  rcases hc with ⟨_, _, rfl, _⟩ | ⟨_, hc⟩
  · exact nomatch htail
  split at hc
  · obtain ⟨_, b, rfl, hc⟩ := hc
    have hb := List.mem_singleton.1 htail
    injection hb with _ hb
    subst hb
    rcases hc with ⟨e', he', hr, hi'⟩ | ⟨⟨_, hv⟩, _⟩
    · cases he'
      exact ⟨hr, hi'⟩
    · exact nomatch hv
  · obtain ⟨_, rfl, _⟩ := hc
    exact nomatch htail

/-- A file that is synchronised every 10 bytes. -/
def os10 (answers : List SysAns) : OsState := { file := { fd := some 5, period := 10 }, answers := answers }

/-- A buffer on the stack. -/
def stack0 : Bytes := List.replicate 8192 0

theorem stack0_length : stack0.length = 8192 := List.length_replicate

/-- After seven bytes; the first write was interrupted and incomplete. -/
def os10run : OsState :=
  { file := { fd := some 5, period := 10, sinceSync := 7 }, answers := [.wrote 4, .did 0],
    log := [(.pwrite [1, 2, 3, 4, 5, 6, 7, 8] 0, .fail EINTR), (.pwrite [1, 2, 3, 4, 5, 6, 7, 8] 0, .wrote 7)] }

theorem os10run_run : OsRun Env.toy os10run :=
  .step (s := os10 [.fail EINTR, .wrote 7, .wrote 4, .did 0]) (r := .ok ()) (.pwrite stack0 [1, 2, 3, 4, 5, 6, 7, 8] 0)
    (.step (r := .ok ()) (.setPeriod 10) (.opened 5 _) trivial rfl (fun h => nomatch h)) stack0_length rfl (fun h => nomatch h)

example := C56_periodic_sync Env.toy os10run os10run_run stack0 [9, 9, 9, 9] stack0_length 7 4 _ rfl (by decide)
example := C56_failure_reported Env.toy { os10run with answers := [.wrote 4, .fail 5] } stack0 [9, 9, 9, 9] stack0_length 7 _ _ rfl

/-- **C56** (negative).  Why `OsRun` has no writes that are found to be invalid: they are not counted. -/
theorem C56_invalid_not_counted : ∃ s1 s2,
    osDo Env.toy (.pwrite stack0 [1, 2, 3, 4, 5, 6, 7, 8] 0)
      { os10 [.wrote 8, .read [0, 0, 0, 0, 0, 0, 0, 0], .wrote 8, .read [1, 1, 1, 1, 1, 1, 1, 1]] with
        file := { fd := some 5, period := 10, validate := true } } = .ok (.error .checksumFail) s1 ∧
    osDo Env.toy (.pwrite stack0 [1, 1, 1, 1, 1, 1, 1, 1] 0) s1 = .ok (.ok ()) s2 ∧ unsynced s2.log = 16 ∧ s2.file.period = 10 :=
  ⟨_, _, rfl, rfl, rfl, rfl⟩

/-- **C57.**  A validated write: if it succeeds, what the file contains has the checksum of what was written, as far as the
first 8192 bytes are concerned.  Missing: with tracing, that the reads gave something (`C57_unread_accepted`); that no memory
is overwritten (`C57_read_error_overrun`). -/
theorem C57_validated_partial (E : Env) (s : OsState) (tmp buf : Bytes) (ht : tmp.length = 8192) (off n : Nat) (s' : OsState)
    (h : osPwrite E tmp buf off s = .ok (.ok n) s') (hv : s.file.validate = true) :
    ∃ new, s'.log = s.log ++ new ∧ ((s.file.tracing = true → ReadsGood new) →
      ∃ back : Bytes, back.length = min n 8192 ∧ (∀ i, i < min n 8192 → lastRead new (off + i) = back[i]?) ∧
        E.crc32c back = E.crc32c (buf.take (min n 8192))) := by
  obtain ⟨k, a, rest, hi, hl, hc⟩ := (osPwrite_sp E tmp buf off ht s).ok h
  rcases hc with ⟨_, _, hr, _⟩ | ⟨n', reads, tail, rfl, _, rfl, ho, _, hc⟩
  · exact nomatch hr
  rcases hc with ⟨_, hr, _⟩ | ⟨hfound, hc⟩
  · exact nomatch hr
  obtain ⟨hn, htail⟩ : n' = n ∧ ∀ e ∈ tail, ∀ n o, e.1 ≠ .pread n o := by
    split at hc
    · obtain ⟨_, b, rfl, hc⟩ := hc
      refine ⟨?_, fun e he => ?_⟩
      · rcases hc with ⟨_, _, hr, _⟩ | ⟨_, hr⟩
        · exact nomatch hr
        · injection hr with hr; exact hr.symm
      · rw [List.mem_singleton.1 he]; simp
    · obtain ⟨_, rfl, hr⟩ := hc
      exact ⟨by injection hr with hr; exact hr.symm, fun e he => nomatch he⟩
  subst hn
  have hpre : ∀ e ∈ interrupted (.pwrite buf off) k ++ [(.pwrite buf off, .wrote n')], ∀ n o, e.1 ≠ .pread n o := by
    intro e he
    rcases List.mem_append.1 he with he | he
    · rw [List.eq_of_mem_replicate he]; simp
    · rw [List.mem_singleton.1 he]; simp
  refine ⟨interrupted (.pwrite buf off) k ++ [(.pwrite buf off, .wrote n')] ++ reads ++ tail, by rw [hl]; simp, fun hg => ?_⟩
  obtain ⟨got, h1, h2, h3⟩ := hfound hv
  refine ⟨got, h1, fun i hi => ?_, h2⟩
  rw [lastRead_middle _ _ _ _ hpre htail]
  exact h3 (fun ht x y z hxyz => hg ht x y z (by simp [hxyz])) i hi

/-- **C57.**  If something else is read back and the difference is within four bytes, the write does not succeed. -/
theorem C57_burst_detected (E : Env) (hE : ∀ b, (E.crc32c b).toBitVec = crc polyCastagnoli b) (s : OsState) (tmp buf : Bytes)
    (ht : tmp.length = 8192) (off n : Nat) (s' : OsState) (hv : s.file.validate = true)
    (u a b v : Bytes) (hbuf : buf.take (min n 8192) = u ++ a ++ v) (hab : a ≠ b) (hlen : a.length = b.length) (h4 : a.length ≤ 4)
    (new : List (SysCall × SysAns)) (hnew : s'.log = s.log ++ new) (hg : s.file.tracing = true → ReadsGood new)
    (hback : ∀ i, i < (u ++ b ++ v).length → lastRead new (off + i) = (u ++ b ++ v)[i]?) :
    osPwrite E tmp buf off s ≠ .ok (.ok n) s' := by
  intro h
  obtain ⟨new', hnew', hx⟩ := C57_validated_partial E s tmp buf ht off n s' h hv
  have : new' = new := List.append_cancel_left (hnew'.symm.trans hnew)
  subst this
  obtain ⟨back, h1, h2, h3⟩ := hx hg
  obtain ⟨k, an, rest, _, _, hc⟩ := (osPwrite_sp E tmp buf off ht s).ok h
  have hn : n ≤ buf.length := by
    rcases hc with ⟨_, _, hr, _⟩ | ⟨n', reads, tail, _, hn, _, _, _, hc⟩
    · exact nomatch hr
    rcases hc with ⟨_, hr, _⟩ | ⟨_, hc⟩
    · exact nomatch hr
    split at hc
    · obtain ⟨_, b, _, hc⟩ := hc
      rcases hc with ⟨_, _, hr, _⟩ | ⟨_, hr⟩
      · exact nomatch hr
      · injection hr with hr; omega
    · obtain ⟨_, _, hr⟩ := hc
      injection hr with hr; omega
  have hl : (u ++ b ++ v).length = min n 8192 := by
    have := congrArg List.length hbuf
    simp at this ⊢
    omega
  have heq : back = u ++ b ++ v := by
    apply List.ext_getElem?
    intro i
    by_cases hi : i < min n 8192
    · rw [← h2 i hi, hback i (by omega)]
    · rw [List.getElem?_eq_none (by omega), List.getElem?_eq_none (by omega)]
  rw [heq, hbuf] at h3
  have h3 := congrArg UInt32.toBitVec h3
  rw [hE, hE] at h3
  exact crc_burst (by decide) u a b v hlen h4 hab h3.symm

/-- A file whose writes are validated. -/
def osv (tracing : Bool) (answers : List SysAns) : OsState :=
  { file := { fd := some 5, validate := true, tracing := tracing }, answers := answers }

example := C57_validated_partial Env.toy (osv false [.fail EINTR, .wrote 5, .read [1, 2], .fail 5, .read [2, 3, 4], .read [5]])
  stack0 [1, 2, 3, 4, 5, 6] stack0_length 100 5 _ rfl rfl

/-- An environment with the real checksum. -/
private def crcEnv' : Env := { Env.toy with crc32c := fun b => ⟨crc polyCastagnoli b⟩ }

example := C57_burst_detected crcEnv' (fun _ => rfl) (osv false [.wrote 4, .read [1, 2, 7, 4]]) stack0 [1, 2, 3, 4] stack0_length 100 4
  { osv false [] with log := [(.pwrite [1, 2, 3, 4] 100, .wrote 4), (.pread 4 100, .read [1, 2, 7, 4])] } rfl
  [1, 2] [3] [7] [4] rfl (by decide) rfl (by decide) _ rfl (fun h => nomatch h) (by decide)

/-- What was written is not what is read, the write fails. -/
example : ∃ s', osPwrite Env.toy stack0 [1, 2, 3, 4] 100 (osv true [.wrote 4, .read [1, 2, 7, 4]]) = .ok (.error .checksumFail) s' :=
  ⟨_, rfl⟩

/-- **C57** (negative).  With tracing, a write succeeds although nothing could be read back, if the stack happens to contain what
was written, from an earlier write for example. -/
theorem C57_unread_accepted : ∃ s', osPwrite Env.toy ([1, 2, 3, 4] ++ List.replicate 8188 0) [1, 2, 3, 4] 100
    (osv true [.wrote 4, .fail 5]) = .ok (.ok 4) s' ∧ s'.log = [(.pwrite [1, 2, 3, 4] 100, .wrote 4), (.pread 4 100, .fail 5)] :=
  ⟨_, rfl, rfl⟩

/-- **C57** (negative).  Without tracing, memory in front of the buffer is overwritten if the first read fails. -/
theorem C57_read_error_overrun : ∃ s', osPwrite Env.toy stack0 [1, 2, 3, 4] 100 (osv false [.wrote 4, .fail 5]) =
    .error .overrun s' :=
  ⟨_, rfl⟩

/-- **C58.**  Reading: interrupted calls are repeated, and the result is that of the first call that is not interrupted. -/
theorem C58_read_retried (n off : Nat) (s : OsState) (r : Except Err Bytes) (s' : OsState) (h : osPread n off s = .ok r s') :
    ∃ k a, s'.log = s.log ++ List.replicate k (.pread n off, .fail EINTR) ++ [(.pread n off, a)] ∧ a ≠ .fail EINTR ∧
      (∀ bs, a = .read bs → bs.length ≤ n ∧ r = .ok bs) ∧ (∀ e, a = .fail e → r = .error .read ∧ s'.errinfo = some e) ∧
      s'.file = s.file := by
  obtain ⟨hf, k, a, hi, hl, hc⟩ := (osPread_sp n off s).ok h
  refine ⟨k, a, hl, hi, ?_, ?_, hf⟩
  · rintro bs rfl
    rcases hc with ⟨bs', e, h1, h2⟩ | ⟨e, he, _⟩
    · cases e; exact ⟨h1, h2⟩
    · exact nomatch he
  · rintro e rfl
    rcases hc with ⟨bs', e, h1, h2⟩ | ⟨e, he, h1, h2⟩
    · exact nomatch e
    · cases he; exact ⟨h1, h2⟩

example := C58_read_retried 10 100 (osv false [.fail EINTR, .fail EINTR, .read [1, 2, 3]]) _ _ rfl

/-- **C58.**  Writing, without validation: the same; afterwards the file may be synchronised, which is not repeated.  Missing: validation, where
reads are not repeated (`C58_interrupted_validation`). -/
theorem C58_write_retried_partial (E : Env) (s : OsState) (tmp buf : Bytes) (ht : tmp.length = 8192) (off : Nat) (r : Except Err Nat)
    (s' : OsState) (hv : s.file.validate = false) (h : osPwrite E tmp buf off s = .ok r s') :
    ∃ k a rest, s'.log = s.log ++ List.replicate k (.pwrite buf off, .fail EINTR) ++ [(.pwrite buf off, a)] ++ rest ∧ a ≠ .fail EINTR ∧
      (∀ e, a = .fail e → r = .error (.io (-7)) ∧ s'.errinfo = some e ∧ rest = []) ∧
      (∀ n, a = .wrote n → n ≤ buf.length ∧ ((r = .ok n ∧ (rest = [] ∨ ∃ v, rest = [(.fdatasync, .did v)])) ∨
        ∃ e, rest = [(.fdatasync, .fail e)] ∧ r = .error (.io (-7)) ∧ s'.errinfo = some e)) := by
  obtain ⟨k, a, rest, hi, hl, hc⟩ := (osPwrite_sp E tmp buf off ht s).ok h
  refine ⟨k, a, rest, hl, hi, ?_, ?_⟩
  · rintro e rfl
    rcases hc with ⟨e', he, h1, h2, h3, _⟩ | ⟨n', reads, tail, he, _⟩
    · cases he; exact ⟨h1, h2, h3⟩
    · exact nomatch he
  · rintro n rfl
    rcases hc with ⟨e', he, _⟩ | ⟨n', reads, tail, he, hn, rfl, ho, hr, hc⟩
    · exact nomatch he
    cases he
    refine ⟨hn, ?_⟩
    rw [hr hv, List.nil_append]
    rcases hc with ⟨hv', _⟩ | ⟨_, hc⟩
    · exact absurd hv' (by simp [hv])
    split at hc
    · obtain ⟨_, b, rfl, hc⟩ := hc
      rcases hc with ⟨e, rfl, h1, h2⟩ | ⟨⟨v, rfl⟩, h1⟩
      · exact .inr ⟨e, rfl, h1, h2⟩
      · exact .inl ⟨h1, .inr ⟨v, rfl⟩⟩
    · obtain ⟨_, rfl, h1⟩ := hc
      exact .inl ⟨h1, .inl rfl⟩

example := C58_write_retried_partial Env.toy os10run stack0 [9, 9, 9, 9] stack0_length 7 _ _ rfl rfl

/-- **C58.**  Opening: it is repeated if it is interrupted, and once more without `O_NOATIME` if that is not permitted. -/
theorem C58_open_retried (rdwr : Bool) (s : OsState) (hs : s.file.fd = none) (r : Except Err Unit) (s' : OsState)
    (h : osOpen rdwr s = .ok r s') :
    ∃ l flag a, s'.log = s.log ++ l ++ [(.opn flag, a)] ∧ a ≠ .fail EINTR ∧
      (∀ x ∈ l, ∃ f, x = (.opn f, .fail EINTR) ∨ x = (.opn true, .fail EPERM)) ∧ (a = .fail EPERM → flag = false) ∧
      ((∃ fd, a = .did fd ∧ r = .ok () ∧ s'.file = { fd := some fd }) ∨
       (∃ e, a = .fail e ∧ r = .error (if e = ENOENT then .noSuchFile else .openFile) ∧ s'.errinfo = some e ∧ s'.file.fd = none)) :=
  (osOpen_sp rdwr s hs).ok h

example := C58_open_retried false { file := { fd := none }, answers := [.fail EINTR, .fail EPERM, .did 7] } rfl _ _ rfl
example := C58_open_retried true { file := { fd := none }, answers := [.fail ENOENT] } rfl _ _ rfl

/-- **C58** (negative).  With validation and tracing, a signal makes a good write fail. -/
theorem C58_interrupted_validation : ∃ s', osPwrite Env.toy stack0 [1, 2, 3, 4] 100 (osv true [.wrote 4, .fail EINTR, .read [1, 2, 3, 4]]) =
    .ok (.error .checksumFail) s' :=
  ⟨_, rfl⟩

/-- **C58** (negative).  Closing: a descriptor is closed again if the call was interrupted.  On Linux it has been released then, and
may belong to a file that another thread has opened in the meantime. -/
theorem C58_closed_twice : ∃ s', osClose (osv false [.fail EINTR, .did 0]) = .ok (.ok ()) s' ∧
    s'.log = [(.close 5, .fail EINTR), (.close 5, .did 0)] :=
  ⟨_, rfl, rfl⟩

end Couchstore.Props
