import Verif.Spec.Os
import Verif.Lemmas.Disk
import Verif.Lemmas.Crc

/-!
Lemmas about the model of the POSIX file operations.
-/

namespace Couchstore

/-- A change of the state. -/
theorem Sp.modify_bind {S β : Type} {g : S → S} {k : Unit → EStateM Err S β} {f : S} {Q : β → S → Prop} {R : Err → S → Prop}
    (h : Sp (k ()) (g f) Q R) : Sp (modify g >>= k) f Q R := h

/-- What a system call does to the state. -/
theorem sysCall_sp (c : SysCall) (s : OsState) :
    Sp (sysCall c) s (fun a s' => c.fits a = true ∧ ∃ rest, s.answers = a :: rest ∧
      s' = { s with answers := rest, log := s.log ++ [(c, a)] }) (fun e _ => e = .diverge) := by
  unfold sysCall
  refine Sp.get_bind ?_
  split
  · exact Sp.throw rfl
  · rename_i a rest h
    split
    · rename_i hf
      exact Sp.modify_bind (g := fun _ => _) (Sp.pure ⟨hf, rest, h, rfl⟩)
    · exact Sp.throw rfl

/-- Interrupted calls. -/
def interrupted (c : SysCall) (k : Nat) : List (SysCall × SysAns) := List.replicate k (c, .fail EINTR)

theorem interrupted_succ (c : SysCall) (k : Nat) (l : List (SysCall × SysAns)) :
    (c, SysAns.fail EINTR) :: (interrupted c k ++ l) = interrupted c (k + 1) ++ l := rfl

theorem retryGo_sp (c : SysCall) : ∀ (n : Nat) (s : OsState),
    Sp (retryGo c n) s (fun a s' => c.fits a = true ∧ a ≠ .fail EINTR ∧ s'.file = s.file ∧ s'.errinfo = s.errinfo ∧
      ∃ k, s'.log = s.log ++ interrupted c k ++ [(c, a)]) (fun e _ => e = .diverge)
  | 0, s => Sp.throw rfl
  | n + 1, s => by
    unfold retryGo
    refine Sp.bind' (sysCall_sp c s) ?_ (fun e _ h => h)
    rintro a s1 ⟨hf, rest, ha, rfl⟩
    split
    · rename_i e
      subst e
      refine (retryGo_sp c n _).mono ?_ (fun e _ h => h)
      rintro a s' ⟨hf', hi, h1, h2, k, h3⟩
      refine ⟨hf', hi, h1, h2, k + 1, ?_⟩
      rw [h3, ← List.append_nil (interrupted c (k + 1)), ← interrupted_succ]
      simp
    · rename_i hne
      exact Sp.pure ⟨hf, hne, rfl, rfl, 0, by simp [interrupted]⟩

theorem retry_sp (c : SysCall) (s : OsState) :
    Sp (retry c) s (fun a s' => c.fits a = true ∧ a ≠ .fail EINTR ∧ s'.file = s.file ∧ s'.errinfo = s.errinfo ∧
      ∃ k, s'.log = s.log ++ interrupted c k ++ [(c, a)]) (fun e _ => e = .diverge) := by
  unfold retry
  refine Sp.get_bind ?_
  exact retryGo_sp c _ s

/-- `read`. -/
theorem osPread_sp (n off : Nat) (s : OsState) :
    Sp (osPread n off) s (fun r s' => s'.file = s.file ∧ ∃ k a, a ≠ .fail EINTR ∧
      s'.log = s.log ++ interrupted (.pread n off) k ++ [(.pread n off, a)] ∧
      ((∃ bs, a = .read bs ∧ bs.length ≤ n ∧ r = .ok bs) ∨ (∃ e, a = .fail e ∧ r = .error .read ∧ s'.errinfo = some e)))
      (fun e _ => e = .diverge) := by
  unfold osPread
  refine Sp.bind' (retry_sp _ s) ?_ (fun e _ h => h)
  rintro a s1 ⟨hf, hi, h1, h2, k, h3⟩
  split
  · rename_i bs
    refine Sp.pure ⟨h1, k, _, hi, h3, .inl ⟨bs, rfl, by simpa [SysCall.fits] using hf, rfl⟩⟩
  · rename_i e
    exact Sp.modify_bind <| Sp.pure ⟨h1, k, _, hi, h3, .inr ⟨e, rfl, rfl, rfl⟩⟩
  · exact Sp.throw rfl

theorem osSync_sp (s : OsState) :
    Sp osSync s (fun r s' => s'.file = s.file ∧ ∃ a, s'.log = s.log ++ [(.fdatasync, a)] ∧
      ((∃ e, a = .fail e ∧ r = .error (.io (-7)) ∧ s'.errinfo = some e) ∨ ((∃ v, a = .did v) ∧ r = .ok ())))
      (fun e _ => e = .diverge) := by
  unfold osSync
  refine Sp.bind' (sysCall_sp _ s) ?_ (fun e _ h => h)
  rintro a s1 ⟨hf, rest, ha, rfl⟩
  split
  · rename_i e
    exact Sp.modify_bind <| Sp.pure ⟨rfl, _, rfl, .inl ⟨e, rfl, rfl, rfl⟩⟩
  · rename_i hne
    refine Sp.pure ⟨rfl, _, rfl, .inr ⟨?_, rfl⟩⟩
    cases a with
    | did v => exact ⟨v, rfl⟩
    | fail e => exact absurd rfl (hne e)
    | read => simp [SysCall.fits] at hf
    | wrote => simp [SysCall.fits] at hf

/-- A log of reads only. -/
def OnlyReads (l : List (SysCall × SysAns)) : Prop := ∀ e ∈ l, ∃ n off, e.1 = .pread n off

theorem lastRead_append_read (l : List (SysCall × SysAns)) (n off : Nat) (bs : Bytes) (x : Nat) :
    lastRead (l ++ [(.pread n off, .read bs)]) x =
      if off ≤ x ∧ x < off + bs.length then bs[x - off]? else lastRead l x := by
  simp only [lastRead, List.foldl_append, List.foldl_cons, List.foldl_nil, lastReadStep]

theorem lastRead_append_fail (l : List (SysCall × SysAns)) (n off e : Nat) (x : Nat) :
    lastRead (l ++ [(.pread n off, .fail e)]) x = lastRead l x := by
  simp only [lastRead, List.foldl_append, List.foldl_cons, List.foldl_nil, lastReadStep]

/-- What is in the buffer, up to `pos`, is what was read last from the offsets from `base` on. -/
def BackFilled (l : List (SysCall × SysAns)) (tmp : Bytes) (pos base : Nat) : Prop :=
  pos ≤ tmp.length ∧ ∀ i, i < pos → lastRead l (base + i) = tmp[i]?

theorem length_overlay (tmp bs : Bytes) (pos : Nat) (h : pos + bs.length ≤ tmp.length) :
    (tmp.take pos ++ bs ++ tmp.drop (pos + bs.length)).length = tmp.length := by
  simp; omega

theorem BackFilled.read {l : List (SysCall × SysAns)} {tmp : Bytes} {pos base : Nat} (h : BackFilled l tmp pos base) (n : Nat) (bs : Bytes)
    (hl : pos + bs.length ≤ tmp.length) :
    BackFilled (l ++ [(.pread n (base + pos), .read bs)]) (tmp.take pos ++ bs ++ tmp.drop (pos + bs.length)) (pos + bs.length) base := by
  refine ⟨by rw [length_overlay _ _ _ hl]; exact hl, fun i hi => ?_⟩
  rw [lastRead_append_read]
  by_cases hp : i < pos
  · rw [if_neg (by omega), h.2 i hp, List.append_assoc, List.getElem?_append_left (by simp; omega), List.getElem?_take_of_lt hp]
  · rw [if_pos (by omega), List.append_assoc, List.getElem?_append_right (by simp; omega),
      List.getElem?_append_left (by simp; omega)]
    congr 1
    simp; omega

/-- Reading back: if there was no bad read, or tracing is off, the buffer is filled with what was read last. -/
theorem readBack_sp (base : Nat) (l0 : List (SysCall × SysAns)) : ∀ (fuel : Nat) (tmp : Bytes) (pos len : Nat) (s : OsState)
    (l : List (SysCall × SysAns)), s.log = l0 ++ l → OnlyReads l → pos + len ≤ tmp.length → BackFilled l tmp pos base →
    Sp (readBack fuel tmp pos len (base + pos)) s (fun got s' => s'.file = s.file ∧ s'.errinfo = s.errinfo ∧
      ∃ l', s'.log = l0 ++ l' ∧ OnlyReads l' ∧ got.length = tmp.length ∧
        ((s.file.tracing = true → ReadsGood l') → BackFilled l' got (pos + len) base))
      (fun _ _ => True)
  | 0, tmp, pos, len, s, l, _, _, _, _ => Sp.throw trivial
  | fuel + 1, tmp, pos, len, s, l, hl, ho, hb, hF => by
    unfold readBack
    split
    · rename_i h0
      subst h0
      exact Sp.pure ⟨rfl, rfl, l, hl, ho, rfl, fun _ => hF⟩
    rename_i h0
    refine Sp.get_bind ?_
    refine Sp.bind' (sysCall_sp _ s) ?_ (fun _ _ _ => trivial)
    rintro a s1 ⟨hf, rest, ha, rfl⟩
    have ho' : OnlyReads (l ++ [(.pread len (base + pos), a)]) := by
      intro e he
      rcases List.mem_append.1 he with he | he
      · exact ho e he
      · rw [List.mem_singleton.1 he]; exact ⟨_, _, rfl⟩
    split
    · rename_i bs
      have hbs : bs.length ≤ len := by simpa [SysCall.fits] using hf
      split
      · rename_i ht
        refine Sp.pure ⟨rfl, rfl, l ++ [(.pread len (base + pos), .read bs)], by simp [hl], ho', rfl, fun hg => ?_⟩
        obtain ⟨bs', e, hne⟩ := hg ht.1 len (base + pos) (.read bs) (by simp)
        cases e
        exact absurd ht.2 hne
      · have hx : base + pos + bs.length = base + (pos + bs.length) := by omega
        rw [hx]
        refine (readBack_sp base l0 fuel _ (pos + bs.length) (len - bs.length) _ (l ++ [(.pread len (base + pos), .read bs)])
          (by simp [hl]) ho' (by rw [length_overlay _ _ _ (by omega)]; omega) (hF.read len bs (by omega))).mono ?_ (fun _ _ _ => trivial)
        rintro got s' ⟨h1, h2, l', h3, h4, h5, h6⟩
        refine ⟨h1, h2, l', h3, h4, by rw [h5, length_overlay _ _ _ (by omega)], fun hg => ?_⟩
        have := h6 hg
        rwa [show pos + bs.length + (len - bs.length) = pos + len by omega] at this
    · rename_i e
      split
      · rename_i ht
        refine Sp.pure ⟨rfl, rfl, l ++ [(.pread len (base + pos), .fail e)], by simp [hl], ho', rfl, fun hg => ?_⟩
        obtain ⟨bs', e, _⟩ := hg ht len (base + pos) (.fail e) (by simp)
        cases e
      · split
        · exact Sp.throw trivial
        · rename_i hp
          have hx : base + pos - 1 = base + (pos - 1) := by omega
          rw [hx]
          refine (readBack_sp base l0 fuel tmp (pos - 1) (len + 1) _ (l ++ [(.pread len (base + pos), .fail e)])
            (by simp [hl]) ho' (by omega) ⟨by have := hF.1; omega, fun i hi => by
              rw [lastRead_append_fail]; exact hF.2 i (by omega)⟩).mono ?_ (fun _ _ _ => trivial)
          rintro got s' ⟨h1, h2, l', h3, h4, h5, h6⟩
          refine ⟨h1, h2, l', h3, h4, h5, fun hg => ?_⟩
          have := h6 hg
          rwa [show pos - 1 + (len + 1) = pos + len by omega] at this
    · exact Sp.throw trivial

/-- What the validation of a write of `n` bytes of `buf` to `off` found out with some reads. -/
def WriteFound (E : Env) (buf : Bytes) (n off : Nat) (tracing : Bool) (reads : List (SysCall × SysAns)) : Prop :=
  ∃ got : Bytes, got.length = min n 8192 ∧ E.crc32c got = E.crc32c (buf.take (min n 8192)) ∧
    ((tracing = true → ReadsGood reads) → ∀ i, i < min n 8192 → lastRead reads (off + i) = got[i]?)

theorem validateWrite_sp (E : Env) (tmp buf : Bytes) (n off : Nat) (ht : tmp.length = 8192) (s : OsState) :
    Sp (validateWrite E tmp buf n off) s (fun ok s' => s'.file = s.file ∧ s'.errinfo = s.errinfo ∧
      ∃ l, s'.log = s.log ++ l ∧ OnlyReads l ∧ (ok = true → WriteFound E buf n off s.file.tracing l)) (fun _ _ => True) := by
  unfold validateWrite
  have hm : (if n < 8192 then n else 8192) = min n 8192 := by split <;> omega
  simp only [hm]
  refine Sp.get_bind ?_
  have := readBack_sp off s.log (s.answers.length + 1) tmp 0 (min n 8192) s [] (by simp) (fun _ h => nomatch h)
    (by omega) ⟨by omega, fun i hi => absurd hi (by omega)⟩
  rw [Nat.add_zero] at this
  refine Sp.bind' this ?_ (fun _ _ _ => trivial)
  rintro got s' ⟨h1, h2, l, h3, h4, h5, h6⟩
  refine Sp.pure ⟨h1, h2, l, h3, h4, fun hv => ⟨got.take (min n 8192), by simp; omega, (beq_iff_eq.1 hv).symm, fun hg i hi => ?_⟩⟩
  rw [(h6 hg).2 i (by omega), List.getElem?_take_of_lt hi]

/-- `write`. -/
theorem osPwrite_sp (E : Env) (tmp buf : Bytes) (off : Nat) (ht : tmp.length = 8192) (s : OsState) :
    Sp (osPwrite E tmp buf off) s (fun r s' => ∃ k a rest, a ≠ .fail EINTR ∧
      s'.log = s.log ++ interrupted (.pwrite buf off) k ++ [(.pwrite buf off, a)] ++ rest ∧
      ((∃ e, a = .fail e ∧ r = .error (.io (-7)) ∧ s'.errinfo = some e ∧ rest = [] ∧ s'.file = s.file) ∨
       ∃ n reads tail, a = .wrote n ∧ n ≤ buf.length ∧ rest = reads ++ tail ∧ OnlyReads reads ∧
        (s.file.validate = false → reads = []) ∧
        ((s.file.validate = true ∧ r = .error .checksumFail ∧ tail = [] ∧ s'.file = s.file) ∨
         ((s.file.validate = true → WriteFound E buf n off s.file.tracing reads) ∧
          if s.file.period > 0 ∧ s.file.sinceSync + n ≥ s.file.period then
            s'.file = { s.file with sinceSync := 0 } ∧ ∃ b, tail = [(.fdatasync, b)] ∧
              ((∃ e, b = .fail e ∧ r = .error (.io (-7)) ∧ s'.errinfo = some e) ∨ ((∃ v, b = .did v) ∧ r = .ok n))
          else s'.file = { s.file with sinceSync := s.file.sinceSync + n } ∧ tail = [] ∧ r = .ok n))))
      (fun _ _ => True) := by
  unfold osPwrite
  refine Sp.bind' (retry_sp _ s) ?_ (fun e _ h => trivial)
  rintro a s1 ⟨hf, hi, h1, h2, k, h3⟩
  split
  · rename_i e
    exact Sp.modify_bind <| Sp.pure ⟨k, _, [], hi, by simpa using h3, .inl ⟨e, rfl, rfl, rfl, rfl, h1⟩⟩
  · rename_i n
    have hn : n ≤ buf.length := by simpa [SysCall.fits] using hf
    have key : Sp (checkWrite E tmp buf n off) s1
        (fun ok s' => s'.file = s.file ∧ ∃ l, s'.log = s1.log ++ l ∧ OnlyReads l ∧
          (s.file.validate = false → l = [] ∧ ok = true) ∧
          (ok = true → s.file.validate = true → WriteFound E buf n off s.file.tracing l)) (fun _ _ => True) := by
      unfold checkWrite
      refine Sp.get_bind ?_
      split
      · rename_i hv
        refine (validateWrite_sp E tmp buf n off ht s1).mono ?_ (fun _ _ _ => trivial)
        rintro ok s' ⟨g1, g2, l, g3, g4, g5⟩
        rw [h1] at g1 g5 hv
        exact ⟨g1, l, g3, g4, fun hv' => absurd hv (by simp [hv']), fun h _ => g5 h⟩
      · rename_i hv
        rw [h1] at hv
        exact Sp.pure ⟨h1, [], by simp, fun _ h => (nomatch h), fun _ => ⟨rfl, rfl⟩, fun _ h => absurd h hv⟩
    refine Sp.bind' key ?_ (fun e _ h => trivial)
    rintro ok s2 ⟨g1, l, g3, g4, g5, g6⟩
    have hlog : s2.log = s.log ++ interrupted (.pwrite buf off) k ++ [(.pwrite buf off, .wrote n)] ++ l := by
      rw [g3, h3]
    cases ok with
    | false =>
      refine Sp.pure ⟨k, _, l, hi, hlog, .inr ⟨n, l, [], rfl, hn, by simp, g4, fun h => (g5 h).1, .inl ⟨?_, rfl, rfl, g1⟩⟩⟩
      cases hv : s.file.validate with
      | true => rfl
      | false => exact absurd (g5 hv).2 (by simp)
    | true =>
      refine Sp.modify_bind (Sp.get_bind ?_)
      simp only [g1]
      split
      · rename_i hc
        refine Sp.bind' (osSync_sp _) ?_ (fun e _ h => trivial)
        rintro r s3 ⟨e1, b, e2, e3⟩
        refine Sp.modify_bind ?_
        rcases e3 with ⟨e, hb, rfl, he⟩ | ⟨hne, rfl⟩
        · refine Sp.pure ⟨k, _, l ++ [(.fdatasync, b)], hi, ?_, .inr ⟨n, l, [(.fdatasync, b)], rfl, hn, rfl, g4, fun h => (g5 h).1,
            .inr ⟨g6 rfl, ?_⟩⟩⟩
          · show s3.log = _
            rw [e2, ← List.append_assoc, ← hlog]
          · rw [if_pos hc]
            exact ⟨by rw [e1], b, rfl, .inl ⟨e, hb, rfl, he⟩⟩
        · refine Sp.pure ⟨k, _, l ++ [(.fdatasync, b)], hi, ?_, .inr ⟨n, l, [(.fdatasync, b)], rfl, hn, rfl, g4, fun h => (g5 h).1,
            .inr ⟨g6 rfl, ?_⟩⟩⟩
          · show s3.log = _
            rw [e2, ← List.append_assoc, ← hlog]
          · rw [if_pos hc]
            exact ⟨by rw [e1], b, rfl, .inr ⟨hne, rfl⟩⟩
      · rename_i hc
        refine Sp.pure ⟨k, _, l, hi, hlog, .inr ⟨n, l, [], rfl, hn, by simp, g4, fun h => (g5 h).1, .inr ⟨g6 rfl, ?_⟩⟩⟩
        rw [if_neg hc]
        exact ⟨rfl, rfl, rfl⟩
  · exact Sp.throw trivial

theorem foldl_lastRead_skip (x : Nat) : ∀ (l : List (SysCall × SysAns)) (k : Option UInt8), (∀ e ∈ l, ∀ n o, e.1 ≠ .pread n o) →
    l.foldl (lastReadStep x) k = k
  | [], _, _ => rfl
  | (c, a) :: l, k, h => by
    rw [List.foldl_cons]
    have : lastReadStep x k (c, a) = k := by
      cases c <;> first | rfl | exact absurd rfl (h _ List.mem_cons_self _ _)
    rw [this]
    exact foldl_lastRead_skip x l k (fun e he => h e (by simp [he]))

theorem lastRead_middle (x : Nat) (a b c : List (SysCall × SysAns)) (ha : ∀ e ∈ a, ∀ n o, e.1 ≠ .pread n o)
    (hc : ∀ e ∈ c, ∀ n o, e.1 ≠ .pread n o) : lastRead (a ++ b ++ c) x = lastRead b x := by
  unfold lastRead
  rw [List.foldl_append, List.foldl_append, foldl_lastRead_skip x a _ ha, foldl_lastRead_skip x c _ hc]

/-! ### Periodic synchronisation -/

theorem unsynced_append (l m : List (SysCall × SysAns)) : unsynced (l ++ m) = m.foldl unsyncedStep (unsynced l) := by
  simp only [unsynced, List.foldl_append]

theorem unsynced_onlyReads (l : List (SysCall × SysAns)) : ∀ (m : List (SysCall × SysAns)), OnlyReads m → unsynced (l ++ m) = unsynced l
  | [], _ => by simp
  | e :: m, h => by
    obtain ⟨n, off, he⟩ := h e (by simp)
    have ih := unsynced_onlyReads (l ++ [e]) m (fun x hx => h x (by simp [hx]))
    rw [List.append_assoc] at ih
    rw [show l ++ e :: m = l ++ ([e] ++ m) from rfl, ih, unsynced_append]
    obtain ⟨c, a⟩ := e
    cases he
    rfl

theorem unsynced_interrupted (l : List (SysCall × SysAns)) (c : SysCall) (hc : c ≠ .fdatasync) : ∀ k,
    unsynced (l ++ interrupted c k) = unsynced l
  | 0 => by simp [interrupted]
  | k + 1 => by
    have ih := unsynced_interrupted (l ++ [(c, .fail EINTR)]) c hc k
    rw [List.append_assoc] at ih
    rw [show l ++ interrupted c (k + 1) = l ++ ([(c, SysAns.fail EINTR)] ++ interrupted c k) from rfl, ih, unsynced_append]
    cases c <;> first | rfl | exact absurd rfl hc

theorem unsynced_wrote (l : List (SysCall × SysAns)) (buf : Bytes) (off n : Nat) :
    unsynced (l ++ [(.pwrite buf off, .wrote n)]) = unsynced l + n := by
  rw [unsynced_append]; rfl

theorem unsynced_failed (l : List (SysCall × SysAns)) (buf : Bytes) (off n : Nat) :
    unsynced (l ++ [(.pwrite buf off, .fail n)]) = unsynced l := by
  rw [unsynced_append]; rfl

theorem unsynced_sync (l : List (SysCall × SysAns)) (a : SysAns) : unsynced (l ++ [(.fdatasync, a)]) = 0 := by
  rw [unsynced_append]; rfl

/-- A successful write keeps the bound on what is not synchronised. -/
theorem osPwrite_unsynced (E : Env) (tmp buf : Bytes) (off : Nat) (ht : tmp.length = 8192) (s s' : OsState) (r : Except Err Nat)
    (h : osPwrite E tmp buf off s = .ok r s') (hr : r ≠ .error .checksumFail) (hs : unsynced s.log ≤ s.file.sinceSync) :
    unsynced s'.log ≤ s'.file.sinceSync ∧
      ∀ n, r = .ok n → s'.file.period > 0 → unsynced s'.log < s'.file.period := by
  obtain ⟨k, a, rest, hi, hl, hc⟩ := (osPwrite_sp E tmp buf off ht s).ok h
  rcases hc with ⟨e, rfl, rfl, he, rfl, hf⟩ | ⟨n, reads, tail, rfl, hn, rfl, ho, hv, hc⟩
  · refine ⟨?_, fun n hn => nomatch hn⟩
    rw [hl, hf, List.append_nil, unsynced_failed, unsynced_interrupted _ _ (by simp)]
    exact hs
  · have h1 : unsynced (s.log ++ interrupted (.pwrite buf off) k ++ [(.pwrite buf off, .wrote n)] ++ reads) = unsynced s.log + n := by
      rw [unsynced_onlyReads _ _ ho, unsynced_wrote, unsynced_interrupted _ _ (by simp)]
    rw [← List.append_assoc] at hl
    rcases hc with ⟨_, hr', _⟩ | ⟨_, hc⟩
    · exact absurd hr' hr
    · split at hc
      · rename_i hp
        obtain ⟨hf, b, rfl, hc⟩ := hc
        rw [hl, unsynced_sync, hf]
        exact ⟨Nat.zero_le _, fun _ _ h => h⟩
      · rename_i hp
        obtain ⟨hf, rfl, hr'⟩ := hc
        rw [hl, List.append_nil, h1, hf]
        exact ⟨Nat.add_le_add_right hs n, fun _ _ h => by
          have h : s.file.period > 0 := h
          show _ < s.file.period
          omega⟩

theorem osBind_ok {α β : Type} {m : OsM α} {k : α → OsM β} {s s' : OsState} {b : β} (h : (m >>= k) s = .ok b s') :
    ∃ a s1, m s = .ok a s1 ∧ k a s1 = .ok b s' := by
  have h' : EStateM.bind m k s = .ok b s' := h
  unfold EStateM.bind at h'
  cases e : m s with
  | ok a s1 => rw [e] at h'; exact ⟨a, s1, rfl, h'⟩
  | error x s1 => rw [e] at h'; exact nomatch h'

theorem unsynced_other (l : List (SysCall × SysAns)) (c : SysCall) (a : SysAns) (h1 : c ≠ .fdatasync)
    (h2 : ∀ b o, c ≠ .pwrite b o) : unsynced (l ++ [(c, a)]) = unsynced l := by
  rw [unsynced_append]
  cases c <;> first | rfl | exact absurd rfl h1 | exact absurd rfl (h2 _ _)

/-- What is not synchronised is less than what the file has counted. -/
theorem OsRun.counted {E : Env} {s : OsState} (h : OsRun E s) : unsynced s.log ≤ s.file.sinceSync := by
  induction h with
  | opened => exact Nat.le_refl _
  | @step s s' r op h ht e hv ih =>
    cases op with
    | pread n off =>
      obtain ⟨a, s1, h1, h2⟩ := osBind_ok e
      obtain ⟨hf, k, a, _, hl, _⟩ := (osPread_sp n off s).ok h1
      cases h2
      rw [hl, hf, unsynced_other _ _ _ (by simp) (by simp), unsynced_interrupted _ _ (by simp)]
      exact ih
    | pwrite tmp buf off =>
      obtain ⟨a, s1, h1, h2⟩ := osBind_ok e
      cases h2
      refine (osPwrite_unsynced E tmp buf off ht s _ a h1 (fun ha => hv ?_) ih).1
      rw [ha]; rfl
    | sync =>
      obtain ⟨hf, a, hl, _⟩ := (osSync_sp s).ok e
      rw [hl, unsynced_sync]
      exact Nat.zero_le _
    | gotoEof =>
      obtain ⟨a, s1, h1, h2⟩ := osBind_ok e
      cases h2
      unfold osGotoEof at h1
      obtain ⟨a', s2, h3, h4⟩ := osBind_ok h1
      obtain ⟨_, rest, _, rfl⟩ := (sysCall_sp _ s).ok h3
      have : unsynced (s.log ++ [(.lseek, a')]) ≤ s.file.sinceSync := by
        rw [unsynced_other _ _ _ (by simp) (by simp)]; exact ih
      cases a' <;> first | (cases h4; exact this) | exact nomatch h4
    | advise x =>
      have h1 : osAdvise x s = .ok r s' := e
      unfold osAdvise at h1
      obtain ⟨a', s2, h3, h4⟩ := osBind_ok h1
      obtain ⟨_, rest, _, rfl⟩ := (sysCall_sp _ s).ok h3
      have : unsynced (s.log ++ [(.fadvise, a')]) ≤ s.file.sinceSync := by
        rw [unsynced_other _ _ _ (by simp) (by simp)]; exact ih
      cases a' <;> (cases h4; exact this)
    | setPeriod n => cases e; exact ih
    | setTracing => cases e; exact ih
    | setValidation => cases e; exact ih

/-! ### Opening -/

theorem openGo_sp : ∀ (n : Nat) (noatime : Bool) (s : OsState),
    Sp (openGo n noatime) s (fun a s' => a ≠ .fail EINTR ∧ s'.file = s.file ∧ s'.errinfo = s.errinfo ∧
      ((∃ v, a = .did v) ∨ ∃ e, a = .fail e) ∧
      ∃ l flag, s'.log = s.log ++ l ++ [(.opn flag, a)] ∧
        (a = .fail EPERM → flag = false) ∧
        ∀ x ∈ l, ∃ f, x = (.opn f, .fail EINTR) ∨ x = (.opn true, .fail EPERM)) (fun e _ => e = .diverge)
  | 0, _, s => Sp.throw rfl
  | n + 1, noatime, s => by
    unfold openGo
    refine Sp.bind' (sysCall_sp _ s) ?_ (fun e _ h => h)
    rintro a s1 ⟨hf, rest, ha, rfl⟩
    have step : ∀ (na : Bool) (x : SysCall × SysAns), (∃ f, x = (.opn f, .fail EINTR) ∨ x = (.opn true, .fail EPERM)) →
        Sp (openGo n na) { s with answers := rest, log := s.log ++ [x] } (fun a s' => a ≠ .fail EINTR ∧ s'.file = s.file ∧ s'.errinfo = s.errinfo ∧
      ((∃ v, a = .did v) ∨ ∃ e, a = .fail e) ∧
      ∃ l flag, s'.log = s.log ++ l ++ [(.opn flag, a)] ∧ (a = .fail EPERM → flag = false) ∧
        ∀ x ∈ l, ∃ f, x = (.opn f, .fail EINTR) ∨ x = (.opn true, .fail EPERM)) (fun e _ => e = .diverge) := by
      intro na x hx
      refine (openGo_sp n na _).mono ?_ (fun e _ h => h)
      rintro a s' ⟨h1, h2, h3, h4, l, flag, h5, h6, h7⟩
      refine ⟨h1, h2, h3, h4, x :: l, flag, by rw [h5]; simp, h6, fun y hy => ?_⟩
      rcases List.mem_cons.1 hy with rfl | hy
      · exact hx
      · exact h7 y hy
    split
    · rename_i e
      split
      · rename_i hc
        obtain ⟨rfl, rfl⟩ := hc
        exact step false _ ⟨true, .inr rfl⟩
      · rename_i hc
        split
        · rename_i hne
          refine Sp.pure ⟨fun h => hne (by cases h; rfl), rfl, rfl, .inr ⟨e, rfl⟩, [], noatime, by simp, fun h => ?_, fun _ h => nomatch h⟩
          cases h
          cases noatime with
          | false => rfl
          | true => exact absurd ⟨rfl, rfl⟩ hc
        · rename_i he
          have he : e = EINTR := Decidable.byContradiction he
          subst he
          exact step noatime _ ⟨noatime, .inl rfl⟩
    · rename_i hne
      cases a with
      | did v => exact Sp.pure ⟨by simp, rfl, rfl, .inl ⟨v, rfl⟩, [], noatime, by simp, fun h => (nomatch h), fun _ h => nomatch h⟩
      | fail e => exact absurd rfl (hne e)
      | read => simp [SysCall.fits] at hf
      | wrote => simp [SysCall.fits] at hf

theorem osOpen_sp (rdwr : Bool) (s : OsState) (hs : s.file.fd = none) :
    Sp (osOpen rdwr) s (fun r s' => ∃ l flag a, s'.log = s.log ++ l ++ [(.opn flag, a)] ∧ a ≠ .fail EINTR ∧
      (∀ x ∈ l, ∃ f, x = (.opn f, .fail EINTR) ∨ x = (.opn true, .fail EPERM)) ∧ (a = .fail EPERM → flag = false) ∧
      ((∃ fd, a = .did fd ∧ r = .ok () ∧ s'.file = { fd := some fd }) ∨
       (∃ e, a = .fail e ∧ r = .error (if e = ENOENT then .noSuchFile else .openFile) ∧ s'.errinfo = some e ∧ s'.file.fd = none)))
      (fun e _ => e = .diverge) := by
  unfold osOpen
  refine Sp.get_bind ?_
  rw [if_neg (by simp [hs])]
  refine Sp.bind' (openGo_sp _ _ s) ?_ (fun e _ h => h)
  rintro a s1 ⟨h1, h2, h3, h4, l, flag, h5, h6, h7⟩
  split
  · rename_i fd
    exact Sp.modify_bind <| Sp.pure ⟨l, flag, _, h5, h1, h7, h6, .inl ⟨fd, rfl, rfl, rfl⟩⟩
  · rename_i e
    exact Sp.modify_bind <| Sp.pure ⟨l, flag, _, h5, h1, h7, h6, .inr ⟨e, rfl, rfl, rfl, by show s1.file.fd = none; rw [h2, hs]⟩⟩
  · exact Sp.throw rfl

end Couchstore
