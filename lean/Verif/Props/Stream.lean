import Verif.Lemmas.Stream
import Verif.Props.Save

/-! C52, C53: streams of checksummed or encrypted chunks. -/

namespace Couchstore.Props

/-- **C52.**  A stream is a file of bytes.  For a file that consists of chunks (a new, empty one too), every sequence of writes at
the end, reads, flushes and seeks, every size of the write buffer and every misbehaviour of the file (short reads and writes,
errors; but no read of 0 bytes before the end), the results are those of a file of bytes up to the first error, and there is
an error only if the file misbehaved. -/
theorem C52_stream_is_tape (E : Env) (K : StreamKind) (maxWrite : Nat) (hK : K.Fits maxWrite) (hmw : 1 ≤ maxWrite) (f : File)
    (cs : List Bytes) (hf : Chunks E K cs f.disk) (hne : ∀ c ∈ cs, c ≠ []) (h0 : .short 0 ∉ f.faults)
    (ops : List StreamOp) (rs : List StreamRes) (hrs : (ByteTape.mk cs.flatten 0 false).run ops = some rs) :
    (runStream E K maxWrite ops (Strm.open f)).1 <+: rs ∧
      ((runStream E K maxWrite ops (Strm.open f)).2 = none → (runStream E K maxWrite ops (Strm.open f)).1 = rs) ∧
      ((runStream E K maxWrite ops (Strm.open f)).2 ≠ none → f.faults ≠ []) :=
  runStream_spec hK hmw ops _ _ rs (isTape_reopen E K maxWrite f cs hf hne) h0 hrs

/-- **C52.**  What was written and flushed is in the file: it consists of chunks with exactly these bytes, so that
`C52_stream_is_tape` applies when it is opened again. -/
theorem C52_reopen (E : Env) (K : StreamKind) (maxWrite : Nat) (hK : K.Fits maxWrite) (hmw : 1 ≤ maxWrite) (f : File)
    (hf : f.disk = []) (b : Bytes) :
    (∀ u s, writeAndFlush E K maxWrite b (Strm.open f) = .ok u s →
      ∃ cs, Chunks E K cs s.file.disk ∧ (∀ c ∈ cs, c ≠ []) ∧ cs.flatten = b) ∧
    (∀ e s, writeAndFlush E K maxWrite b (Strm.open f) = .error e s → f.faults ≠ []) := by
  have : Sp (writeAndFlush E K maxWrite b) (Strm.open f)
      (fun _ s => ∃ cs, Chunks E K cs s.file.disk ∧ (∀ c ∈ cs, c ≠ []) ∧ cs.flatten = b) (fun _ _ => f.faults ≠ []) := by
    unfold writeAndFlush
    apply Sp.bind' (chunkWrite_spec hK hmw b (isTape_open E K maxWrite f hf) rfl)
    · rintro _ s1 ⟨a1, a2⟩
      refine (chunkFlush_spec hK a1).mono ?_ ?_
      · rintro _ s2 ⟨_, _, _, _, cs, c1, c2, c3⟩
        exact ⟨cs, c1, c2, by simpa using c3.symm⟩
      · intro _ _ h; exact suffix_ne_nil a2 h
    · intro _ _ h; exact h
  exact ⟨fun _ _ hm => this.ok hm, fun _ _ hm => this.error hm⟩

/-- **C52.**  Records that were written are read back in the same order, and then there are no more. -/
theorem C52_records (E : Env) (K : StreamKind) (maxWrite : Nat) (hK : K.Fits maxWrite) (hmw : 1 ≤ maxWrite) (f : File)
    (hf : f.disk = []) (h0 : .short 0 ∉ f.faults) (kvs : List (Bytes × Bytes))
    (hl : ∀ kv ∈ kvs, kv.1.length < 2 ^ 32 ∧ kv.2.length < 2 ^ 32) (fuel : Nat) (hfuel : kvs.length < fuel) :
    (∀ out s, recordTrip E K maxWrite fuel kvs (Strm.open f) = .ok out s → out = kvs) ∧
    (∀ e s, recordTrip E K maxWrite fuel kvs (Strm.open f) = .error e s → f.faults ≠ []) := by
  have : Sp (recordTrip E K maxWrite fuel kvs) (Strm.open f)
      (fun out _ => out = kvs) (fun _ _ => f.faults ≠ []) := by
    unfold recordTrip
    apply Sp.bind' (writeRecords_spec hK hmw kvs _ _ (isTape_open E K maxWrite f hf) rfl)
    · rintro _ s1 ⟨d, a1, a2⟩
      have hseek := streamOp_spec hK hmw a1 (fun h => h0 (a2.subset h)) .seekBegin rfl
      have hseek' : Sp (chunkSeekBegin E K) s1
          (fun _ s' => IsTape E K maxWrite s' ⟨([] : Bytes) ++ (kvs.map recordBytes).flatten, 0, false⟩ ∧ s'.file.faults <:+ s1.file.faults)
          (fun _ _ => s1.file.faults ≠ []) := by
        unfold StreamOp.run at hseek
        unfold Sp at hseek ⊢
        simp only [bind, EStateM.bind] at hseek
        cases hm : chunkSeekBegin E K s1 with
        | ok a s' => rw [hm] at hseek; exact hseek.2
        | error e s' => rw [hm] at hseek; exact hseek
      apply Sp.bind' hseek'
      · rintro _ s2 ⟨b1, b2⟩
        refine (readRecords_spec kvs fuel s2 _ b1 (fun h => h0 ((b2.trans a2).subset h)) (by simp) hl (by simp) hfuel).mono
          (fun _ _ h => h) ?_
        intro _ _ h; exact suffix_ne_nil (b2.trans a2) h
      · intro _ _ h; exact suffix_ne_nil a2 h
    · intro _ _ h; exact h
  exact ⟨fun _ _ hm => this.ok hm, fun _ _ hm => this.error hm⟩

/-- **C53** (partial).  Whatever is in the file: the bytes that reads deliver before the first error or end are, in order, bytes
of chunks at the beginning of the file whose checksum or authentication code is right; the reads give as many bytes as asked;
and the end is reported only if the rest of the chunks is shorter than what was asked and nothing, or only a piece of a
header, follows.
Missing: reads after an error (`C53_after_checksum_error`), and a file that was cut within a header
(`C53_cut_header_unnoticed`). -/
theorem C53_verified_partial (E : Env) (K : StreamKind) (maxWrite : Nat) (f : File) (ns : List Nat) (bs : List Bytes)
    (more : List StreamRes) (h : (runStream E K maxWrite (ns.map .read) (Strm.open f)).1 = bs.map .bytes ++ more) :
    bs.map List.length = ns.take bs.length ∧
    (∃ cs e, Chunks E K cs e ∧ e <+: f.disk ∧ bs.flatten <+: cs.flatten) ∧
    (more = [] → (runStream E K maxWrite (ns.map .read) (Strm.open f)).2 ≠ some .diverge) ∧
    (∀ more', more = .eof :: more' → ∃ n, ns[bs.length]? = some n ∧ ReadToEnd E K f bs.flatten n) := by
  have := reads_any E K maxWrite ns (Strm.open f) [] (verified_open E K f) bs more h
  simp only [List.nil_append] at this
  exact this

/-! ### Non-vacuity and witnesses -/

/-- A cipher for examples: the number of the use, a sum, and the bytes in the clear. -/
def toySealer : Sealer where
  lock i b := UInt8.ofNat i :: b.foldl (· + ·) 0 :: b
  unlock
    | _ :: c :: b => if c = b.foldl (· + ·) 0 then some b else none
    | _ => none
  overhead := 2

theorem toySealer_laws : toySealer.Laws :=
  ⟨fun i b => by simp [toySealer], fun i b => by simp [toySealer]; omega⟩

theorem fits_checksum : StreamKind.Fits 4 .checksum := by show 4 + 4 < 2 ^ 32; omega

theorem fits_toy : StreamKind.Fits 4 (.encrypted toySealer) := ⟨toySealer_laws, by show 4 + 2 < 2 ^ 32; omega⟩

/-- An empty file whose raw operations misbehave. -/
def streamFile (fs : List Fault) : File := { disk := [], pos := 0, cfg := { crcMode := .crc32c, cipher := none, kvThr := 100, kpThr := 100 }, faults := fs, log := [] }

def streamOps : List StreamOp :=
  [.write [1, 2, 3], .write [4, 5, 6, 7, 8, 9, 10], .flush, .write [11], .seekBegin, .read 5, .read 5, .read 1, .read 1, .write [12],
    .seekBegin, .read 12]

def streamOut : List StreamRes :=
  [.done, .done, .done, .done, .done, .bytes [1, 2, 3, 4, 5], .bytes [6, 7, 8, 9, 10], .bytes [11], .eof, .done, .done,
    .bytes [1, 2, 3, 4, 5, 6, 7, 8, 9, 10, 11, 12]]

example : (ByteTape.mk [] 0 false).run streamOps = some streamOut := by decide +kernel
example : runStream Env.toy .checksum 4 streamOps (Strm.open (streamFile [.short 1, .none, .short 2])) = (streamOut, none) := by
  decide +kernel
example : runStream Env.toy (.encrypted toySealer) 4 streamOps (Strm.open (streamFile [.short 1, .none, .short 2])) = (streamOut, none) := by
  decide +kernel
example : runStream Env.toy .checksum 4 streamOps (Strm.open (streamFile [.none, .none, .none, .none, .none, .none, .none, .none, .none, .err (-2)])) =
    ([.done, .done, .done, .done, .done], some (.io (-2))) := by decide +kernel

example := C52_stream_is_tape Env.toy .checksum 4 fits_checksum (by omega) (streamFile [.short 1, .none, .short 2]) [] .nil (by simp)
  (by decide) streamOps streamOut (by decide +kernel)
example := C52_stream_is_tape Env.toy (.encrypted toySealer) 4 fits_toy (by omega) (streamFile [.short 1, .none, .short 2]) [] .nil
  (by simp) (by decide) streamOps streamOut (by decide +kernel)
example := C52_reopen Env.toy (.encrypted toySealer) 4 fits_toy (by omega) (streamFile [.short 0, .short 1]) rfl [1, 2, 3, 4, 5, 6]
example := C52_records Env.toy .checksum 4 fits_checksum (by omega) (streamFile [.short 1]) rfl (by decide)
  [([1], [2, 3, 4, 5, 6]), ([], []), ([7], [])] (by decide) 4 (by decide)

/-- A file with one good chunk and one whose checksum is wrong. -/
def corruptStream (K : StreamKind) : File :=
  match writeAndFlush Env.toy K 4 [1, 2, 3, 4, 5, 6, 7] (Strm.open (streamFile [])) with
  | .ok _ s => { s.file with disk := s.file.disk.take (s.file.disk.length - 1) ++ [99] }
  | .error _ s => s.file

example : runStream Env.toy .checksum 4 ([3, 1, 2].map .read) (Strm.open (corruptStream .checksum)) =
    ([.bytes [1, 2, 3], .bytes [4]], some .checksumFail) := by decide +kernel
example := C53_verified_partial Env.toy .checksum 4 (corruptStream .checksum) [3, 1, 2] [[1, 2, 3], [4]] [] (by decide +kernel)

/-- Reads one after the other, after errors too. -/
def readOn (E : Env) (K : StreamKind) : List Nat → Strm → List (Except Err (Option Bytes))
  | [], _ => []
  | n :: ns, s =>
    match chunkRead E K n s with
    | .ok r s' => .ok r :: readOn E K ns s'
    | .error e s' => .error e :: readOn E K ns s'

/-- The file without its first chunk. -/
def corruptTail (K : StreamKind) (n : Nat) : File := { corruptStream K with disk := (corruptStream K).disk.drop n }

/-- **C53** (negative).  A read after a checksum error delivers bytes of the corrupt chunk, a read after a decryption error
bytes of the message that could not be decrypted. -/
theorem C53_after_checksum_error :
    readOn Env.toy .checksum [1, 3] (Strm.open (corruptTail .checksum 12)) =
      [.error .checksumFail, .ok (some [5, 6, 99])] ∧
    readOn Env.toy (.encrypted toySealer) [1, 5] (Strm.open (corruptTail (.encrypted toySealer) 10)) =
      [.error .decrypt, .ok (some [1, 18, 5, 6, 99])] := by
  decide +kernel

/-- **C53** (negative).  A read after a checksum error can also stop the program: the place in the old chunk is past the end of
the new one. -/
theorem C53_after_checksum_abort :
    readOn Env.toy .checksum [4, 1, 1] (Strm.open (corruptStream .checksum)) =
      [.ok (some [1, 2, 3, 4]), .error .checksumFail, .error .assertFail] := by
  decide +kernel

/-- The file of `writeAndFlush` with 7 bytes, cut to `n` bytes. -/
def cutStream (K : StreamKind) (n : Nat) : File :=
  match writeAndFlush Env.toy K 4 [1, 2, 3, 4, 5, 6, 7] (Strm.open (streamFile [])) with
  | .ok _ s => { s.file with disk := s.file.disk.take n }
  | .error _ s => s.file

/-- **C53** (negative).  If the file was cut within the header of a chunk, reads report the end of the file and no error; within
the contents of a chunk they report an error. -/
theorem C53_cut_header_unnoticed :
    runStream Env.toy .checksum 4 [.read 4, .read 1] (Strm.open (cutStream .checksum 19)) = ([.bytes [1, 2, 3, 4], .eof], none) ∧
    runStream Env.toy .checksum 4 [.read 4, .read 1] (Strm.open (cutStream .checksum 22)) = ([.bytes [1, 2, 3, 4]], some .read) := by
  decide +kernel

/-- **C52** (negative).  A flush between reads loses the rest of the chunk. -/
theorem C52_flush_skips :
    runStream Env.toy .checksum 4 [.read 2, .read 2, .read 2] (Strm.open (cutStream .checksum 23)) =
      ([.bytes [1, 2], .bytes [3, 4], .bytes [5, 6]], none) ∧
    runStream Env.toy .checksum 4 [.read 2, .flush, .read 2] (Strm.open (cutStream .checksum 23)) =
      ([.bytes [1, 2], .done, .bytes [5, 6]], none) := by
  decide +kernel

end Couchstore.Props
