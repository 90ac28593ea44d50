import Verif.Lemmas.BufferRun

/-! C29 and C30: using a file through the I/O buffer.

`bufRun ops (BFile.open f p)` are the results of the operations `ops` through the buffer on the
file `f`, with the handle afterwards; `rawRun ops f` are those of the same operations on the raw
file.  `f.log = []` says that recording of the events begins here. -/

namespace Couchstore.Props

/-- **C29.** While no raw operation fails, the operations through the buffer have the same results
as without it, and the underlying file has the same content after one more sync; for every file,
buffer size, number of buffers and sequence of operations.  Missing: releases of the buffers while
something written is waiting in them (see `C29_release_drops_writes`). -/
theorem C29_buffered_equals_direct_partial (f : File) (p : BufParams) (ops : List FOp)
    (hcap : 0 < p.readCap) (hmax : 0 < p.maxRead) (hlog : f.log = []) (hf : f.faults = [])
    (hrel : ReleasesOk true ops (rawRun ops f).1) :
    (bufRun ops (BFile.open f p)).1 = (rawRun ops f).1 ∧
    (bufRun (ops ++ [.sync]) (BFile.open f p)).2.raw.disk = (rawRun ops f).2.disk := by
  have h := bufRun_exact ops (BFile.open f p) [] true f (BInv.open f p hlog) hcap hmax
    (fun _ => rfl) hf hf hlog rfl hrel
  obtain ⟨h1, h2, h3, h4, h5, h6⟩ := h
  refine ⟨h1, ?_⟩
  rw [bufRun_append]
  obtain ⟨L', hs⟩ := bufSync_step h2
  obtain ⟨e1, e2, e3, e4⟩ := hs.exact h4 _ h5 rfl h6
  show (bufOp .sync _).2.raw.disk = _
  have hd : (bufOp .sync (bufRun ops (BFile.open f p)).2).1 = .done := by
    rw [← e1]
    generalize (rawRun ops f).2 = g at *
    obtain ⟨disk, pos, cfg, faults, log⟩ := g
    simp only at h5
    subst h5
    rfl
  have hc := hs.inv.w.content
  rw [hs.sync rfl hd, pwriteDisk_nil] at hc
  rw [← hc, ← e3]
  generalize (rawRun ops f).2 = g at *
  obtain ⟨disk, pos, cfg, faults, log⟩ := g
  simp only at h5
  subst h5
  rfl

/-- **C29, with failing and short raw operations.**  The results are those that the operations may
have on a file without buffer (`Direct`): in particular what a successful read delivers is what was
written before, whether it has left the buffer or not.  A later successful sync leaves exactly that
content in the underlying file. -/
theorem C29_buffered_with_failures_partial (f : File) (p : BufParams) (ops : List FOp)
    (hcap : 0 < p.readCap) (hmax : 0 < p.maxRead) (hlog : f.log = [])
    (hrel : ReleasesOk true ops (bufRun ops (BFile.open f p)).1) :
    ∃ L, DirectRun f.disk [] ops (bufRun ops (BFile.open f p)).1 L ∧
      ∀ h', bufSync (bufRun ops (BFile.open f p)).2 = .ok () h' → h'.raw.disk = replay f.disk L := by
  obtain ⟨L, h⟩ := bufRun_spec ops (BFile.open f p) [] true (BInv.open f p hlog) hcap hmax
    (fun _ => rfl) hrel
  refine ⟨L, h.direct, ?_⟩
  intro h' hs
  obtain ⟨L', hst⟩ := bufSync_step h.inv
  have hb : bufOp .sync (bufRun ops (BFile.open f p)).2 = (.done, h') := by
    show (match bufSync _ with | .ok _ h => (FRes.done, h) | .error e h => (.failed e, h)) = _
    rw [hs]
  rw [hb] at hst
  have hc := hst.inv.w.content
  rw [hst.sync rfl rfl, pwriteDisk_nil] at hc
  show h'.raw.disk = _
  have hL : L' = .sync :: L := by
    cases hst.direct; rfl
  rw [hL] at hc
  exact hc.symm

/-- **C30.** A crash at any time during an operation `op` through the buffer, after the operations
`ops` (the log of the raw file is then `l`), leaves an image of the file that a crash may also
leave without the buffer: after `ops`, or after `ops` and `op`. -/
theorem C30_no_new_crash_images (f : File) (p : BufParams) (ops : List FOp) (op : FOp)
    (hcap : 0 < p.readCap) (hmax : 0 < p.maxRead) (hlog : f.log = []) (hf : f.faults = [])
    (hrel : ReleasesOk true (ops ++ [op]) (rawRun (ops ++ [op]) f).1)
    (l : List Event) (img : Bytes)
    (hl1 : (bufRun ops (BFile.open f p)).2.raw.log <:+ l)
    (hl2 : l <:+ (bufRun (ops ++ [op]) (BFile.open f p)).2.raw.log)
    (himg : CrashImage f.disk l img) :
    CrashImage f.disk (rawRun ops f).2.log img ∨
    CrashImage f.disk (rawRun (ops ++ [op]) f).2.log img := by
  have hrel1 : ReleasesOk true ops (rawRun ops f).1 := by
    rw [rawRun_append] at hrel
    exact hrel.left (rawRun_length _ _)
  obtain ⟨h1, h2, h3, h4, h5, h6⟩ := bufRun_exact ops (BFile.open f p) [] true f
    (BInv.open f p hlog) hcap hmax (fun _ => rfl) hf hf hlog rfl hrel1
  have hall := bufRun_exact (ops ++ [op]) (BFile.open f p) [] true f
    (BInv.open f p hlog) hcap hmax (fun _ => rfl) hf hf hlog rfl hrel
  have hlast := ReleasesOk.last ops (BFile.open f p) [] true op (BInv.open f p hlog) hcap hmax
    (fun _ => rfl) (by rw [hall.1]; exact hrel)
  obtain ⟨L', hs⟩ := bufOp_step h2 (h3 ▸ hcap) (h3 ▸ hmax) op hlast
  obtain ⟨e1, e2, e3, e4⟩ := hs.exact h4 _ h5 rfl h6
  rw [bufRun_append] at hl2
  rw [rawRun_append]
  show _ ∨ CrashImage f.disk (rawOp op (rawRun ops f).2).2.log img
  rw [e2]
  rcases hs.crash l hl1 hl2 with h | h
  · exact .inl (h img himg)
  · exact .inr (h img himg)

/-- **C30, with failing and short raw operations**: the image may also be left by a crash of an
execution without the buffer in which the operations have the same results. -/
theorem C30_no_new_crash_images_with_failures (f : File) (p : BufParams) (ops : List FOp) (op : FOp)
    (hcap : 0 < p.readCap) (hmax : 0 < p.maxRead) (hlog : f.log = [])
    (hrel : ReleasesOk true (ops ++ [op]) (bufRun (ops ++ [op]) (BFile.open f p)).1) :
    ∃ L L', DirectRun f.disk [] ops (bufRun ops (BFile.open f p)).1 L ∧
      Direct f.disk L op (bufOp op (bufRun ops (BFile.open f p)).2).1 L' ∧
      ∀ l img, (bufRun ops (BFile.open f p)).2.raw.log <:+ l →
        l <:+ (bufRun (ops ++ [op]) (BFile.open f p)).2.raw.log →
        CrashImage f.disk l img → CrashImage f.disk L img ∨ CrashImage f.disk L' img := by
  have hrel1 : ReleasesOk true ops (bufRun ops (BFile.open f p)).1 := by
    rw [bufRun_append] at hrel
    exact hrel.left (bufRun_length _ _)
  obtain ⟨L, h⟩ := bufRun_spec ops (BFile.open f p) [] true (BInv.open f p hlog) hcap hmax
    (fun _ => rfl) hrel1
  have hlast := ReleasesOk.last ops (BFile.open f p) [] true op (BInv.open f p hlog) hcap hmax
    (fun _ => rfl) hrel
  obtain ⟨L', hs⟩ := bufOp_step h.inv (h.params ▸ hcap) (h.params ▸ hmax) op hlast
  refine ⟨L, L', h.direct, hs.direct, ?_⟩
  intro l img hl1 hl2 himg
  rw [bufRun_append] at hl2
  rcases hs.crash l hl1 hl2 with h | h
  · exact .inl (h img himg)
  · exact .inr (h img himg)

/-! ### What the buffer does change -/

/-- An empty file and small buffers. -/
def bufExFile (faults : List Fault) : File :=
  { disk := [], pos := 0, faults := faults, log := [],
    cfg := { crcMode := .crc32c, cipher := none, kvThr := 1279, kpThr := 1279 } }

/-- Two read buffers of 4 bytes, a write buffer of 6 bytes. -/
def bufExParams : BufParams := { readOnly := false, readCap := 4, maxRead := 2, writeCap := 6 }

/-- **C29 does not hold for releases while something is waiting to be written**: releasing the
buffers drops it. -/
theorem C29_release_drops_writes :
    (bufRun [.write 0 [7], .release, .read 0 1] (BFile.open (bufExFile []) bufExParams)).1 =
      [.wrote 1, .done, .data []] ∧
    (rawRun [.write 0 [7], .release, .read 0 1] (bufExFile [])).1 = [.wrote 1, .done, .data [7]] := by
  decide +kernel

/-- The same after a sync that failed, as at the end of a commit (couch_db.cc:752-774): the bytes
are gone although a later sync succeeds. -/
theorem C29_release_after_failed_sync :
    (bufRun [.write 0 [7], .sync, .release, .sync, .read 0 1]
      (BFile.open (bufExFile [.err (-7)]) bufExParams)).1 =
      [.wrote 1, .failed (.io (-7)), .done, .done, .data []] := by
  decide +kernel

/-- The end of the file as reported through the buffer does not include what is waiting to be
written. -/
theorem C29_end_of_file_without_pending :
    bufGotoEof (bufRun [.write 0 [7]] (BFile.open (bufExFile []) bufExParams)).2 = 0 ∧
    (rawRun [.write 0 [7]] (bufExFile [])).2.disk.length = 1 := by
  decide +kernel

/-- Closing the file does not report that the waiting bytes could not be written. -/
theorem C29_close_loses_writes :
    (bufClose (bufRun [.write 0 [7]] (BFile.open (bufExFile [.err (-7)]) bufExParams)).2).raw.disk
      = [] := by
  decide +kernel

/-! ### The hypotheses are met -/

/-- Overlapping writes, some over the end of the write buffer, reads across several blocks, more
blocks than read buffers, a release after a sync. -/
def bufExOps : List FOp :=
  [.write 0 [1, 2, 3], .write 3 [4, 5, 6, 7, 8], .write 2 [9], .read 0 10, .write 20 [1, 1],
   .read 6 3, .read 1 2, .write 1 [3, 3, 3, 3, 3, 3, 3, 3, 3, 3, 3, 3, 3], .read 0 30, .sync, .release,
   .read 12 9]

example : ReleasesOk true bufExOps (rawRun bufExOps (bufExFile [])).1 := by
  simp [bufExOps, ReleasesOk, rawRun, rawOp, syncFile, pwrite, pread, popFault, bufExFile, doWrite,
    bind, EStateM.bind, pure, EStateM.pure, modify, modifyGet, MonadStateOf.modifyGet,
    EStateM.modifyGet, get, getThe, MonadStateOf.get, EStateM.get]

example : (bufRun bufExOps (BFile.open (bufExFile []) bufExParams)).1 =
    [.wrote 3, .wrote 5, .wrote 1, .data [1, 2, 9, 4, 5, 6, 7, 8], .wrote 2, .data [7, 8, 0],
     .data [2, 9], .wrote 13,
     .data [1, 3, 3, 3, 3, 3, 3, 3, 3, 3, 3, 3, 3, 3, 0, 0, 0, 0, 0, 0, 1, 1], .done, .done,
     .data [3, 3, 0, 0, 0, 0, 0, 0, 1]] := by
  decide +kernel

/-- With failures: a short raw write, a failing one, a failing read. -/
def bufExFaults : List Fault := [.short 2, .err (-4), .none, .short 1, .err (-5)]

example : (bufRun [.write 0 [1, 2, 3], .read 0 3, .read 0 3, .sync, .read 0 3]
    (BFile.open (bufExFile bufExFaults) bufExParams)).1 =
    [.wrote 3, .failed (.io (-4)), .failed (.io (-5)), .done, .data [1, 2, 3]] := by
  decide +kernel

/-- During the sync: one raw write has been made, so the image `[1, 0]` may be found; without the
buffer it may be found before the sync. -/
example : CrashImage [] (bufRun [.write 0 [1], .write 1 [2], .sync]
    (BFile.open (bufExFile []) bufExParams)).2.raw.log.tail [1, 0] := by
  have h : (bufRun [.write 0 [1], .write 1 [2], .sync]
      (BFile.open (bufExFile []) bufExParams)).2.raw.log = [.sync, .write 0 [1, 2]] := by
    decide +kernel
  rw [h]
  refine ⟨by decide, by decide, ?_⟩
  intro i x hx
  match i, hx with
  | 0, hx => exact .inr ⟨Nat.le_refl _, hx⟩
  | 1, hx => exact .inl (.inr ⟨Nat.zero_le _, by simpa using hx.symm⟩)
  | i + 2, hx => simp at hx

end Couchstore.Props
