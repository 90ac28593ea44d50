import Verif.Lemmas.Safe
import Verif.Lemmas.Len

/-! Helper lemmas about commit. -/

namespace Couchstore

/-- A handle that is in order. -/
structure Handle (E : Env) (db : Db) (ids seqs : List Entry) (locs : List KV) : Prop where
  inv : Inv E db ids seqs locs
  opened : db.dropped = false
  ver : goodVersion db.header.diskVersion
  crc : crcOf db.header.diskVersion = db.file.cfg.crcMode
  purge : db.header.purgePtr = 0
  isMeta : db.header.haveMeta = db.file.cfg.cipher.isSome
  old : db.header.diskVersion < 14 → db.header.haveMeta = false

/-! ### Writing the header -/

/-- A header with the fields that its version has. -/
def verHeader (h : Header) : Header :=
  { h with
    timestamp := if 13 ≤ h.diskVersion then h.timestamp else 0
    prevHeaderPos := if 14 ≤ h.diskVersion then h.prevHeaderPos else unknownPrevHeaderPos
    haveMeta := if 14 ≤ h.diskVersion then h.haveMeta else false }

theorem encodeRoot_disk (r : Option NodePointer) : encodeRoot (diskRoot r) = encodeRoot r := by
  cases r <;> rfl

theorem rootFits_disk (r : Option NodePointer) : rootFits (diskRoot r) = rootFits r := by
  cases r <;> rfl

theorem diskHeader_idem (h : Header) (P : Nat) : diskHeader (diskHeader h P) P = diskHeader h P := by
  unfold diskHeader
  simp only [diskRoot_idem]
  congr 1 <;> split <;> rfl

theorem encodeHeader_disk (h : Header) (P : Nat) : encodeHeader (diskHeader h P) = encodeHeader h := by
  unfold encodeHeader diskHeader
  simp only [encodeRoot_disk]
  by_cases h13 : 13 ≤ h.diskVersion
  · by_cases h14 : 14 ≤ h.diskVersion
    · simp [h13, h14]
    · simp [h13, h14]
  · have h14 : ¬ 14 ≤ h.diskVersion := by omega
    simp [h13, h14]

theorem headerFits_disk {h : Header} (P : Nat) (hf : headerFits h = true) : headerFits (diskHeader h P) = true := by
  simp only [headerFits, Bool.and_eq_true, decide_eq_true_eq, Bool.or_eq_true] at hf ⊢
  obtain ⟨⟨⟨⟨⟨⟨⟨f1, f2⟩, f3⟩, f4⟩, f5⟩, f6⟩, f7⟩, f8⟩ := hf
  simp only [diskHeader, rootFits_disk]
  refine ⟨⟨⟨⟨⟨⟨⟨f1, f2⟩, f3⟩, ?_⟩, ?_⟩, f6⟩, f7⟩, f8⟩
  · split <;> omega
  · split <;> omega

theorem dbWriteHeader_spec (E : Env) (t : UInt8) (db : Db) (w : db.file.WF)
    (hv : goodVersion db.header.diskVersion) :
    Sp (dbWriteHeader E t) db
      (fun _ db' => ∃ P, P = alignToNextBlock db.file.pos ∧
        db' = { db with file := db'.file, header := { verHeader db.header with position := P } } ∧
        Frame t P db.file db'.file ∧ P < db'.file.pos ∧ db'.file.WF ∧ db'.file.disk[P]? = some t ∧
        Stored db'.file.disk (P + 1) (headerChunk E db.file.cfg.crcMode (encodeHeader (verHeader db.header)))
          db'.file.pos ∧ headerFits (verHeader db.header) = true ∧
        db'.file.disk.length ≤ max db.file.disk.length db'.file.pos)
      (fun e db' => db' = { db with file := db'.file, header := verHeader db.header } ∧
        Frame t (alignToNextBlock db.file.pos) db.file db'.file ∧ db'.file.pos = db.file.pos ∧
        (db.file.faults ≠ [] ∨ e = .formatLimit)) := by
  have himpl : ∀ h1, Sp (dbWriteHeaderImpl E t) { db with header := h1 }
      (fun _ db' => ∃ P, P = alignToNextBlock db.file.pos ∧
        db' = { db with file := db'.file, header := { h1 with position := P } } ∧
        Frame t P db.file db'.file ∧ P < db'.file.pos ∧ db'.file.WF ∧ db'.file.disk[P]? = some t ∧
        Stored db'.file.disk (P + 1) (headerChunk E db.file.cfg.crcMode (encodeHeader h1)) db'.file.pos ∧
        headerFits h1 = true ∧ db'.file.disk.length ≤ max db.file.disk.length db'.file.pos)
      (fun e db' => db' = { db with file := db'.file, header := h1 } ∧
        Frame t (alignToNextBlock db.file.pos) db.file db'.file ∧ db'.file.pos = db.file.pos ∧
        (db.file.faults ≠ [] ∨ e = .formatLimit)) := by
    intro h1
    unfold dbWriteHeaderImpl
    apply Sp.get_bind
    dsimp only
    split
    · exact ⟨rfl, Frame.refl _ _ _, rfl, Or.inr rfl⟩
    · rename_i hfit
      apply Sp.bind' (liftF_spec (db := { db with header := h1 }) ((writeHeader_spec E t (encodeHeader h1) db.file w).and (writeHeader_len E t (encodeHeader h1) db.file)))
      · rintro P db1 ⟨h2, ⟨rfl, h3, h4, h5, h6, h7, _⟩, h8⟩
        refine ⟨_, rfl, ?_, h3, h4, h5, h6, h7, by simpa using hfit, h8⟩
        show ({ db1 with header := { db1.header with position := _ } } : Db) = _
        rw [h2]
      · rintro e db1 ⟨h2, ⟨h3, h4, h5⟩, _⟩
        exact ⟨h2, h3, h4, h5⟩
  unfold dbWriteHeader
  apply Sp.get_bind
  dsimp only
  have key : ∀ g : Header → Header, g db.header = verHeader db.header →
      Sp (do setHeader g; dbWriteHeaderImpl E t) db
      (fun _ db' => ∃ P, P = alignToNextBlock db.file.pos ∧
        db' = { db with file := db'.file, header := { verHeader db.header with position := P } } ∧
        Frame t P db.file db'.file ∧ P < db'.file.pos ∧ db'.file.WF ∧ db'.file.disk[P]? = some t ∧
        Stored db'.file.disk (P + 1) (headerChunk E db.file.cfg.crcMode (encodeHeader (verHeader db.header)))
          db'.file.pos ∧ headerFits (verHeader db.header) = true ∧
        db'.file.disk.length ≤ max db.file.disk.length db'.file.pos)
      (fun e db' => db' = { db with file := db'.file, header := verHeader db.header } ∧
        Frame t (alignToNextBlock db.file.pos) db.file db'.file ∧ db'.file.pos = db.file.pos ∧
        (db.file.faults ≠ [] ∨ e = .formatLimit)) := by
    intro g hg
    unfold Sp
    rw [bind_ok (setHeader_eq g db), hg]
    exact himpl (verHeader db.header)
  have hver : ∀ v, db.header.diskVersion = v → verHeader db.header = { db.header with
      timestamp := if 13 ≤ v then db.header.timestamp else 0
      prevHeaderPos := if 14 ≤ v then db.header.prevHeaderPos else unknownPrevHeaderPos
      haveMeta := if 14 ≤ v then db.header.haveMeta else false } := by
    rintro v rfl; rfl
  rcases hv with hv | hv | hv | hv
  · rw [if_pos (Or.inl hv)]
    refine key _ ?_
    rw [hver _ hv]; rfl
  · rw [if_pos (Or.inr hv)]
    refine key _ ?_
    rw [hver _ hv]; rfl
  · rw [if_neg (by omega), if_pos hv]
    refine key _ ?_
    rw [hver _ hv]; rfl
  · rw [if_neg (by omega), if_neg (by omega), if_pos hv]
    have : verHeader db.header = db.header := by rw [hver _ hv]; rfl
    rw [this]
    exact himpl db.header

/-! ### Sync and the block type -/

theorem syncFile_spec (f : File) :
    Sp syncFile f (fun _ g => g = { f with faults := g.faults, log := .sync :: f.log } ∧ g.faults <:+ f.faults)
      (fun _ g => RFrame f g ∧ f.faults ≠ [] ∧ g.faults.length < f.faults.length) := by
  unfold syncFile
  apply Sp.bind' (popFault_spec f)
  · rintro x g ⟨⟨fs, rfl, hs⟩, hx, hl⟩
    cases x with
    | none => exact ⟨rfl, hs⟩
    | short k => exact ⟨rfl, hs⟩
    | err e => exact ⟨⟨hs, rfl⟩, hx (by simp), hl (hx (by simp))⟩
  · intro _ _ h; exact h.elim

/-- Only the type of the block `P` was written (or tried to be). -/
structure MarkRun (t : UInt8) (P : Nat) (m : List Event) (f f' : File) : Prop where
  log : f'.log = m ++ f.log
  evs : ∀ e ∈ m, ∃ b, e = .write P b ∧ (b = [t] ∨ b = [])
  disk : f'.disk = replay f.disk m
  pos : f'.pos = f.pos
  cfg : f'.cfg = f.cfg
  faults : f'.faults <:+ f.faults

theorem MarkRun.refl (t : UInt8) (P : Nat) (f : File) : MarkRun t P [] f f :=
  ⟨rfl, by simp, rfl, rfl, rfl, List.suffix_refl _⟩

theorem MarkRun.trans {t : UInt8} {P : Nat} {m m' : List Event} {f g h : File} (a : MarkRun t P m f g)
    (b : MarkRun t P m' g h) : MarkRun t P (m' ++ m) f h := by
  refine ⟨by rw [b.log, a.log, List.append_assoc], ?_, by rw [b.disk, a.disk, replay_append],
    b.pos.trans a.pos, b.cfg.trans a.cfg, b.faults.trans a.faults⟩
  intro e he
  rcases List.mem_append.mp he with he | he
  · exact b.evs e he
  · exact a.evs e he

theorem RFrame.markRun {f g : File} (h : RFrame f g) (t : UInt8) (P : Nat) : MarkRun t P [] f g :=
  ⟨h.log, by simp, h.disk, h.pos, h.cfg, h.1⟩

theorem pwriteType_spec (t : UInt8) (P : Nat) (f : File) :
    Sp (pwrite [t] P) f
      (fun w g => (w = 1 ∧ MarkRun t P [.write P [t]] f g) ∨
        w = 0 ∧ MarkRun t P [.write P []] f g ∧ g.faults.length < f.faults.length)
      (fun _ g => RFrame f g ∧ f.faults ≠ []) := by
  unfold pwrite
  apply Sp.bind' (popFault_spec f)
  · rintro x g ⟨⟨fs, rfl, hs⟩, hx, hl⟩
    cases x with
    | none => exact Or.inl ⟨rfl, rfl, by simp, rfl, rfl, rfl, hs⟩
    | short k =>
      cases k with
      | zero => exact Or.inr ⟨rfl, ⟨rfl, by simp, rfl, rfl, rfl, hs⟩, hl (hx (by simp))⟩
      | succ k => exact Or.inl ⟨by simp, by simp, by simp, by simp [replay], rfl, rfl, hs⟩
    | err e => exact ⟨⟨hs, rfl⟩, hx (by simp)⟩
  · intro _ _ h; exact h.elim

theorem writeBlockTypeLoop_spec (t : UInt8) (P : Nat) (fuel : Nat) (f : File) (hf : f.faults.length < fuel) :
    Sp (writeBlockTypeLoop P t fuel) f
      (fun _ g => ∃ m, MarkRun t P m f g ∧ .write P [t] ∈ m)
      (fun _ g => (∃ m, MarkRun t P m f g) ∧ f.faults ≠ []) := by
  induction fuel generalizing f with
  | zero => omega
  | succ fuel ih =>
    unfold writeBlockTypeLoop
    apply Sp.bind' (pwriteType_spec t P f)
    · rintro w g (⟨rfl, h⟩ | ⟨rfl, h, hl⟩)
      · exact ⟨_, h, by simp⟩
      · rw [if_neg (by omega)]
        refine (ih g (by omega)).mono ?_ ?_
        · rintro _ g' ⟨m, h1, h2⟩
          exact ⟨_, h.trans h1, by simp [h2]⟩
        · rintro e g' ⟨⟨m, h1⟩, h2⟩
          exact ⟨⟨_, h.trans h1⟩, suffix_ne_nil h.faults h2⟩
    · rintro e g ⟨h1, h2⟩
      exact ⟨⟨_, h1.markRun t P⟩, h2⟩

theorem writeBlockType_spec (t : UInt8) (P : Nat) (f : File) :
    Sp (writeBlockType P t) f
      (fun _ g => ∃ m, MarkRun t P m f g ∧ .write P [t] ∈ m)
      (fun _ g => (∃ m, MarkRun t P m f g) ∧ f.faults ≠ []) :=
  writeBlockTypeLoop_spec t P _ f (Nat.lt_succ_self _)

theorem markLoop_spec (cb : Nat → Bool) (P : Nat) (fuel n : Nat) (f : File) (hf : f.faults.length < fuel) :
    Sp (markLoop cb P fuel n) f
      (fun _ g => ∃ m g0, MarkRun btHeader P m f g0 ∧ .write P [btHeader] ∈ m ∧
        g = { g0 with faults := g.faults, log := .sync :: g0.log } ∧ g.faults <:+ g0.faults)
      (fun _ g => (∃ m, MarkRun btHeader P m f g) ∧ f.faults ≠ []) := by
  induction fuel generalizing n f with
  | zero => omega
  | succ fuel ih =>
    unfold markLoop
    apply Sp.bind' (writeBlockType_spec btHeader P f)
    · rintro _ g ⟨m, h1, h2⟩
      have hs := syncFile_spec g
      unfold Sp at hs ⊢
      dsimp only
      cases hr : syncFile g with
      | ok a g' =>
        rw [hr] at hs
        exact ⟨m, g, h1, h2, hs.1, hs.2⟩
      | error e g' =>
        rw [hr] at hs
        obtain ⟨h3, h4, h5⟩ := hs
        have hne := suffix_ne_nil h1.faults h4
        have hlen := h1.faults.length_le
        dsimp only
        by_cases hc : cb n = true
        · rw [if_pos hc]
          have := ih (n + 1) g' (by omega)
          refine Sp.def (this.mono ?_ ?_)
          · rintro _ g2 ⟨m2, g0, h6, h7, h8, h9⟩
            exact ⟨_, g0, h1.trans ((h3.markRun btHeader P).trans h6), by simp [h7], h8, h9⟩
          · rintro e2 g2 ⟨⟨m2, h6⟩, h7⟩
            exact ⟨⟨_, h1.trans ((h3.markRun btHeader P).trans h6)⟩, hne⟩
        · rw [if_neg hc]
          exact ⟨⟨_, h1.trans (h3.markRun btHeader P)⟩, hne⟩
    · rintro e g h; exact h

/-! ### Commit -/

/-- The header that a commit of `db` writes, as it is read back. -/
def committedHeader (db : Db) (ts P : Nat) : Header :=
  diskHeader (verHeader { db.header with timestamp := ts, prevHeaderPos := db.header.position }) P

/-- The first part of a commit: the header is in the file, as a data block. -/
structure Prepared (E : Env) (db : Db) (ts : Nat) (e1 : List Event) (q : Nat) : Prop where
  evs : ∀ e ∈ e1, EvOk btData (alignToNextBlock db.file.pos) e
  hdr : HeaderAt E (replay db.file.disk e1) (alignToNextBlock db.file.pos)
    (committedHeader db ts (alignToNextBlock db.file.pos)) q
  len : q ≤ (replay db.file.disk e1).length

/-- A successful commit. -/
structure Committed (E : Env) (db : Db) (ts : Nat) (db' : Db) (e1 m : List Event) : Prop where
  prep : Prepared E db ts e1 db'.file.pos
  marks : ∀ e ∈ m, MarkEv (alignToNextBlock db.file.pos) e
  marked : .write (alignToNextBlock db.file.pos) [btHeader] ∈ m
  log : db'.file.log = .sync :: (m ++ .sync :: (e1 ++ db.file.log))
  disk : db'.file.disk = replay db.file.disk (.sync :: (m ++ .sync :: e1))
  cfg : db'.file.cfg = db.file.cfg
  faults : db'.file.faults <:+ db.file.faults
  eq : db' = { db with
    file := db'.file
    header := { verHeader { db.header with timestamp := ts, prevHeaderPos := db.header.position } with
      position := alignToNextBlock db.file.pos } }

/-- A failed commit: only the file has changed. -/
structure CommitFailed (E : Env) (db : Db) (ts : Nat) (db' : Db) : Prop where
  eq : db' = { db with file := db'.file }
  cfg : db'.file.cfg = db.file.cfg
  faults : db'.file.faults <:+ db.file.faults
  pos : db.file.pos ≤ db'.file.pos
  posLe : db'.file.pos ≤ db'.file.disk.length
  /-- it failed before the header was marked, or while it was -/
  run : (∃ e1, (∀ e ∈ e1, EvOk btData (alignToNextBlock db.file.pos) e) ∧ db'.file.log = e1 ++ db.file.log ∧
      db'.file.disk = replay db.file.disk e1) ∨
    ∃ e1 m, Prepared E db ts e1 db'.file.pos ∧ (∀ e ∈ m, MarkEv (alignToNextBlock db.file.pos) e) ∧
      db'.file.log = m ++ .sync :: (e1 ++ db.file.log) ∧
      db'.file.disk = replay db.file.disk (m ++ .sync :: e1)

theorem rootPtr_lt {E : Env} {X : Idx} {f : File} {r kvs} (h : RootAt E X f r kvs) : rootPtrLt r f.pos := by
  rintro p rfl
  obtain ⟨l, cs, _, _, _, hz, _⟩ := h
  exact ChunkAt.lt hz

theorem rootReduce {E : Env} {X : Idx} {f : File} {r kvs} (h : RootAt E X f r kvs) {n : Nat}
    (hn : ∀ kvs b, X.R kvs b → b.length ≤ n) : (encodeRoot r).length ≤ 12 + n := by
  cases r with
  | none => simp [encodeRoot]
  | some p =>
    obtain ⟨l, cs, _, _, _, _, hr, _⟩ := h
    have := hn _ _ hr
    rw [length_encodeRoot]
    simp only
    omega

theorem Inv.small {E : Env} {db : Db} {ids seqs locs} (inv : Inv E db ids seqs locs) (h : Header)
    (hs : HSame db.header h) (hv : goodVersion h.diskVersion) : (encodeHeader h).length + 4 ≤ maxDbHeaderSize := by
  obtain ⟨size, hsz⟩ : ∃ size, headerFixedSize h.diskVersion = some size := by
    rcases hv with hv | hv | hv | hv <;> rw [hv] <;> exact ⟨_, rfl⟩
  have hlt : size ≤ 39 := by
    rcases hv with hv | hv | hv | hv <;> rw [hv] at hsz <;> cases hsz <;> omega
  rw [length_encodeHeader h hv size hsz]
  have h1 := rootReduce inv.idRoot (n := 16) (by
    rintro kvs b ⟨ds, _, _, rfl⟩
    simp [encodeByIdReduce])
  have h2 := rootReduce inv.seqRoot (n := 5) (by
    rintro kvs b hb
    have : b = enc40 kvs.length := hb
    rw [this]; simp)
  have h3 := rootReduce inv.locRoot (n := 0) (by
    rintro kvs b hb
    have : b = [] := hb
    rw [this]; simp)
  rw [← encodeRoot_disk h.bySeqRoot, ← encodeRoot_disk h.byIdRoot, ← encodeRoot_disk h.localRoot,
    hs.idRoot, hs.seqRoot, hs.locRoot, encodeRoot_disk, encodeRoot_disk, encodeRoot_disk]
  unfold maxDbHeaderSize
  omega

theorem rootPtrLt_disk {r : Option NodePointer} {P : Nat} (h : rootPtrLt r P) : rootPtrLt (diskRoot r) P := by
  cases r with
  | none => intro p hp; cases hp
  | some p =>
    rintro q hq
    cases hq
    exact h p rfl

theorem rootPtrLt_mono {r : Option NodePointer} {P P' : Nat} (h : rootPtrLt r P) (hp : P ≤ P') : rootPtrLt r P' :=
  fun p hr => Nat.lt_of_lt_of_le (h p hr) hp

/-- The header of a handle in order, stored at a block after everything else. -/
theorem Handle.headerAt {E : Env} {db : Db} {ids seqs locs} (H : Handle E db ids seqs locs) {h : Header} {P q : Nat}
    {d : Bytes} (hs : HSame db.header h) (hvv : h.diskVersion = db.header.diskVersion)
    (hpp : h.purgePtr = db.header.purgePtr) (hP : P % blockSize = 0) (hPp : db.file.pos ≤ P)
    (hfit : headerFits h = true) (hq : P < q)
    (hst : Stored d (P + 1) (headerChunk E db.file.cfg.crcMode (encodeHeader h)) q) :
    HeaderAt E d P (diskHeader h P) q where
  aligned := hP
  lt := hq
  ver := by show goodVersion h.diskVersion; rw [hvv]; exact H.ver
  fits := headerFits_disk P hfit
  small := by
    rw [encodeHeader_disk]
    exact H.inv.small h hs (by rw [hvv]; exact H.ver)
  purge := by
    show h.purgePtr = 0
    rw [hpp]
    exact H.purge
  idPtr := by
    show rootPtrLt (diskRoot h.byIdRoot) P
    rw [hs.idRoot]
    exact rootPtrLt_disk (rootPtrLt_mono (rootPtr_lt H.inv.idRoot) hPp)
  seqPtr := by
    show rootPtrLt (diskRoot h.bySeqRoot) P
    rw [hs.seqRoot]
    exact rootPtrLt_disk (rootPtrLt_mono (rootPtr_lt H.inv.seqRoot) hPp)
  locPtr := by
    show rootPtrLt (diskRoot h.localRoot) P
    rw [hs.locRoot]
    exact rootPtrLt_disk (rootPtrLt_mono (rootPtr_lt H.inv.locRoot) hPp)
  self := diskHeader_idem h P
  stored := by
    rw [encodeHeader_disk]
    show Stored d (P + 1) (headerChunk E (crcOf h.diskVersion) _) q
    rw [hvv, H.crc]
    exact hst

theorem markEv_of {P : Nat} {e : Event} (h : ∃ b, e = .write P b ∧ (b = [btHeader] ∨ b = [])) : MarkEv P e := by
  obtain ⟨b, rfl, h⟩ := h
  exact ⟨rfl, h⟩

theorem commit_spec (E : Env) (ts : Nat) (cb : Nat → Bool) (db : Db) {ids seqs locs}
    (H : Handle E db ids seqs locs) :
    Sp (commit E ts cb) db (fun _ db' => ∃ e1 m, Committed E db ts db' e1 m)
      (fun e db' => CommitFailed E db ts db' ∧ (db.file.faults ≠ [] ∨ e = .formatLimit)) := by
  have hbody : Sp (commitBody E ts cb) db (fun _ db' => ∃ e1 m, Committed E db ts db' e1 m)
      (fun e db' => CommitFailed E db ts { db' with header := { db'.header with
        position := db.header.position, timestamp := db.header.timestamp,
        prevHeaderPos := db.header.prevHeaderPos } } ∧ (db.file.faults ≠ [] ∨ e = .formatLimit)) := by
    unfold commitBody
    apply Sp.get_bind
    dsimp only
    generalize hh : ({ db.header with timestamp := ts, prevHeaderPos := db.header.position } : Header) = h1
    have hset : ∀ (k : Unit → DbM Unit) Q R, Sp (k ()) { db with header := h1 } Q R →
        Sp (setHeader (fun h => { h with timestamp := ts, prevHeaderPos := h.position }) >>= k) db Q R := by
      intro k Q R h
      have hset : setHeader (fun h => { h with timestamp := ts, prevHeaderPos := h.position }) db =
          .ok () { db with header := h1 } := by rw [setHeader_eq, ← hh]
      unfold Sp
      rw [bind_ok hset]
      exact h
    apply hset
    have hrest : ∀ f', ({ db with file := f', header := { verHeader h1 with
        position := db.header.position, timestamp := db.header.timestamp,
        prevHeaderPos := db.header.prevHeaderPos } } : Db) = { db with file := f' } := by
      intro f'
      have hm : (if 14 ≤ db.header.diskVersion then db.header.haveMeta else false) = db.header.haveMeta := by
        split
        · rfl
        · rw [H.old (by omega)]
      rw [← hh]
      unfold verHeader
      simp only [hm]
    have hal := alignToNextBlock_ge db.file.pos
    have hmod := alignToNextBlock_mod db.file.pos
    apply Sp.bind' (dbWriteHeader_spec E btData { db with header := h1 } H.inv.wf (by rw [← hh]; exact H.ver))
    · rintro _ db1 ⟨P, hPe, h2, h3, h4, h5, h6, h7, h8, _⟩
      dsimp only at hPe h2 h3 h4 h7 h8
      obtain ⟨e1, hl1, hev1, hd1⟩ := h3.log
      have hprep : Prepared E db ts e1 db1.file.pos := by
        refine ⟨by rw [← hPe]; exact hev1, ?_, by rw [← hd1]; exact h5.pos_le⟩
        rw [← hPe] at hal hmod ⊢
        rw [← hd1]
        unfold committedHeader
        rw [hh]
        refine H.headerAt (h := verHeader h1) ?_ ?_ ?_ hmod hal h8 h4 h7
        · rw [← hh]; exact ⟨rfl, rfl, rfl, rfl, rfl⟩
        · rw [← hh]; rfl
        · rw [← hh]; rfl
      have hf1 := h3.faults
      have hc1 := h3.cfg
      have hfail : ∀ (fail : Db), fail = { db1 with file := fail.file } →
          fail.file.cfg = db.file.cfg → fail.file.faults <:+ db.file.faults → fail.file.pos = db1.file.pos →
          db1.file.disk.length ≤ fail.file.disk.length →
          ((∃ e1, (∀ e ∈ e1, EvOk btData (alignToNextBlock db.file.pos) e) ∧ fail.file.log = e1 ++ db.file.log ∧
            fail.file.disk = replay db.file.disk e1) ∨
          ∃ e1 m, Prepared E db ts e1 db1.file.pos ∧ (∀ e ∈ m, MarkEv (alignToNextBlock db.file.pos) e) ∧
            fail.file.log = m ++ .sync :: (e1 ++ db.file.log) ∧
            fail.file.disk = replay db.file.disk (m ++ .sync :: e1)) →
          CommitFailed E db ts { fail with header := { fail.header with
            position := db.header.position, timestamp := db.header.timestamp,
            prevHeaderPos := db.header.prevHeaderPos } } := by
        intro fail ha hb hc hd hlen he
        refine ⟨?_, hb, hc, ?_, ?_, ?_⟩
        · rw [ha, h2]
          exact hrest fail.file
        · show db.file.pos ≤ fail.file.pos
          rw [hd]; omega
        · show fail.file.pos ≤ fail.file.disk.length
          rw [hd]
          exact Nat.le_trans h5.pos_le hlen
        · show _ ∨ (∃ e1 m, Prepared E db ts e1 fail.file.pos ∧ _)
          rw [hd]
          exact he
      apply Sp.bind' (liftF_spec (db := db1) (syncFile_spec db1.file))
      · rintro _ db2 ⟨h9, h10, h11⟩
        have hl2 : db2.file.log = .sync :: (e1 ++ db.file.log) := by rw [h10, ← hl1]
        have hd2 : db2.file.disk = db1.file.disk := by rw [h10]
        have hp2 : db2.file.pos = db1.file.pos := by rw [h10]
        have hc2 : db2.file.cfg = db1.file.cfg := by rw [h10]
        refine (liftF_spec (db := db2) (Q := _) (R := _) (m := fun f => markLoop cb (alignToNextBlock db.file.pos)
          (f.faults.length + 1) 0 f) (markLoop_spec cb (alignToNextBlock db.file.pos)
            (db2.file.faults.length + 1) 0 db2.file (Nat.lt_succ_self _))).mono ?_ ?_
        · rintro _ db3 ⟨h12, m, g0, h13, h14, h15, h16⟩
          refine ⟨e1, m, ?_, fun e he => markEv_of (h13.evs e he), h14, ?_, ?_, ?_, ?_, ?_⟩
          · have : db3.file.pos = db1.file.pos := by rw [h15]; exact h13.pos.trans hp2
            rw [this]; exact hprep
          · rw [h15, h13.log, hl2]
          · rw [h15]
            show g0.disk = replay db.file.disk (m ++ .sync :: e1)
            rw [h13.disk, hd2, hd1, replay_append]
            rfl
          · rw [h15]; exact h13.cfg.trans (hc2.trans hc1)
          · exact h16.trans (h13.faults.trans (h11.trans hf1))
          · rw [h12, h9, h2, ← hPe, ← hh]
        · rintro e db3 ⟨h12, ⟨m, h13⟩, h14⟩
          refine ⟨hfail db3 (by rw [h12, h9]) (h13.cfg.trans (hc2.trans hc1))
            (h13.faults.trans (h11.trans hf1)) (h13.pos.trans hp2) ?_ (Or.inr ⟨e1, m, hprep,
              fun e he => markEv_of (h13.evs e he), ?_, ?_⟩), Or.inl (suffix_ne_nil (h11.trans hf1) h14)⟩
          · rw [h13.disk, hd2]; exact length_replay _ _
          · rw [h13.log, hl2]
          · rw [h13.disk, hd2, hd1, replay_append]; rfl
      · rintro e db2 ⟨h9, h10, h11, h12⟩
        refine ⟨hfail db2 h9 (h10.cfg.trans hc1) (h10.1.trans hf1) h10.pos (by rw [h10.disk]; exact Nat.le_refl _)
          (Or.inl ⟨e1, ?_, ?_, ?_⟩), Or.inl (suffix_ne_nil hf1 h11)⟩
        · rw [← hPe]; exact hev1
        · rw [h10.log, hl1]
        · rw [h10.disk, hd1]
    · rintro e db1 ⟨h2, h3, h4, h5⟩
      refine ⟨⟨?_, h3.cfg, h3.faults, ?_, ?_, Or.inl ?_⟩, h5⟩
      · rw [h2]
        exact hrest db1.file
      · show db.file.pos ≤ db1.file.pos
        rw [h4]; exact Nat.le_refl _
      · show db1.file.pos ≤ db1.file.disk.length
        rw [h4]; exact Nat.le_trans H.inv.wf.pos_le h3.len
      · obtain ⟨e1, hl1, hev1, hd1⟩ := h3.log
        exact ⟨e1, hev1, hl1, hd1⟩
  unfold commit
  unfold Sp at hbody ⊢
  dsimp only
  cases hr : commitBody E ts cb db with
  | ok a db' => rw [hr] at hbody; exact hbody
  | error e db' => rw [hr] at hbody; exact hbody

end Couchstore
