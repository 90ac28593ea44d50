import Verif.Lemmas.Find
import Verif.Lemmas.Trace
import Verif.Spec.History

/-! Helper lemmas for histories: the headers in a file and what they stand for, also after a
crash. -/

namespace Couchstore

/-- Two headers with the same contents. -/
structure HSame (h h' : Header) : Prop where
  upd : h'.updateSeq = h.updateSeq
  purge : h'.purgeSeq = h.purgeSeq
  idRoot : diskRoot h'.byIdRoot = diskRoot h.byIdRoot
  seqRoot : diskRoot h'.bySeqRoot = diskRoot h.bySeqRoot
  locRoot : diskRoot h'.localRoot = diskRoot h.localRoot

theorem rootAt_disk {E : Env} {X : Idx} {f : File} {r : Option NodePointer} {kvs} :
    RootAt E X f (diskRoot r) kvs ↔ RootAt E X f r kvs := by
  cases r <;> exact Iff.rfl

theorem rootSize_disk (r : Option NodePointer) : rootSize (diskRoot r) = rootSize r := by
  cases r <;> rfl

theorem diskRoot_idem (r : Option NodePointer) : diskRoot (diskRoot r) = diskRoot r := by
  cases r <;> rfl

theorem HSame.stats {h h' : Header} (s : HSame h h') (ids : List Entry) : statsOf h' ids = statsOf h ids := by
  unfold statsOf
  rw [s.upd, s.purge, ← rootSize_disk h'.byIdRoot, ← rootSize_disk h'.bySeqRoot, ← rootSize_disk h'.localRoot,
    s.idRoot, s.seqRoot, s.locRoot, rootSize_disk, rootSize_disk, rootSize_disk]

theorem Inv.move {E : Env} {db db' : Db} {ids seqs locs} (h : Inv E db ids seqs locs)
    (hs : HSame db.header db'.header) (k : Keep db.file db'.file) (w : db'.file.WF)
    (thr : 2 ≤ db'.file.cfg.kvThr) : Inv E db' ids seqs locs where
  wf := w
  pos := Nat.lt_of_lt_of_le h.pos k.pos
  thr := thr
  idRoot := by rw [← rootAt_disk, hs.idRoot, rootAt_disk]; exact h.idRoot.keep k
  seqRoot := by rw [← rootAt_disk, hs.seqRoot, rootAt_disk]; exact h.seqRoot.keep k
  locRoot := by rw [← rootAt_disk, hs.locRoot, rootAt_disk]; exact h.locRoot.keep k
  idSorted := h.idSorted
  seqSorted := h.seqSorted
  locSorted := h.locSorted
  perm := h.perm
  ok := h.ok
  upd := by rw [hs.upd]; exact h.upd
  updLt := by rw [hs.upd]; exact h.updLt
  body := fun e he => (h.body e he).keep k
  few := h.few

/-- Two states with the same contents give the same answers. -/
theorem sameAnswers_of {E : Env} (L : E.Laws) {db db' : Db} {ids seqs locs} (h : Inv E db ids seqs locs)
    (h' : Inv E db' ids seqs locs) (hd : db.dropped = false) (hd' : db'.dropped = false)
    (hs : statsOf db'.header ids = statsOf db.header ids) : SameAnswers E db db' := by
  intro q hq
  rw [ask_eq E L h hd q hq, ask_eq E L h' hd' q hq]
  cases q <;> simp only [specAsk]
  rw [hs]

/-- A handle on a quiet file. -/
def onDisk (cfg : Cfg) (d : Bytes) (q : Nat) (h : Header) : Db := ⟨⟨d, q, cfg, [], []⟩, h, false, false⟩

/-- The header `h` at `P` shows what was committed with `c`. -/
structure Snap (E : Env) (cfg : Cfg) (d : Bytes) (P : Nat) (h : Header) (q : Nat) (c : Commit) : Prop where
  hdr : HeaderAt E d P h q
  crc : crcOf h.diskVersion = cfg.crcMode
  isMeta : h.haveMeta = cfg.cipher.isSome
  data : ∃ ids seqs locs, Inv E (onDisk cfg d q h) ids seqs locs ∧ Inv E c.db ids seqs locs ∧
    statsOf h ids = statsOf c.db.header ids
  opened : c.db.dropped = false
  ver : h.diskVersion = c.db.header.diskVersion
  time : h.timestamp = if 13 ≤ h.diskVersion then c.timestamp else 0
  prev : 14 ≤ h.diskVersion → h.prevHeaderPos = c.prev

theorem stored_congr_lt {d d' : Bytes} {p q : Nat} {b : Bytes} (h : Stored d p b q)
    (ha : ∀ i, i < q → i % blockSize ≠ 0 → d'[i]? = d[i]?) : Stored d' p b q :=
  Stored.congr' h fun i _ h2 h3 => ha i h2 h3

theorem HeaderAt.congr {E : Env} {d d' : Bytes} {P : Nat} {h : Header} {q : Nat} (H : HeaderAt E d P h q)
    (ha : ∀ i, i < q → i % blockSize ≠ 0 → d'[i]? = d[i]?) : HeaderAt E d' P h q :=
  { H with stored := stored_congr_lt H.stored ha }

theorem Snap.congr {E : Env} {cfg cfg' : Cfg} {d d' : Bytes} {P : Nat} {h : Header} {q : Nat} {c : Commit}
    (H : Snap E cfg d P h q c) (ha : ∀ i, i < q → i % blockSize ≠ 0 → d'[i]? = d[i]?) (hq : q ≤ d'.length)
    (hc : cfg'.cipher = cfg.cipher) (hm : cfg'.crcMode = cfg.crcMode) (ht : 2 ≤ cfg'.kvThr) :
    Snap E cfg' d' P h q c := by
  refine { H with hdr := H.hdr.congr ha, crc := by rw [hm]; exact H.crc, isMeta := by rw [hc]; exact H.isMeta, data := ?_ }
  obtain ⟨ids, seqs, locs, h1, h2, h3⟩ := H.data
  refine ⟨ids, seqs, locs, ?_, h2, h3⟩
  refine Inv.move h1 ⟨rfl, rfl, rfl, rfl, rfl⟩ ⟨ha, hc, hm, Nat.le_refl _⟩ ⟨hq, ?_⟩ ht
  show cfg'.crcMode ≠ _
  rw [hm]
  exact h1.wf.crc

/-! ### The metadata block -/

/-- The content of a metadata block. -/
def metaBody (v : UInt8) (id ctx : Bytes) : Bytes := v :: (enc8 id.length ++ id ++ (enc8 ctx.length ++ ctx))

/-- The metadata block leads to the file key `k`. -/
structure MetaAt (E : Env) (getKey : KeyGetter) (d : Bytes) (k : Nat) (v : UInt8) (id ctx : Bytes) (q : Nat) : Prop where
  stored : Stored d 1 (headerChunk E .crc32c (metaBody v id ctx)) q
  ver : v.toNat ≤ 1
  idNe : id ≠ []
  idLen : id.length ≤ 255
  ctxLen : ctx.length ≤ 255
  key : ∃ f kdk, getKey = some f ∧ f id = some kdk ∧ kdk.id = id ∧
    (if v.toNat = 0 then kdk.unwrap ctx else kdk.derive ctx) = some k

theorem MetaAt.congr {E : Env} {getKey : KeyGetter} {d d' : Bytes} {k : Nat} {v : UInt8} {id ctx : Bytes} {q : Nat}
    (H : MetaAt E getKey d k v id ctx q) (ha : ∀ i, i < q → i % blockSize ≠ 0 → d'[i]? = d[i]?) :
    MetaAt E getKey d' k v id ctx q :=
  { H with stored := stored_congr_lt H.stored ha }

/-! ### Headers that may be found after a crash -/

/-- Everything that may be found in the file after the events `l` (the storage held `d0` at the
beginning) is a header of a commit.  Headers end before `pos`, and what they refer to is on the
storage. -/
structure Safe (E : Env) (getKey : KeyGetter) (cfg : Cfg) (d0 : Bytes) (l : List Event)
    (commits done : List Commit) (pos : Nat) : Prop where
  thr : 2 ≤ cfg.kvThr
  crc : cfg.crcMode ≠ .unknown
  types : ∀ P, P % blockSize = 0 → ∀ x, Poss d0 l P x → x = btData ∨ x = btMeta ∨ x = btHeader
  headers : ∀ P, P % blockSize = 0 → Poss d0 l P btHeader → ∃ c h q,
    commits.find? (fun c => c.pos = P) = some c ∧ Snap E cfg (replay d0 l) P h q c ∧ q ≤ pos ∧
    (∀ i, i < q → i % blockSize ≠ 0 → Cert d0 l i) ∧ q ≤ syncedLen d0 l
  oks : ∀ c ∈ done, commits.find? (fun c' => c'.pos = c.pos) = some c ∧ c.pos % blockSize = 0 ∧
    Cert d0 l c.pos ∧ (replay d0 l)[c.pos]? = some btHeader
  isMeta : ∀ k, cfg.cipher = some k → ∃ v id ctx q, MetaAt E getKey (replay d0 l) k v id ctx q ∧
    Cert d0 l 0 ∧ (replay d0 l)[0]? = some btMeta ∧ q ≤ pos ∧ 0 < pos ∧
    (∀ i, i < q → i % blockSize ≠ 0 → Cert d0 l i) ∧ q ≤ syncedLen d0 l

/-- What is found in the file at any time. -/
theorem Safe.image {E : Env} {getKey : KeyGetter} {cfg cfg' : Cfg} {d0 img : Bytes} {l : List Event}
    {commits done : List Commit} {pos pos' : Nat} (S : Safe E getKey cfg d0 l commits done pos)
    (hi : CrashImage d0 l img) (hp : pos ≤ pos' ∨ img.length ≤ pos') (hc : cfg'.cipher = cfg.cipher)
    (hm : cfg'.crcMode = cfg.crcMode) (ht : 2 ≤ cfg'.kvThr) : Safe E getKey cfg' img [] commits done pos' where
  thr := ht
  crc := by rw [hm]; exact S.crc
  types := by
    intro P hP x hx
    rcases hx with hx | ⟨_, rfl⟩
    · exact S.types P hP x (hi.2.2 P x hx)
    · exact Or.inl rfl
  headers := by
    intro P hP hx
    have hx : img[P]? = some btHeader := by
      rcases hx with hx | ⟨_, hx⟩
      · exact hx
      · cases hx
    obtain ⟨c, h, q, h1, h2, h3, h4, h5⟩ := S.headers P hP (hi.2.2 P _ hx)
    have hq : q ≤ img.length := Nat.le_trans h5 hi.1
    refine ⟨c, h, q, h1, ?_, by omega, ?_, hq⟩
    · exact h2.congr (fun i hi1 hi2 => (h4 i hi1 hi2).image hi) hq hc hm ht
    · exact fun i hi1 _ => cert_nil (by omega)
  oks := by
    intro c hc
    obtain ⟨h1, h2, h3, h4⟩ := S.oks c hc
    refine ⟨h1, h2, cert_nil (Nat.lt_of_lt_of_le h3.1 hi.1), ?_⟩
    show img[c.pos]? = _
    rw [h3.image hi, h4]
  isMeta := by
    intro k hk
    obtain ⟨v, id, ctx, q, h1, h2, h3, h4, h5, h6, h7⟩ := S.isMeta k (by rw [← hc]; exact hk)
    have h0 : 0 < img.length := Nat.lt_of_lt_of_le h2.1 hi.1
    have hq : q ≤ img.length := Nat.le_trans h7 hi.1
    refine ⟨v, id, ctx, q, ?_, cert_nil h0, ?_, by omega, by omega, fun i h7 h8 => cert_nil (by omega), hq⟩
    · exact h1.congr fun i hi1 hi2 => (h6 i hi1 hi2).image hi
    · show img[0]? = _
      rw [h2.image hi, h3]

/-- Writing after `pos`. -/
theorem Safe.append {E : Env} {getKey : KeyGetter} {cfg : Cfg} {d0 : Bytes} {l evs : List Event}
    {commits done : List Commit} {pos pos' : Nat} (S : Safe E getKey cfg d0 l commits done pos)
    (he : ∀ e ∈ evs, EvOk btData pos e) (hp : pos ≤ pos') : Safe E getKey cfg d0 (evs ++ l) commits done pos' := by
  have hs : ∀ e ∈ evs, e ≠ .sync := by
    rintro e h rfl
    exact he _ h
  have hw : ∀ i, i < pos → ∀ off b, .write off b ∈ evs → off ≤ i → b[i - off]? = none := by
    intro i hi off b h1 h2
    have := (he _ h1).1
    omega
  have hnew : ∀ P, P % blockSize = 0 → ∀ x, Poss d0 (evs ++ l) P x → Poss d0 l P x ∨ x = btData := by
    intro P hP x hx
    rcases poss_append hs hx with h | ⟨off, b, h1, h2, h3⟩
    · exact Or.inl h
    · refine Or.inr ((he _ h1).2 (P - off) ?_ x h3)
      rw [show off + (P - off) = P by omega]; exact hP
  refine ⟨S.thr, S.crc, ?_, ?_, ?_, ?_⟩
  · intro P hP x hx
    rcases hnew P hP x hx with h | h
    · exact S.types P hP x h
    · exact Or.inl h
  · intro P hP hx
    rcases hnew P hP _ hx with h | h
    · obtain ⟨c, h, q, h1, h2, h3, h4, h5⟩ := S.headers P hP h
      have hk : ∀ i, i < q → i % blockSize ≠ 0 → Cert d0 (evs ++ l) i ∧
          (replay d0 (evs ++ l))[i]? = (replay d0 l)[i]? :=
        fun i hi1 hi2 => (h4 i hi1 hi2).append hs (hw i (by omega))
      have hq : q ≤ syncedLen d0 (evs ++ l) := by rw [syncedLen_append hs]; exact h5
      exact ⟨c, h, q, h1, h2.congr (fun i hi1 hi2 => (hk i hi1 hi2).2) (Nat.le_trans hq (syncedLen_le _ _))
        rfl rfl S.thr, by omega, fun i hi1 hi2 => (hk i hi1 hi2).1, hq⟩
    · cases h
  · intro c hc
    obtain ⟨h1, h2, h3, h4⟩ := S.oks c hc
    obtain ⟨c', h, q, _, h6, h7, _⟩ := S.headers c.pos h2 ((poss_replay d0 l _).1 _ h4)
    have := h3.append hs (hw c.pos (by have := h6.hdr.lt; omega))
    exact ⟨h1, h2, this.1, by rw [this.2]; exact h4⟩
  · intro k hk
    obtain ⟨v, id, ctx, q, h1, h2, h3, h4, h5, h6, h7⟩ := S.isMeta k hk
    have hk : ∀ i, i < q → i % blockSize ≠ 0 → Cert d0 (evs ++ l) i ∧
        (replay d0 (evs ++ l))[i]? = (replay d0 l)[i]? :=
      fun i hi1 hi2 => (h6 i hi1 hi2).append hs (hw i (by omega))
    have h0 := h2.append hs (hw 0 h5)
    exact ⟨v, id, ctx, q, h1.congr fun i hi1 hi2 => (hk i hi1 hi2).2, h0.1, by rw [h0.2]; exact h3,
      by omega, by omega, fun i hi1 hi2 => (hk i hi1 hi2).1, by rw [syncedLen_append hs]; exact h7⟩

theorem Safe.sync {E : Env} {getKey : KeyGetter} {cfg : Cfg} {d0 : Bytes} {l : List Event}
    {commits done : List Commit} {pos : Nat} (S : Safe E getKey cfg d0 l commits done pos) :
    Safe E getKey cfg d0 (.sync :: l) commits done pos := by
  have hl : syncedLen d0 l ≤ syncedLen d0 (.sync :: l) := syncedLen_le d0 l
  refine ⟨S.thr, S.crc, fun P hP x hx => S.types P hP x (poss_sync hx), ?_, ?_, ?_⟩
  · intro P hP hx
    obtain ⟨c, h, q, h1, h2, h3, h4, h5⟩ := S.headers P hP (poss_sync hx)
    exact ⟨c, h, q, h1, h2, h3, fun i hi1 hi2 => (h4 i hi1 hi2).sync, by omega⟩
  · intro c hc
    obtain ⟨h1, h2, h3, h4⟩ := S.oks c hc
    exact ⟨h1, h2, h3.sync, h4⟩
  · intro k hk
    obtain ⟨v, id, ctx, q, h1, h2, h3, h4, h5, h6, h7⟩ := S.isMeta k hk
    exact ⟨v, id, ctx, q, h1, h2.sync, h3, h4, h5, fun i hi1 hi2 => (h6 i hi1 hi2).sync, by omega⟩

theorem Safe.pos_mono {E : Env} {getKey : KeyGetter} {cfg : Cfg} {d0 : Bytes} {l : List Event}
    {commits done : List Commit} {pos pos' : Nat} (S : Safe E getKey cfg d0 l commits done pos) (h : pos ≤ pos') :
    Safe E getKey cfg d0 l commits done pos' := S.append (evs := []) (by simp) h

theorem Safe.lt_pos {E : Env} {getKey : KeyGetter} {cfg : Cfg} {d0 : Bytes} {l : List Event}
    {commits done : List Commit} {pos P : Nat} (S : Safe E getKey cfg d0 l commits done pos)
    (hP : P % blockSize = 0) (h : Poss d0 l P btHeader) : P < pos := by
  obtain ⟨c, h, q, h1, h2, h3, h4, h5⟩ := S.headers P hP h
  have := h2.hdr.lt
  omega

/-- Recording a commit whose header is not in the file yet. -/
theorem Safe.record {E : Env} {getKey : KeyGetter} {cfg : Cfg} {d0 : Bytes} {l : List Event}
    {commits done : List Commit} {pos : Nat} (S : Safe E getKey cfg d0 l commits done pos) (c : Commit)
    (hc : pos ≤ c.pos) : Safe E getKey cfg d0 l (c :: commits) done pos := by
  have hf : ∀ P, P < pos → (c :: commits).find? (fun c' => c'.pos = P) = commits.find? (fun c' => c'.pos = P) := by
    intro P hP
    rw [List.find?_cons_of_neg]
    simp; omega
  refine ⟨S.thr, S.crc, S.types, ?_, ?_, S.isMeta⟩
  · intro P hP hx
    rw [hf P (S.lt_pos hP hx)]
    exact S.headers P hP hx
  · intro c' hc'
    have := S.oks c' hc'
    rw [hf c'.pos (S.lt_pos this.2.1 ((poss_replay d0 l _).1 _ this.2.2.2))]
    exact this

/-- A write of the type of a header block. -/
def MarkEv (P : Nat) : Event → Prop
  | .write off b => off = P ∧ (b = [btHeader] ∨ b = [])
  | .sync => False
  | .encrypted _ _ _ => False

/-- Marking a header. -/
theorem Safe.mark {E : Env} {getKey : KeyGetter} {cfg : Cfg} {d0 : Bytes} {l m : List Event}
    {commits done : List Commit} {pos pos' P : Nat} {c : Commit} {h : Header} {q : Nat}
    (S : Safe E getKey cfg d0 (.sync :: l) commits done pos) (hm : ∀ e ∈ m, MarkEv P e) (hP : pos ≤ P)
    (hsnap : Snap E cfg (replay d0 l) P h q c) (hq : q ≤ pos') (hql : q ≤ (replay d0 l).length)
    (hf : commits.find? (fun c => c.pos = P) = some c) :
    Safe E getKey cfg d0 (m ++ .sync :: l) commits done pos' := by
  have hs : ∀ e ∈ m, e ≠ .sync := by
    rintro e h rfl
    exact hm _ h
  have hlt := hsnap.hdr.lt
  have hw : ∀ i, i ≠ P → ∀ off b, .write off b ∈ m → off ≤ i → b[i - off]? = none := by
    intro i hi off b h1 h2
    obtain ⟨rfl, rfl | rfl⟩ := hm _ h1
    · rw [List.getElem?_eq_none]; simp; omega
    · simp
  have hnew : ∀ P', P' % blockSize = 0 → ∀ x, Poss d0 (m ++ .sync :: l) P' x →
      Poss d0 (.sync :: l) P' x ∨ (x = btHeader ∧ P' = P) := by
    intro P' hP x hx
    rcases poss_append hs hx with h | ⟨off, b, h1, h2, h3⟩
    · exact Or.inl h
    · by_cases hp : P' = P
      · refine Or.inr ⟨?_, hp⟩
        obtain ⟨rfl, rfl | rfl⟩ := hm _ h1
        · subst hp
          simp at h3; exact h3.symm
        · simp at h3
      · rw [hw P' hp off b h1 h2] at h3; cases h3
  have hne : ∀ i, i % blockSize ≠ 0 → i ≠ P := by
    rintro i hi rfl
    exact hi hsnap.hdr.aligned
  refine ⟨S.thr, S.crc, ?_, ?_, ?_, ?_⟩
  · intro P' hP' x hx
    rcases hnew P' hP' x hx with h | h
    · exact S.types P' hP' x h
    · exact Or.inr (Or.inr h.1)
  · intro P' hP' hx
    rcases hnew P' hP' _ hx with h | ⟨-, rfl⟩
    · obtain ⟨c, h, q, h1, h2, h3, h4, h5⟩ := S.headers P' hP' h
      have hk : ∀ i, i < q → i % blockSize ≠ 0 → Cert d0 (m ++ .sync :: l) i ∧
          (replay d0 (m ++ .sync :: l))[i]? = (replay d0 (.sync :: l))[i]? :=
        fun i hi1 hi2 => (h4 i hi1 hi2).append hs (hw i (hne i hi2))
      have hq : q ≤ syncedLen d0 (m ++ .sync :: l) := by rw [syncedLen_append hs]; exact h5
      exact ⟨c, h, q, h1, h2.congr (fun i hi1 hi2 => (hk i hi1 hi2).2) (Nat.le_trans hq (syncedLen_le _ _))
        rfl rfl S.thr, by omega, fun i hi1 hi2 => (hk i hi1 hi2).1, hq⟩
    · have hk : ∀ i, i < q → i % blockSize ≠ 0 → Cert d0 (m ++ .sync :: l) i ∧
          (replay d0 (m ++ .sync :: l))[i]? = (replay d0 (.sync :: l))[i]? :=
        fun i hi1 hi2 => (cert_sync (l := l) (d := d0) (i := i) (by omega)).append hs (hw i (hne i hi2))
      have hq' : q ≤ syncedLen d0 (m ++ .sync :: l) := by rw [syncedLen_append hs]; exact hql
      exact ⟨c, h, q, hf, hsnap.congr (fun i hi1 hi2 => (hk i hi1 hi2).2) (Nat.le_trans hq' (syncedLen_le _ _))
        rfl rfl S.thr, by omega, fun i hi1 hi2 => (hk i hi1 hi2).1, hq'⟩
  · intro c hc
    obtain ⟨h1, h2, h3, h4⟩ := S.oks c hc
    have := S.lt_pos h2 ((poss_replay d0 _ _).1 _ h4)
    have := h3.append hs (hw c.pos (by omega))
    exact ⟨h1, h2, this.1, by rw [this.2]; exact h4⟩
  · intro k hk
    obtain ⟨v, id, ctx, q, h1, h2, h3, h4, h5, h6, h7⟩ := S.isMeta k hk
    have hk : ∀ i, i < q → i % blockSize ≠ 0 → Cert d0 (m ++ .sync :: l) i ∧
        (replay d0 (m ++ .sync :: l))[i]? = (replay d0 (.sync :: l))[i]? :=
      fun i hi1 hi2 => (h6 i hi1 hi2).append hs (hw i (hne i hi2))
    have h0 := h2.append hs (hw 0 (by omega))
    exact ⟨v, id, ctx, q, h1.congr fun i hi1 hi2 => (hk i hi1 hi2).2, h0.1, by rw [h0.2]; exact h3,
      by omega, by omega, fun i hi1 hi2 => (hk i hi1 hi2).1, by rw [syncedLen_append hs]; exact h7⟩

/-- The content of the file after marking. -/
theorem replay_marks {d : Bytes} {m : List Event} {P : Nat} (hm : ∀ e ∈ m, MarkEv P e)
    (h1 : .write P [btHeader] ∈ m) (hl : P < d.length) : (replay d m)[P]? = some btHeader := by
  induction m with
  | nil => simp at h1
  | cons e m ih =>
    have he := hm e (by simp)
    have ih' := ih fun e he => hm e (by simp [he])
    cases e with
    | write off b =>
      obtain ⟨rfl, rfl | rfl⟩ := he
      · rw [replay, getElem?_pwriteDisk _ _ _ _ (by simp)]
        simp
      · exact ih' (by simpa using h1)
    | sync => exact he.elim
    | encrypted _ _ _ => exact he.elim

/-! ### What is found after a crash -/

/-- A crash reveals one of the commits in `cands`. -/
structure Vault (E : Env) (getKey : KeyGetter) (cfg : Cfg) (d0 : Bytes) (l : List Event)
    (commits done cands : List Commit) (pos : Nat) : Prop where
  safe : Safe E getKey cfg d0 l commits done pos
  tip : ∃ P0, P0 % blockSize = 0 ∧ Cert d0 l P0 ∧ (replay d0 l)[P0]? = some btHeader ∧
    ∀ P, P % blockSize = 0 → P0 ≤ P → Poss d0 l P btHeader →
      ∃ c ∈ cands, commits.find? (fun c => c.pos = P) = some c

theorem Vault.append {E : Env} {getKey : KeyGetter} {cfg : Cfg} {d0 : Bytes} {l evs : List Event}
    {commits done cands : List Commit} {pos pos' : Nat} (V : Vault E getKey cfg d0 l commits done cands pos)
    (he : ∀ e ∈ evs, EvOk btData pos e) (hp : pos ≤ pos') :
    Vault E getKey cfg d0 (evs ++ l) commits done cands pos' := by
  refine ⟨V.safe.append he hp, ?_⟩
  have hs : ∀ e ∈ evs, e ≠ .sync := by
    rintro e h rfl
    exact he _ h
  obtain ⟨P0, h1, h2, h3, h4⟩ := V.tip
  have hlt := V.safe.lt_pos h1 ((poss_replay d0 l _).1 _ h3)
  have := h2.append hs (fun off b h5 h6 => by have := (he _ h5).1; omega)
  refine ⟨P0, h1, this.1, by rw [this.2]; exact h3, fun P hP hPP hx => h4 P hP hPP ?_⟩
  rcases poss_append hs hx with h | ⟨off, b, h5, h6, h7⟩
  · exact h
  · have := (he _ h5).2 (P - off) (by rw [show off + (P - off) = P by omega]; exact hP) _ h7
    cases this

theorem Vault.sync {E : Env} {getKey : KeyGetter} {cfg : Cfg} {d0 : Bytes} {l : List Event}
    {commits done cands : List Commit} {pos : Nat} (V : Vault E getKey cfg d0 l commits done cands pos) :
    Vault E getKey cfg d0 (.sync :: l) commits done cands pos := by
  refine ⟨V.safe.sync, ?_⟩
  obtain ⟨P0, h1, h2, h3, h4⟩ := V.tip
  exact ⟨P0, h1, h2.sync, h3, fun P hP hPP hx => h4 P hP hPP (poss_sync hx)⟩

theorem Vault.record {E : Env} {getKey : KeyGetter} {cfg : Cfg} {d0 : Bytes} {l : List Event}
    {commits done cands : List Commit} {pos : Nat} (V : Vault E getKey cfg d0 l commits done cands pos) (c : Commit)
    (hc : pos ≤ c.pos) : Vault E getKey cfg d0 l (c :: commits) done cands pos := by
  refine ⟨V.safe.record c hc, ?_⟩
  obtain ⟨P0, h1, h2, h3, h4⟩ := V.tip
  refine ⟨P0, h1, h2, h3, fun P hP hPP hx => ?_⟩
  rw [List.find?_cons_of_neg (by simp; have := V.safe.lt_pos hP hx; omega)]
  exact h4 P hP hPP hx

theorem Vault.cands_mono {E : Env} {getKey : KeyGetter} {cfg : Cfg} {d0 : Bytes} {l : List Event}
    {commits done cands cands' : List Commit} {pos : Nat} (V : Vault E getKey cfg d0 l commits done cands pos)
    (h : ∀ c ∈ cands, c ∈ cands') : Vault E getKey cfg d0 l commits done cands' pos := by
  refine ⟨V.safe, ?_⟩
  obtain ⟨P0, h1, h2, h3, h4⟩ := V.tip
  refine ⟨P0, h1, h2, h3, fun P hP hPP hx => ?_⟩
  obtain ⟨c, hc, hf⟩ := h4 P hP hPP hx
  exact ⟨c, h c hc, hf⟩

theorem Vault.pos_mono {E : Env} {getKey : KeyGetter} {cfg : Cfg} {d0 : Bytes} {l : List Event}
    {commits done cands : List Commit} {pos pos' : Nat} (V : Vault E getKey cfg d0 l commits done cands pos)
    (h : pos ≤ pos') : Vault E getKey cfg d0 l commits done cands pos' := V.append (evs := []) (by simp) h

theorem Vault.mark {E : Env} {getKey : KeyGetter} {cfg : Cfg} {d0 : Bytes} {l m : List Event}
    {commits done cands : List Commit} {pos pos' P : Nat} {c : Commit} {h : Header} {q : Nat}
    (V : Vault E getKey cfg d0 (.sync :: l) commits done cands pos) (hm : ∀ e ∈ m, MarkEv P e) (hP : pos ≤ P)
    (hsnap : Snap E cfg (replay d0 l) P h q c) (hq : q ≤ pos') (hql : q ≤ (replay d0 l).length)
    (hf : commits.find? (fun c => c.pos = P) = some c) (hc : c ∈ cands) :
    Vault E getKey cfg d0 (m ++ .sync :: l) commits done cands pos' := by
  refine ⟨V.safe.mark hm hP hsnap hq hql hf, ?_⟩
  have hs : ∀ e ∈ m, e ≠ .sync := by
    rintro e h rfl
    exact hm _ h
  obtain ⟨P0, h1, h2, h3, h4⟩ := V.tip
  have hlt := V.safe.lt_pos h1 ((poss_replay d0 _ _).1 _ h3)
  have hw : ∀ i, i ≠ P → ∀ off b, .write off b ∈ m → off ≤ i → b[i - off]? = none := by
    intro i hi off b h1 h2
    obtain ⟨rfl, rfl | rfl⟩ := hm _ h1
    · rw [List.getElem?_eq_none]; simp; omega
    · simp
  have := h2.append hs (hw P0 (by omega))
  refine ⟨P0, h1, this.1, by rw [this.2]; exact h3, fun P' hP' hPP hx => ?_⟩
  by_cases hpp : P' = P
  · subst hpp
    exact ⟨c, hc, hf⟩
  · refine h4 P' hP' hPP ?_
    rcases poss_append hs hx with h | ⟨off, b, h5, h6, h7⟩
    · exact h
    · rw [hw P' hpp off b h5 h6] at h7; cases h7

/-- After the second sync of a commit. -/
theorem Safe.commit {E : Env} {getKey : KeyGetter} {cfg : Cfg} {d0 : Bytes} {l m : List Event}
    {commits done : List Commit} {pos pos' P : Nat} {c : Commit} {h : Header} {q : Nat}
    (S : Safe E getKey cfg d0 (.sync :: l) commits done pos) (hm : ∀ e ∈ m, MarkEv P e) (hP : pos ≤ P)
    (hsnap : Snap E cfg (replay d0 l) P h q c) (hq : q ≤ pos') (hql : q ≤ (replay d0 l).length)
    (hf : commits.find? (fun c => c.pos = P) = some c) (hcp : c.pos = P) (hw : .write P [btHeader] ∈ m) :
    Vault E getKey cfg d0 (.sync :: (m ++ .sync :: l)) commits (c :: done) [c] pos' := by
  have S' := (S.mark hm hP hsnap hq hql hf).sync
  have hlt := hsnap.hdr.lt
  have hd : (replay d0 (.sync :: (m ++ .sync :: l)))[P]? = some btHeader := by
    show (replay d0 (m ++ .sync :: l))[P]? = _
    rw [replay_append]
    exact replay_marks hm hw (by show P < (replay d0 l).length; omega)
  have hcert : Cert d0 (.sync :: (m ++ .sync :: l)) P := by
    refine cert_sync ?_
    have := length_replay_append d0 m (.sync :: l)
    have h2 : (replay d0 (.sync :: l)).length = (replay d0 l).length := rfl
    omega
  refine ⟨{ S' with oks := ?_ }, P, hsnap.hdr.aligned, hcert, hd, fun P' hP' hPP hx => ?_⟩
  · intro c' hc'
    rcases List.mem_cons.mp hc' with rfl | hc'
    · rw [hcp]
      exact ⟨hf, hsnap.hdr.aligned, hcert, hd⟩
    · exact S'.oks c' hc'
  · by_cases hpp : P' = P
    · subst hpp
      exact ⟨c, by simp, hf⟩
    · have hs : ∀ e ∈ m, e ≠ .sync := by
        rintro e h rfl
        exact hm _ h
      rcases poss_append hs (poss_sync hx) with h | ⟨off, b, h5, h6, h7⟩
      · have := S.lt_pos hP' h
        omega
      · obtain ⟨rfl, rfl | rfl⟩ := hm _ h5
        · rw [List.getElem?_eq_none (by simp; omega)] at h7; cases h7
        · simp at h7

end Couchstore
