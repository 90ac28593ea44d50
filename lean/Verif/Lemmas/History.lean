import Verif.Lemmas.RecoverFill
import Verif.Lemmas.Create
import Verif.Lemmas.Move
import Verif.Lemmas.Pres

/-! Helper lemmas: the invariant of all histories of a file. -/

namespace Couchstore

theorem commit_pos (db : Db) (ts : Nat) : (Commit.of db ts).pos = alignToNextBlock db.file.pos := by
  show (db.file.pos + 4095) / 4096 * 4096 = _
  unfold alignToNextBlock blockSize
  split <;> omega

theorem suffix_append_cases {α : Type} {l a b : List α} (h1 : b <:+ l) (h2 : l <:+ a ++ b) :
    ∃ a', a' <:+ a ∧ l = a' ++ b := by
  obtain ⟨a', rfl⟩ := h1
  obtain ⟨x, hx⟩ := h2
  rw [← List.append_assoc] at hx
  exact ⟨a', ⟨x, List.append_cancel_right hx⟩, rfl⟩

/-- Bytes before the writes stay. -/
theorem replay_before {d : Bytes} {evs : List Event} {lo : Nat}
    (h : ∀ off b, .write off b ∈ evs → lo ≤ off ∨ b = []) {i : Nat} (hi : i < lo) (hl : i < d.length) :
    (replay d evs)[i]? = d[i]? := by
  induction evs with
  | nil => rfl
  | cons e evs ih =>
    have ih := ih fun off b hb => h off b (by simp [hb])
    cases e with
    | write off b =>
      rw [replay]
      rcases h off b (by simp) with h1 | rfl
      · rw [pwriteDisk_before _ _ _ _ (by omega) (Nat.lt_of_lt_of_le hl (length_replay d evs)), ih]
      · rw [show pwriteDisk (replay d evs) off [] = replay d evs from rfl, ih]
    | sync => exact ih
    | encrypted _ _ _ => exact ih

theorem Safe.setCfg {E : Env} {getKey : KeyGetter} {cfg cfg' : Cfg} {d0 : Bytes} {l : List Event}
    {commits done : List Commit} {pos : Nat} (S : Safe E getKey cfg d0 l commits done pos)
    (hc : cfg'.cipher = cfg.cipher) (hm : cfg'.crcMode = cfg.crcMode) (ht : 2 ≤ cfg'.kvThr) :
    Safe E getKey cfg' d0 l commits done pos where
  thr := ht
  crc := by rw [hm]; exact S.crc
  types := S.types
  headers := by
    intro P hP hx
    obtain ⟨c, h, q, h1, h2, h3, h4, h5⟩ := S.headers P hP hx
    exact ⟨c, h, q, h1, h2.congr (fun _ _ _ => rfl) (Nat.le_trans h5 (syncedLen_le _ _)) hc hm ht, h3, h4, h5⟩
  oks := S.oks
  isMeta := by
    intro k hk
    exact S.isMeta k (by rw [← hc]; exact hk)

theorem Vault.setCfg {E : Env} {getKey : KeyGetter} {cfg cfg' : Cfg} {d0 : Bytes} {l : List Event}
    {commits done cands : List Commit} {pos : Nat} (V : Vault E getKey cfg d0 l commits done cands pos)
    (hc : cfg'.cipher = cfg.cipher) (hm : cfg'.crcMode = cfg.crcMode) (ht : 2 ≤ cfg'.kvThr) :
    Vault E getKey cfg' d0 l commits done cands pos := ⟨V.safe.setCfg hc hm ht, V.tip⟩

/-- Where a handle is among the commits. -/
structure Nav (commits : List Commit) (db : Db) : Prop where
  aligned : db.header.position % blockSize = 0
  lt : db.header.position < db.file.pos
  prev : 14 ≤ db.header.diskVersion →
    (∃ c, commits.find? (fun c => c.pos = db.header.position) = some c ∧ db.header.prevHeaderPos = c.prev) ∨
    (commits.find? (fun c => c.pos = db.header.position) = none ∧ db.header.prevHeaderPos = noPrevHeaderPos)
  list : ∀ c ∈ commits, c.prev = noPrevHeaderPos ∨ c.prev % blockSize = 0 ∧ c.prev < c.pos

/-- The invariant of histories. -/
structure Hist (E : Env) (getKey : KeyGetter) (s : Sys) : Prop where
  handle : ∃ ids seqs locs, Handle E s.db ids seqs locs
  live : Safe E getKey s.db.file.cfg s.db.file.disk [] s.commits s.done s.db.file.pos
  replay : s.db.file.disk = replay s.base s.db.file.log
  vault : s.cands ≠ [] → Vault E getKey s.db.file.cfg s.base s.db.file.log s.commits s.done s.cands s.db.file.pos
  nav : Nav s.commits s.db

theorem Hist.movable {E : Env} {getKey : KeyGetter} {s : Sys} (H : Hist E getKey s) :
    Movable E getKey s.commits s.done s.db := by
  obtain ⟨ids, seqs, locs, h⟩ := H.handle
  refine ⟨H.live, h.inv.wf, h.opened, H.nav.aligned, H.nav.lt, fun hv => ?_⟩
  rcases H.nav.prev hv with ⟨c, h1, h2⟩ | ⟨_, h2⟩
  · rw [h2]
    rcases H.nav.list c (List.mem_of_find?_eq_some h1) with h | h
    · exact Or.inl h
    · exact Or.inr (Or.inr h.1)
  · exact Or.inl h2

/-! ### Saving -/

theorem Step.ext {E : Env} {db db' : Db} (h : Step E db db') (w : db.file.WF) :
    DbExt db { db' with file := { db'.file with faults := [] } } ∨ DbExt db db' := by
  have hof : ∀ {α : Type} {m : DbM α}, PresDb m → DbExt db (after m db) := by
    intro α m hm
    rcases (hm db w).after with ⟨_, h⟩ | ⟨_, h⟩ <;> exact h
  cases h with
  | faults fs =>
    refine Or.inl ⟨⟨⟨fun _ _ _ => rfl, Nat.le_refl _, rfl, List.nil_suffix, [], rfl, by simp, rfl⟩,
      Nat.le_refl _, fun w => ⟨w.pos_le, w.crc⟩⟩, rfl, rfl, rfl⟩
  | save opts cb items u args => exact Or.inr (hof (pres_saveDocuments E opts cb items u))
  | saveLocal d args => exact Or.inr (hof (pres_saveLocalDocument E d))
  | saveLocals ds args => exact Or.inr (hof (pres_saveLocalDocuments E ds))
  | updateLocals ds args hdel => exact Or.inr (hof (pres_updateLocalDocuments E ds))

/-- What a step of saving does to the file and the header. -/
structure Saved (db db' : Db) : Prop where
  evs : ∃ evs, db'.file.log = evs ++ db.file.log ∧ (∀ e ∈ evs, EvOk btData db.file.pos e) ∧
    db'.file.disk = replay db.file.disk evs
  cfg : db'.file.cfg = db.file.cfg
  pos : db.file.pos ≤ db'.file.pos
  header : HKeep db.header db'.header
  dropped : db'.dropped = db.dropped

theorem Step.saved {E : Env} {db db' : Db} (h : Step E db db') (w : db.file.WF) : Saved db db' := by
  rcases h.ext w with h | h
  · exact ⟨h.ext.frame.log, h.ext.frame.cfg, h.ext.pos, h.header, h.dropped⟩
  · exact ⟨h.ext.frame.log, h.ext.frame.cfg, h.ext.pos, h.header, h.dropped⟩

theorem HKeep.fields {h h' : Header} (k : HKeep h h') : h'.diskVersion = h.diskVersion ∧ h'.position = h.position ∧
    h'.prevHeaderPos = h.prevHeaderPos ∧ h'.haveMeta = h.haveMeta ∧ h'.purgePtr = h.purgePtr ∧
    h'.purgeSeq = h.purgeSeq ∧ h'.timestamp = h.timestamp := by
  rw [k]
  exact ⟨rfl, rfl, rfl, rfl, rfl, rfl, rfl⟩

/-- The file was appended to, and the handle still holds a database. -/
theorem Hist.grow {E : Env} {getKey : KeyGetter} {s : Sys} {db' : Db} (H : Hist E getKey s)
    (hevs : ∃ evs, db'.file.log = evs ++ s.db.file.log ∧ (∀ e ∈ evs, EvOk btData s.db.file.pos e) ∧
      db'.file.disk = Couchstore.replay s.db.file.disk evs)
    (hcfg : db'.file.cfg = s.db.file.cfg) (hp : s.db.file.pos ≤ db'.file.pos)
    (f1 : db'.header.diskVersion = s.db.header.diskVersion) (f2 : db'.header.position = s.db.header.position)
    (f3 : db'.header.prevHeaderPos = s.db.header.prevHeaderPos)
    (hh : ∃ ids seqs locs, Handle E db' ids seqs locs) : Hist E getKey { s with db := db' } := by
  obtain ⟨evs, e1, e2, e3⟩ := hevs
  refine ⟨hh, ?_, ?_, ?_, ?_⟩
  · show Safe E getKey db'.file.cfg db'.file.disk [] _ _ _
    rw [hcfg]
    have := (H.live.append e2 hp).image (img := db'.file.disk) (pos' := db'.file.pos) (by
      rw [e3]
      have := crashImage_replay s.db.file.disk (evs ++ [])
      rw [List.append_nil] at this ⊢
      exact this) (Or.inl (Nat.le_refl _)) rfl rfl H.live.thr
    exact this
  · show db'.file.disk = Couchstore.replay s.base db'.file.log
    rw [e3, e1, replay_append, ← H.replay]
  · intro hc
    have V := (H.vault hc).append e2 hp
    show Vault E getKey db'.file.cfg s.base db'.file.log _ _ _ _
    rw [hcfg, e1]
    exact V
  · refine ⟨by rw [f2]; exact H.nav.aligned, by rw [f2]; exact Nat.lt_of_lt_of_le H.nav.lt hp, ?_, H.nav.list⟩
    rw [f1, f2, f3]
    exact H.nav.prev

theorem Hist.step {E : Env} {getKey : KeyGetter} (L : E.Laws) {s : Sys} {db' : Db} (H : Hist E getKey s)
    (h : Step E s.db db') : Hist E getKey { s with db := db' } := by
  obtain ⟨ids, seqs, locs, hh⟩ := H.handle
  have sv := h.saved hh.inv.wf
  obtain ⟨⟨⟨ids', seqs', locs', inv'⟩, hd'⟩, _⟩ := h.good L ⟨⟨ids, seqs, locs, hh.inv⟩, hh.opened⟩
  obtain ⟨f1, f2, f3, f4, f5, f6, f7⟩ := sv.header.fields
  refine H.grow sv.evs sv.cfg sv.pos f1 f2 f3 ⟨ids', seqs', locs', inv', hd', ?_, ?_, ?_, ?_, ?_⟩
  · rw [f1]; exact hh.ver
  · rw [f1, sv.cfg]; exact hh.crc
  · rw [f5]; exact hh.purge
  · rw [f4, sv.cfg]; exact hh.isMeta
  · rw [f1, f4]; exact hh.old

theorem Hist.setPurgeSeq {E : Env} {getKey : KeyGetter} {s : Sys} (H : Hist E getKey s) (n : Nat) :
    Hist E getKey { s with db := after (setPurgeSeq n) s.db } := by
  obtain ⟨ids, seqs, locs, hh⟩ := H.handle
  refine H.grow ⟨[], rfl, by simp, rfl⟩ rfl (Nat.le_refl _) rfl rfl rfl ⟨ids, seqs, locs, ?_, hh.opened, hh.ver, hh.crc,
    hh.purge, hh.isMeta, hh.old⟩
  have i := hh.inv
  exact ⟨i.wf, i.pos, i.thr, i.idRoot, i.seqRoot, i.locRoot, i.idSorted, i.seqSorted, i.locSorted, i.perm, i.ok, i.upd,
    i.updLt, i.body, i.few⟩

/-! ### Moving -/

theorem Landed.hist {E : Env} (L : E.Laws) {getKey : KeyGetter} {s : Sys} {db' : Db} {P : Nat} {c : Commit}
    (H : Hist E getKey s) (h : Landed E s.commits s.db db' P c) :
    Hist E getKey { s with db := db' } ∧ SameAnswers E db' c.db ∧ db'.header.position = P ∧
      db'.header.timestamp = if 13 ≤ c.db.header.diskVersion then c.timestamp else 0 := by
  obtain ⟨q, hs, hq⟩ := h.snap
  obtain ⟨ids, seqs, locs, hh⟩ := H.handle
  have hw := hh.inv.wf.pos_le
  have t := h.lost
  have hpl : db'.file.pos ≤ s.db.file.disk.length := by rcases h.pos with h | h <;> omega
  have hpg : s.db.file.pos ≤ db'.file.pos := by rcases h.pos with h | h <;> omega
  have hS := hs.handle L (db := db') rfl t.disk (by rw [t.cfg]) (by rw [t.cfg]) (by rw [t.cfg]; exact H.live.thr) hq
    hpl (by rw [t.dropped]; exact hh.opened)
  have hpos : db'.header.position = P := by
    have : (diskHeader db'.header P).position = P := rfl
    rw [hs.hdr.self] at this
    exact this
  have hlt := hs.hdr.lt
  refine ⟨⟨hS.1, ?_, ?_, ?_, ⟨by rw [hpos]; exact h.aligned, by rw [hpos]; show P < db'.file.pos; omega, ?_, H.nav.list⟩⟩, hS.2.1, hpos, ?_⟩
  · show Safe E getKey db'.file.cfg db'.file.disk [] _ _ db'.file.pos
    rw [t.cfg, t.disk]
    exact H.live.pos_mono hpg
  · show db'.file.disk = Couchstore.replay s.base db'.file.log
    rw [t.disk, t.log]
    exact H.replay
  · intro hc
    show Vault E getKey db'.file.cfg s.base db'.file.log _ _ _ db'.file.pos
    rw [t.cfg, t.log]
    exact (H.vault hc).pos_mono hpg
  · intro hv
    refine Or.inl ⟨c, ?_, hs.prev hv⟩
    show s.commits.find? (fun c => c.pos = db'.header.position) = _
    rw [hpos]
    exact h.found
  · rw [← hs.ver]; exact hs.time

theorem Hist.move {E : Env} {getKey : KeyGetter} {s : Sys} {db' : Db} (H : Hist E getKey s) (m : DbM Unit)
    (hm : m = rewindDbHeader E ∨ m = fastForwardDbHeader E ∨ (∃ p, m = seekOffset E p) ∨ ∃ d, m = seekDir E d)
    (ha : after m s.db = db') (hd : db'.dropped = false)
    (he : ∀ e d, m s.db = .error e d → e.code ≠ Err.invalidArguments.code) :
    db' = s.db ∨ ∃ P c, Landed E s.commits s.db db' P c := by
  have M := H.movable
  have hsp : Sp m s.db (fun _ d => ∃ P c, Landed E s.commits s.db d P c)
      (fun e d => d.dropped = true ∨ Stayed E s.commits s.db e d) := by
    rcases hm with rfl | rfl | ⟨p, rfl⟩ | ⟨d, rfl⟩
    · refine (rewindDbHeader_spec M).mono ?_ (fun _ _ h => Or.inl h.1)
      rintro _ d ⟨P, c, h, _⟩
      exact ⟨P, c, h⟩
    · refine (fastForwardDbHeader_spec M).mono ?_ (fun _ _ h => Or.inl h.1)
      rintro _ d ⟨P, c, h, _⟩
      exact ⟨P, c, h⟩
    · refine (seekOffset_spec M p).mono ?_ (fun _ _ h => Or.inr h.1)
      rintro _ d ⟨c, h⟩
      exact ⟨p, c, h⟩
    · refine (seekDir_spec M d).mono ?_ (fun _ _ h => Or.inr h)
      rintro _ d ⟨P, c, h, _⟩
      exact ⟨P, c, h⟩
  unfold Sp at hsp
  unfold after at ha
  cases hx : m s.db with
  | ok a d =>
    rw [hx] at hsp ha
    subst ha
    exact Or.inr hsp
  | error e d =>
    rw [hx] at hsp ha
    subst ha
    rcases hsp with h | h | ⟨c, h⟩ | h | h
    · rw [h] at hd; cases hd
    · exact Or.inl h
    · exact Or.inr ⟨_, c, h⟩
    · rw [h] at hd; cases hd
    · exact absurd h (he e d hx)

/-! ### Committing -/

theorem snap_commit {E : Env} {db : Db} {ids seqs locs} (H : Handle E db ids seqs locs) {ts : Nat} {e1 : List Event}
    {q : Nat} (p : Prepared E db ts e1 q) :
    Snap E db.file.cfg (replay db.file.disk e1) (alignToNextBlock db.file.pos)
      (committedHeader db ts (alignToNextBlock db.file.pos)) q (Commit.of db ts) := by
  have hs : HSame db.header (committedHeader db ts (alignToNextBlock db.file.pos)) :=
    ⟨rfl, rfl, diskRoot_idem _, diskRoot_idem _, diskRoot_idem _⟩
  have hge := alignToNextBlock_ge db.file.pos
  have hlt := p.hdr.lt
  refine ⟨p.hdr, H.crc, ?_, ⟨ids, seqs, locs, ?_, H.inv, hs.stats ids⟩, H.opened, rfl, ?_, ?_⟩
  · show (if 14 ≤ db.header.diskVersion then (if 14 ≤ db.header.diskVersion then db.header.haveMeta else false)
      else false) = _
    by_cases h : 14 ≤ db.header.diskVersion
    · rw [if_pos h, if_pos h]; exact H.isMeta
    · rw [if_neg h, ← H.isMeta, H.old (by omega)]
  · refine Inv.move H.inv hs ⟨?_, rfl, rfl, by show db.file.pos ≤ q; omega⟩ ⟨p.len, H.inv.wf.crc⟩ H.inv.thr
    intro i hi _
    show (replay db.file.disk e1)[i]? = _
    refine replay_before (lo := alignToNextBlock db.file.pos) (fun off b hb => Or.inl (p.evs _ hb).1) (by omega) ?_
    have := H.inv.wf.pos_le
    omega
  · show (if 13 ≤ db.header.diskVersion then (if 13 ≤ db.header.diskVersion then ts else 0) else 0) =
      if 13 ≤ db.header.diskVersion then ts else 0
    by_cases h : 13 ≤ db.header.diskVersion
    · rw [if_pos h, if_pos h]
    · rw [if_neg h, if_neg h]
  · intro h
    have h : 14 ≤ db.header.diskVersion := h
    show (if 14 ≤ db.header.diskVersion then (if 14 ≤ db.header.diskVersion then db.header.position
      else unknownPrevHeaderPos) else unknownPrevHeaderPos) = db.header.position
    rw [if_pos h, if_pos h]

section
variable {E : Env} {getKey : KeyGetter} {db : Db} {ids seqs : List Entry} {locs : List KV} {d0 : Bytes}
  {l e1 m : List Event} {commits done cands : List Commit} {ts q : Nat}

theorem find_commit (P : Nat) (hP : alignToNextBlock db.file.pos = P) :
    (Commit.of db ts :: commits).find? (fun c => c.pos = P) = some (Commit.of db ts) := by
  refine List.find?_cons_of_pos ?_
  rw [commit_pos, hP]
  simp

theorem prep_vault (V : Vault E getKey db.file.cfg d0 l commits done cands db.file.pos)
    (he : ∀ e ∈ e1, EvOk btData (alignToNextBlock db.file.pos) e) :
    Vault E getKey db.file.cfg d0 (e1 ++ l) (Commit.of db ts :: commits) done cands (alignToNextBlock db.file.pos) :=
  (V.record (Commit.of db ts) (by rw [commit_pos]; exact alignToNextBlock_ge _)).append
    (fun e h => (he e h).mono (alignToNextBlock_ge _)) (alignToNextBlock_ge _)

theorem prep_safe (S : Safe E getKey db.file.cfg d0 l commits done db.file.pos)
    (he : ∀ e ∈ e1, EvOk btData (alignToNextBlock db.file.pos) e) :
    Safe E getKey db.file.cfg d0 (e1 ++ l) (Commit.of db ts :: commits) done (alignToNextBlock db.file.pos) :=
  (S.record (Commit.of db ts) (by rw [commit_pos]; exact alignToNextBlock_ge _)).append
    (fun e h => (he e h).mono (alignToNextBlock_ge _)) (alignToNextBlock_ge _)

theorem mark_safe (H : Handle E db ids seqs locs) (S : Safe E getKey db.file.cfg d0 l commits done db.file.pos)
    (hr : replay d0 l = db.file.disk) (p : Prepared E db ts e1 q)
    (hm : ∀ e ∈ m, MarkEv (alignToNextBlock db.file.pos) e) :
    Safe E getKey db.file.cfg d0 (m ++ .sync :: (e1 ++ l)) (Commit.of db ts :: commits) done q := by
  have hrr : replay d0 (e1 ++ l) = replay db.file.disk e1 := by rw [replay_append, hr]
  refine (prep_safe S p.evs).sync.mark hm (Nat.le_refl _) (h := committedHeader db ts (alignToNextBlock db.file.pos))
    (c := Commit.of db ts) (q := q) (by rw [hrr]; exact snap_commit H p) (Nat.le_refl _) (by rw [hrr]; exact p.len)
    (find_commit _ rfl)

theorem mark_vault (H : Handle E db ids seqs locs) (V : Vault E getKey db.file.cfg d0 l commits done cands db.file.pos)
    (hr : replay d0 l = db.file.disk) (p : Prepared E db ts e1 q)
    (hm : ∀ e ∈ m, MarkEv (alignToNextBlock db.file.pos) e) :
    Vault E getKey db.file.cfg d0 (m ++ .sync :: (e1 ++ l)) (Commit.of db ts :: commits) done
      (Commit.of db ts :: cands) q := by
  have hrr : replay d0 (e1 ++ l) = replay db.file.disk e1 := by rw [replay_append, hr]
  refine ((prep_vault V p.evs).cands_mono (fun c hc => List.mem_cons_of_mem _ hc)).sync.mark hm (Nat.le_refl _)
    (h := committedHeader db ts (alignToNextBlock db.file.pos))
    (c := Commit.of db ts) (q := q) (by rw [hrr]; exact snap_commit H p) (Nat.le_refl _) (by rw [hrr]; exact p.len)
    (find_commit _ rfl) (by simp)

theorem Safe.ofSync {cfg : Cfg} {pos : Nat} (S : Safe E getKey cfg (replay d0 l) [] commits done pos) :
    Safe E getKey cfg d0 (.sync :: l) commits done pos :=
  ⟨S.thr, S.crc, S.types, S.headers, S.oks, S.isMeta⟩

theorem done_vault (H : Handle E db ids seqs locs) (S : Safe E getKey db.file.cfg db.file.disk [] commits done db.file.pos)
    (hr : replay d0 l = db.file.disk) (p : Prepared E db ts e1 q)
    (hm : ∀ e ∈ m, MarkEv (alignToNextBlock db.file.pos) e) (hw : .write (alignToNextBlock db.file.pos) [btHeader] ∈ m) :
    Vault E getKey db.file.cfg d0 (.sync :: (m ++ .sync :: (e1 ++ l))) (Commit.of db ts :: commits)
      (Commit.of db ts :: done) [Commit.of db ts] q := by
  have hrr : replay d0 (e1 ++ l) = replay db.file.disk e1 := by rw [replay_append, hr]
  have S1 : Safe E getKey db.file.cfg (replay d0 (e1 ++ l)) [] (Commit.of db ts :: commits) done
      (alignToNextBlock db.file.pos) := by
    have := prep_safe (ts := ts) S p.evs
    rw [List.append_nil] at this
    rw [hrr]
    exact this.image (crashImage_replay _ _) (Or.inl (Nat.le_refl _)) rfl rfl S.thr
  refine S1.ofSync.commit hm (Nat.le_refl _) (h := committedHeader db ts (alignToNextBlock db.file.pos))
    (c := Commit.of db ts) (q := q) (by rw [hrr]; exact snap_commit H p) (Nat.le_refl _) (by rw [hrr]; exact p.len)
    (find_commit _ rfl) (commit_pos db ts) hw

end

/-- Marks that write nothing. -/
theorem markEv_evOk {P : Nat} {m : List Event} (hm : ∀ e ∈ m, MarkEv P e) (hn : .write P [btHeader] ∉ m) :
    ∀ e ∈ m, EvOk btData P e := by
  intro e he
  cases e with
  | write off b =>
    obtain ⟨rfl, rfl | rfl⟩ := hm _ he
    · exact absurd he hn
    · exact ⟨Nat.le_refl _, by simp⟩
  | sync => exact (hm _ he).elim
  | encrypted _ _ _ => exact (hm _ he).elim

theorem Handle.keep {E : Env} {db db' : Db} {ids seqs locs} (H : Handle E db ids seqs locs)
    (hs : HSame db.header db'.header) (hv : db'.header.diskVersion = db.header.diskVersion)
    (hp : db'.header.purgePtr = db.header.purgePtr) (hm : db'.header.haveMeta = db.header.haveMeta)
    (hd : db'.dropped = db.dropped) (hc : db'.file.cfg = db.file.cfg) (hpos : db.file.pos ≤ db'.file.pos)
    (hle : db'.file.pos ≤ db'.file.disk.length)
    (ha : ∀ i, i < db.file.pos → db'.file.disk[i]? = db.file.disk[i]?) : Handle E db' ids seqs locs := by
  refine ⟨Inv.move H.inv hs ⟨fun i hi _ => ha i hi, by rw [hc], by rw [hc], hpos⟩ ⟨hle, by rw [hc]; exact H.inv.wf.crc⟩
    (by rw [hc]; exact H.inv.thr), by rw [hd]; exact H.opened, by rw [hv]; exact H.ver, by rw [hv, hc]; exact H.crc, ?_,
    by rw [hm, hc]; exact H.isMeta, by rw [hv, hm]; exact H.old⟩
  rw [hp]
  exact H.purge

theorem verHeader_meta {E : Env} {db : Db} {ids seqs locs} (H : Handle E db ids seqs locs) (ts p : Nat) :
    (verHeader { db.header with timestamp := ts, prevHeaderPos := p }).haveMeta = db.header.haveMeta := by
  show (if 14 ≤ db.header.diskVersion then db.header.haveMeta else false) = _
  by_cases h : 14 ≤ db.header.diskVersion
  · rw [if_pos h]
  · rw [if_neg h, H.old (by omega)]

theorem Committed.handle {E : Env} {db db' : Db} {ids seqs locs} (hh : Handle E db ids seqs locs)
    {ts : Nat} {e1 m : List Event} (C : Committed E db ts db' e1 m) : Handle E db' ids seqs locs := by
  have hge := alignToNextBlock_ge db.file.pos
  have hlt := C.prep.hdr.lt
  have hlen : db'.file.pos ≤ db'.file.disk.length := by
    rw [C.disk]
    show _ ≤ (replay _ (m ++ .sync :: e1)).length
    rw [replay_append]
    exact Nat.le_trans C.prep.len (length_replay _ _)
  have hagree : ∀ i, i < db.file.pos → db'.file.disk[i]? = db.file.disk[i]? := by
    intro i hi
    rw [C.disk]
    have := hh.inv.wf.pos_le
    refine replay_before (lo := alignToNextBlock db.file.pos) ?_ (by omega) (by omega)
    intro off b hb
    simp only [List.mem_cons, List.mem_append, reduceCtorEq, false_or] at hb
    rcases hb with hb | hb
    · have := (C.marks _ hb).1; omega
    · exact Or.inl (C.prep.evs _ hb).1
  have hhd : db'.header = { verHeader { db.header with timestamp := ts, prevHeaderPos := db.header.position } with
      position := alignToNextBlock db.file.pos } := by rw [C.eq]
  refine Handle.keep hh (db' := db') ?_ ?_ ?_ ?_ ?_ C.cfg (by omega) hlen hagree
  · rw [hhd]; exact ⟨rfl, rfl, rfl, rfl, rfl⟩
  · rw [hhd]; rfl
  · rw [hhd]; rfl
  · rw [hhd]; exact verHeader_meta hh ts _
  · rw [C.eq]

theorem Hist.commitOk {E : Env} {getKey : KeyGetter} {s : Sys} {db' : Db} (H : Hist E getKey s)
    {ts : Nat} {e1 m : List Event} (C : Committed E s.db ts db' e1 m) :
    Hist E getKey { s with
        db := db'
        commits := Commit.of s.db ts :: s.commits
        done := Commit.of s.db ts :: s.done
        cands := [Commit.of s.db ts] } := by
  obtain ⟨ids, seqs, locs, hh⟩ := H.handle
  have hge := alignToNextBlock_ge s.db.file.pos
  have hlt := C.prep.hdr.lt
  have hhd : db'.header = { verHeader { s.db.header with timestamp := ts, prevHeaderPos := s.db.header.position } with
      position := alignToNextBlock s.db.file.pos } := by rw [C.eq]
  refine ⟨⟨ids, seqs, locs, ?_⟩, ?_, ?_, ?_, ?_⟩
  · exact C.handle hh
  · have V := done_vault (d0 := s.db.file.disk) (l := []) hh H.live rfl C.prep C.marks C.marked
    show Safe E getKey db'.file.cfg db'.file.disk [] _ _ db'.file.pos
    rw [C.cfg, C.disk]
    rw [List.append_nil] at V
    exact V.safe.image (crashImage_replay _ _) (Or.inl (Nat.le_refl _)) rfl rfl H.live.thr
  · show db'.file.disk = Couchstore.replay s.base db'.file.log
    rw [C.log, C.disk]
    show Couchstore.replay _ (m ++ .sync :: e1) = Couchstore.replay _ (m ++ .sync :: (e1 ++ s.db.file.log))
    rw [replay_append, replay_append]
    show Couchstore.replay (Couchstore.replay _ e1) m = Couchstore.replay (Couchstore.replay _ (e1 ++ s.db.file.log)) m
    rw [replay_append, ← H.replay]
  · intro _
    show Vault E getKey db'.file.cfg s.base db'.file.log _ _ _ db'.file.pos
    rw [C.cfg, C.log]
    exact done_vault hh H.live H.replay.symm C.prep C.marks C.marked
  · refine ⟨?_, ?_, ?_, ?_⟩
    · show db'.header.position % blockSize = 0
      rw [hhd]; exact alignToNextBlock_mod _
    · show db'.header.position < db'.file.pos
      rw [hhd]; exact hlt
    · intro hv
      have hv : 14 ≤ db'.header.diskVersion := hv
      refine Or.inl ⟨Commit.of s.db ts, ?_, ?_⟩
      · show List.find? (fun c => c.pos = db'.header.position) (Commit.of s.db ts :: s.commits) = _
        rw [hhd]
        exact find_commit _ rfl
      · show db'.header.prevHeaderPos = s.db.header.position
        rw [hhd] at hv ⊢
        have hv : 14 ≤ s.db.header.diskVersion := hv
        show (if 14 ≤ s.db.header.diskVersion then s.db.header.position else _) = _
        rw [if_pos hv]
    · intro c hc
      rcases List.mem_cons.mp hc with rfl | hc
      · refine Or.inr ⟨H.nav.aligned, ?_⟩
        rw [commit_pos]
        exact Nat.lt_of_lt_of_le H.nav.lt hge
      · exact H.nav.list c hc

theorem CommitFailed.handle {E : Env} {db db' : Db} {ids seqs locs} (hh : Handle E db ids seqs locs)
    {ts : Nat} (C : CommitFailed E db ts db') :
    Handle E db' ids seqs locs ∧ ∃ l, db'.file.log = l ++ db.file.log ∧ db'.file.disk = replay db.file.disk l := by
  have hge := alignToNextBlock_ge db.file.pos
  have hpos := C.pos
  have hhd : db'.header = db.header := by rw [C.eq]
  have hwf := hh.inv.wf.pos_le
  have hlog : ∃ l, db'.file.log = l ++ db.file.log ∧ db'.file.disk = replay db.file.disk l ∧
      (∀ off b, .write off b ∈ l → alignToNextBlock db.file.pos ≤ off ∨ b = []) := by
    rcases C.run with ⟨e1, h1, h2, h3⟩ | ⟨e1, m, h1, h2, h3, h4⟩
    · exact ⟨e1, h2, h3, fun off b hb => Or.inl (h1 _ hb).1⟩
    · refine ⟨m ++ .sync :: e1, by rw [h3]; simp, h4, ?_⟩
      intro off b hb
      simp only [List.mem_cons, List.mem_append, reduceCtorEq, false_or] at hb
      rcases hb with hb | hb
      · have := (h2 _ hb).1; omega
      · exact Or.inl (h1.evs _ hb).1
  obtain ⟨l, l1, l2, l3⟩ := hlog
  have hagree : ∀ i, i < db.file.pos → db'.file.disk[i]? = db.file.disk[i]? := by
    intro i hi
    rw [l2]
    exact replay_before l3 (by omega) (by omega)
  refine ⟨Handle.keep hh (db' := db') ?_ ?_ ?_ ?_ ?_ C.cfg C.pos C.posLe hagree, l, l1, l2⟩
  · rw [hhd]; exact ⟨rfl, rfl, rfl, rfl, rfl⟩
  · rw [hhd]
  · rw [hhd]
  · rw [hhd]
  · rw [C.eq]

theorem Hist.commitFail {E : Env} {getKey : KeyGetter} {s : Sys} {db' : Db} (H : Hist E getKey s)
    {ts : Nat} (C : CommitFailed E s.db ts db') :
    Hist E getKey { s with
        db := db'
        commits := Commit.of s.db ts :: s.commits
        cands := if s.cands = [] then [] else Commit.of s.db ts :: s.cands } := by
  obtain ⟨ids, seqs, locs, hh⟩ := H.handle
  have hge := alignToNextBlock_ge s.db.file.pos
  have hpos := C.pos
  have hhd : db'.header = s.db.header := by rw [C.eq]
  have hwf := hh.inv.wf.pos_le
  obtain ⟨hh', l, l1, l2⟩ := C.handle hh
  refine ⟨⟨ids, seqs, locs, ?_⟩, ?_, ?_, ?_, ?_⟩
  · exact hh'
  · show Safe E getKey db'.file.cfg db'.file.disk [] _ _ db'.file.pos
    rw [C.cfg]
    rcases C.run with ⟨e1, h1, h2, h3⟩ | ⟨e1, m, h1, h2, h3, h4⟩
    · have S := (H.live.record (Commit.of s.db ts) (by rw [commit_pos]; exact hge)).append
        (fun e h => (h1 e h).mono hge) C.pos
      rw [h3]
      rw [List.append_nil] at S
      exact S.image (crashImage_replay _ _) (Or.inl (Nat.le_refl _)) rfl rfl H.live.thr
    · have S := mark_safe (d0 := s.db.file.disk) (l := []) hh H.live rfl h1 h2
      rw [h4]
      rw [List.append_nil] at S
      exact S.image (crashImage_replay _ _) (Or.inl (Nat.le_refl _)) rfl rfl H.live.thr
  · show db'.file.disk = Couchstore.replay s.base db'.file.log
    rw [l1, l2, replay_append, ← H.replay]
  · intro hc
    have hc' : s.cands ≠ [] := by
      intro h
      apply hc
      show (if s.cands = [] then [] else Commit.of s.db ts :: s.cands) = []
      rw [if_pos h]
    show Vault E getKey db'.file.cfg s.base db'.file.log _ _
      (if s.cands = [] then [] else Commit.of s.db ts :: s.cands) db'.file.pos
    rw [if_neg hc', C.cfg]
    rcases C.run with ⟨e1, h1, h2, h3⟩ | ⟨e1, m, h1, h2, h3, h4⟩
    · have V := ((H.vault hc').record (Commit.of s.db ts) (by rw [commit_pos]; exact hge)).append
        (fun e h => (h1 e h).mono hge) C.pos
      rw [h2]
      exact V.cands_mono (fun c hc => List.mem_cons_of_mem _ hc)
    · rw [h3]
      exact mark_vault hh (H.vault hc') H.replay.symm h1 h2
  · refine ⟨?_, ?_, ?_, ?_⟩
    · show db'.header.position % blockSize = 0
      rw [hhd]; exact H.nav.aligned
    · show db'.header.position < db'.file.pos
      rw [hhd]; exact Nat.lt_of_lt_of_le H.nav.lt hpos
    · have hfind : (Commit.of s.db ts :: s.commits).find? (fun c => c.pos = s.db.header.position) =
          s.commits.find? (fun c => c.pos = s.db.header.position) := by
        refine List.find?_cons_of_neg ?_
        have := H.nav.lt
        have := commit_pos s.db ts
        simp
        omega
      show 14 ≤ db'.header.diskVersion → (∃ c, List.find? (fun c => c.pos = db'.header.position)
        (Commit.of s.db ts :: s.commits) = _ ∧ db'.header.prevHeaderPos = _) ∨ (List.find? (fun c => c.pos = db'.header.position)
        (Commit.of s.db ts :: s.commits) = _ ∧ db'.header.prevHeaderPos = _)
      rw [hhd, hfind]
      exact H.nav.prev
    · intro c hc
      rcases List.mem_cons.mp hc with rfl | hc
      · refine Or.inr ⟨H.nav.aligned, ?_⟩
        rw [commit_pos]
        exact Nat.lt_of_lt_of_le H.nav.lt hge
      · exact H.nav.list c hc

/-! ### Opening -/

theorem Opened.hist {E : Env} (L : E.Laws) {getKey : KeyGetter} {cfg : Cfg} {flags : OpenFlags}
    {commits done : List Commit} {f : File} {db' : Db} {P : Nat} {h : Header} {q : Nat} {c : Commit} {pos : Nat}
    (O : Opened E cfg flags commits f db' P h q c) (S : Safe E getKey cfg f.disk [] commits done pos)
    (ht : 2 ≤ flags.kvThr) (list : ∀ c ∈ commits, c.prev = noPrevHeaderPos ∨ c.prev % blockSize = 0 ∧ c.prev < c.pos) :
    (∃ ids seqs locs, Handle E db' ids seqs locs) ∧
    Safe E getKey db'.file.cfg db'.file.disk [] commits done db'.file.pos ∧
    Nav commits db' ∧ SameAnswers E db' c.db ∧ db'.header.position = P ∧
    db'.header.timestamp = (if 13 ≤ c.db.header.diskVersion then c.timestamp else 0) ∧ db'.file.disk = f.disk ∧
    db'.file.log = f.log ∧ db'.file.cfg = openCfg cfg flags ∧ db'.file.pos = f.disk.length := by
  have h1 : db'.header = h := by rw [O.eq]
  have h2 : db'.file.disk = f.disk := by rw [O.eq]
  have h3 : db'.file.log = f.log := by rw [O.eq]
  have h4 : db'.file.cfg = openCfg cfg flags := by rw [O.eq]
  have h5 : db'.file.pos = f.disk.length := by rw [O.eq]
  have h6 : db'.dropped = false := by rw [O.eq]
  obtain ⟨c', h', q', c1, c2, c3, c4, c5⟩ := S.headers P O.aligned (Or.inl O.marked)
  have hdata := O.snap.data
  have hq : q ≤ f.disk.length := by
    obtain ⟨_, _, _, i1, _⟩ := hdata
    exact i1.wf.pos_le
  have hS := O.snap.handle L (db := db') h1 h2 (by rw [h4]; rfl) (by rw [h4]; rfl) (by rw [h4]; exact ht)
    (by rw [h5]; exact hq) (by rw [h5]; exact Nat.le_refl _) h6
  have hpos : db'.header.position = P := by
    rw [h1]
    have : (diskHeader h P).position = P := rfl
    rw [O.snap.hdr.self] at this
    exact this
  have hlt := O.snap.hdr.lt
  refine ⟨hS.1, ?_, ⟨by rw [hpos]; exact O.aligned, by rw [hpos, h5]; omega, ?_, list⟩, hS.2.1, hpos, ?_, h2, h3, h4, h5⟩
  · rw [h4, h2, h5]
    exact S.image (crashImage_replay f.disk []) (Or.inr (Nat.le_refl _)) rfl rfl ht
  · rw [h1]
    intro hv
    refine Or.inl ⟨c, ?_, O.snap.prev hv⟩
    rw [← h1, hpos]
    exact O.found
  · rw [h1]
    rw [← O.snap.ver]; exact O.snap.time

theorem openDb_ok {E : Env} {flags : OpenFlags} {getKey : KeyGetter} {ctx : Bytes} {f f' : File} {db' : Db}
    (h : openDb E flags getKey ctx f = .ok db' f') :
    openBody E flags getKey ctx (newHandle flags f) = .ok () db' ∧ f' = db'.file := by
  unfold openDb at h
  split at h
  · cases h
  · split at h
    · cases h
    · split at h
      · rename_i hx
        cases h
        exact ⟨hx, rfl⟩
      · cases h

theorem Hist.reopen {E : Env} (L : E.Laws) {getKey : KeyGetter} {s : Sys} {db' : Db} {f' : File} (H : Hist E getKey s)
    (flags : OpenFlags) (ctx : Bytes) (faults : List Fault) (ht : 2 ≤ flags.kvThr)
    (h : openDb E flags getKey ctx (s.db.file.reset faults) = .ok db' f') :
    Hist E getKey { s with db := db' } ∧ ∃ P h q c, Opened E s.db.file.cfg flags s.commits (s.db.file.reset faults) db' P h q c := by
  obtain ⟨ids, seqs, locs, hh⟩ := H.handle
  have hwf := hh.inv.wf.pos_le
  have hpos := hh.inv.pos
  have hsp := openBody_spec E flags getKey ctx (s.db.file.reset faults) (by show 0 < s.db.file.disk.length; omega)
    (cfg := s.db.file.cfg) H.live
  obtain ⟨P, h0, q, c, O⟩ := hsp.ok (openDb_ok h).1
  obtain ⟨k1, k2, k3, k4, k5, k6, k7, k8, k9, k10⟩ := O.hist L (f := s.db.file.reset faults) H.live ht H.nav.list
  refine ⟨⟨k1, k2, ?_, ?_, k3⟩, P, h0, q, c, O⟩
  · show db'.file.disk = Couchstore.replay s.base db'.file.log
    rw [k7, k8]
    exact H.replay
  · intro hc
    show Vault E getKey db'.file.cfg s.base db'.file.log _ _ _ db'.file.pos
    rw [k8, k9]
    refine ((H.vault hc).pos_mono ?_).setCfg rfl rfl ht
    rw [k10]
    exact hwf

/-! ### Crashes -/

theorem commit_mid {E : Env} {getKey : KeyGetter} {s : Sys} (H : Hist E getKey s) (hc : s.cands ≠ []) {ts : Nat}
    {l' : List Event} {db' : Db} (h : (∃ e1 m, Committed E s.db ts db' e1 m) ∨ CommitFailed E s.db ts db')
    (h1 : s.db.file.log <:+ l') (h2 : l' <:+ db'.file.log) :
    ∃ pos new, l' = new ++ s.db.file.log ∧
      Vault E getKey s.db.file.cfg s.base l' (Commit.of s.db ts :: s.commits) s.done (Commit.of s.db ts :: s.cands) pos ∧
      (.write (Commit.of s.db ts).pos [btHeader] ∉ new →
        Vault E getKey s.db.file.cfg s.base l' (Commit.of s.db ts :: s.commits) s.done s.cands pos) := by
  obtain ⟨ids, seqs, locs, hh⟩ := H.handle
  have V := H.vault hc
  have hprep : ∀ e1 : List Event, (∀ e ∈ e1, EvOk btData (alignToNextBlock s.db.file.pos) e) → ∀ a, a <:+ e1 →
      Vault E getKey s.db.file.cfg s.base (a ++ s.db.file.log) (Commit.of s.db ts :: s.commits) s.done s.cands
        (alignToNextBlock s.db.file.pos) := by
    intro e1 he a ha
    exact prep_vault V (fun e h => he e (ha.subset h))
  have hfin : ∀ pos new, l' = new ++ s.db.file.log → Vault E getKey s.db.file.cfg s.base l' (Commit.of s.db ts :: s.commits) s.done s.cands pos →
      ∃ pos new, l' = new ++ s.db.file.log ∧
      Vault E getKey s.db.file.cfg s.base l' (Commit.of s.db ts :: s.commits) s.done (Commit.of s.db ts :: s.cands) pos ∧
      (.write (Commit.of s.db ts).pos [btHeader] ∉ new →
        Vault E getKey s.db.file.cfg s.base l' (Commit.of s.db ts :: s.commits) s.done s.cands pos) := by
    intro pos new hn V
    exact ⟨pos, new, hn, V.cands_mono (fun c hc => List.mem_cons_of_mem _ hc), fun _ => V⟩
  have hmarks : ∀ (e1 m : List Event) q, Prepared E s.db ts e1 q → (∀ e ∈ m, MarkEv (alignToNextBlock s.db.file.pos) e) →
      ∀ a, a <:+ m ++ .sync :: e1 → l' = a ++ s.db.file.log →
      ∃ pos new, l' = new ++ s.db.file.log ∧
      Vault E getKey s.db.file.cfg s.base l' (Commit.of s.db ts :: s.commits) s.done (Commit.of s.db ts :: s.cands) pos ∧
      (.write (Commit.of s.db ts).pos [btHeader] ∉ new →
        Vault E getKey s.db.file.cfg s.base l' (Commit.of s.db ts :: s.commits) s.done s.cands pos) := by
    intro e1 m q p hm a ha hl
    by_cases hsuf : .sync :: e1 <:+ a
    · obtain ⟨m', hm', rfl⟩ := suffix_append_cases hsuf ha
      have hm'' : ∀ e ∈ m', MarkEv (alignToNextBlock s.db.file.pos) e := fun e h => hm e (hm'.subset h)
      have hl2 : l' = m' ++ .sync :: (e1 ++ s.db.file.log) := by rw [hl]; simp
      refine ⟨q, m' ++ .sync :: e1, by rw [hl], ?_, ?_⟩
      · rw [hl2]
        exact mark_vault hh V H.replay.symm p hm''
      · intro hn
        rw [hl2]
        refine ((prep_vault V p.evs).sync.append (markEv_evOk hm'' ?_) ?_)
        · intro h
          apply hn
          rw [commit_pos]
          exact List.mem_append.mpr (Or.inl h)
        · have := p.hdr.lt
          omega
    · rcases List.suffix_or_suffix_of_suffix ha (List.suffix_append m (.sync :: e1)) with h | h
      · rcases List.suffix_cons_iff.mp h with rfl | h
        · exact absurd (List.suffix_refl _) hsuf
        · exact hfin _ a hl (by rw [hl]; exact hprep e1 p.evs a h)
      · exact absurd h hsuf
  rcases h with ⟨e1, m, C⟩ | C
  · rw [C.log] at h2
    have h2' : l' <:+ (.sync :: (m ++ .sync :: e1)) ++ s.db.file.log := by simpa using h2
    obtain ⟨a, ha, hl⟩ := suffix_append_cases h1 h2'
    rcases List.suffix_cons_iff.mp ha with rfl | ha
    · refine ⟨db'.file.pos, _, hl, ?_, ?_⟩
      · have := (mark_vault hh V H.replay.symm C.prep C.marks).sync
        rw [hl]
        simpa using this
      · intro hn
        exfalso
        apply hn
        rw [commit_pos]
        have := C.marked
        simp [this]
    · exact hmarks e1 m _ C.prep C.marks a ha hl
  · rcases C.run with ⟨e1, r1, r2, r3⟩ | ⟨e1, m, r1, r2, r3, r4⟩
    · rw [r2] at h2
      obtain ⟨a, ha, hl⟩ := suffix_append_cases h1 h2
      exact hfin _ a hl (by rw [hl]; exact hprep e1 r1 a ha)
    · have h2' : l' <:+ (m ++ .sync :: e1) ++ s.db.file.log := by
        rw [r3] at h2
        simpa using h2
      obtain ⟨a, ha, hl⟩ := suffix_append_cases h1 h2'
      exact hmarks e1 m _ r1 r2 a ha hl

theorem commit_cases {E : Env} {s : Sys} {getKey : KeyGetter} (H : Hist E getKey s) {ts : Nat} {cb : Nat → Bool} :
    (∀ db', commit E ts cb s.db = .ok () db' → ∃ e1 m, Committed E s.db ts db' e1 m) ∧
    (∀ e db', commit E ts cb s.db = .error e db' → CommitFailed E s.db ts db') := by
  obtain ⟨ids, seqs, locs, hh⟩ := H.handle
  have := commit_spec E ts cb s.db hh
  exact ⟨fun db' h => this.ok h, fun e db' h => (this.error h).1⟩

/-- A crash during a call. -/
theorem Op.mid {E : Env} (L : E.Laws) {getKey : KeyGetter} {s s' : Sys} (H : Hist E getKey s) (h : Op E getKey s s')
    (hc : s.cands ≠ []) {l' : List Event} (h1 : s.db.file.log <:+ l') (h2 : l' <:+ s'.db.file.log) :
    ∃ pos cands, Vault E getKey s.db.file.cfg s.base l' s'.commits s.done cands pos ∧
      (∀ c ∈ cands, c ∈ s.cands ∨ c ∈ s'.cands) := by
  have hrefl : ∀ {l : List Event}, s.db.file.log <:+ l → l <:+ s.db.file.log → l = s.db.file.log := by
    intro l a b
    exact b.eq_of_length (Nat.le_antisymm b.length_le a.length_le)
  obtain ⟨ids, seqs, locs, hh⟩ := H.handle
  cases h with
  | @step db' hs =>
    have sv := hs.saved hh.inv.wf
    obtain ⟨evs, e1, e2, e3⟩ := sv.evs
    have h2 : l' <:+ db'.file.log := h2
    rw [e1] at h2
    obtain ⟨a, ha, rfl⟩ := suffix_append_cases h1 h2
    exact ⟨_, _, (H.vault hc).append (fun e h => e2 e (ha.subset h)) (Nat.le_refl _), fun c hc => Or.inl hc⟩
  | setPurgeSeq n =>
    have h2 : l' <:+ s.db.file.log := h2
    rw [hrefl h1 h2]
    exact ⟨_, _, H.vault hc, fun c hc => Or.inl hc⟩
  | @commitOk db' ts cb hx =>
    obtain ⟨pos, new, _, V, _⟩ := commit_mid H hc (Or.inl ((commit_cases H).1 _ hx)) h1 h2
    refine ⟨pos, _, V, fun c hc => ?_⟩
    rcases List.mem_cons.mp hc with rfl | hc
    · right; simp
    · exact Or.inl hc
  | @commitFail db' e ts cb hx =>
    obtain ⟨pos, new, _, V, _⟩ := commit_mid H hc (Or.inr ((commit_cases H).2 _ _ hx)) h1 h2
    refine ⟨pos, _, V, fun c hc' => ?_⟩
    rcases List.mem_cons.mp hc' with rfl | hc'
    · right
      show _ ∈ if s.cands = [] then [] else _
      rw [if_neg hc]
      simp
    · exact Or.inl hc'
  | @move db' m hm ha hd he =>
    have hlog : db'.file.log = s.db.file.log := by
      rcases H.move m hm ha hd he with rfl | ⟨P, c, h⟩
      · rfl
      · exact h.lost.log
    have h2 : l' <:+ db'.file.log := h2
    rw [hlog] at h2
    rw [hrefl h1 h2]
    exact ⟨_, _, H.vault hc, fun c hc => Or.inl hc⟩
  | @reopen db' f' flags ctx faults ht ho =>
    have hlog : db'.file.log = s.db.file.log := by
      obtain ⟨_, P, h, q, c, O⟩ := H.reopen L flags ctx faults ht ho
      rw [O.eq]; rfl
    have h2 : l' <:+ db'.file.log := h2
    rw [hlog] at h2
    rw [hrefl h1 h2]
    exact ⟨_, _, H.vault hc, fun c hc => Or.inl hc⟩

theorem Op.hist {E : Env} (L : E.Laws) {getKey : KeyGetter} {s s' : Sys} (H : Hist E getKey s) (h : Op E getKey s s') :
    Hist E getKey s' := by
  cases h with
  | step hs => exact H.step L hs
  | setPurgeSeq n => exact H.setPurgeSeq n
  | commitOk ts cb hx =>
    obtain ⟨e1, m, C⟩ := (commit_cases H).1 _ hx
    exact H.commitOk C
  | commitFail ts cb hx => exact H.commitFail ((commit_cases H).2 _ _ hx)
  | @move db' m hm ha hd he =>
    rcases H.move m hm ha hd he with rfl | ⟨P, c, h⟩
    · exact H
    · exact (h.hist L H).1
  | reopen flags ctx faults ht ho => exact (H.reopen L flags ctx faults ht ho).1

/-- What is found after a crash. -/
theorem Vault.open {E : Env} (L : E.Laws) {getKey : KeyGetter} {cfg : Cfg} {d0 img : Bytes} {l : List Event}
    {commits done cands : List Commit} {pos : Nat} (V : Vault E getKey cfg d0 l commits done cands pos)
    (hi : CrashImage d0 l img) (flags : OpenFlags) (ctx : Bytes) (ht : 2 ≤ flags.kvThr)
    (list : ∀ c ∈ commits, c.prev = noPrevHeaderPos ∨ c.prev % blockSize = 0 ∧ c.prev < c.pos) :
    Sp (openBody E flags getKey ctx) (newHandle flags (crashedFile img []))
      (fun _ db' => ∃ c ∈ cands, commits.find? (fun c => c.pos = db'.header.position) = some c ∧
        SameAnswers E db' c.db ∧ db'.header.timestamp = (if 13 ≤ c.db.header.diskVersion then c.timestamp else 0) ∧
        Hist E getKey { db := db', base := img, commits := commits, done := c :: done, cands := [c] })
      (fun _ _ => flags.legacyCrc = true ∧ cfg.crcMode = .crc32c) := by
  obtain ⟨P0, t1, t2, t3, t4⟩ := V.tip
  have himg0 : img[P0]? = some btHeader := by rw [t2.image hi, t3]
  have hlen : 0 < img.length := by
    have := (List.getElem?_eq_some_iff.mp himg0).1
    omega
  have S : Safe E getKey cfg img [] commits done pos := V.safe.image hi (Or.inl (Nat.le_refl _)) rfl rfl V.safe.thr
  refine (openBody_spec E flags getKey ctx (crashedFile img []) hlen S).mono ?_ ?_
  · rintro _ db' ⟨P, h, q, c, O⟩
    have hP : P0 ≤ P := by
      rcases Nat.lt_or_ge P P0 with hlt | hge
      · exact absurd himg0 (O.newest rfl P0 t1 hlt)
      · exact hge
    obtain ⟨c', hc', hf'⟩ := t4 P O.aligned hP (hi.2.2 P _ O.marked)
    have := O.found
    rw [hf'] at this
    cases this
    obtain ⟨k1, k2, k3, k4, k5, k6, k7, k8, k9, k10⟩ := O.hist L (f := crashedFile img []) S ht list
    have hcp : c.pos = P := by
      have := List.find?_some O.found
      simpa using this
    have k2' : Safe E getKey db'.file.cfg db'.file.disk [] commits (c :: done) db'.file.pos := by
      refine ⟨k2.thr, k2.crc, k2.types, k2.headers, ?_, k2.isMeta⟩
      intro c' hm
      rcases List.mem_cons.mp hm with rfl | hm
      · rw [hcp]
        have hl := (List.getElem?_eq_some_iff.mp O.marked).1
        rw [k7]
        exact ⟨O.found, O.aligned, cert_nil hl, O.marked⟩
      · exact k2.oks c' hm
    clear k2
    refine ⟨c, hc', by rw [k5]; exact O.found, k4, k6, k1, k2', ?_, ?_, k3⟩
    · show db'.file.disk = replay img db'.file.log
      rw [k7, k8]; rfl
    · intro _
      show Vault E getKey db'.file.cfg img db'.file.log commits (c :: done) [c] db'.file.pos
      rw [k8]
      show Vault E getKey db'.file.cfg img [] commits (c :: done) [c] db'.file.pos
      rw [k7] at k2'
      refine ⟨k2', P, O.aligned, cert_nil (List.getElem?_eq_some_iff.mp O.marked).1, O.marked, fun P' a1 a2 a3 => ?_⟩
      have hx : img[P']? = some btHeader := by
        rcases a3 with hx | ⟨_, hx⟩
        · exact hx
        · cases hx
      have hPP : P' = P := by
        rcases Nat.lt_or_ge P P' with hlt | hge
        · exact absurd hx (O.newest rfl P' a1 hlt)
        · omega
      subst hPP
      exact ⟨c, by simp, O.found⟩
  · rintro e db' ⟨_, _, h⟩
    rcases h rfl with h | h
    · exact h
    · exact absurd himg0 (h P0 t1)

/-- A new file. -/
theorem created_hist {E : Env} {getKey : KeyGetter} {db : Db} {f' : File} {flags : OpenFlags} {ctx : Bytes}
    {faults : List Fault} (ht : 2 ≤ flags.kvThr) (K : KeysOk getKey flags.legacyCrc)
    (ho : openDb E flags getKey ctx (crashedFile [] faults) = .ok db f') :
    Hist E getKey (Sys.created db flags.noCommitAtCreate) ∧ Handle E db [] [] [] ∧
      (flags.noCommitAtCreate = true → db.header.diskVersion = if flags.legacyCrc then 11 else 14) := by
  obtain ⟨C, hv⟩ := (openBody_create E flags getKey ctx faults ht K).ok (openDb_ok ho).1
  refine ⟨⟨⟨[], [], [], C.handle⟩, C.safe, C.replay, fun h => absurd rfl h, ⟨C.nav.1, C.nav.2.1, fun hv => ?_, ?_⟩⟩,
    C.handle, hv⟩
  · show (∃ c, List.find? _ (if flags.noCommitAtCreate = true then [] else _) = some c ∧ _) ∨
      (List.find? _ (if flags.noCommitAtCreate = true then [] else _) = none ∧ _)
    by_cases hn : flags.noCommitAtCreate = true
    · rw [if_pos hn]
      exact Or.inr ⟨rfl, C.nav.2.2 hv⟩
    · rw [if_neg hn]
      refine Or.inl ⟨_, List.find?_cons_of_pos (by simp [Sys.created]), C.nav.2.2 hv⟩
  · intro c hc
    have hc : c ∈ (if flags.noCommitAtCreate = true then [] else [_]) := hc
    by_cases hn : flags.noCommitAtCreate = true
    · rw [if_pos hn] at hc; cases hc
    · rw [if_neg hn] at hc
      rw [List.mem_singleton.mp hc]
      exact Or.inl rfl

theorem compactFlags_thr (source : Db) (upgrade : Bool) : 2 ≤ (compactFlags source upgrade).kvThr := by
  unfold compactFlags nodesizeOptions
  dsimp only
  split
  · dsimp only
    split
    · omega
    · omega
  · omega

/-- The raw operations on the new file of a compaction do not fail. -/
theorem compact_calm {E : Env} {υ : Type} {c : Compaction υ} (hf : c.faults = []) {t : Db} {f' : File}
    (ho : openDb E (compactFlags c.source c.upgrade) c.getKey c.ctx (crashedFile [] c.faults) = .ok t f') :
    t.file.faults = [] := by
  rw [hf] at ho
  exact (openBody_calm E _ rfl c.getKey c.ctx).ok (openDb_ok ho).1

/-- The new file of a compaction, before it is committed. -/
theorem Hist.fill {E : Env} {getKey : KeyGetter} {υ : Type} {c : Compaction υ} {s : Sys} (H : Hist E getKey s) {t' : Db}
    {ids seqs : List Entry} {locs : List KV} (F : Filled E c s.db ids seqs locs t') (hh : Handle E t' ids seqs locs) :
    Hist E getKey { s with db := t' } := by
  have h := F.same
  exact H.grow F.ext.frame.log F.ext.frame.cfg F.ext.pos (by rw [h]) (by rw [h]) (by rw [h]) ⟨_, _, _, hh⟩

theorem History.hist {E : Env} (L : E.Laws) {getKey : KeyGetter} {s : Sys} (h : History E getKey s) :
    Hist E getKey s := by
  induction h with
  | create flags ctx faults ht K ho => exact (created_hist ht K ho).1
  | @compact _ s υ t t' f' c _ hs K ho hw hf ih =>
    obtain ⟨ids, seqs, locs, S⟩ := ih.handle
    rw [← hs] at S
    obtain ⟨H, T, _⟩ := created_hist (compactFlags_thr _ _) K ho
    obtain ⟨u, kept, moved, ids', _, _, _, F, hh⟩ := (compactFill_spec E L c hw S t T).ok hf
    exact Hist.fill (s := Sys.created t true) H F hh
  | @recover _ s υ t t' f' er c _ hs D h1 h2 h3 hk hrw K ho hf ih =>
    obtain ⟨ids, seqs, locs, S⟩ := ih.handle
    obtain ⟨H, T, _⟩ := created_hist (compactFlags_thr _ _) K ho
    obtain ⟨moved, ids', _, _, F, hh, _⟩ := (recoverFill_spec E L c S D hs h1 h2 hk hrw t T (compact_calm h3 ho)).ok hf
    exact Hist.fill (s := Sys.created t true) H F hh
  | op _ h ih => exact h.hist L ih
  | @crash key s s' log img db' f' flags ctx _ hs hc h1 h2 hi ht ho ih =>
    have hV : ∃ pos cands, Vault E key s.db.file.cfg s.base log s'.commits s.done cands pos ∧
        Nav s'.commits s'.db := by
      rcases hs with rfl | hop
      · have : log = s'.db.file.log := h2.eq_of_length (Nat.le_antisymm h2.length_le h1.length_le)
        rw [this]
        exact ⟨_, _, ih.vault hc, ih.nav⟩
      · obtain ⟨pos, cands, V, _⟩ := Op.mid L ih hop hc h1 h2
        exact ⟨pos, cands, V, (hop.hist L ih).nav⟩
    obtain ⟨pos, cands, V, nav⟩ := hV
    obtain ⟨c, hcc, hf, _, _, H'⟩ := (V.open L hi flags ctx ht nav.list).ok (openDb_ok ho).1
    rw [hf]
    exact H'

/-- Commit does not change any answer. -/
theorem commit_same {E : Env} (L : E.Laws) {getKey : KeyGetter} {s : Sys} (H : Hist E getKey s) (ts : Nat)
    (cb : Nat → Bool) : SameAnswers E s.db (after (commit E ts cb) s.db) := by
  obtain ⟨ids, seqs, locs, hh⟩ := H.handle
  rcases (commit_spec E ts cb s.db hh).after with ⟨_, e1, m, C⟩ | ⟨_, C, _⟩
  · refine sameAnswers_of L hh.inv (C.handle hh).inv hh.opened (C.handle hh).opened ?_
    rw [C.eq]; rfl
  · refine sameAnswers_of L hh.inv (C.handle hh).1.inv hh.opened (C.handle hh).1.opened ?_
    rw [C.eq]

theorem SameAnswers.symm {E : Env} {a b : Db} (h : SameAnswers E a b) : SameAnswers E b a :=
  fun q hq => (h q hq).symm

theorem find_pos {commits : List Commit} {P : Nat} {c : Commit}
    (h : commits.find? (fun c => c.pos = P) = some c) : c.pos = P := by
  simpa using List.find?_some h

theorem Landed.shows {E : Env} (L : E.Laws) {getKey : KeyGetter} {s : Sys} {db' : Db} {P : Nat} {c : Commit}
    (H : Hist E getKey s) (h : Landed E s.commits s.db db' P c) : Shows E db' c := by
  obtain ⟨-, h1, h2, h3⟩ := h.hist L H
  exact ⟨h1.symm, by rw [h2, find_pos h.found], h3⟩

/-- Opening the file again without failures finds the last commit. -/
theorem Hist.reopen_ok {E : Env} (L : E.Laws) {getKey : KeyGetter} {s : Sys} (H : Hist E getKey s) (hc : s.cands ≠ [])
    (flags : OpenFlags) (ctx : Bytes) (ht : 2 ≤ flags.kvThr) :
    Sp (openBody E flags getKey ctx) (newHandle flags (s.db.file.reset []))
      (fun _ db' => db'.file.disk = s.db.file.disk ∧ ∃ c ∈ s.cands, Shows E db' c)
      (fun _ _ => flags.legacyCrc = true ∧ s.db.file.cfg.crcMode = .crc32c) := by
  obtain ⟨ids, seqs, locs, hh⟩ := H.handle
  have hwf := hh.inv.wf.pos_le
  have hpos := hh.inv.pos
  obtain ⟨P0, t1, t2, t3, t4⟩ := (H.vault hc).tip
  rw [← H.replay] at t3
  refine (openBody_spec E flags getKey ctx (s.db.file.reset []) (by show 0 < s.db.file.disk.length; omega)
    (cfg := s.db.file.cfg) H.live).mono ?_ ?_
  · rintro _ db' ⟨P, h, q, c, O⟩
    obtain ⟨-, -, -, k4, k5, k6, k7, -⟩ := O.hist L (f := s.db.file.reset []) H.live ht H.nav.list
    have hP : P0 ≤ P := by
      rcases Nat.lt_or_ge P P0 with hlt | hge
      · exact absurd t3 (O.newest rfl P0 t1 hlt)
      · exact hge
    have hposs : Poss s.base s.db.file.log P btHeader := by
      have := O.marked
      have this : s.db.file.disk[P]? = some btHeader := this
      rw [H.replay] at this
      exact (crashImage_replay _ _).2.2 P _ this
    obtain ⟨c', hc', hf'⟩ := t4 P O.aligned hP hposs
    have := O.found
    rw [hf'] at this
    cases this
    exact ⟨k7, c, hc', k4.symm, by rw [k5, find_pos O.found], k6⟩
  · rintro e db' ⟨_, _, h⟩
    rcases h rfl with h | h
    · exact h
    · exact absurd t3 (h P0 t1)

theorem openDb_of {E : Env} {flags : OpenFlags} {getKey : KeyGetter} {ctx : Bytes} {f : File} {Q : Db → Prop} {mode : CrcMode}
    (h : Sp (openBody E flags getKey ctx) (newHandle flags f) (fun _ db' => Q db')
      (fun _ _ => flags.legacyCrc = true ∧ mode = .crc32c))
    (ok : flags.Ok (mode == .crc32)) : ∃ db', openDb E flags getKey ctx f = .ok db' db'.file ∧ Q db' := by
  unfold openDb
  rw [if_neg ok.rdonly, if_neg (by
    rintro ⟨h1, h2⟩
    exact h2 (ok.excl h1))]
  unfold Sp at h
  cases hp : openBody E flags getKey ctx (newHandle flags f) with
  | ok a db' => rw [hp] at h; exact ⟨db', rfl, h⟩
  | error e db' =>
    rw [hp] at h
    have := ok.crc h.1
    rw [h.2] at this
    cases this

/-- Opening the file after a crash. -/
theorem Vault.openDb {E : Env} (L : E.Laws) {getKey : KeyGetter} {cfg : Cfg} {d0 img : Bytes} {l : List Event}
    {commits done cands : List Commit} {pos : Nat} (V : Vault E getKey cfg d0 l commits done cands pos)
    (hi : CrashImage d0 l img) (flags : OpenFlags) (ctx : Bytes) (ok : flags.Ok (cfg.crcMode == .crc32))
    (list : ∀ c ∈ commits, c.prev = noPrevHeaderPos ∨ c.prev % blockSize = 0 ∧ c.prev < c.pos) :
    ∃ db', openDb E flags getKey ctx (crashedFile img []) = .ok db' db'.file ∧ ∃ c ∈ cands, Shows E db' c ∧
      commits.find? (fun c => c.pos = db'.header.position) = some c := by
  obtain ⟨db', h1, c, h2, h3, h4, h5, h6⟩ := openDb_of (V.open L hi flags ctx ok.thr list) ok
  exact ⟨db', h1, c, h2, ⟨h4.symm, (find_pos h3).symm, h5⟩, h3⟩

theorem Saved.trans {a b c : Db} (h : Saved a b) (h' : Saved b c) : Saved a c := by
  obtain ⟨e1, a1, a2, a3⟩ := h.evs
  obtain ⟨e2, b1, b2, b3⟩ := h'.evs
  refine ⟨⟨e2 ++ e1, by rw [b1, a1, List.append_assoc], ?_, by rw [b3, a3, replay_append]⟩, h'.cfg.trans h.cfg,
    Nat.le_trans h.pos h'.pos, h.header.trans h'.header, h'.dropped.trans h.dropped⟩
  intro e he
  rcases List.mem_append.mp he with he | he
  · exact (b2 e he).mono h.pos
  · exact a2 e he

theorem Steps.saved {E : Env} (L : E.Laws) {db db' : Db} (h : Steps E db db') (g : Good E db) : Saved db db' := by
  induction h with
  | refl => exact ⟨⟨[], rfl, by simp, rfl⟩, rfl, Nat.le_refl _, rfl, rfl⟩
  | step h1 h2 ih =>
    obtain ⟨⟨_, _, _, inv⟩, _⟩ := (h1.good L g).1
    exact ih.trans (h2.saved inv.wf)

theorem Hist.steps {E : Env} {getKey : KeyGetter} (L : E.Laws) {s : Sys} {db' : Db} (H : Hist E getKey s)
    (h : Steps E s.db db') : Hist E getKey { s with db := db' } := by
  induction h with
  | refl => exact H
  | step _ h2 ih => exact ih.step (s := { s with db := _ }) L h2

theorem History.steps {E : Env} {getKey : KeyGetter} {s : Sys} {db' : Db} (H : History E getKey s)
    (h : Steps E s.db db') : History E getKey { s with db := db' } := by
  induction h with
  | refl => exact H
  | step _ h2 ih => exact .op ih (.step h2)

theorem Reachable.good {E : Env} (L : E.Laws) {db : Db} (h : Reachable E db) : Good E db := by
  obtain ⟨db0, h0, hs⟩ := h
  refine (hs.good L ?_).1
  rcases h0 with h0 | ⟨getKey, s, h0, rfl⟩
  · exact h0.good
  · obtain ⟨ids, seqs, locs, hh⟩ := (h0.hist L).handle
    exact ⟨⟨ids, seqs, locs, hh.inv⟩, hh.opened⟩

end Couchstore
