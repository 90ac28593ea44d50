import Verif.Lemmas.History
import Verif.Spec.Reader

/-! Other handles on a file that is being written. -/

namespace Couchstore

variable {E : Env} {getKey : KeyGetter}

/-- There is only one header at a place. -/
theorem HeaderAt.unique {d : Bytes} {P : Nat} {h h' : Header} {q q' : Nat} (H : HeaderAt E d P h q)
    (H' : HeaderAt E d P h' q') (ht : d[P]? = some btHeader) : h = h' := by
  have a := findHeaderAtPos_header E (onDisk ⟨.unknown, none, 0, 0⟩ d 0 h) (P := P) H ht (Or.inr rfl)
  have b := findHeaderAtPos_header E (onDisk ⟨.unknown, none, 0, 0⟩ d 0 h) (P := P) H' ht (Or.inr rfl)
  unfold Sp at a b
  cases hp : findHeaderAtPos E P (onDisk ⟨.unknown, none, 0, 0⟩ d 0 h) with
  | ok x db' =>
    rw [hp] at a b
    have e := a.2.symm.trans b.2
    have := congrArg Db.header e
    exact this
  | error e db' =>
    rw [hp] at a
    exact absurd rfl a.2

/-- A write that leaves the contents before `pos` alone. -/
def Spares (pos : Nat) : Event → Prop
  | .write off b => pos ≤ off ∨ b = [] ∨ off % blockSize = 0 ∧ b.length ≤ 1
  | .sync => True
  | .encrypted _ _ _ => True

theorem Spares.mono {lo hi : Nat} (h : lo ≤ hi) {e : Event} (he : Spares hi e) : Spares lo e := by
  cases e with
  | write off b =>
    rcases he with he | he
    · exact Or.inl (Nat.le_trans h he)
    · exact Or.inr he
  | sync => trivial
  | encrypted _ _ _ => trivial

theorem EvOk.spares {t : UInt8} {lo : Nat} {e : Event} (h : EvOk t lo e) : Spares lo e := by
  cases e with
  | write off b => exact Or.inl h.1
  | sync => trivial
  | encrypted _ _ _ => trivial

theorem MarkEv.spares {P : Nat} {e : Event} (h : MarkEv P e) (hP : P % blockSize = 0) (pos : Nat) : Spares pos e := by
  cases e with
  | write off b =>
    obtain ⟨rfl, rfl | rfl⟩ := h
    · exact Or.inr (Or.inr ⟨hP, Nat.le_refl _⟩)
    · exact Or.inr (Or.inl rfl)
  | sync => trivial
  | encrypted _ _ _ => trivial

theorem replay_spares {d : Bytes} {evs : List Event} {pos : Nat} (h : ∀ e ∈ evs, Spares pos e) {i : Nat} (hi : i < pos)
    (hl : i < d.length) (hm : i % blockSize ≠ 0) : (replay d evs)[i]? = d[i]? := by
  induction evs with
  | nil => rfl
  | cons e evs ih =>
    have ih := ih fun e he => h e (by simp [he])
    have hl' := Nat.lt_of_lt_of_le hl (length_replay d evs)
    cases e with
    | write off b =>
      rw [replay]
      rcases h _ (List.mem_cons_self ..) with h1 | rfl | ⟨h1, h2⟩
      · rw [pwriteDisk_before _ _ _ _ (by omega) hl', ih]
      · rw [show pwriteDisk (replay d evs) off [] = replay d evs from rfl, ih]
      · by_cases hb : b = []
        · subst hb
          rw [show pwriteDisk (replay d evs) off [] = replay d evs from rfl, ih]
        · rw [getElem?_pwriteDisk _ _ _ _ hb]
          have hne : i ≠ off := by rintro rfl; exact hm h1
          rw [if_pos hl', ih]
          split
          · rfl
          · rw [if_neg (by omega)]
    | sync => exact ih
    | encrypted _ _ _ => exact ih

/-- A state in the middle of a call: what has been written is `a`, and `rest` is still to come. -/
structure Middle (E : Env) (getKey : KeyGetter) (s s' : Sys) (a rest : List Event) (pos : Nat) : Prop where
  safe : Safe E getKey s.db.file.cfg s.db.file.disk a s'.commits s.done pos
  ge : s.db.file.pos ≤ pos
  le : pos ≤ s'.db.file.pos
  rest : ∀ e ∈ rest, Spares pos e

theorem safe_at {s : Sys} (H : Hist E getKey s) (ts : Nat) {e1 a : List Event}
    (he : ∀ e ∈ e1, EvOk btData (alignToNextBlock s.db.file.pos) e) (ha : a <:+ e1) :
    Safe E getKey s.db.file.cfg s.db.file.disk a (Commit.of s.db ts :: s.commits) s.done s.db.file.pos := by
  have := (H.live.record (Commit.of s.db ts) (by rw [commit_pos]; exact alignToNextBlock_ge _)).append (evs := a)
    (fun e h => (he e (ha.subset h)).mono (alignToNextBlock_ge _)) (Nat.le_refl _)
  rwa [List.append_nil] at this

theorem commit_middle {s : Sys} (H : Hist E getKey s) {ts : Nat} {db' : Db}
    (h : (∃ e1 m, Committed E s.db ts db' e1 m) ∨ CommitFailed E s.db ts db') {evs : List Event}
    (hlog : db'.file.log = evs ++ s.db.file.log) {a rest : List Event} (ha : evs = rest ++ a) {s' : Sys}
    (h1 : s'.db = db') (h2 : s'.commits = Commit.of s.db ts :: s.commits) :
    ∃ pos, Middle E getKey s s' a rest pos := by
  obtain ⟨ids, seqs, locs, hh⟩ := H.handle
  have hge := alignToNextBlock_ge s.db.file.pos
  have hmod := alignToNextBlock_mod s.db.file.pos
  have early : ∀ e1 : List Event, (∀ e ∈ e1, EvOk btData (alignToNextBlock s.db.file.pos) e) → a <:+ e1 →
      s.db.file.pos ≤ db'.file.pos → (∀ e ∈ rest, Spares s.db.file.pos e) → ∃ pos, Middle E getKey s s' a rest pos := by
    intro e1 he ha hle hr
    refine ⟨s.db.file.pos, ?_, Nat.le_refl _, by rw [h1]; exact hle, hr⟩
    rw [h2]
    exact safe_at H ts he ha
  have key : ∀ (e1 m z : List Event), z = [] ∨ z = [.sync] → evs = z ++ (m ++ .sync :: e1) → Prepared E s.db ts e1 db'.file.pos →
      (∀ e ∈ m, MarkEv (alignToNextBlock s.db.file.pos) e) → ∃ pos, Middle E getKey s s' a rest pos := by
    intro e1 m z hz he p hm
    have hlt := p.hdr.lt
    have hzm : ∀ e ∈ z ++ m, ∀ pos, Spares pos e := by
      intro e h pos
      rcases List.mem_append.mp h with h | h
      · rcases hz with rfl | rfl
        · cases h
        · rw [List.mem_singleton.mp h]; trivial
      · exact (hm e h).spares hmod pos
    have hsuf : a <:+ (z ++ m) ++ .sync :: e1 := ⟨rest, by rw [← ha, he, List.append_assoc]⟩
    by_cases hs : .sync :: e1 <:+ a
    · obtain ⟨m', hm', rfl⟩ := suffix_append_cases hs hsuf
      have hr : rest ++ m' = z ++ m := by
        apply List.append_cancel_right (bs := .sync :: e1)
        rw [List.append_assoc, ← ha, he, List.append_assoc]
      refine ⟨db'.file.pos, ?_, by omega, by rw [h1]; exact Nat.le_refl _, fun e h => hzm e (by rw [← hr]; simp [h]) _⟩
      rw [h2]
      have hmk : ∀ m'' : List Event, m'' <:+ m → Safe E getKey s.db.file.cfg s.db.file.disk (m'' ++ .sync :: e1)
          (Commit.of s.db ts :: s.commits) s.done db'.file.pos := by
        intro m'' hs
        have := mark_safe hh H.live (by rfl) p (m := m'') (fun e h => hm e (hs.subset h))
        rwa [List.append_nil] at this
      rcases hz with rfl | rfl
      · exact hmk m' hm'
      · rcases List.suffix_cons_iff.mp hm' with rfl | h
        · exact (hmk m (List.suffix_refl _)).sync
        · exact hmk m' h
    · have ha1 : a <:+ e1 := by
        rcases List.suffix_or_suffix_of_suffix hsuf (List.suffix_append (z ++ m) (.sync :: e1)) with h | h
        · rcases List.suffix_cons_iff.mp h with rfl | h
          · exact absurd (List.suffix_refl _) hs
          · exact h
        · exact absurd h hs
      refine early e1 p.evs ha1 (by omega) fun e h => ?_
      have h : e ∈ (z ++ m) ++ .sync :: e1 := by
        rw [List.append_assoc, ← he, ha]; simp [h]
      rcases List.mem_append.mp h with h | h
      · exact hzm e h _
      · rcases List.mem_cons.mp h with rfl | h
        · trivial
        · exact (p.evs e h).spares.mono hge
  rcases h with ⟨e1, m, C⟩ | C
  · refine key e1 m [.sync] (Or.inr rfl) ?_ C.prep C.marks
    apply List.append_cancel_right (bs := s.db.file.log)
    rw [← hlog, C.log]; simp
  · rcases C.run with ⟨e1, r1, r2, r3⟩ | ⟨e1, m, r1, r2, r3, r4⟩
    · have : evs = e1 := List.append_cancel_right (hlog.symm.trans r2)
      subst this
      exact early evs r1 ⟨rest, ha.symm⟩ C.pos fun e h => (r1 e (by rw [ha]; simp [h])).spares.mono hge
    · refine key e1 m [] (Or.inl rfl) ?_ r1 r2
      apply List.append_cancel_right (bs := s.db.file.log)
      rw [← hlog, r3]; simp

/-- The states in the middle of a call. -/
theorem Op.middle (L : E.Laws) {s s' : Sys} (H : Hist E getKey s) (h : Op E getKey s s') :
    s'.base = s.base ∧ s.db.file.pos ≤ s'.db.file.pos ∧ ∃ evs, s'.db.file.log = evs ++ s.db.file.log ∧
      ∀ a rest, evs = rest ++ a → ∃ pos, Middle E getKey s s' a rest pos := by
  obtain ⟨ids, seqs, locs, hh⟩ := H.handle
  have hwf := hh.inv.wf.pos_le
  have still : ∀ {s' : Sys}, s'.db.file.log = s.db.file.log → s'.base = s.base → s'.commits = s.commits →
      s.db.file.pos ≤ s'.db.file.pos →
      s'.base = s.base ∧ s.db.file.pos ≤ s'.db.file.pos ∧ ∃ evs, s'.db.file.log = evs ++ s.db.file.log ∧
      ∀ a rest, evs = rest ++ a → ∃ pos, Middle E getKey s s' a rest pos := by
    intro s' h1 h2 h3 h4
    refine ⟨h2, h4, [], h1, fun a rest h => ?_⟩
    obtain ⟨rfl, rfl⟩ := List.append_eq_nil_iff.mp h.symm
    refine ⟨s.db.file.pos, ?_, Nat.le_refl _, h4, by simp⟩
    rw [h3]
    exact H.live
  have hcommit : ∀ (ts : Nat) {db' : Db} {s' : Sys}, (∃ e1 m, Committed E s.db ts db' e1 m) ∨ CommitFailed E s.db ts db' →
      s'.db = db' → s'.base = s.base → s'.commits = Commit.of s.db ts :: s.commits →
      s'.base = s.base ∧ s.db.file.pos ≤ s'.db.file.pos ∧ ∃ evs, s'.db.file.log = evs ++ s.db.file.log ∧
      ∀ a rest, evs = rest ++ a → ∃ pos, Middle E getKey s s' a rest pos := by
    intro ts db' s' C h1 h2 h3
    have hge := alignToNextBlock_ge s.db.file.pos
    have hx : s.db.file.pos ≤ db'.file.pos ∧ ∃ evs, db'.file.log = evs ++ s.db.file.log := by
      rcases C with ⟨e1, m, C⟩ | C
      · have := C.prep.hdr.lt
        exact ⟨by omega, .sync :: (m ++ .sync :: e1), by rw [C.log]; simp⟩
      · obtain ⟨_, l, hl, _⟩ := C.handle hh
        exact ⟨C.pos, l, hl⟩
    obtain ⟨hp, evs, hl⟩ := hx
    refine ⟨h2, by rw [h1]; exact hp, evs, by rw [h1]; exact hl, fun a rest ha => commit_middle H C hl ha h1 h3⟩
  cases h with
  | @step db' hs =>
    have sv := hs.saved hh.inv.wf
    obtain ⟨evs, e1, e2, e3⟩ := sv.evs
    refine ⟨rfl, sv.pos, evs, e1, fun a rest ha => ⟨s.db.file.pos, ?_, Nat.le_refl _, sv.pos, fun e h => (e2 e (by rw [ha]; simp [h])).spares⟩⟩
    have := H.live.append (evs := a) (fun e h => e2 e (by rw [ha]; simp [h])) (Nat.le_refl _)
    rwa [List.append_nil] at this
  | setPurgeSeq n => exact still rfl rfl rfl (Nat.le_refl _)
  | @commitOk db' ts cb hx => exact hcommit ts (Or.inl ((commit_cases H).1 _ hx)) rfl rfl rfl
  | @commitFail db' e ts cb hx => exact hcommit ts (Or.inr ((commit_cases H).2 _ _ hx)) rfl rfl rfl
  | @move db' m hm ha hd he =>
    rcases H.move m hm ha hd he with rfl | ⟨P, c, h⟩
    · exact still rfl rfl rfl (Nat.le_refl _)
    · refine still h.lost.log rfl rfl ?_
      show s.db.file.pos ≤ db'.file.pos
      rcases h.pos with h | h <;> omega
  | @reopen db' f' flags ctx faults ht ho =>
    obtain ⟨_, P, h, q, c, O⟩ := H.reopen L flags ctx faults ht ho
    have hlog : db'.file.log = s.db.file.log := by rw [O.eq]; rfl
    have hpos : db'.file.pos = s.db.file.disk.length := by rw [O.eq]; rfl
    exact still hlog rfl rfl (by show s.db.file.pos ≤ db'.file.pos; omega)

/-- What some calls do to the file. -/
structure Went (s s' : Sys) : Prop where
  base : s'.base = s.base
  pos : s.db.file.pos ≤ s'.db.file.pos
  evs : ∃ evs, s'.db.file.log = evs ++ s.db.file.log ∧ ∀ e ∈ evs, Spares s.db.file.pos e

theorem Op.went (L : E.Laws) {s s' : Sys} (H : Hist E getKey s) (h : Op E getKey s s') : Went s s' := by
  obtain ⟨h1, h2, evs, h3, h4⟩ := h.middle L H
  obtain ⟨pos, M⟩ := h4 [] evs (by simp)
  exact ⟨h1, h2, evs, h3, fun e he => (M.rest e he).mono M.ge⟩

theorem Ops.went (L : E.Laws) {s s' : Sys} (H : Hist E getKey s) (h : Ops E getKey s s') : Hist E getKey s' ∧ Went s s' := by
  induction h with
  | refl => exact ⟨H, rfl, Nat.le_refl _, [], rfl, by simp⟩
  | tail _ h2 ih =>
    obtain ⟨H1, W⟩ := ih
    have W2 := h2.went L H1
    obtain ⟨e1, a1, a2⟩ := W.evs
    obtain ⟨e2, b1, b2⟩ := W2.evs
    refine ⟨h2.hist L H1, W2.base.trans W.base, Nat.le_trans W.pos W2.pos, e2 ++ e1, by rw [b1, a1, List.append_assoc], ?_⟩
    intro e he
    rcases List.mem_append.mp he with he | he
    · exact (b2 e he).mono W.pos
    · exact a2 e he

/-- A handle that was opened while the file was being written, and what is read later. -/
theorem reader_spec (L : E.Laws) {s s1 s2 : Sys} (H : Hist E getKey s) (hop : s1 = s ∨ Op E getKey s s1)
    {log : List Event} (h1 : s.db.file.log <:+ log) (h2 : log <:+ s1.db.file.log) (flags : OpenFlags) (ctx : Bytes)
    (faults : List Fault) (ht : 2 ≤ flags.kvThr) {r : Db} {f' : File}
    (ho : openDb E flags getKey ctx (crashedFile (replay s.base log) faults) = .ok r f')
    (hops : Ops E getKey s1 s2) {img : Bytes} (hi : Seen s2 log img) :
    (SameAnswers E r (r.over img) ∧ ∃ c, s1.commitAt r.header.position = some c ∧ Shows E r c) ∧
      ∃ ids seqs locs, Handle E (r.over img) ids seqs locs := by
  have hmid : ∃ a rest pos, log = a ++ s.db.file.log ∧ s1.db.file.log = rest ++ log ∧ s1.base = s.base ∧
      Middle E getKey s s1 a rest pos ∧ Hist E getKey s1 := by
    rcases hop with rfl | hop
    · have : log = s1.db.file.log := h2.eq_of_length (Nat.le_antisymm h2.length_le h1.length_le)
      exact ⟨[], [], s1.db.file.pos, this, this.symm, rfl, ⟨H.live, Nat.le_refl _, Nat.le_refl _, by simp⟩, H⟩
    · obtain ⟨hb, _, evs, he, hm⟩ := hop.middle L H
      rw [he] at h2
      obtain ⟨a, ⟨rest, hr⟩, rfl⟩ := suffix_append_cases h1 h2
      obtain ⟨pos, M⟩ := hm a rest hr.symm
      exact ⟨a, rest, pos, rfl, by rw [he, ← hr, List.append_assoc], hb, M, hop.hist L H⟩
  obtain ⟨a, rest, pos, rfl, hl, hb, M, H1⟩ := hmid
  obtain ⟨ids0, seqs0, locs0, hh⟩ := H.handle
  have hwf := hh.inv.wf.pos_le
  have hpos := hh.inv.pos
  have hD : replay s.base (a ++ s.db.file.log) = replay s.db.file.disk a := by rw [replay_append, ← H.replay]
  rw [hD] at ho
  have hlen := length_replay s.db.file.disk a
  have S := M.safe.image (crashImage_replay _ _) (Or.inl (Nat.le_refl _)) rfl rfl M.safe.thr
  obtain ⟨P, h, q, c, O⟩ := (openBody_spec E flags getKey ctx (crashedFile (replay s.db.file.disk a) faults)
    (by show 0 < (replay s.db.file.disk a).length; omega) S).ok (openDb_ok ho).1
  obtain ⟨k1, -, -, k4, k5, k6, k7, -, k9, k10⟩ := O.hist L S ht H1.nav.list
  suffices hsuff : SameAnswers E r (r.over img) ∧ ∃ ids seqs locs, Handle E (r.over img) ids seqs locs from
    ⟨⟨hsuff.1, c, by rw [k5]; exact O.found, k4.symm, by rw [k5, find_pos O.found], k6⟩, hsuff.2⟩
  -- the header and everything it refers to is before `pos`
  obtain ⟨c', h', q', c1, c2, c3, c4, c5⟩ := S.headers P O.aligned (Or.inl O.marked)
  obtain rfl : h = h' := O.snap.hdr.unique c2.hdr O.marked
  obtain rfl : c = c' := by
    have := O.found.symm.trans c1
    cases this; rfl
  obtain ⟨hs, W⟩ := hops.went L H1
  obtain ⟨e2, w1, w2⟩ := W.evs
  have hag : ∀ l, a ++ s.db.file.log <:+ l → l <:+ s2.db.file.log → ∃ new, replay s2.base l = replay (replay s.db.file.disk a) new ∧
      ∀ e ∈ new, Spares pos e := by
    intro l l1 l2
    rw [w1, hl, ← List.append_assoc] at l2
    obtain ⟨new, hn, rfl⟩ := suffix_append_cases l1 l2
    refine ⟨new, by rw [replay_append, W.base, hb, hD], fun e he => ?_⟩
    rcases List.mem_append.mp (hn.subset he) with he | he
    · exact (w2 e he).mono M.le
    · exact M.rest e he
  have hq : q' ≤ (replay s.db.file.disk a).length := c5
  have hlen2 : (replay s.db.file.disk a).length ≤ img.length := by
    rcases Nat.lt_or_ge img.length (replay s.db.file.disk a).length with hlt | hge
    · obtain ⟨l, l1, l2, l3⟩ := hi img.length
      obtain ⟨new, n1, _⟩ := hag l l1 l2
      have := length_replay (replay s.db.file.disk a) new
      rw [n1, List.getElem?_eq_none (Nat.le_refl _)] at l3
      have := List.getElem?_eq_none_iff.mp l3.symm
      omega
    · exact hge
  have hagree : ∀ i, i < q' → i % blockSize ≠ 0 → img[i]? = (replay s.db.file.disk a)[i]? := by
    intro i hi1 hi2
    obtain ⟨l, l1, l2, l3⟩ := hi i
    obtain ⟨new, n1, n2⟩ := hag l l1 l2
    rw [l3, n1, replay_spares n2 (by omega) (by omega) hi2]
  have r1 : r.header = h := by rw [O.eq]
  have r2 : r.file.pos = (replay s.db.file.disk a).length := k10
  have r3 : r.dropped = false := by rw [O.eq]
  have snap' := c2.congr (d' := img) hagree (Nat.le_trans hq hlen2) (cfg' := s.db.file.cfg) rfl rfl S.thr
  have := snap'.handle L (db := r.over img) r1 rfl (by show r.file.cfg.cipher = _; rw [k9]; rfl)
    (by show r.file.cfg.crcMode = _; rw [k9]; rfl) (by show 2 ≤ r.file.cfg.kvThr; rw [k9]; exact ht)
    (by show q' ≤ r.file.pos; omega) (by show r.file.pos ≤ img.length; omega) r3
  refine ⟨fun q hq => ?_, this.1⟩
  rw [← this.2.1 q hq, ← k4 q hq]

end Couchstore
