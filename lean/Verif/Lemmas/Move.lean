import Verif.Lemmas.OpenDb

/-! Helper lemmas about moving a handle between headers. -/

namespace Couchstore

theorem bind_ok' {α β : Type} {m : DbM α} {k : α → DbM β} {s s' : Db} {a : α} {Q R} (h1 : m s = .ok a s')
    (h2 : Sp (k a) s' Q R) : Sp (m >>= k) s Q R := by
  unfold Sp
  rw [bind_ok h1]
  exact h2

/-- A handle that shows a header. -/
theorem Snap.handle {E : Env} (L : E.Laws) {cfg : Cfg} {d : Bytes} {P : Nat} {h : Header} {q : Nat} {c : Commit}
    (H : Snap E cfg d P h q c) {db : Db} (hh : db.header = h) (hd : db.file.disk = d)
    (hc : db.file.cfg.cipher = cfg.cipher) (hm : db.file.cfg.crcMode = cfg.crcMode) (ht : 2 ≤ db.file.cfg.kvThr)
    (hq : q ≤ db.file.pos) (hl : db.file.pos ≤ d.length) (ho : db.dropped = false) :
    (∃ ids seqs locs, Handle E db ids seqs locs) ∧ SameAnswers E db c.db ∧
    db.header.updateSeq = c.db.header.updateSeq ∧ db.header.purgeSeq = c.db.header.purgeSeq := by
  obtain ⟨ids, seqs, locs, h1, h2, h3⟩ := H.data
  have hlt := H.hdr.lt
  have inv : Inv E db ids seqs locs := by
    refine Inv.move h1 ?_ ⟨?_, hc, hm, hq⟩ ⟨by rw [hd]; exact hl, ?_⟩ ht
    · show HSame h db.header
      rw [hh]
      exact ⟨rfl, rfl, rfl, rfl, rfl⟩
    · intro i _ _
      rw [hd]; rfl
    · rw [hm]; exact h1.wf.crc
  have hs : statsOf db.header ids = statsOf c.db.header ids := by rw [hh]; exact h3
  refine ⟨⟨ids, seqs, locs, inv, ho, ?_, ?_, ?_, ?_, ?_⟩, ?_, ?_, ?_⟩
  · rw [hh]; exact H.hdr.ver
  · rw [hh, hm]; exact H.crc
  · rw [hh]; exact H.hdr.purge
  · rw [hh, hc]; exact H.isMeta
  · rw [hh]
    intro hv
    have h0 : (diskHeader h P).haveMeta = if 14 ≤ h.diskVersion then h.haveMeta else false := rfl
    rw [H.hdr.self, if_neg (by omega)] at h0
    exact h0
  · exact sameAnswers_of L inv h2 ho H.opened hs.symm
  · exact congrArg (fun x => x.1) hs
  · exact congrArg (fun x => x.2.2.2.2) hs

/-- The handle shows the header at `P`, of the commit `c`. -/
structure Landed (E : Env) (commits : List Commit) (db db' : Db) (P : Nat) (c : Commit) : Prop where
  aligned : P % blockSize = 0
  marked : db.file.disk[P]? = some btHeader
  found : commits.find? (fun c => c.pos = P) = some c
  snap : ∃ q, Snap E db.file.cfg db.file.disk P db'.header q c ∧ q ≤ db'.file.pos
  pos : db'.file.pos = db.file.pos ∨ db'.file.pos = db.file.disk.length
  faults : db'.file.faults <:+ db.file.faults
  eq : db' = { db with header := db'.header, file := { db.file with pos := db'.file.pos, faults := db'.file.faults } }

/-- `db'` is `db` with another header and fewer faults. -/
structure Lost (db db' : Db) : Prop where
  faults : db'.file.faults <:+ db.file.faults
  eq : db' = { db with header := db'.header, file := { db.file with pos := db'.file.pos, faults := db'.file.faults } }
  pos : db'.file.pos = db.file.pos ∨ db'.file.pos = db.file.disk.length

theorem Lost.trans {a b c : Db} (h : Lost a b) (h' : Lost b c) : Lost a c := by
  refine ⟨h'.faults.trans h.faults, ?_, ?_⟩
  · rw [h'.eq, h.eq]
  · rcases h'.pos with h1 | h1
    · rw [h1]; exact h.pos
    · refine Or.inr ?_
      rw [h1, h.eq]

theorem Lost.refl (db : Db) : Lost db db := ⟨List.suffix_refl _, rfl, Or.inl rfl⟩

theorem Lost.of_DbR {db db' : Db} (h : DbR db db') : Lost db db' := by
  refine ⟨h.1.1, ?_, Or.inl ?_⟩
  · rw [h.2, h.1.2]
  · rw [h.1.2]

theorem Lost.setHeader (db : Db) (h : Header) : Lost db { db with header := h } :=
  ⟨List.suffix_refl _, rfl, Or.inl rfl⟩

theorem Lost.nil {a b : Db} (h : Lost a b) (hf : a.file.faults = []) : b.file.faults = [] :=
  List.suffix_nil.mp (hf ▸ h.faults)

theorem Lost.disk {a b : Db} (h : Lost a b) : b.file.disk = a.file.disk := by rw [h.eq]
theorem Lost.cfg {a b : Db} (h : Lost a b) : b.file.cfg = a.file.cfg := by rw [h.eq]
theorem Lost.dropped {a b : Db} (h : Lost a b) : b.dropped = a.dropped := by rw [h.eq]
theorem Lost.log {a b : Db} (h : Lost a b) : b.file.log = a.file.log := by rw [h.eq]
theorem Lost.readOnly {a b : Db} (h : Lost a b) : b.readOnly = a.readOnly := by rw [h.eq]

theorem Landed.lost {E : Env} {commits : List Commit} {db db' : Db} {P : Nat} {c : Commit}
    (h : Landed E commits db db' P c) : Lost db db' := ⟨h.faults, h.eq, h.pos⟩

theorem Lost.landed {E : Env} {commits : List Commit} {a b d : Db} {P : Nat} {c : Commit}
    (h : Lost a b) (h' : Landed E commits b d P c) : Landed E commits a d P c := by
  have t := h.trans h'.lost
  refine ⟨h'.aligned, by rw [← h.disk]; exact h'.marked, h'.found, ?_, t.pos, t.faults, t.eq⟩
  obtain ⟨q, h1, h2⟩ := h'.snap
  rw [h.cfg, h.disk] at h1
  exact ⟨q, h1, by omega⟩

section
variable {E : Env} {getKey : KeyGetter} {commits done : List Commit}

/-- What the headers in the file stand for. -/
abbrev SafeDb (E : Env) (getKey : KeyGetter) (commits done : List Commit) (db : Db) (pos : Nat) : Prop :=
  Safe E getKey db.file.cfg db.file.disk [] commits done pos

theorem findAt_spec (db : Db) {pos : Nat} (S : SafeDb E getKey commits done db pos) (hpos : pos ≤ db.file.pos)
    {P : Nat} (hP : P % blockSize = 0) (hl : P < db.file.disk.length) :
    Sp (findHeaderAtPos E P) db
      (fun _ db' => ∃ c, Landed E commits db db' P c ∧ db'.file.pos = db.file.pos)
      (fun e db' => DbR db db' ∧ (db.file.faults = [] → e = .noHeader ∧ db.file.disk[P]? ≠ some btHeader)) := by
  refine (findHeaderAtPos_blocks E db S.blocks (Or.inl rfl) hP hl).mono ?_ (fun _ _ h => h)
  rintro _ db' ⟨h1, h, q, h2, h3, ⟨c, h4, h5, h6, h7⟩, h8, h9⟩
  have hh : db'.header = h := by rw [h9]
  have hp : db'.file.pos = db.file.pos := by rw [h8.2]
  refine ⟨c, ⟨hP, h1, h4, ⟨q, by rw [hh]; exact h5, by omega⟩, Or.inl hp, h8.1, ?_⟩, hp⟩
  rw [h9, h8.2]

theorem scan_spec (db : Db) {pos : Nat} (S : SafeDb E getKey commits done db pos) (hpos : pos ≤ db.file.pos)
    (hl : db.header.position ≤ db.file.disk.length) :
    Sp (rewindScan E) db
      (fun _ db' => ∃ P c, Landed E commits db db' P c ∧ db'.file.pos = db.file.pos ∧ P + 2 ≤ db.header.position ∧
        (db.file.faults = [] → ∀ P', P' % blockSize = 0 → P < P' → P' + 2 ≤ db.header.position →
          db.file.disk[P']? ≠ some btHeader))
      (fun _ db' => DbR db db' ∧ (db.file.faults = [] → db.header.position < blockSize ∨
        ∀ P', P' % blockSize = 0 → P' + 2 ≤ db.header.position → db.file.disk[P']? ≠ some btHeader)) := by
  unfold rewindScan
  apply Sp.get_bind
  dsimp only
  by_cases hb : db.header.position < blockSize
  · rw [if_pos hb]
    exact ⟨DbR.refl _, fun _ => Or.inl hb⟩
  rw [if_neg hb]
  have hbs : blockSize = 4096 := rfl
  unfold findHeaderBefore findHeader
  rw [if_neg (by omega)]
  have hdiv : (db.header.position - 2) / blockSize * blockSize ≤ db.header.position - 2 := Nat.div_mul_le_self _ _
  have hup : ∀ P, P % blockSize = 0 → P + 2 ≤ db.header.position →
      P ≤ (db.header.position - 2) / blockSize * blockSize := by
    intro P h1 h2
    rw [hbs] at *
    omega
  refine (findHeaderLoop_blocks E false _ .noHeader db S.blocks (Or.inl rfl) (by omega)).mono ?_ ?_
  · rintro _ db' ⟨P, h, q, h1, h2, h3, h4, h5, ⟨c, h6, h7, h8, h9⟩, h10, h11, h12⟩
    have hh : db'.header = h := by rw [h11]
    have hp : db'.file.pos = db.file.pos := by rw [h10.2]
    refine ⟨P, c, ⟨h1, h3, h6, ⟨q, by rw [hh]; exact h7, by omega⟩, Or.inl hp, h10.1, ?_⟩, hp, by omega, ?_⟩
    · rw [h11, h10.2]
    · exact fun hf P' hP' h13 h14 => h12 hf P' hP' h13 (hup P' hP' h14)
  · rintro e db' ⟨h1, h2⟩
    exact ⟨h1, fun hf => Or.inr fun P' hP' h13 => (h2 hf).2 P' hP' (hup P' hP' h13)⟩

theorem rewindImpl_spec (db : Db) {pos : Nat} (S : SafeDb E getKey commits done db pos) (hpos : pos ≤ db.file.pos)
    (hd : db.dropped = false) (hl : db.header.position ≤ db.file.disk.length)
    (hprev : 14 ≤ db.header.diskVersion → db.header.prevHeaderPos = noPrevHeaderPos ∨
      db.header.prevHeaderPos = unknownPrevHeaderPos ∨ db.header.prevHeaderPos % blockSize = 0) :
    Sp (rewindImpl E) db
      (fun _ db' => ∃ P c, Landed E commits db db' P c ∧ db'.file.pos = db.file.pos ∧ P < db.header.position ∧
        (db.file.faults = [] →
          (14 ≤ db.header.diskVersion ∧ db.header.prevHeaderPos = P) ∨
          (∀ P', P' % blockSize = 0 → P < P' → P' + 2 ≤ db.header.position →
            db.file.disk[P']? ≠ some btHeader)) ∧
        (db.file.faults = [] → 14 ≤ db.header.diskVersion →
          db.header.prevHeaderPos < db.header.position → db.header.prevHeaderPos ≠ unknownPrevHeaderPos →
          db.file.disk[db.header.prevHeaderPos]? = some btHeader → P = db.header.prevHeaderPos))
      (fun _ db' => Lost db db' ∧ db'.file.pos = db.file.pos ∧
        (db.file.faults = [] → 14 ≤ db.header.diskVersion ∧ db.header.prevHeaderPos = noPrevHeaderPos ∨
          db.header.position < blockSize ∨
          ∀ P', P' % blockSize = 0 → P' + 2 ≤ db.header.position → db.file.disk[P']? ≠ some btHeader) ∧
        (db.file.faults = [] → 14 ≤ db.header.diskVersion →
          db.header.prevHeaderPos < db.header.position → db.header.prevHeaderPos ≠ unknownPrevHeaderPos →
          db.header.prevHeaderPos ≠ noPrevHeaderPos →
          db.file.disk[db.header.prevHeaderPos]? ≠ some btHeader)) := by
  unfold rewindImpl
  apply Sp.get_bind
  rw [if_neg (by rw [hd]; simp)]
  unfold resetHeader
  refine bind_ok' (setHeader_eq _ db) ?_
  apply Sp.get_bind
  dsimp only
  obtain ⟨db1, hr⟩ : ∃ db1 : Db,
      ({ db with header := { db.header with byIdRoot := none, bySeqRoot := none, localRoot := none } } : Db) = db1 := ⟨_, rfl⟩
  change Sp (if 14 ≤ db.header.diskVersion then
      if db.header.prevHeaderPos = noPrevHeaderPos then throw Err.dbNoLongerValid else
      if db.header.prevHeaderPos ≠ unknownPrevHeaderPos ∧ db.header.prevHeaderPos < db.header.position then
        rewindPrev E db.header.prevHeaderPos
      else rewindScan E
    else rewindScan E) _ _ _
  rw [hr]
  have hl1 : Lost db db1 := by rw [← hr]; exact Lost.setHeader _ _
  have hp1 : db1.file.pos = db.file.pos := by rw [← hr]
  have hh1 : db1.header.position = db.header.position := by rw [← hr]
  have hfs1 : db1.file.faults = db.file.faults := by rw [← hr]
  have hdk1 : db1.file.disk = db.file.disk := by rw [← hr]
  have S1 : SafeDb E getKey commits done db1 pos := by rw [← hr]; exact S
  have scan : ∀ db2 : Db, DbR db1 db2 → Sp (rewindScan E) db2
      (fun _ db' => ∃ P c, Landed E commits db db' P c ∧ db'.file.pos = db.file.pos ∧ P < db.header.position ∧
        (db.file.faults = [] →
          (∀ P', P' % blockSize = 0 → P < P' → P' + 2 ≤ db.header.position →
            db.file.disk[P']? ≠ some btHeader)))
      (fun _ db' => Lost db db' ∧ db'.file.pos = db.file.pos ∧
        (db.file.faults = [] → db.header.position < blockSize ∨
          ∀ P', P' % blockSize = 0 → P' + 2 ≤ db.header.position → db.file.disk[P']? ≠ some btHeader)) := by
    intro db2 h12
    have hl2 := hl1.trans (Lost.of_DbR h12)
    have hp2 : db2.file.pos = db.file.pos := by rw [h12.1.2]; exact hp1
    have S2 : SafeDb E getKey commits done db2 pos := by
      unfold SafeDb at *
      rw [h12.1.cfg, h12.1.disk]; exact S1
    have hd2 : db2.file.disk = db.file.disk := hl2.disk
    have hpo : db2.header.position = db.header.position := by rw [h12.header, hh1]
    refine (scan_spec db2 S2 (by omega) (by rw [hpo, hd2]; exact hl)).mono ?_ ?_
    · rintro _ db' ⟨P, c, g1, g2, g3, g4⟩
      refine ⟨P, c, hl2.landed g1, by omega, by omega, ?_⟩
      intro hf P' a1 a2 a3
      have := g4 (hl2.nil hf) P' a1 a2 (by omega)
      rw [hd2] at this
      exact this
    · rintro _ db' ⟨g1, g2⟩
      refine ⟨hl2.trans (Lost.of_DbR g1), by rw [g1.1.2]; exact hp2, fun hf => ?_⟩
      have := g2 (hl2.nil hf)
      rw [hd2, hpo] at this
      exact this
  by_cases h14 : 14 ≤ db.header.diskVersion
  · rw [if_pos h14]
    by_cases hno : db.header.prevHeaderPos = noPrevHeaderPos
    · rw [if_pos hno]
      exact ⟨hl1, hp1, fun _ => Or.inl ⟨h14, hno⟩, fun _ _ _ _ h => absurd hno h⟩
    · rw [if_neg hno]
      split
      · rename_i hlt
        have hal : db.header.prevHeaderPos % blockSize = 0 := by
          rcases hprev h14 with h | h | h
          · exact absurd h hno
          · exact absurd h hlt.1
          · exact h
        have hs := findAt_spec db1 S1 (by omega) hal (by rw [hdk1]; omega)
        unfold Sp rewindPrev at *
        dsimp only
        cases hx : findHeaderAtPos E db.header.prevHeaderPos db1 with
        | ok a db' =>
          rw [hx] at hs
          obtain ⟨c, g1, g2⟩ := hs
          exact ⟨_, c, hl1.landed g1, by omega, hlt.2, fun _ => Or.inl ⟨h14, rfl⟩, fun _ _ _ _ _ => rfl⟩
        | error e db' =>
          rw [hx] at hs
          obtain ⟨g1, g2⟩ := hs
          dsimp only
          by_cases hal : e.code = Err.allocFail.code
          · rw [if_pos hal]
            have hne : db.file.faults = [] → False := fun hf => by
              have := (g2 (by rw [hfs1]; exact hf)).1
              rw [this] at hal; cases hal
            exact ⟨hl1.trans (Lost.of_DbR g1), by rw [g1.1.2]; exact hp1, fun hf => (hne hf).elim,
              fun hf => (hne hf).elim⟩
          · rw [if_neg hal]
            have hsc := scan db' g1
            unfold Sp at hsc
            cases hy : rewindScan E db' with
            | ok a db2 =>
              rw [hy] at hsc
              obtain ⟨P, c, k1, k2, k3, k4⟩ := hsc
              refine ⟨P, c, k1, k2, k3, fun hf => Or.inr (k4 hf), fun hf _ _ _ hx => ?_⟩
              have := (g2 (by rw [hfs1]; exact hf)).2
              rw [hdk1] at this
              exact absurd hx this
            | error e db2 =>
              rw [hy] at hsc
              obtain ⟨k1, k2, k3⟩ := hsc
              refine ⟨k1, k2, fun hf => Or.inr (k3 hf), fun hf _ _ _ _ => ?_⟩
              have := (g2 (by rw [hfs1]; exact hf)).2
              rw [hdk1] at this
              exact this
      · rename_i hlt
        refine (scan db1 (DbR.refl _)).mono ?_ ?_
        · rintro _ db' ⟨P, c, k1, k2, k3, k4⟩
          exact ⟨P, c, k1, k2, k3, fun hf => Or.inr (k4 hf), fun _ _ h1 h2 => absurd ⟨h2, h1⟩ hlt⟩
        · rintro e db' ⟨k1, k2, k3⟩
          exact ⟨k1, k2, fun hf => Or.inr (k3 hf), fun _ _ h1 h2 => absurd ⟨h2, h1⟩ hlt⟩
  · rw [if_neg h14]
    refine (scan db1 (DbR.refl _)).mono ?_ ?_
    · rintro _ db' ⟨P, c, k1, k2, k3, k4⟩
      exact ⟨P, c, k1, k2, k3, fun hf => Or.inr (k4 hf), fun _ h => absurd h h14⟩
    · rintro e db' ⟨k1, k2, k3⟩
      exact ⟨k1, k2, fun hf => Or.inr (k3 hf), fun _ h => absurd h h14⟩

theorem fastForwardLoop_spec (fuel p : Nat) (db : Db) {pos : Nat} (S : SafeDb E getKey commits done db pos)
    (hpos : pos ≤ db.file.pos) (hle : db.file.pos ≤ db.file.disk.length) (hp : p % blockSize = 0)
    (hfuel : db.file.pos < p + fuel * blockSize) :
    Sp (fastForwardLoop E fuel p) db
      (fun _ db' => ∃ P c, Landed E commits db db' P c ∧ db'.file.pos = db.file.pos ∧ p ≤ P ∧
        (db.file.faults = [] → ∀ P', P' % blockSize = 0 → p ≤ P' → P' < P → db.file.disk[P']? ≠ some btHeader))
      (fun _ db' => DbR db db' ∧ (db.file.faults = [] →
        ∀ P', P' % blockSize = 0 → p ≤ P' → P' < db.file.pos → db.file.disk[P']? ≠ some btHeader)) := by
  have hbs : blockSize = 4096 := rfl
  induction fuel generalizing p db with
  | zero =>
    refine ⟨DbR.refl _, fun _ P' _ _ _ => ?_⟩
    omega
  | succ fuel ih =>
    unfold fastForwardLoop
    unfold Sp
    dsimp only
    by_cases hlt : p < db.file.pos
    · rw [if_pos hlt]
      have hs := findAt_spec db S hpos hp (by omega)
      unfold Sp at hs
      cases hx : findHeaderAtPos E p db with
      | ok a db' =>
        rw [hx] at hs
        obtain ⟨c, g1, g2⟩ := hs
        exact ⟨p, c, g1, g2, Nat.le_refl _, fun _ P' _ _ _ => by omega⟩
      | error e db' =>
        rw [hx] at hs
        obtain ⟨g1, g2⟩ := hs
        dsimp only
        by_cases hc : e.code = Err.noHeader.code
        · rw [if_pos hc]
          have hposn : db'.file.pos = db.file.pos := by rw [g1.1.2]
          have hdk : db'.file.disk = db.file.disk := g1.1.disk
          have := ih (p + blockSize) db' (by unfold SafeDb at *; rw [g1.1.cfg, g1.1.disk]; exact S) (by omega)
            (by rw [hdk]; omega) (by simp only [hbs] at hp ⊢; omega)
            (by rw [hposn]; simp only [hbs] at hfuel ⊢; omega)
          unfold Sp at this
          have hstep : ∀ P', P' % blockSize = 0 → p ≤ P' → P' = p ∨ p + blockSize ≤ P' := by
            intro P' h1 h2
            rw [hbs] at *
            omega
          cases hy : fastForwardLoop E fuel (p + blockSize) db' with
          | ok a db2 =>
            rw [hy] at this
            obtain ⟨P, c, k1, k2, k3, k4⟩ := this
            refine ⟨P, c, (Lost.of_DbR g1).landed k1, by omega, by omega, fun hf P' a1 a2 a3 => ?_⟩
            rcases hstep P' a1 a2 with rfl | h
            · exact (g2 hf).2
            · have := k4 ((Lost.of_DbR g1).nil hf) P' a1 h a3
              rw [hdk] at this; exact this
          | error e' db2 =>
            rw [hy] at this
            obtain ⟨k1, k2⟩ := this
            refine ⟨g1.trans k1, fun hf P' a1 a2 a3 => ?_⟩
            rcases hstep P' a1 a2 with rfl | h
            · exact (g2 hf).2
            · have := k2 ((Lost.of_DbR g1).nil hf) P' a1 h (by omega)
              rw [hdk] at this; exact this
        · rw [if_neg hc]
          refine ⟨g1, fun hf => absurd ?_ hc⟩
          rw [(g2 hf).1]
    · rw [if_neg hlt]
      exact ⟨DbR.refl _, fun _ P' _ _ _ => by omega⟩

theorem fastForwardImpl_spec (db : Db) {pos : Nat} (S : SafeDb E getKey commits done db pos)
    (hpos : pos ≤ db.file.pos) (hle : db.file.pos ≤ db.file.disk.length) (hd : db.dropped = false)
    (hp : db.header.position % blockSize = 0) :
    Sp (fastForwardImpl E) db
      (fun _ db' => ∃ P c, Landed E commits db db' P c ∧ db'.file.pos = db.file.pos ∧ db.header.position < P ∧
        (db.file.faults = [] → ∀ P', P' % blockSize = 0 → db.header.position < P' → P' < P →
          db.file.disk[P']? ≠ some btHeader))
      (fun _ db' => Lost db db' ∧ db'.file.pos = db.file.pos ∧ (db.file.faults = [] →
        ∀ P', P' % blockSize = 0 → db.header.position < P' → P' < db.file.pos → db.file.disk[P']? ≠ some btHeader)) := by
  unfold fastForwardImpl
  have hbs : blockSize = 4096 := rfl
  apply Sp.get_bind
  rw [if_neg (by rw [hd]; simp)]
  unfold resetHeader
  refine bind_ok' (setHeader_eq _ db) ?_
  have hl1 : Lost db { db with header := { db.header with byIdRoot := none, bySeqRoot := none, localRoot := none } } :=
    Lost.setHeader _ _
  have hstep : ∀ P', P' % blockSize = 0 → db.header.position < P' → db.header.position + blockSize ≤ P' := by
    intro P' h1 h2
    simp only [hbs] at hp h1 ⊢
    omega
  refine (fastForwardLoop_spec _ _ { db with header := { db.header with byIdRoot := none, bySeqRoot := none, localRoot := none } }
    S hpos hle (by simp only [hbs] at hp ⊢; omega) ?_).mono ?_ ?_
  · show db.file.pos < db.header.position + blockSize + (db.file.pos / blockSize + 1) * blockSize
    rw [hbs]
    omega
  · rintro _ db' ⟨P, c, k1, k2, k3, k4⟩
    exact ⟨P, c, hl1.landed k1, k2, by omega, fun hf P' a1 a2 a3 => k4 hf P' a1 (hstep P' a1 a2) a3⟩
  · rintro _ db' ⟨k1, k2⟩
    exact ⟨hl1.trans (Lost.of_DbR k1), by rw [k1.1.2], fun hf P' a1 a2 a3 => k2 hf P' a1 (hstep P' a1 a2) a3⟩

theorem seekEnd_spec (db : Db) {pos : Nat} (S : SafeDb E getKey commits done db pos) (hpos : pos ≤ db.file.pos)
    (hle : db.file.pos ≤ db.file.disk.length) (hd : db.dropped = false) :
    Sp (seekEnd E) db
      (fun _ db' => ∃ P c, Landed E commits db db' P c ∧
        (db.file.faults = [] → ∀ P', P' % blockSize = 0 → P < P' → db.file.disk[P']? ≠ some btHeader))
      (fun _ db' => Lost db db') := by
  unfold seekEnd
  refine Sp.bind' (liftF_spec (db := db) (gotoEof_spec _)) ?_ ?_
  · rintro off db1 ⟨h1, rfl, hr⟩
    have hl1 : Lost db { db1 with file := { db1.file with pos := db.file.disk.length } } := by
      refine ⟨hr.1, ?_, Or.inr rfl⟩
      rw [h1, hr.2]
    refine bind_ok' (a := ()) (s' := { db1 with file := { db1.file with pos := db.file.disk.length } }) rfl ?_
    split
    · exact hl1
    refine bind_ok' (setHeader_eq _ _) ?_
    have hdk : db1.file.disk = db.file.disk := hr.disk
    generalize hr2 : ({ db1 with
      file := { db1.file with pos := db.file.disk.length }
      header := { db1.header with position := db.file.disk.length - 2, prevHeaderPos := unknownPrevHeaderPos } } : Db) = db2
    have hl2 : Lost db db2 := by
      rw [← hr2]
      exact hl1.trans (Lost.setHeader _ _)
    have hp2 : db2.file.pos = db.file.disk.length := by rw [← hr2]
    have hpo2 : db2.header.position = db.file.disk.length - 2 := by rw [← hr2]
    have hpr2 : db2.header.prevHeaderPos = unknownPrevHeaderPos := by rw [← hr2]
    have hdk2 := hl2.disk
    refine (rewindImpl_spec db2 (by unfold SafeDb at *; rw [hl2.cfg, hl2.disk]; exact S) (by omega)
      (by rw [hl2.dropped]; exact hd) (by rw [hpo2, hdk2]; omega) (fun _ => Or.inr (Or.inl hpr2))).mono ?_ ?_
    · rintro _ db' ⟨P, c, k1, k2, k3, k4, k5⟩
      have hm := k1.marked
      rw [hdk2] at hm
      refine ⟨P, c, hl2.landed k1, ?_⟩
      intro hf P' a1 a2 hx
      rcases k4 (hl2.nil hf) with ⟨_, h⟩ | h
      · rw [hpr2] at h
        have := (List.getElem?_eq_some_iff.mp hm).1
        have h2 := k1.aligned
        rw [← h] at h2
        exact absurd h2 (by decide)
      · have hlt : P' + 4 ≤ db.file.disk.length := by
          obtain ⟨c', h', q', c1, c2, c3, c4, c5⟩ := S.headers P' a1 (Or.inl hx)
          have := headerAt_len c2.hdr
          have h5 : q' ≤ db.file.disk.length := c5
          omega
        have := h P' a1 a2 (by omega)
        rw [hdk2] at this
        exact this hx
    · rintro _ db' ⟨k1, _⟩
      exact hl2.trans k1
  · rintro e db1 ⟨h1, hr, _⟩
    exact Lost.of_DbR ⟨hr, h1⟩

/-- How a failed move leaves the handle. -/
def Stayed (E : Env) (commits : List Commit) (db : Db) (e : Err) (db' : Db) : Prop :=
  db' = db ∨ (∃ c, Landed E commits db db' db.header.position c) ∨ db'.dropped = true ∨
    e.code = Err.invalidArguments.code

/-- What is needed of a handle to move it. -/
structure Movable (E : Env) (getKey : KeyGetter) (commits done : List Commit) (db : Db) : Prop where
  safe : SafeDb E getKey commits done db db.file.pos
  wf : db.file.WF
  opened : db.dropped = false
  aligned : db.header.position % blockSize = 0
  lt : db.header.position < db.file.pos
  prev : 14 ≤ db.header.diskVersion → db.header.prevHeaderPos = noPrevHeaderPos ∨
    db.header.prevHeaderPos = unknownPrevHeaderPos ∨ db.header.prevHeaderPos % blockSize = 0

theorem reloadOr_spec {db db1 : Db} (M : Movable E getKey commits done db) (hl : Lost db db1)
    (hp : db1.file.pos = db.file.pos) (e : Err) :
    ∃ e' db', reloadOr E db.header.position e db1 = .error e' db' ∧ Stayed E commits db e' db' ∧
      (db.file.faults = [] → db.file.disk[db.header.position]? = some btHeader →
        e' = e ∧ ∃ c, Landed E commits db db' db.header.position c) := by
  have hw := M.wf.pos_le
  have hlt := M.lt
  have hs := findAt_spec (commits := commits) (done := done) (getKey := getKey) (E := E) db1
    (pos := db.file.pos) (by unfold SafeDb; rw [hl.cfg, hl.disk]; exact M.safe)
    (by omega) M.aligned (by rw [hl.disk]; omega)
  unfold reloadOr
  unfold Sp at hs
  cases hx : findHeaderAtPos E db.header.position db1 with
  | ok a db' =>
    rw [hx] at hs
    obtain ⟨c, g1, g2⟩ := hs
    exact ⟨e, db', rfl, Or.inr (Or.inl ⟨c, hl.landed g1⟩), fun _ _ => ⟨rfl, c, hl.landed g1⟩⟩
  | error e' db' =>
    rw [hx] at hs
    refine ⟨_, _, rfl, Or.inr (Or.inr (Or.inl rfl)), fun hf hk => ?_⟩
    have := (hs.2 (hl.nil hf)).2
    rw [hl.disk] at this
    exact absurd hk this

theorem seekOffset_spec {db : Db} (M : Movable E getKey commits done db) (P : Nat) :
    Sp (seekOffset E P) db (fun _ db' => ∃ c, Landed E commits db db' P c)
      (fun e db' => Stayed E commits db e db' ∧ (db.file.faults = [] →
        ¬ (P % blockSize = 0 ∧ P < db.file.pos ∧ db.file.disk[P]? = some btHeader))) := by
  have hw := M.wf.pos_le
  unfold Sp seekOffset
  rw [if_neg (by rw [M.opened]; simp)]
  by_cases hP : P % blockSize ≠ 0
  · rw [if_pos hP]
    exact ⟨Or.inl rfl, fun _ h => hP h.1⟩
  rw [if_neg hP]
  by_cases hlt : P ≥ db.file.pos
  · rw [if_pos hlt]
    exact ⟨Or.inl rfl, fun _ h => by omega⟩
  rw [if_neg hlt]
  have hl1 : Lost db { db with header := { db.header with byIdRoot := none, bySeqRoot := none, localRoot := none } } :=
    Lost.setHeader _ _
  have hs : Sp (do resetHeader; findHeaderAtPos E P : DbM Unit) db
      (fun _ db' => ∃ c, Landed E commits db db' P c)
      (fun _ db' => Lost db db' ∧ db'.file.pos = db.file.pos ∧ (db.file.faults = [] →
        ¬ (P % blockSize = 0 ∧ P < db.file.pos ∧ db.file.disk[P]? = some btHeader))) := by
    unfold resetHeader
    refine bind_ok' (setHeader_eq _ db) ?_
    refine (findAt_spec (commits := commits) (done := done) (getKey := getKey) (E := E)
      { db with header := { db.header with byIdRoot := none, bySeqRoot := none, localRoot := none } } (pos := db.file.pos)
      M.safe (Nat.le_refl _) (P := P) (by omega) (by show P < db.file.disk.length; omega)).mono ?_ ?_
    · rintro _ db' ⟨c, g1, _⟩
      exact ⟨c, hl1.landed g1⟩
    · rintro _ db' ⟨g1, g2⟩
      exact ⟨hl1.trans (Lost.of_DbR g1), by rw [g1.1.2], fun hf h => (g2 hf).2 h.2.2⟩
  unfold Sp at hs
  cases hx : (do resetHeader; findHeaderAtPos E P : DbM Unit) db with
  | ok a db' =>
    rw [hx] at hs
    exact hs
  | error e db' =>
    rw [hx] at hs
    obtain ⟨e', db2, h1, h2, _⟩ := reloadOr_spec M hs.1 hs.2.1 e
    dsimp only
    rw [h1]
    exact ⟨h2, hs.2.2⟩

theorem rewindDbHeader_spec {db : Db} (M : Movable E getKey commits done db) :
    Sp (rewindDbHeader E) db
      (fun _ db' => ∃ P c, Landed E commits db db' P c ∧ P < db.header.position ∧
        (db.file.faults = [] →
          (14 ≤ db.header.diskVersion ∧ db.header.prevHeaderPos = P) ∨
          (∀ P', P' % blockSize = 0 → P < P' → P' + 2 ≤ db.header.position →
            db.file.disk[P']? ≠ some btHeader)) ∧
        (db.file.faults = [] → 14 ≤ db.header.diskVersion →
          db.header.prevHeaderPos < db.header.position → db.header.prevHeaderPos ≠ unknownPrevHeaderPos →
          db.file.disk[db.header.prevHeaderPos]? = some btHeader → P = db.header.prevHeaderPos))
      (fun _ db' => db'.dropped = true ∧
        (db.file.faults = [] → 14 ≤ db.header.diskVersion ∧ db.header.prevHeaderPos = noPrevHeaderPos ∨
          db.header.position < blockSize ∨
          ∀ P', P' % blockSize = 0 → P' + 2 ≤ db.header.position → db.file.disk[P']? ≠ some btHeader) ∧
        (db.file.faults = [] → 14 ≤ db.header.diskVersion →
          db.header.prevHeaderPos < db.header.position → db.header.prevHeaderPos ≠ unknownPrevHeaderPos →
          db.header.prevHeaderPos ≠ noPrevHeaderPos →
          db.file.disk[db.header.prevHeaderPos]? ≠ some btHeader)) := by
  have hw := M.wf.pos_le
  have hlt := M.lt
  have hs := rewindImpl_spec db M.safe (Nat.le_refl _) M.opened (by omega) M.prev
  unfold Sp rewindDbHeader at *
  cases hx : rewindImpl E db with
  | ok a db' =>
    rw [hx] at hs
    obtain ⟨P, c, k1, k2, k3, k4, k5⟩ := hs
    exact ⟨P, c, k1, k3, k4, k5⟩
  | error e db' =>
    rw [hx] at hs
    exact ⟨rfl, hs.2.2⟩

theorem fastForwardDbHeader_spec {db : Db} (M : Movable E getKey commits done db) :
    Sp (fastForwardDbHeader E) db
      (fun _ db' => ∃ P c, Landed E commits db db' P c ∧ db.header.position < P ∧
        (db.file.faults = [] → ∀ P', P' % blockSize = 0 → db.header.position < P' → P' < P →
          db.file.disk[P']? ≠ some btHeader))
      (fun _ db' => db'.dropped = true ∧ (db.file.faults = [] →
        ∀ P', P' % blockSize = 0 → db.header.position < P' → P' < db.file.pos → db.file.disk[P']? ≠ some btHeader)) := by
  have hs := fastForwardImpl_spec db M.safe (Nat.le_refl _) M.wf.pos_le M.opened M.aligned
  unfold Sp fastForwardDbHeader at *
  cases hx : fastForwardImpl E db with
  | ok a db' =>
    rw [hx] at hs
    obtain ⟨P, c, k1, k2, k3, k4⟩ := hs
    exact ⟨P, c, k1, k3, k4⟩
  | error e db' =>
    rw [hx] at hs
    exact ⟨rfl, hs.2.2⟩

theorem seekDir_spec {db : Db} (M : Movable E getKey commits done db) (d : Direction) :
    Sp (seekDir E d) db
      (fun _ db' => ∃ P c, Landed E commits db db' P c ∧
        (d = .end → db.file.faults = [] → ∀ P', P' % blockSize = 0 → P < P' → db.file.disk[P']? ≠ some btHeader))
      (fun e db' => Stayed E commits db e db') := by
  have hw := M.wf.pos_le
  have hlt := M.lt
  unfold Sp seekDir
  rw [if_neg (by rw [M.opened]; simp)]
  by_cases hb : d = .backward ∧ db.header.position = 0
  · rw [if_pos hb]
    exact Or.inl rfl
  rw [if_neg hb]
  have hs : Sp (seekStep E d) db
      (fun _ db' => ∃ P c, Landed E commits db db' P c ∧
        (d = .end → db.file.faults = [] → ∀ P', P' % blockSize = 0 → P < P' → db.file.disk[P']? ≠ some btHeader))
      (fun _ db' => Lost db db') := by
    cases d with
    | «end» =>
      refine (seekEnd_spec db M.safe (Nat.le_refl _) hw M.opened).mono ?_ (fun _ _ h => h)
      rintro _ db' ⟨P, c, k1, k2⟩
      exact ⟨P, c, k1, fun _ => k2⟩
    | forward =>
      refine (fastForwardImpl_spec db M.safe (Nat.le_refl _) hw M.opened M.aligned).mono ?_ (fun _ _ h => h.1)
      rintro _ db' ⟨P, c, k1, k2⟩
      exact ⟨P, c, k1, fun h => nomatch h⟩
    | backward =>
      refine (rewindImpl_spec db M.safe (Nat.le_refl _) M.opened (by omega) M.prev).mono ?_ (fun _ _ h => h.1)
      rintro _ db' ⟨P, c, k1, k2⟩
      exact ⟨P, c, k1, fun h => nomatch h⟩
  unfold Sp at hs
  cases hx : seekStep E d db with
  | ok a db' =>
    rw [hx] at hs
    exact hs
  | error e db' =>
    rw [hx] at hs
    dsimp only at hs ⊢
    by_cases hc : e.code = Err.invalidArguments.code
    · rw [if_pos hc]
      exact Or.inr (Or.inr (Or.inr hc))
    · rw [if_neg hc]
      have hl : Lost db { db' with file := { db'.file with pos := db.file.pos } } := by
        refine ⟨hs.faults, ?_, Or.inl rfl⟩
        rw [hs.eq]
      obtain ⟨e', db2, h1, h2, _⟩ := reloadOr_spec M hl rfl e
      rw [h1]
      exact h2

end

end Couchstore
