import Verif.Lemmas.DbckWalk
import Verif.Lemmas.History
import Verif.Spec.Dbck

/-! Moving back on a damaged file. -/

namespace Couchstore

/-- Only the header of the handle has changed; its position is as before or `P`. -/
def HdrOnly (P : Nat) (db db' : Db) : Prop :=
  db' = { db with header := db'.header } ∧ (db'.header.position = db.header.position ∨ db'.header.position = P)

theorem HdrOnly.refl (P : Nat) (db : Db) : HdrOnly P db db := ⟨rfl, Or.inl rfl⟩

theorem HdrOnly.trans {P : Nat} {a b c : Db} (h : HdrOnly P a b) (h' : HdrOnly P b c) : HdrOnly P a c := by
  refine ⟨by rw [h'.1, h.1], ?_⟩
  rcases h'.2 with h1 | h1
  · rw [h1]; exact h.2
  · exact Or.inr h1

theorem setHeader_only {P : Nat} {g : Header → Header} (db : Db)
    (h : (g db.header).position = db.header.position ∨ (g db.header).position = P) :
    Sp (setHeader g) db (fun _ db' => HdrOnly P db db') (fun _ db' => HdrOnly P db db') := ⟨rfl, h⟩

theorem readDbRoot_only (P : Nat) (set : Option NodePointer → Header → Header) (hs : ∀ r h, (set r h).position = h.position)
    (b : Bytes) (db : Db) :
    Sp (readDbRoot set b) db (fun _ db' => HdrOnly P db db') (fun _ db' => HdrOnly P db db') := by
  unfold readDbRoot
  split
  · split
    · exact HdrOnly.refl P db
    · cases readRoot b with
      | none => exact HdrOnly.refl P db
      | some p =>
        refine Sp.bind' (setHeader_only (P := P) db (Or.inl (hs _ _))) ?_ (fun _ _ h => h)
        intro _ db1 h1
        apply Sp.get_bind
        split
        · exact h1
        · exact h1
  · exact setHeader_only db (Or.inl (hs _ _))

theorem loadHeader_only (P : Nat) (b : Bytes) (db : Db) :
    Sp (loadHeader P b) db (fun _ db' => HdrOnly P db db') (fun _ db' => HdrOnly P db db') := by
  unfold loadHeader
  cases b with
  | nil => exact HdrOnly.refl P db
  | cons v r =>
    dsimp only
    refine Sp.bind' (setHeader_only (P := P) db (Or.inr rfl)) ?_ (fun _ _ h => h)
    intro _ db1 h1
    cases headerFixedSize v.toNat with
    | none => exact h1
    | some size =>
      dsimp only
      split
      · exact h1
      refine Sp.bind' (setHeader_only (P := P) db1 (Or.inl rfl)) ?_ (fun _ _ h => h1.trans h)
      intro _ db2 h2
      apply Sp.get_bind
      have h2 := h1.trans h2
      split
      · exact h2
      split
      · exact h2
      refine Sp.bind' (readDbRoot_only P _ (by intros; rfl) _ db2) ?_ (fun _ _ h => h2.trans h)
      intro _ db3 h3
      have h3 := h2.trans h3
      refine Sp.bind' (readDbRoot_only P _ (by intros; rfl) _ db3) ?_ (fun _ _ h => h3.trans h)
      intro _ db4 h4
      have h4 := h3.trans h4
      exact (readDbRoot_only P _ (by intros; rfl) _ db4).mono (fun _ _ h => h4.trans h) (fun _ _ h => h4.trans h)

/-- What finding a header comes from, on a file whose operations do not fail. -/
theorem findHeaderAtPos_calm (E : Env) (P : Nat) (db : Db) (hf : db.file.faults = []) :
    Sp (findHeaderAtPos E P) db
      (fun _ db' => db.file.disk[P]? = some btHeader ∧ ∃ b, preadHeader E P maxDbHeaderSize db.file = .ok b db.file ∧
        loadHeader P b db = .ok () db')
      (fun _ db' => HdrOnly P db db') := by
  unfold findHeaderAtPos
  have hpre : Sp (liftF (pread P 1)) db (fun got db' => db' = db ∧ got = slice db.file.disk P 1) (fun _ db' => db' = db) := by
    refine (liftF_spec (pread_spec P 1 db.file)).mono ?_ ?_
    · rintro got db' ⟨h1, hr, k, hk, hg, hk'⟩
      have hs := RFrame.same hr hf
      refine ⟨by rw [h1, hs], ?_⟩
      have : k = 1 := by
        by_contra hne
        exact hk' (by omega) hf
      rw [hg, this]
    · rintro e db' ⟨h1, hr, -⟩
      rw [h1, RFrame.same hr hf]
  refine Sp.bind' hpre ?_ (fun _ _ h => by rw [h]; exact HdrOnly.refl P db)
  rintro got db1 ⟨rfl, hg⟩
  split
  · rename_i t
    split
    · exact HdrOnly.refl P db1
    split
    · exact HdrOnly.refl P db1
    · rename_i h1 h2
      have hm : db1.file.disk[P]? = some btHeader := by
        have ht : t = btHeader := by simpa using h2
        rw [← ht]
        unfold slice at hg
        have : (db1.file.disk.drop P).head? = some t := by
          cases hx : db1.file.disk.drop P with
          | nil => rw [hx] at hg; simp at hg
          | cons a l => rw [hx] at hg; simp at hg; rw [hg]; rfl
        rwa [List.head?_drop] at this
      rcases rframe_result hf (preadHeader_rframe E P maxDbHeaderSize db1.file) with ⟨b, hb⟩ | ⟨e, he⟩
      · have : preadDbHeader E P db1 = .ok b db1 := by
          unfold preadDbHeader liftF
          rw [hb]
        unfold Sp
        rw [bind_ok this]
        have hl := loadHeader_only P b db1
        unfold Sp at hl
        cases hx : loadHeader P b db1 with
        | ok a db' => exact ⟨hm, b, hb, hx⟩
        | error e db' => rw [hx] at hl; exact hl
      · have : preadDbHeader E P db1 = .error (if P = 0 then .noHeader else e) db1 := by
          unfold preadDbHeader liftF
          rw [he]
        unfold Sp
        rw [bind_error this]
        exact HdrOnly.refl P db1
  · exact HdrOnly.refl P db1

/-- A header that is found in the damaged file is that of a commit. -/
theorem findHeader_damaged {E : Env} {getKey : KeyGetter} {s : Sys} (H : Hist E getKey s)
    {db db' : Db} (D : DamagedFile E s.db.file db.file) (DH : DamagedHeaders E s.db.file db.file) {P : Nat}
    (hP : P % blockSize = 0) (h : findHeaderAtPos E P db = .ok () db') :
    ∃ c, Landed E s.commits s.db { s.db with header := db'.header } P c ∧ db' = { db with header := db'.header } := by
  obtain ⟨hm, b, hb, hl⟩ := (findHeaderAtPos_calm E P db D.faults).ok h
  obtain ⟨hm0, g', hb0⟩ := DH P b _ hP hm hb
  obtain ⟨ids, seqs, locs, hh⟩ := H.handle
  obtain ⟨c, hd, q, c1, c2, c3, -, -⟩ := H.live.headers P hP (Or.inl hm0)
  have HA : HeaderAt E s.db.file.disk P hd q := c2.hdr
  have hsp := preadHeader_spec' E P q maxDbHeaderSize (encodeHeader hd) { s.db.file with faults := [] }
    (crcOf hd.diskVersion) (crcOf_ne _) (Or.inl c2.crc.symm) HA.small
    (by have := HA.small; unfold maxDbHeaderSize at this; omega) HA.stored
  have hbe := (hsp.ok hb0).1
  subst hbe
  rw [loadHeader_encode hd P db HA.ver HA.fits (by rw [HA.purge]; omega) HA.idPtr HA.seqPtr HA.locPtr, HA.self] at hl
  injection hl with _ hl
  subst hl
  exact ⟨c, ⟨hP, hm0, c1, ⟨q, c2, c3⟩, Or.inl rfl, List.suffix_refl _, rfl⟩, rfl⟩

/-- A successful search. -/
theorem findHeaderLoop_from (E : Env) (skip : Bool) (n : Nat) (last : Err) (db db' : Db) (hf : db.file.faults = [])
    (h : findHeaderLoop E skip n last db = .ok () db') :
    ∃ m x, m ≤ n ∧ findHeaderAtPos E (m * blockSize) { db with header := x } = .ok () db' := by
  induction n generalizing last db with
  | zero =>
    unfold findHeaderLoop at h
    cases hx : findHeaderAtPos E (0 * blockSize) db with
    | ok a d => rw [hx] at h; exact ⟨0, db.header, Nat.le_refl _, by rw [← h]; exact hx⟩
    | error e d =>
      rw [hx] at h
      dsimp only at h
      split at h
      · cases h
      · split at h
        · split at h <;> cases h
        · cases h
  | succ n ih =>
    unfold findHeaderLoop at h
    cases hx : findHeaderAtPos E ((n + 1) * blockSize) db with
    | ok a d => rw [hx] at h; exact ⟨n + 1, db.header, Nat.le_refl _, by rw [← h]; exact hx⟩
    | error e d =>
      rw [hx] at h
      dsimp only at h
      have hd := ((findHeaderAtPos_calm E _ db hf).error hx).1
      have key : ∀ last, findHeaderLoop E skip n last d = .ok () db' → ∃ m x, m ≤ n + 1 ∧
          findHeaderAtPos E (m * blockSize) { db with header := x } = .ok () db' := by
        intro last h
        obtain ⟨m, x, h1, h2⟩ := ih last d (by rw [hd]; exact hf) h
        refine ⟨m, x, by omega, ?_⟩
        rw [hd] at h2
        exact h2
      split at h
      · exact key _ h
      · split at h
        · split at h
          · exact key _ h
          · cases h
        · cases h

theorem rewindScan_from (E : Env) (db db' : Db) (hf : db.file.faults = []) (h : rewindScan E db = .ok () db') :
    ∃ P x, P % blockSize = 0 ∧ P < db.header.position ∧ findHeaderAtPos E P { db with header := x } = .ok () db' := by
  unfold rewindScan at h
  have h : (if db.header.position < blockSize then throw Err.dbNoLongerValid
      else findHeaderBefore E db.header.position false : DbM Unit) db = .ok () db' := h
  split at h
  · cases h
  · rename_i hb
    unfold findHeaderBefore at h
    split at h
    · cases h
    · rename_i h2
      obtain ⟨m, x, h3, h4⟩ := findHeaderLoop_from E false _ _ db db' hf h
      refine ⟨m * blockSize, x, Nat.mul_mod_left _ _, ?_, h4⟩
      have : m * blockSize ≤ db.header.position - 2 :=
        Nat.le_trans (Nat.mul_le_mul_right _ h3) (Nat.div_mul_le_self _ _)
      omega

/-- Where moving back gets to. -/
theorem rewind_from (E : Env) (db db' : Db) (hf : db.file.faults = [])
    (hp : 14 ≤ db.header.diskVersion → db.header.prevHeaderPos = noPrevHeaderPos ∨
      db.header.prevHeaderPos = unknownPrevHeaderPos ∨ db.header.prevHeaderPos % blockSize = 0)
    (h : rewindDbHeader E db = .ok () db') :
    ∃ P x, P % blockSize = 0 ∧ P < db.header.position ∧ findHeaderAtPos E P { db with header := x } = .ok () db' := by
  unfold rewindDbHeader at h
  have h : rewindImpl E db = .ok () db' := by
    cases hx : rewindImpl E db with
    | ok a d => rw [hx] at h; exact h
    | error e d => rw [hx] at h; cases h
  unfold rewindImpl at h
  have h : (if db.dropped = true then throw Err.fileClosed else (do
      resetHeader
      let h := (← get).header
      if 14 ≤ h.diskVersion then
        if h.prevHeaderPos = noPrevHeaderPos then throw .dbNoLongerValid else
        if h.prevHeaderPos ≠ unknownPrevHeaderPos ∧ h.prevHeaderPos < h.position then
          rewindPrev E h.prevHeaderPos
        else rewindScan E
      else rewindScan E) : DbM Unit) db = .ok () db' := h
  split at h
  · cases h
  have h : (if 14 ≤ db.header.diskVersion then
        if db.header.prevHeaderPos = noPrevHeaderPos then throw .dbNoLongerValid else
        if db.header.prevHeaderPos ≠ unknownPrevHeaderPos ∧ db.header.prevHeaderPos < db.header.position then
          rewindPrev E db.header.prevHeaderPos
        else rewindScan E
      else rewindScan E : DbM Unit)
      { db with header := { db.header with byIdRoot := none, bySeqRoot := none, localRoot := none } } = .ok () db' := h
  have hscan : ∀ d : Db, d = { db with header := d.header } → d.header.position ≤ db.header.position →
      rewindScan E d = .ok () db' →
      ∃ P x, P % blockSize = 0 ∧ P < db.header.position ∧ findHeaderAtPos E P { db with header := x } = .ok () db' := by
    intro d hd hle h
    obtain ⟨P, x, h1, h2, h3⟩ := rewindScan_from E d db' (by rw [hd]; exact hf) h
    refine ⟨P, x, h1, by omega, ?_⟩
    rw [hd] at h3
    exact h3
  split at h
  · rename_i hv
    split at h
    · cases h
    rename_i hn
    split at h
    · rename_i hlt
      unfold rewindPrev at h
      have hal : db.header.prevHeaderPos % blockSize = 0 := by
        rcases hp hv with h | h | h
        · exact absurd h hn
        · exact absurd h hlt.1
        · exact h
      cases hx : findHeaderAtPos E db.header.prevHeaderPos
          { db with header := { db.header with byIdRoot := none, bySeqRoot := none, localRoot := none } } with
      | ok a d =>
        rw [hx] at h
        exact ⟨_, { db.header with byIdRoot := none, bySeqRoot := none, localRoot := none }, hal, hlt.2, hx.trans h⟩
      | error e d =>
        rw [hx] at h
        dsimp only at h
        obtain ⟨k1, k2⟩ := (findHeaderAtPos_calm E db.header.prevHeaderPos
          { db with header := { db.header with byIdRoot := none, bySeqRoot := none, localRoot := none } } hf).error hx
        split at h
        · cases h
        · refine hscan d ?_ ?_ h
          · rw [k1]
          · rcases k2 with k | k
            · exact Nat.le_of_eq k
            · rw [k]; exact Nat.le_of_lt hlt.2
    · exact hscan { db with header := { db.header with byIdRoot := none, bySeqRoot := none, localRoot := none } } rfl
        (Nat.le_refl _) h
  · exact hscan { db with header := { db.header with byIdRoot := none, bySeqRoot := none, localRoot := none } } rfl
        (Nat.le_refl _) h

/-- The handle of an older commit on the damaged file, and on the intact one. -/
structure Stale (E : Env) (getKey : KeyGetter) (s : Sys) (f : File) (db : Db) : Prop where
  hist : Hist E getKey { s with db := { s.db with header := db.header } }
  eq : db = { s.db with header := db.header, file := f }

theorem Stale.start {E : Env} {getKey : KeyGetter} {s : Sys} (H : Hist E getKey s) (f : File) :
    Stale E getKey s f { s.db with file := f } := ⟨H, rfl⟩

/-- Moving back on the damaged file ends at a commit. -/
theorem Stale.rewind {E : Env} (L : E.Laws) {getKey : KeyGetter} {s : Sys} {f : File}
    (D : DamagedFile E s.db.file f) (DH : DamagedHeaders E s.db.file f) {db db' : Db} (S : Stale E getKey s f db)
    (h : rewindDbHeader E db = .ok () db') :
    Stale E getKey s f db' ∧ db'.header.position < db.header.position ∧
      ∃ c ∈ s.commits, c.pos = db'.header.position ∧ Shows E { s.db with header := db'.header } c := by
  have hfile : db.file = f := by rw [S.eq]
  obtain ⟨P, x, h1, h2, h3⟩ := rewind_from E db db' (by rw [hfile]; exact D.faults) S.hist.movable.prev h
  obtain ⟨c, h4, h5⟩ := findHeader_damaged S.hist (db := { db with header := x }) (by rw [hfile]; exact D)
    (by rw [hfile]; exact DH) h1 h3
  obtain ⟨k1, -, k3, -⟩ := h4.hist L S.hist
  have hsh := h4.shows L S.hist
  have k3 : db'.header.position = P := k3
  refine ⟨⟨k1, ?_⟩, by omega, c, List.mem_of_find?_eq_some h4.found, ?_, hsh⟩
  · rw [h5, S.eq]
  · have := List.find?_some h4.found
    rw [k3]
    simpa using this

theorem Stale.rewound {E : Env} (L : E.Laws) {getKey : KeyGetter} {s : Sys} {f : File}
    (D : DamagedFile E s.db.file f) (DH : DamagedHeaders E s.db.file f) {db db' : Db} (S : Stale E getKey s f db)
    (h : Rewound E db db') :
    Stale E getKey s f db' ∧ db'.header.position < db.header.position ∧
      ∃ c ∈ s.commits, c.pos = db'.header.position ∧ Shows E { s.db with header := db'.header } c := by
  induction h with
  | one h => exact S.rewind L D DH h
  | more _ h ih =>
    obtain ⟨k1, k2, -⟩ := ih
    obtain ⟨j1, j2, j3⟩ := k1.rewind L D DH h
    exact ⟨j1, by omega, j3⟩

end Couchstore
