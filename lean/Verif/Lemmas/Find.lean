import Verif.Lemmas.Header
import Verif.Model.Open

/-! Helper lemmas about finding headers in a file. -/

namespace Couchstore

/-- The checksum of files with the given header version. -/
def crcOf (v : Nat) : CrcMode := if v ≤ 11 then .crc32 else .crc32c

theorem crcOf_ne (v : Nat) : crcOf v ≠ .unknown := by unfold crcOf; split <;> simp

/-- An intact header at block `P` of the file content `d`; `q` is its end. -/
structure HeaderAt (E : Env) (d : Bytes) (P : Nat) (h : Header) (q : Nat) : Prop where
  aligned : P % blockSize = 0
  lt : P < q
  ver : goodVersion h.diskVersion
  fits : headerFits h = true
  small : (encodeHeader h).length + 4 ≤ maxDbHeaderSize
  purge : h.purgePtr = 0
  idPtr : rootPtrLt h.byIdRoot P
  seqPtr : rootPtrLt h.bySeqRoot P
  locPtr : rootPtrLt h.localRoot P
  self : diskHeader h P = h
  stored : Stored d (P + 1) (headerChunk E (crcOf h.diskVersion) (encodeHeader h)) q

theorem Sp.def {S α : Type} {m : EStateM Err S α} {f : S} {Q : α → S → Prop} {R : Err → S → Prop}
    (h : Sp m f Q R) : match m f with | .ok a f' => Q a f' | .error e f' => R e f' := h

/-- Only reading has happened. -/
def DbR (db db' : Db) : Prop := RFrame db.file db'.file ∧ db' = { db with file := db'.file }

theorem DbR.refl (db : Db) : DbR db db := ⟨RFrame.refl _, rfl⟩

theorem DbR.trans {a b c : Db} (h : DbR a b) (h' : DbR b c) : DbR a c :=
  ⟨h.1.trans h'.1, by rw [h'.2, h.2]⟩

theorem DbR.faults_ne {a b : Db} (h : DbR a b) (hn : b.file.faults ≠ []) : a.file.faults ≠ [] :=
  h.1.faults_ne hn

theorem DbR.faults_nil {a b : Db} (h : DbR a b) (hn : a.file.faults = []) : b.file.faults = [] :=
  Classical.byContradiction fun hb => h.faults_ne hb hn

theorem DbR.header {a b : Db} (h : DbR a b) : b.header = a.header := by rw [h.2]
theorem DbR.dropped {a b : Db} (h : DbR a b) : b.dropped = a.dropped := by rw [h.2]
theorem DbR.readOnly {a b : Db} (h : DbR a b) : b.readOnly = a.readOnly := by rw [h.2]

theorem slice_one {d : Bytes} {i : Nat} {x : UInt8} (h : d[i]? = some x) : slice d i 1 = [x] := by
  have := slice_eq_of_getElem (d := d) (off := i) (n := 1) (bs := [x]) (by simp) (by
    intro j hj
    have : j = 0 := by omega
    subst this
    simpa using h)
  simpa using this

/-- Reading the type of a block. -/
theorem preadType_spec (P : Nat) (db : Db) {t : UInt8} (ht : db.file.disk[P]? = some t) :
    Sp (liftF (pread P 1)) db
      (fun got db' => DbR db db' ∧ (got = [t] ∨ got = [] ∧ db.file.faults ≠ []))
      (fun _ db' => DbR db db' ∧ db.file.faults ≠ []) := by
  refine (liftF_spec (pread_spec P 1 db.file)).mono ?_ ?_
  · rintro got db' ⟨h1, hr, k, hk, rfl, hf⟩
    refine ⟨⟨hr, h1⟩, ?_⟩
    by_cases hk0 : k = 0
    · subst hk0
      exact Or.inr ⟨by simp [slice], hf (by omega)⟩
    · have : k = 1 := by omega
      subst this
      exact Or.inl (slice_one ht)
  · rintro e db' ⟨h1, hr, hf⟩
    exact ⟨⟨hr, h1⟩, hf⟩

theorem findHeaderAtPos_header (E : Env) (db : Db) {P : Nat} {h : Header} {q : Nat}
    (H : HeaderAt E db.file.disk P h q) (ht : db.file.disk[P]? = some btHeader)
    (hm : db.file.cfg.crcMode = crcOf h.diskVersion ∨ db.file.cfg.crcMode = .unknown) :
    Sp (findHeaderAtPos E P) db
      (fun _ db' => RFrame db.file db'.file ∧ db' = { db with file := db'.file, header := h })
      (fun _ db' => DbR db db' ∧ db.file.faults ≠ []) := by
  unfold findHeaderAtPos
  apply Sp.bind' (preadType_spec P db ht)
  · rintro got db1 ⟨hr1, rfl | ⟨rfl, hf⟩⟩
    · simp only
      rw [if_neg (by decide), if_neg (by decide)]
      have hpre : Sp (preadDbHeader E P) db1
          (fun b db' => b = encodeHeader h ∧ DbR db1 db')
          (fun _ db' => DbR db1 db' ∧ db1.file.faults ≠ []) := by
        have hs := liftF_spec (db := db1) (preadHeader_spec' E P q maxDbHeaderSize (encodeHeader h) db1.file
          (crcOf h.diskVersion) (crcOf_ne _) (by rw [hr1.1.cfg]; exact hm) H.small
          (by have := H.small; unfold maxDbHeaderSize at this; omega)
          (by rw [hr1.1.disk]; exact H.stored))
        unfold preadDbHeader Sp at *
        cases hp : liftF (preadHeader E P maxDbHeaderSize) db1 with
        | ok b db' =>
          rw [hp] at hs
          dsimp only
          rw [hp]
          exact ⟨hs.2.1, hs.2.2, hs.1⟩
        | error e db' =>
          rw [hp] at hs
          dsimp only
          rw [hp]
          exact ⟨⟨hs.2.1, hs.1⟩, hs.2.2⟩
      apply Sp.bind' hpre
      · rintro b db2 ⟨rfl, hr2⟩
        unfold Sp
        rw [loadHeader_encode h P db2 H.ver H.fits (by rw [H.purge]; omega) H.idPtr H.seqPtr H.locPtr, H.self]
        have := hr1.trans hr2
        refine ⟨this.1, ?_⟩
        show ({ db2 with header := h } : Db) = _
        rw [this.2]
      · rintro e db2 ⟨hr2, hf⟩
        exact ⟨hr1.trans hr2, hr1.faults_ne hf⟩
    · exact ⟨hr1, hf⟩
  · rintro e db' h; exact h

theorem findHeaderAtPos_other (E : Env) (db : Db) {P : Nat} {t : UInt8}
    (ht : db.file.disk[P]? = some t) (ho : t = btData ∨ t = btMeta) :
    Sp (findHeaderAtPos E P) db (fun _ _ => False)
      (fun e db' => DbR db db' ∧ (db.file.faults = [] → e = .noHeader)) := by
  unfold findHeaderAtPos
  apply Sp.bind' (preadType_spec P db ht)
  · rintro got db1 ⟨hr1, rfl | ⟨rfl, hf⟩⟩
    · simp only
      rw [if_pos ho]
      exact ⟨hr1, fun _ => rfl⟩
    · exact ⟨hr1, fun h => absurd h hf⟩
  · rintro e db' ⟨h, hf⟩; exact ⟨h, fun h => absurd h hf⟩

/-- All blocks up to block `n` are data, meta or intact headers satisfying `R`. -/
def Blocks (E : Env) (m : CrcMode) (d : Bytes) (R : Nat → Header → Nat → Prop) : Prop :=
  ∀ P, P % blockSize = 0 → P < d.length → d[P]? = some btData ∨ d[P]? = some btMeta ∨
    d[P]? = some btHeader ∧ ∃ h q, HeaderAt E d P h q ∧ crcOf h.diskVersion = m ∧ R P h q

theorem findHeaderAtPos_blocks (E : Env) (db : Db) {m : CrcMode} {R : Nat → Header → Nat → Prop}
    (hb : Blocks E m db.file.disk R) (hm : db.file.cfg.crcMode = m ∨ db.file.cfg.crcMode = .unknown)
    {P : Nat} (hP : P % blockSize = 0) (hl : P < db.file.disk.length) :
    Sp (findHeaderAtPos E P) db
      (fun _ db' => db.file.disk[P]? = some btHeader ∧ ∃ h q, HeaderAt E db.file.disk P h q ∧
        crcOf h.diskVersion = m ∧ R P h q ∧
        RFrame db.file db'.file ∧ db' = { db with file := db'.file, header := h })
      (fun e db' => DbR db db' ∧ (db.file.faults = [] → e = .noHeader ∧ db.file.disk[P]? ≠ some btHeader)) := by
  rcases hb P hP hl with ht | ht | ⟨ht, h, q, H, hc, hR⟩
  · refine (findHeaderAtPos_other E db ht (Or.inl rfl)).mono (fun _ _ h => h.elim) ?_
    rintro e db' ⟨h1, h2⟩
    exact ⟨h1, fun h => ⟨h2 h, by rw [ht]; simp [btData, btHeader]⟩⟩
  · refine (findHeaderAtPos_other E db ht (Or.inr rfl)).mono (fun _ _ h => h.elim) ?_
    rintro e db' ⟨h1, h2⟩
    exact ⟨h1, fun h => ⟨h2 h, by rw [ht]; simp [btMeta, btHeader]⟩⟩
  · refine (findHeaderAtPos_header E db H ht (by rw [hc]; exact hm)).mono ?_ ?_
    · intro _ db' h'
      exact ⟨ht, h, q, H, hc, hR, h'⟩
    · rintro e db' ⟨h1, h2⟩
      exact ⟨h1, fun h => absurd h h2⟩

theorem findHeaderLoop_blocks (E : Env) (skip : Bool) {m : CrcMode} {R : Nat → Header → Nat → Prop} (n : Nat)
    (last : Err) (db : Db)
    (hb : Blocks E m db.file.disk R) (hm : db.file.cfg.crcMode = m ∨ db.file.cfg.crcMode = .unknown)
    (hl : n * blockSize < db.file.disk.length) :
    Sp (findHeaderLoop E skip n last) db
      (fun _ db' => ∃ P h q, P % blockSize = 0 ∧ P ≤ n * blockSize ∧ db.file.disk[P]? = some btHeader ∧
        HeaderAt E db.file.disk P h q ∧ crcOf h.diskVersion = m ∧ R P h q ∧
        RFrame db.file db'.file ∧ db' = { db with file := db'.file, header := h } ∧
        (db.file.faults = [] → ∀ P', P' % blockSize = 0 → P < P' → P' ≤ n * blockSize →
          db.file.disk[P']? ≠ some btHeader))
      (fun e db' => DbR db db' ∧ (db.file.faults = [] → e = last ∧ ∀ P', P' % blockSize = 0 →
        P' ≤ n * blockSize → db.file.disk[P']? ≠ some btHeader)) := by
  have hmul : n * blockSize % blockSize = 0 := Nat.mul_mod_left _ _
  induction n generalizing last db with
  | zero =>
    have hs := findHeaderAtPos_blocks E db hb hm hmul hl
    unfold Sp findHeaderLoop at *
    cases hr : findHeaderAtPos E (0 * blockSize) db with
    | ok a db' =>
      rw [hr] at hs
      obtain ⟨ht, h, q, H, hc, hR, h1, h2⟩ := hs
      exact ⟨_, h, q, hmul, Nat.le_refl _, ht, H, hc, hR, h1, h2, fun _ P' _ h3 h4 => by omega⟩
    | error e db' =>
      rw [hr] at hs
      obtain ⟨h1, h2⟩ := hs
      dsimp only
      by_cases hf : db.file.faults = []
      · obtain ⟨rfl, h3⟩ := h2 hf
        rw [if_pos rfl]
        refine ⟨h1, fun _ => ⟨rfl, fun P' _ h4 => ?_⟩⟩
        have : P' = 0 * blockSize := by omega
        rw [this]; exact h3
      · by_cases c1 : e.code = Err.noHeader.code
        · rw [if_pos c1]; exact ⟨h1, fun h => absurd h hf⟩
        · rw [if_neg c1]
          by_cases c2 : e.code = Err.checksumFail.code ∨ e.code = Err.corrupt.code ∨ e.code = Err.read.code
          · rw [if_pos c2]
            by_cases c3 : skip = true
            · rw [if_pos c3]; exact ⟨h1, fun h => absurd h hf⟩
            · rw [if_neg c3]; exact ⟨h1, fun h => absurd h hf⟩
          · rw [if_neg c2]; exact ⟨h1, fun h => absurd h hf⟩
  | succ n ih =>
    have hs := findHeaderAtPos_blocks E db hb hm hmul hl
    have hnext : ∀ last' db1, DbR db db1 → (db.file.faults = [] → last' = last ∧
          db.file.disk[(n + 1) * blockSize]? ≠ some btHeader) →
        Sp (findHeaderLoop E skip n last') db1
      (fun _ db' => ∃ P h q, P % blockSize = 0 ∧ P ≤ (n + 1) * blockSize ∧ db.file.disk[P]? = some btHeader ∧
        HeaderAt E db.file.disk P h q ∧ crcOf h.diskVersion = m ∧ R P h q ∧
        RFrame db.file db'.file ∧ db' = { db with file := db'.file, header := h } ∧
        (db.file.faults = [] → ∀ P', P' % blockSize = 0 → P < P' → P' ≤ (n + 1) * blockSize →
          db.file.disk[P']? ≠ some btHeader))
      (fun e db' => DbR db db' ∧ (db.file.faults = [] → e = last ∧ ∀ P', P' % blockSize = 0 →
        P' ≤ (n + 1) * blockSize → db.file.disk[P']? ≠ some btHeader)) := by
      intro last' db1 hr hl'
      have hcase : ∀ P', P' % blockSize = 0 → P' ≤ (n + 1) * blockSize → P' ≤ n * blockSize ∨
          P' = (n + 1) * blockSize := by
        intro P' h1 h2
        unfold blockSize at *; omega
      have := ih last' db1 (by rw [hr.1.disk]; exact hb) (by rw [hr.1.cfg]; exact hm)
        (by rw [hr.1.disk]; exact Nat.lt_of_le_of_lt (Nat.mul_le_mul_right _ (Nat.le_succ n)) hl) (Nat.mul_mod_left _ _)
      refine this.mono ?_ ?_
      · rintro _ db' ⟨P, h, q, h1, h2, h3, h4, h5, h6, h7, h8, h9⟩
        rw [hr.1.disk] at h3 h4
        refine ⟨P, h, q, h1, Nat.le_trans h2 (Nat.mul_le_mul_right _ (Nat.le_succ n)), h3, h4, h5, h6, hr.1.trans h7, ?_, ?_⟩
        · rw [h8, hr.2]
        · intro hf P' hp1 hp2 hp3
          rcases hcase P' hp1 hp3 with h | h
          · have := h9 (hr.faults_nil hf) P' hp1 hp2 h
            rwa [hr.1.disk] at this
          · rw [h]; exact (hl' hf).2
      · rintro e db' ⟨h1, h2⟩
        refine ⟨hr.trans h1, fun hf => ?_⟩
        obtain ⟨h3, h4⟩ := h2 (hr.faults_nil hf)
        refine ⟨h3.trans (hl' hf).1, fun P' hp1 hp2 => ?_⟩
        rcases hcase P' hp1 hp2 with h | h
        · have := h4 P' hp1 h
          rwa [hr.1.disk] at this
        · rw [h]; exact (hl' hf).2
    unfold Sp at hs
    unfold Sp findHeaderLoop
    cases hr : findHeaderAtPos E ((n + 1) * blockSize) db with
    | ok a db' =>
      rw [hr] at hs
      obtain ⟨ht, h, q, H, hc, hR, h1, h2⟩ := hs
      exact ⟨_, h, q, hmul, Nat.le_refl _, ht, H, hc, hR, h1, h2, fun _ P' _ h3 h4 => by omega⟩
    | error e db' =>
      rw [hr] at hs
      obtain ⟨h1, h2⟩ := hs
      dsimp only
      by_cases hf : db.file.faults = []
      · obtain ⟨rfl, h3⟩ := h2 hf
        rw [if_pos rfl]
        exact Sp.def (hnext last db' h1 fun _ => ⟨rfl, h3⟩)
      · by_cases c1 : e.code = Err.noHeader.code
        · rw [if_pos c1]; exact Sp.def (hnext last db' h1 fun h => absurd h hf)
        · rw [if_neg c1]
          by_cases c2 : e.code = Err.checksumFail.code ∨ e.code = Err.corrupt.code ∨ e.code = Err.read.code
          · rw [if_pos c2]
            by_cases c3 : skip = true
            · rw [if_pos c3]; exact Sp.def (hnext e db' h1 fun h => absurd h hf)
            · rw [if_neg c3]; exact ⟨h1, fun h => absurd h hf⟩
          · rw [if_neg c2]; exact ⟨h1, fun h => absurd h hf⟩

end Couchstore
