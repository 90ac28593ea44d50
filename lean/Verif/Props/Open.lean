import Verif.Lemmas.Intact
import Verif.Props.Sample

/-! C23: which header opening selects, for every content of a file.

`IntactHeader`, `ForeignHeader` (`Spec/HeaderBlock.lean`) say what a block holds.  `d` is the content
of the file, of any origin: written by the library, damaged, or arbitrary bytes. -/

namespace Couchstore.Props

/-- The file has a block at `P`: `P` is a multiple of the block size, and at least the type byte and
one more byte are there. -/
def BlockOf (d : Bytes) (P : Nat) : Prop := P % blockSize = 0 ∧ P + 2 ≤ d.length

/-- The block is not marked as holding data or metadata. -/
def NotData (d : Bytes) (P : Nat) : Prop := d[P]? ≠ some btData ∧ d[P]? ≠ some btMeta

/-- No block after `P` has the property. -/
def LastOf (X : Nat → Prop) (d : Bytes) (P : Nat) : Prop := ∀ Q, BlockOf d Q → P < Q → ¬ X Q

/-- Opening is possible with these flags: they do not contradict each other. -/
def FlagsSane (flags : OpenFlags) : Prop :=
  (flags.rdonly = true → flags.create = false) ∧ (flags.excl = true → flags.create = true)

/-- The header can be used with these flags, and needs no key. -/
def Usable (flags : OpenFlags) (h : Header) : Prop :=
  (flags.legacyCrc = true → h.diskVersion = 11) ∧ h.haveMeta = false

theorem openDb_cases {E : Env} {flags : OpenFlags} {getKey : KeyGetter} {ctx : Bytes} {f : File}
    {Q : Unit → Db → Prop} {R : Err → Db → Prop} (h : Sp (openBody E flags getKey ctx) (newHandle flags f) Q R) :
    (∀ db f', openDb E flags getKey ctx f = .ok db f' → f' = db.file ∧ Q () db) ∧
    (FlagsSane flags → (∃ db, openDb E flags getKey ctx f = .ok db db.file ∧ Q () db) ∨
      ∃ e db, openDb E flags getKey ctx f = .error e db.file ∧ R e db) := by
  unfold openDb
  constructor
  · intro db f'
    split
    · intro h; cases h
    split
    · intro h; cases h
    split
    · rename_i db1 hp
      intro h'
      cases h'
      exact ⟨rfl, h.ok hp⟩
    · intro h; cases h
  · intro hs
    rw [if_neg (by rintro ⟨h1, h2⟩; rw [hs.1 h1] at h2; cases h2),
      if_neg (by rintro ⟨h1, h2⟩; exact h2 (hs.2 h1))]
    split
    · rename_i db1 hp
      exact Or.inl ⟨db1, rfl, h.ok hp⟩
    · rename_i e db1 hp
      exact Or.inr ⟨e, db1, rfl, h.error hp⟩

theorem not_notData {d : Bytes} {P : Nat} : ¬ NotData d P ↔ DataBlock d P := by
  unfold NotData DataBlock
  constructor
  · intro h
    by_cases h1 : d[P]? = some btData
    · exact Or.inl h1
    · by_cases h2 : d[P]? = some btMeta
      · exact Or.inr h2
      · exact absurd ⟨h1, h2⟩ h
  · rintro (h | h) ⟨h1, h2⟩
    · exact h1 h
    · exact h2 h

/-- **C23, normal opening.**  If a non-empty file of any content is opened without recovery mode, the
selected header is intact, it is the last block of the file that does not hold data: nothing after it
was skipped, whether intact or damaged.  The file is not changed.  This holds whatever raw operations
fail meanwhile (unless one fails with the number of `NO_HEADER`, which the library takes for the
absence of a header). -/
theorem C23_open_selects_last_header (E : Env) (flags : OpenFlags) (getKey : KeyGetter) (ctx d : Bytes)
    (faults : List Fault) (hd : d ≠ []) (hrec : flags.recovery = false) (h6 : .err (-6) ∉ faults)
    {db : Db} {f' : File} (h : openDb E flags getKey ctx (crashedFile d faults) = .ok db f') :
    BlockOf d db.header.position ∧ IntactHeader E d db.header.position db.header ∧
    LastOf (NotData d) d db.header.position ∧ f'.disk = d ∧ f'.log = [] := by
  obtain ⟨rfl, h1, h2, P, h3, h4, h5, h7, h8⟩ :=
    (openDb_cases (openBody_any E flags getKey ctx (crashedFile d faults) hd)).1 db f' h
  have := h5.position
  rw [this]
  exact ⟨⟨h3, h4⟩, h5, fun Q hQ hlt => not_notData.mpr (h7 h6 hrec Q hQ.1 hlt hQ.2), h1, h2⟩

/-- **C23, normal opening succeeds** if the last block that does not hold data is an intact header;
it selects that header. -/
theorem C23_open_finds_last_header (E : Env) (flags : OpenFlags) (getKey : KeyGetter) (ctx d : Bytes)
    (hrec : flags.recovery = false) (hs : FlagsSane flags) {P : Nat} {h : Header} (hb : BlockOf d P)
    (hi : IntactHeader E d P h) (hl : LastOf (NotData d) d P) (hu : Usable flags h) :
    ∃ db, openDb E flags getKey ctx (crashedFile d []) = .ok db db.file ∧ db.header = h := by
  have hd : d ≠ [] := by rintro rfl; have := hb.2; simp at this
  rcases (openDb_cases (openBody_any E flags getKey ctx (crashedFile d []) hd)).2 hs with
    ⟨db, h1, _, _, P', h3, h4, h5, h7, h8⟩ | ⟨e, db, h1, _, _, h2, _, _⟩
  · refine ⟨db, h1, ?_⟩
    have hP : P' = P := by
      rcases Nat.lt_trichotomy P P' with hlt | rfl | hgt
      · exact absurd h5 ((not_notData.mp (hl P' ⟨h3, h4⟩ hlt)).not_intact _)
      · rfl
      · exact absurd hi (h8 rfl P h hb.1 hgt hb.2)
    subst hP
    exact h5.unique hi
  · rcases h2 rfl P h hb.1 hb.2 hi with ⟨k1, k2⟩ | k | ⟨Q, k1, k2, k3, k4⟩
    · exact absurd (hu.1 k2) k1
    · rw [hu.2] at k; cases k
    · rw [if_neg (by simp [hrec])] at k4
      exact absurd (not_notData.mp (hl Q ⟨k1, k3⟩ k2)) k4

/-- **C23, a damaged newest header is reported.**  If the last block that does not hold data is not an
intact header, opening without recovery mode fails, whatever older headers there are; and (unless it
is the very first block) the error is not `NO_HEADER`. -/
theorem C23_damaged_header_reported (E : Env) (flags : OpenFlags) (getKey : KeyGetter) (ctx d : Bytes)
    (faults : List Fault) (hrec : flags.recovery = false) (h6 : .err (-6) ∉ faults) {P : Nat} (hb : BlockOf d P)
    (hn : NotData d P) (hbad : ∀ h, ¬ IntactHeader E d P h) (hl : LastOf (NotData d) d P) :
    (∀ db f', openDb E flags getKey ctx (crashedFile d faults) ≠ .ok db f') ∧
    (FlagsSane flags → faults = [] → 0 < P →
      ∃ e f', openDb E flags getKey ctx (crashedFile d faults) = .error e f' ∧ e ≠ .noHeader ∧ f'.disk = d) := by
  have hd : d ≠ [] := by rintro rfl; have := hb.2; simp at this
  have hno : ∀ db f', openDb E flags getKey ctx (crashedFile d faults) ≠ .ok db f' := by
    intro db f' h
    obtain ⟨k1, k2, k3, _⟩ := C23_open_selects_last_header E flags getKey ctx d faults hd hrec h6 h
    rcases Nat.lt_trichotomy P db.header.position with hlt | heq | hgt
    · exact absurd k2 ((not_notData.mp (hl _ k1 hlt)).not_intact _)
    · rw [← heq] at k2; exact hbad _ k2
    · exact k3 P hb hgt hn
  refine ⟨hno, ?_⟩
  rintro hs rfl hP
  rcases (openDb_cases (openBody_any E flags getKey ctx (crashedFile d []) hd)).2 hs with
    ⟨db, h1, _⟩ | ⟨e, db, h1, h2, _, _, _, h3⟩
  · exact absurd h1 (hno _ _)
  · refine ⟨e, _, h1, ?_, h2⟩
    intro he
    rcases h3 rfl hrec he with k | ⟨P', h, k1, k2, k3, k4⟩
    · exact absurd hn (not_notData.mpr (k P hb.1 hP hb.2))
    · rcases Nat.lt_trichotomy P P' with hlt | rfl | hgt
      · exact absurd k3 ((not_notData.mp (hl P' ⟨k1, k2⟩ hlt)).not_intact _)
      · exact hbad _ k3
      · exact absurd hn (not_notData.mpr (k4 P hb.1 hgt hb.2))

/-- **C23, recovery mode selects only the newest intact header.** -/
theorem C23_recovery_selects_newest_intact (E : Env) (flags : OpenFlags) (getKey : KeyGetter) (ctx d : Bytes)
    (hd : d ≠ []) {db : Db} {f' : File} (h : openDb E flags getKey ctx (crashedFile d []) = .ok db f') :
    BlockOf d db.header.position ∧ IntactHeader E d db.header.position db.header ∧
    LastOf (fun Q => ∃ x, IntactHeader E d Q x) d db.header.position ∧ f'.disk = d ∧ f'.log = [] := by
  obtain ⟨rfl, h1, h2, P, h3, h4, h5, h7, h8⟩ :=
    (openDb_cases (openBody_any E flags getKey ctx (crashedFile d []) hd)).1 db f' h
  have := h5.position
  rw [this]
  exact ⟨⟨h3, h4⟩, h5, fun Q hQ hlt hx => hx.elim fun x hx => h8 rfl Q x hQ.1 hlt hQ.2 hx, h1, h2⟩

/-- **C23, recovery mode finds the newest intact header**, whatever the blocks after it hold: data,
garbage, or headers that are damaged anywhere.  (Only a header with a correct checksum but of a version
the library does not know stops the search.) -/
theorem C23_recovery_finds_newest_intact (E : Env) (flags : OpenFlags) (getKey : KeyGetter) (ctx d : Bytes)
    (hrec : flags.recovery = true) (hs : FlagsSane flags) {P : Nat} {h : Header} (hb : BlockOf d P)
    (hi : IntactHeader E d P h) (hl : LastOf (fun Q => ∃ x, IntactHeader E d Q x) d P)
    (hf : LastOf (ForeignHeader E d) d P) (hu : Usable flags h) :
    ∃ db, openDb E flags getKey ctx (crashedFile d []) = .ok db db.file ∧ db.header = h := by
  have hd : d ≠ [] := by rintro rfl; have := hb.2; simp at this
  rcases (openDb_cases (openBody_any E flags getKey ctx (crashedFile d []) hd)).2 hs with
    ⟨db, h1, _, _, P', h3, h4, h5, h7, h8⟩ | ⟨e, db, h1, _, _, h2, _, _⟩
  · refine ⟨db, h1, ?_⟩
    have hP : P' = P := by
      rcases Nat.lt_trichotomy P P' with hlt | rfl | hgt
      · exact absurd ⟨_, h5⟩ (hl P' ⟨h3, h4⟩ hlt)
      · rfl
      · exact absurd hi (h8 rfl P h hb.1 hgt hb.2)
    subst hP
    exact h5.unique hi
  · rcases h2 rfl P h hb.1 hb.2 hi with ⟨k1, k2⟩ | k | ⟨Q, k1, k2, k3, k4⟩
    · exact absurd (hu.1 k2) k1
    · rw [hu.2] at k; cases k
    · rw [if_pos hrec] at k4
      rcases k4 with k4 | k4
      · exact absurd k4 (hf Q ⟨k1, k3⟩ k2)
      · exact absurd k4 (hl Q ⟨k1, k3⟩ k2)

/-- **C23, no header.**  A non-empty file all of whose blocks hold data is reported as having no
header. -/
theorem C23_no_header (E : Env) (flags : OpenFlags) (getKey : KeyGetter) (ctx d : Bytes)
    (hs : FlagsSane flags) (hd : d ≠ []) (hn : ∀ Q, BlockOf d Q → ¬ NotData d Q) :
    ∃ f', openDb E flags getKey ctx (crashedFile d []) = .error .noHeader f' ∧ f'.disk = d := by
  rcases (openDb_cases (openBody_any E flags getKey ctx (crashedFile d []) hd)).2 hs with
    ⟨db, h1, _, _, P', h3, h4, h5, _⟩ | ⟨e, db, h1, h2, _, _, h3, _⟩
  · exact absurd h5 ((not_notData.mp (hn P' ⟨h3, h4⟩)).not_intact _)
  · have := h3 rfl (fun Q q1 q2 => not_notData.mp (hn Q ⟨q1, q2⟩))
    subst this
    exact ⟨_, h1, h2⟩

/-! ### A file with two headers, the second of which gets damaged -/

/-- A new file without encryption, -/
def odb0 : Db := openedDb Env.toy sampleFlags none (crashedFile [] [])
/-- after a commit. -/
def odb1 : Db := after (commit Env.toy 1000 (fun _ => false)) odb0

/-- One byte of the newest header is changed. -/
def damaged : Bytes := odb1.file.disk.set (odb1.header.position + 12) 255
/-- Flags for recovery mode. -/
def recoveryFlags : OpenFlags := { sampleFlags with recovery := true }

theorem odb_facts :
    odb0.header.position = 0 ∧ odb1.header.position = blockSize ∧
    (odb1.file.disk ≠ [] ∧ odb1.file.disk.length < 3 * blockSize ∧ odb1.file.disk[2 * blockSize]? ≠ some btHeader ∧
      isOk (openBody Env.toy sampleFlags none [7, 7] (newHandle sampleFlags (crashedFile odb1.file.disk []))) = true ∧
      (openedDb Env.toy sampleFlags none (crashedFile odb1.file.disk [])).header.haveMeta = false ∧
      (openedDb Env.toy sampleFlags none (crashedFile odb1.file.disk [])).header.position = blockSize) ∧
    (damaged ≠ [] ∧ damaged.length < 2 * blockSize ∧ blockSize + 2 ≤ damaged.length ∧ damaged[blockSize]? = some btHeader ∧
      isOk (openBody Env.toy recoveryFlags none [7, 7] (newHandle recoveryFlags (crashedFile damaged []))) = true ∧
      (openedDb Env.toy recoveryFlags none (crashedFile damaged [])).header.haveMeta = false ∧
      (openedDb Env.toy recoveryFlags none (crashedFile damaged [])).header.position = 0 ∧
      isOk (preadHeader Env.toy blockSize maxDbHeaderSize (crashedFile damaged [])) = false) := by
  decide +kernel

theorem newest_open : ∃ db, openDb Env.toy sampleFlags none [7, 7] (crashedFile odb1.file.disk []) = .ok db db.file ∧
    db.header.position = blockSize ∧ db.header.haveMeta = false := by
  obtain ⟨_, _, ⟨_, _, _, h1, h2, h3⟩, _⟩ := odb_facts
  exact ⟨_, openDb_opened rfl h1, h3, h2⟩

theorem damaged_open : ∃ db, openDb Env.toy recoveryFlags none [7, 7] (crashedFile damaged []) = .ok db db.file ∧
    db.header.position = 0 ∧ db.header.haveMeta = false := by
  obtain ⟨_, _, _, _, _, _, _, h1, h2, h3, _⟩ := odb_facts
  exact ⟨_, openDb_opened rfl h1, h3, h2⟩

attribute [irreducible] odb0 odb1 damaged

theorem damaged_body (b : Bytes) : ¬ StoredBody Env.toy maxDbHeaderSize damaged blockSize b := by
  obtain ⟨_, _, _, _, _, _, _, _, _, _, h⟩ := odb_facts
  have hs := preadHeader_any Env.toy blockSize maxDbHeaderSize (crashedFile damaged []) (by decide) (by decide) rfl
  unfold Sp at hs
  cases hp : preadHeader Env.toy blockSize maxDbHeaderSize (crashedFile damaged []) with
  | ok b f => rw [hp] at h; cases h
  | error e f =>
    rw [hp] at hs
    exact hs.2.2 rfl b

theorem damaged_block {Q : Nat} (h : BlockOf damaged Q) (h0 : 0 < Q) : Q = blockSize := by
  have hl := odb_facts.2.2.2.2.1
  obtain ⟨h1, h2⟩ := h
  generalize damaged.length = n at hl h2
  unfold blockSize at *
  omega

-- `C23_open_selects_last_header`, `C23_open_finds_last_header`: the undamaged file
example : ∃ db, openDb Env.toy sampleFlags none [7, 7] (crashedFile odb1.file.disk []) = .ok db db.file ∧
    IntactHeader Env.toy odb1.file.disk blockSize db.header ∧ LastOf (NotData odb1.file.disk) odb1.file.disk blockSize ∧
    ∃ db', openDb Env.toy sampleFlags none [] (crashedFile odb1.file.disk []) = .ok db' db'.file ∧ db'.header = db.header := by
  obtain ⟨db, h1, h2, h3⟩ := newest_open
  obtain ⟨k1, k2, k3, _⟩ := C23_open_selects_last_header _ _ _ _ _ [] odb_facts.2.2.1.1 rfl (by simp) h1
  rw [h2] at k1 k2 k3
  exact ⟨db, h1, k2, k3, C23_open_finds_last_header _ _ _ _ _ rfl ⟨by simp [sampleFlags], by simp [sampleFlags]⟩ k1 k2 k3
    ⟨by simp [sampleFlags], h3⟩⟩

-- `C23_damaged_header_reported`: the second header is damaged
example : ∃ e f', openDb Env.toy sampleFlags none [] (crashedFile damaged []) = .error e f' ∧ e ≠ .noHeader := by
  obtain ⟨_, _, _, _, _, hl, hm, _⟩ := odb_facts
  obtain ⟨e, f', h1, h2, _⟩ := (C23_damaged_header_reported Env.toy sampleFlags none [] damaged [] rfl (by simp)
    (P := blockSize) ⟨rfl, hl⟩
    ⟨by rw [hm]; decide, by rw [hm]; decide⟩ (fun h hi => damaged_body _ hi.body)
    (fun Q hQ hlt => by
      have := damaged_block hQ (by omega)
      omega)).2 ⟨by simp [sampleFlags], by simp [sampleFlags]⟩ rfl (by decide)
  exact ⟨e, f', h1, h2⟩

-- `C23_recovery_selects_newest_intact`, `C23_recovery_finds_newest_intact`: recovery takes the first header
example : ∃ db, openDb Env.toy recoveryFlags none [7, 7] (crashedFile damaged []) = .ok db db.file ∧
    IntactHeader Env.toy damaged 0 db.header ∧
    ∃ db', openDb Env.toy recoveryFlags none [] (crashedFile damaged []) = .ok db' db'.file ∧ db'.header = db.header := by
  obtain ⟨db, h1, h2, h3⟩ := damaged_open
  obtain ⟨k1, k2, k3, _⟩ := C23_recovery_selects_newest_intact _ _ _ _ _ odb_facts.2.2.2.1 h1
  rw [h2] at k1 k2 k3
  refine ⟨db, h1, k2, C23_recovery_finds_newest_intact _ _ _ _ _ rfl
    ⟨by simp [recoveryFlags, sampleFlags], by simp [recoveryFlags, sampleFlags]⟩ k1 k2 k3 ?_
    ⟨by simp [recoveryFlags, sampleFlags], h3⟩⟩
  rintro Q hQ hlt ⟨_, b, hb, _⟩
  cases damaged_block hQ hlt
  exact damaged_body b hb

-- `C23_no_header`: a file of zeros
example : ∃ f', openDb Env.toy sampleFlags none [] (crashedFile (List.replicate 5000 0) []) = .error .noHeader f' := by
  obtain ⟨f', h, _⟩ := C23_no_header Env.toy sampleFlags none [] (List.replicate 5000 0)
    ⟨by simp [sampleFlags], by simp [sampleFlags]⟩ (by
      intro h
      have := congrArg List.length h
      rw [List.length_replicate] at this
      cases this) (fun Q hQ => by
      rw [not_notData]
      left
      have := hQ.2
      rw [List.length_replicate] at this
      rw [List.getElem?_replicate, if_pos (by omega)]
      rfl)
  exact ⟨f', h⟩

end Couchstore.Props
