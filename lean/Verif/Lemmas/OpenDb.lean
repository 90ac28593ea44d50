import Verif.Lemmas.Commit

/-! Helper lemmas about opening an existing file. -/

namespace Couchstore

theorem gotoEof_spec (f : File) :
    Sp gotoEof f (fun n g => n = f.disk.length ∧ RFrame f g) (fun _ g => RFrame f g ∧ f.faults ≠ []) := by
  unfold gotoEof
  apply Sp.bind' (popFault_spec f)
  · rintro x g ⟨⟨fs, rfl, hs⟩, hx, hl⟩
    cases x with
    | none => exact ⟨rfl, hs, rfl⟩
    | short k => exact ⟨rfl, hs, rfl⟩
    | err e => exact ⟨⟨hs, rfl⟩, hx (by simp)⟩
  · intro _ _ h; exact h.elim

theorem parseShortString_enc (s rest : Bytes) (h : s.length ≤ 255) :
    parseShortString (enc8 s.length ++ s ++ rest) = some (s, rest) := by
  have hn : (UInt8.ofNat s.length).toNat = s.length := by
    rw [UInt8.toNat_ofNat']; omega
  rw [show enc8 s.length = [UInt8.ofNat s.length] by simp [beEnc]]
  unfold parseShortString
  simp only [List.cons_append, List.nil_append, hn]
  rw [if_neg (by simp), List.take_left' rfl, List.drop_left' rfl]

theorem readMetadataHeader_spec (E : Env) {getKey : KeyGetter} (f : File) {k : Nat} {v : UInt8} {id ctx : Bytes}
    {q : Nat} (H : MetaAt E getKey f.disk k v id ctx q) (h0 : f.disk[0]? = some btMeta)
    (hc : f.cfg.crcMode = .crc32c) :
    Sp (readMetadataHeader E) f (fun r g => r = (v.toNat, id, ctx) ∧ RFrame f g)
      (fun _ g => RFrame f g ∧ f.faults ≠ []) := by
  unfold readMetadataHeader
  apply Sp.bind' (pread_spec 0 1 f)
  · rintro got g ⟨hr, k', hk, rfl, hf⟩
    by_cases hk0 : k' = 0
    · subst hk0
      have : slice f.disk 0 0 = [] := by simp [slice]
      rw [this]
      exact ⟨hr, hf (by omega)⟩
    · have : k' = 1 := by omega
      subst this
      rw [slice_one h0]
      dsimp only
      rw [if_neg (by simp)]
      have hi := H.idLen
      have hx := H.ctxLen
      have hl : (metaBody v id ctx).length + 4 ≤ blockSize := by
        unfold metaBody blockSize
        simp
        omega
      apply Sp.bind' (preadHeader_spec' E 0 q blockSize (metaBody v id ctx) g .crc32c (by simp)
        (Or.inl (by rw [hr.cfg]; exact hc)) hl (by unfold blockSize at hl; omega) (by rw [hr.disk]; exact H.stored))
      · rintro b g2 ⟨rfl, hr2⟩
        unfold metaBody
        dsimp only
        rw [if_neg (by have := H.ver; omega), parseShortString_enc id _ hi]
        dsimp only
        have := parseShortString_enc ctx [] hx
        rw [List.append_nil] at this
        rw [this]
        exact ⟨rfl, hr.trans hr2⟩
      · rintro e g2 ⟨h1, h2⟩
        exact ⟨hr.trans h1, hr.faults_ne h2⟩
  · rintro e g h; exact h

theorem readKey_spec (E : Env) {getKey : KeyGetter} (db : Db) {k : Nat} {v : UInt8} {id ctx : Bytes}
    {q : Nat} (H : MetaAt E getKey db.file.disk k v id ctx q) (h0 : db.file.disk[0]? = some btMeta)
    (hc : db.file.cfg.crcMode = .crc32c) (hn : db.file.cfg.cipher = none) (hv : 14 ≤ db.header.diskVersion)
    (hm : db.header.haveMeta = true) :
    Sp (readAndSetEncryptionKey E getKey) db
      (fun _ db' => ∃ fs, fs <:+ db.file.faults ∧
        db' = { db with file := { db.file with faults := fs, cfg := { db.file.cfg with cipher := some k } } })
      (fun _ db' => DbR db db' ∧ db.file.faults ≠ []) := by
  unfold readAndSetEncryptionKey
  apply Sp.get_bind
  rw [if_neg (by simp [hn]), if_neg (by omega), if_neg (by simp [hm])]
  have hmeta : Sp (metadataOrNoKey E) db (fun r db' => r = (v.toNat, id, ctx) ∧ DbR db db')
      (fun _ db' => DbR db db' ∧ db.file.faults ≠ []) := by
    have hs := liftF_spec (db := db) (readMetadataHeader_spec E db.file H h0 hc)
    unfold metadataOrNoKey Sp at *
    dsimp only
    cases hp : liftF (readMetadataHeader E) db with
    | ok b db' =>
      rw [hp] at hs
      exact ⟨hs.2.1, hs.2.2, hs.1⟩
    | error e db' =>
      rw [hp] at hs
      exact ⟨⟨hs.2.1, hs.1⟩, hs.2.2⟩
  apply Sp.bind' hmeta
  · rintro ⟨v', id', ctx'⟩ db1 ⟨heq, hr⟩
    cases heq
    dsimp only
    rw [if_neg H.idNe]
    obtain ⟨f, kdk, h1, h2, h3, h4⟩ := H.key
    rw [h1]
    dsimp only
    rw [h2]
    dsimp only
    rw [if_neg (by simp [h3]), h4]
    refine ⟨db1.file.faults, hr.1.1, ?_⟩
    show ({ db1 with file := { db1.file with cfg := { db1.file.cfg with cipher := some k } } } : Db) = _
    rw [hr.2]
    dsimp only
    rw [hr.1.2]
  · rintro e db' h; exact h

/-- The settings of a file opened with some flags. -/
def openCfg (cfg : Cfg) (flags : OpenFlags) : Cfg := ⟨cfg.crcMode, cfg.cipher, flags.kvThr, flags.kpThr⟩

/-- The result of opening an existing file. -/
structure Opened (E : Env) (cfg : Cfg) (flags : OpenFlags) (commits : List Commit) (f : File) (db' : Db)
    (P : Nat) (h : Header) (q : Nat) (c : Commit) : Prop where
  aligned : P % blockSize = 0
  marked : f.disk[P]? = some btHeader
  found : commits.find? (fun c => c.pos = P) = some c
  snap : Snap E cfg f.disk P h q c
  newest : f.faults = [] → ∀ P', P' % blockSize = 0 → P < P' → f.disk[P']? ≠ some btHeader
  faults : db'.file.faults <:+ f.faults
  eq : db' = { file := { f with pos := f.disk.length, cfg := openCfg cfg flags, faults := db'.file.faults }
               header := h, dropped := false, readOnly := flags.rdonly }

theorem Safe.blocks {E : Env} {getKey : KeyGetter} {cfg : Cfg} {d : Bytes} {commits done : List Commit} {pos : Nat}
    (S : Safe E getKey cfg d [] commits done pos) :
    Blocks E cfg.crcMode d (fun P h q => ∃ c, commits.find? (fun c => c.pos = P) = some c ∧
      Snap E cfg d P h q c ∧ q ≤ pos ∧ q ≤ d.length) := by
  intro P hP hl
  have hx : d[P]? = some d[P] := List.getElem?_eq_getElem hl
  rcases S.types P hP _ (Or.inl hx) with h | h | h
  · left; rw [hx, h]
  · right; left; rw [hx, h]
  · right; right
    rw [h] at hx
    refine ⟨hx, ?_⟩
    obtain ⟨c, h, q, h1, h2, h3, h4, h5⟩ := S.headers P hP (Or.inl hx)
    exact ⟨h, q, h2.hdr, h2.crc, c, h1, h2, h3, h5⟩

theorem headerAt_len {E : Env} {d : Bytes} {P : Nat} {h : Header} {q : Nat} (H : HeaderAt E d P h q) : P + 9 ≤ q := by
  have := H.stored.le
  simp [headerChunk] at this
  omega

theorem openBody_spec (E : Env) (flags : OpenFlags) (getKey : KeyGetter) (ctx : Bytes) {cfg : Cfg}
    {commits done : List Commit} {pos : Nat} (f : File) (hpos : 0 < f.disk.length)
    (S : Safe E getKey cfg f.disk [] commits done pos) :
    Sp (openBody E flags getKey ctx) (newHandle flags f)
      (fun _ db' => ∃ P h q c, Opened E cfg flags commits f db' P h q c)
      (fun e db' => db'.file.disk = f.disk ∧ db'.file.log = f.log ∧
        (f.faults = [] → flags.legacyCrc = true ∧ cfg.crcMode = .crc32c ∨
          ∀ P, P % blockSize = 0 → f.disk[P]? ≠ some btHeader)) := by
  unfold openBody
  apply Sp.bind' (liftF_spec (db := newHandle flags f) (gotoEof_spec _))
  · rintro n db1 ⟨h1, rfl, hr⟩
    have hf1 : db1.file = { f with pos := 0, cfg := ⟨.unknown, none, flags.kvThr, flags.kpThr⟩
                                   faults := db1.file.faults } := hr.2
    generalize hfs : db1.file.faults = fs1 at hf1
    have hsuf1 : fs1 <:+ f.faults := by rw [← hfs]; exact hr.1
    have h1' : db1 = { newHandle flags f with file := { f with
        pos := 0, cfg := ⟨.unknown, none, flags.kvThr, flags.kpThr⟩, faults := fs1 } } := by
      rw [h1, hf1]
    clear h1 hr hfs hf1
    subst h1'
    show Sp (liftF (setPos f.disk.length) >>= _) _ _ _
    have hset : liftF (setPos f.disk.length) { newHandle flags f with file := { f with
        pos := 0, cfg := ⟨.unknown, none, flags.kvThr, flags.kpThr⟩, faults := fs1 } } =
        .ok () { newHandle flags f with file := { f with
        pos := f.disk.length, cfg := ⟨.unknown, none, flags.kvThr, flags.kpThr⟩, faults := fs1 } } := rfl
    have hgoal : ∀ {α : Type} {m : DbM α} {k : α → DbM Unit} {s s' : Db} {a : α} {Q R}, m s = .ok a s' → Sp (k a) s' Q R →
        Sp (m >>= k) s Q R := by
      intro α m k s s' a Q R h1 h2
      unfold Sp
      rw [bind_ok h1]
      exact h2
    refine hgoal hset ?_
    dsimp only
    have hlen : (newHandle flags f).file.disk.length = f.disk.length := rfl
    rw [hlen, if_neg (by omega)]
    have hnone : f.disk.length < 2 → ∀ P, P % blockSize = 0 → f.disk[P]? ≠ some btHeader := by
      intro hl P hP hx
      obtain ⟨c, h, q, _, h2, _, _, h5⟩ := S.headers P hP (Or.inl hx)
      have := headerAt_len h2.hdr
      have : q ≤ f.disk.length := h5
      omega
    have hfind : Sp (findHeaderBefore E f.disk.length flags.recovery) ({ newHandle flags f with file := { f with
        pos := f.disk.length, cfg := ⟨.unknown, none, flags.kvThr, flags.kpThr⟩, faults := fs1 } })
        (fun _ db' => ∃ P h q c fs, P % blockSize = 0 ∧ f.disk[P]? = some btHeader ∧
          commits.find? (fun c => c.pos = P) = some c ∧ Snap E cfg f.disk P h q c ∧ fs <:+ f.faults ∧
          (f.faults = [] → ∀ P', P' % blockSize = 0 → P < P' → f.disk[P']? ≠ some btHeader) ∧
          db' = { newHandle flags f with header := h, file := { f with
            pos := f.disk.length, cfg := ⟨.unknown, none, flags.kvThr, flags.kpThr⟩, faults := fs } })
        (fun e db' => db'.file.disk = f.disk ∧ db'.file.log = f.log ∧
          (f.faults = [] → ∀ P, P % blockSize = 0 → f.disk[P]? ≠ some btHeader)) := by
      unfold findHeaderBefore
      split
      · rename_i hlt
        exact ⟨rfl, rfl, fun _ => hnone hlt⟩
      · rename_i hlt
        unfold findHeader
        have hup : ∀ P, P % blockSize = 0 → f.disk[P]? = some btHeader →
            P ≤ (f.disk.length - 2) / blockSize * blockSize := by
          intro P hP hx
          obtain ⟨c, h, q, _, h2, _, _, h5⟩ := S.headers P hP (Or.inl hx)
          have := headerAt_len h2.hdr
          have : q ≤ f.disk.length := h5
          unfold blockSize at *
          omega
        refine (findHeaderLoop_blocks E flags.recovery ((f.disk.length - 2) / blockSize) .noHeader
          ({ newHandle flags f with file := { f with
            pos := f.disk.length, cfg := ⟨.unknown, none, flags.kvThr, flags.kpThr⟩, faults := fs1 } })
          S.blocks (Or.inr rfl) (by
            show _ < f.disk.length
            unfold blockSize; omega)).mono ?_ ?_
        · rintro _ db' ⟨P, h, q, h1, h2, h3, h4, h5, ⟨c, h6, h7, h8, h9⟩, h10, h11, h12⟩
          refine ⟨P, h, q, c, db'.file.faults, h1, h3, h6, h7, h10.1.trans hsuf1, ?_, ?_⟩
          · intro hf P' hP' hPP hx
            exact h12 (by
              show fs1 = []
              exact List.suffix_nil.mp (hf ▸ hsuf1)) P' hP' hPP (hup P' hP' hx) hx
          · rw [h11]
            dsimp only
            rw [h10.2]
        · rintro e db' ⟨h1, h2⟩
          refine ⟨h1.1.disk, h1.1.log, fun hf P hP hx => ?_⟩
          exact (h2 (by
              show fs1 = []
              exact List.suffix_nil.mp (hf ▸ hsuf1))).2 P hP (hup P hP hx) hx
    apply Sp.bind' hfind
    · rintro _ db2 ⟨P, h, q, c, fs, h1, h2, h3, h4, h5, h6, rfl⟩
      apply Sp.get_bind
      have hmode : (if h.diskVersion ≤ 11 then CrcMode.crc32 else .crc32c) = cfg.crcMode := h4.crc
      refine hgoal (a := ()) (s' := { newHandle flags f with header := h, file := { f with
            pos := f.disk.length, cfg := ⟨cfg.crcMode, none, flags.kvThr, flags.kpThr⟩, faults := fs } }) ?_ ?_
      · show EStateM.Result.ok () ({ newHandle flags f with header := h, file := { f with
            pos := f.disk.length, cfg := ⟨if h.diskVersion ≤ 11 then CrcMode.crc32 else .crc32c, none,
              flags.kvThr, flags.kpThr⟩, faults := fs } } : Db) = _
        rw [hmode]
      · apply Sp.get_bind
        dsimp only
        by_cases hl : cfg.crcMode = .crc32c ∧ flags.legacyCrc = true
        · rw [if_pos hl]
          exact ⟨rfl, rfl, fun _ => Or.inl ⟨hl.2, hl.1⟩⟩
        · rw [if_neg hl]
          apply Sp.get_bind
          dsimp only
          by_cases hm : h.haveMeta = true
          · rw [if_pos ⟨hm, rfl⟩]
            have hcs : cfg.cipher.isSome = true := by rw [← h4.isMeta]; exact hm
            obtain ⟨k, hk⟩ := Option.isSome_iff_exists.mp hcs
            obtain ⟨v, id, cx, q', m1, m2, m3, m4, m5, m6, m7⟩ := S.isMeta k hk
            have hv14 : h.diskVersion = 14 := by
              rcases h4.hdr.ver with hv | hv | hv | hv
              · exfalso
                have := h4.hdr.self
                have h0 : (diskHeader h P).haveMeta = false := by
                  show (if 14 ≤ h.diskVersion then h.haveMeta else false) = false
                  rw [if_neg (by omega)]
                rw [this, hm] at h0; cases h0
              · exfalso
                have := h4.hdr.self
                have h0 : (diskHeader h P).haveMeta = false := by
                  show (if 14 ≤ h.diskVersion then h.haveMeta else false) = false
                  rw [if_neg (by omega)]
                rw [this, hm] at h0; cases h0
              · exfalso
                have := h4.hdr.self
                have h0 : (diskHeader h P).haveMeta = false := by
                  show (if 14 ≤ h.diskVersion then h.haveMeta else false) = false
                  rw [if_neg (by omega)]
                rw [this, hm] at h0; cases h0
              · exact hv
            refine (readKey_spec E (getKey := getKey) ({ newHandle flags f with header := h, file := { f with
              pos := f.disk.length, cfg := ⟨cfg.crcMode, none, flags.kvThr, flags.kpThr⟩, faults := fs } }) m1 m3 ?_ rfl
              (by show 14 ≤ h.diskVersion; omega) hm).mono ?_ ?_
            · show cfg.crcMode = .crc32c
              rw [← h4.crc, hv14]; rfl
            · rintro _ db' ⟨fs', hsf, hdb⟩
              refine ⟨P, h, q, c, h1, h2, h3, h4, h6, ?_, ?_⟩
              · rw [hdb]; exact hsf.trans h5
              · rw [hdb]
                unfold openCfg
                rw [hk]
                rfl
            · rintro e db' ⟨h7, h8⟩
              refine ⟨h7.1.disk, h7.1.log, fun hf => absurd ?_ h8⟩
              show fs = []
              exact List.suffix_nil.mp (hf ▸ h5)
          · rw [if_neg (fun hx => hm hx.1)]
            have hcs : cfg.cipher = none := by
              rw [← Option.isNone_iff_eq_none]
              have := h4.isMeta
              cases hc : cfg.cipher with
              | none => rfl
              | some k => rw [hc] at this; exact absurd this hm
            refine ⟨P, h, q, c, h1, h2, h3, h4, h6, h5, ?_⟩
            unfold openCfg
            rw [hcs]
            rfl
    · rintro e db2 ⟨h1, h2, h3⟩
      exact ⟨h1, h2, fun hf => Or.inr (h3 hf)⟩
  · rintro e db1 ⟨h1, hr, hf⟩
    exact ⟨hr.disk, hr.log, fun h => absurd h hf⟩

end Couchstore
