import Verif.Lemmas.OpenDb

/-! Helper lemmas about creating a file. -/

namespace Couchstore

theorem stored_end {d : Bytes} : ∀ {bs : Bytes} {p q : Nat}, Stored d p bs q → p % blockSize ≠ 0 →
    p % blockSize + bs.length ≤ blockSize → q = p + bs.length
  | [], p, q, h, _, _ => by simp [Stored] at h; simp [h]
  | b :: bs, p, q, h, hp, hl => by
    have hs : skipP p = p := by unfold skipP; rw [if_neg hp]
    have h2 := h.2
    rw [hs] at h2
    simp only [List.length_cons] at hl
    cases bs with
    | nil => simp [Stored] at h2; simp [h2]
    | cons b' bs =>
      have hm : (p + 1) % blockSize = p % blockSize + 1 := by
        simp only [List.length_cons] at hl
        unfold blockSize at *
        omega
      have := stored_end h2 (by omega) (by omega)
      simp only [List.length_cons] at this ⊢
      omega

theorem createMetadataHeader_spec (E : Env) (getKey : KeyGetter) (ctx : Bytes) (db : Db) (w : db.file.WF)
    (hd : db.file.disk = []) (hp : db.file.pos = 0) (hl : db.file.log = [])
    (hst : ∀ f, getKey = some f → ∀ k, f [] = some k → f k.id = some k)
    (hcrc : ∀ f k, getKey = some f → f [] = some k → db.file.cfg.crcMode = .crc32c) :
    Sp (createMetadataHeader E getKey ctx) db
      (fun _ db' => db' = { db with header := { db.header with haveMeta := false } } ∨
        ∃ k v id q, db' = { db with file := db'.file, header := { db.header with haveMeta := true } } ∧
          db'.file.cfg = { db.file.cfg with cipher := some k } ∧ db.file.cfg.crcMode = .crc32c ∧
          0 < q ∧ q ≤ 4096 ∧ db'.file.pos = q ∧
          db'.file.WF ∧ MetaAt E getKey db'.file.disk k v id ctx q ∧ db'.file.disk[0]? = some btMeta ∧
          db'.file.disk.length ≤ q ∧ db'.file.disk = replay [] db'.file.log)
      (fun _ _ => True) := by
  unfold createMetadataHeader
  have hgoal : ∀ {α β : Type} {m : DbM α} {k : α → DbM β} {s s' : Db} {a : α} {Q R}, m s = .ok a s' → Sp (k a) s' Q R →
      Sp (m >>= k) s Q R := by
    intro α β m k s s' a Q R h1 h2
    unfold Sp
    rw [bind_ok h1]
    exact h2
  refine hgoal (setHeader_eq _ db) ?_
  cases hk : getKey with
  | none => exact Or.inl rfl
  | some f =>
    dsimp only
    cases hfk : f [] with
    | none => exact Or.inl rfl
    | some key =>
      dsimp only
      split
      · trivial
      · rename_i hid
        split
        · trivial
        · split
          · trivial
          · rename_i k hkk
            have hc := hcrc f key hk hfk
            refine hgoal (a := ()) (s' := { db with header := { db.header with haveMeta := false }, file :=
              { db.file with cfg := { db.file.cfg with cipher := some k } } }) rfl ?_
            dsimp only
            split
            · trivial
            · rename_i hctx
              refine hgoal (setHeader_eq _ _) ?_
              generalize hv : (if key.method = KdMethod.noDerivation then (0 : UInt8) else 1) = v
              have hvt : v.toNat = if key.method = KdMethod.noDerivation then 0 else 1 := by
                rw [← hv]; split <;> rfl
              have wf : File.WF { db.file with cfg := { db.file.cfg with cipher := some k } } :=
                ⟨w.pos_le, w.crc⟩
              have hsp := (writeHeader_spec E btMeta (metaBody v key.id ctx) _ wf).and
                (writeHeader_len E btMeta (metaBody v key.id ctx) _)
              refine Sp.bind' (liftF_spec (db := { db with header := { db.header with haveMeta := true }, file :=
                { db.file with cfg := { db.file.cfg with cipher := some k } } }) hsp) ?_ (fun _ _ _ => trivial)
              rintro P db1 ⟨h1, ⟨h2, h3, h4, h5, h6, h7, _⟩, h8⟩
              have hP : P = 0 := by
                rw [h2]
                show alignToNextBlock db.file.pos = 0
                rw [hp]; rfl
              subst hP
              dsimp only at h3 h7
              rw [hc] at h7
              have hidl : key.id.length ≤ 255 := by
                have := not_or.mp hid; omega
              have hmb : (metaBody v key.id ctx).length = 3 + key.id.length + ctx.length := by
                unfold metaBody
                simp
                omega
              have hq := stored_end h7 (by decide) (by
                simp only [headerChunk, List.length_append, hmb]
                show 0 + 1 + _ ≤ 4096
                simp only [length_beEnc]
                omega)
              simp only [headerChunk, List.length_append, hmb, length_beEnc] at hq
              obtain ⟨evs, e1, e2, e3⟩ := h3.log
              refine Or.inr ⟨k, v, key.id, db1.file.pos, ?_, ?_, hc, by omega, by omega, rfl, h5, ?_, h6, ?_, ?_⟩
              · exact h1
              · rw [h3.cfg]
              · refine ⟨h7, ?_, ?_, hidl, by omega, f, key, rfl, hst f hk key hfk, rfl, ?_⟩
                · rw [hvt]; split <;> omega
                · exact fun h => hid (Or.inl h)
                · rw [hvt]
                  by_cases hm : key.method = KdMethod.noDerivation
                  · rw [if_pos hm] at hkk
                    rw [if_pos hm, if_pos rfl]; exact hkk
                  · rw [if_neg hm] at hkk
                    rw [if_neg hm, if_neg (by simp)]; exact hkk
              · have : db.file.disk.length = 0 := by rw [hd]; rfl
                dsimp only at h8
                omega
              · dsimp only at e1 e3
                rw [e3, e1, hl, hd, List.append_nil]

/-- The header of an empty database. -/
theorem headerAt_empty {E : Env} {d : Bytes} {h : Header} {P q : Nat} {m : CrcMode} (hv : goodVersion h.diskVersion)
    (hi : h.byIdRoot = none) (hs : h.bySeqRoot = none) (hl : h.localRoot = none) (hpp : h.purgePtr = 0)
    (hf : headerFits h = true) (hP : P % blockSize = 0) (hq : P < q) (hm : crcOf h.diskVersion = m)
    (hst : Stored d (P + 1) (headerChunk E m (encodeHeader h)) q) :
    HeaderAt E d P (diskHeader h P) q ∧ q ≤ P + 4096 := by
  obtain ⟨size, hsz⟩ : ∃ size, headerFixedSize h.diskVersion = some size := by
    rcases hv with hv | hv | hv | hv <;> rw [hv] <;> exact ⟨_, rfl⟩
  have hlt : size ≤ 39 := by
    rcases hv with hv | hv | hv | hv <;> rw [hv] at hsz <;> cases hsz <;> omega
  have hlen := length_encodeHeader h hv size hsz
  rw [hi, hs, hl] at hlen
  simp only [encodeRoot, List.length_nil] at hlen
  refine ⟨⟨hP, hq, hv, headerFits_disk P hf, ?_, ?_, ?_, ?_, ?_, diskHeader_idem h P, ?_⟩, ?_⟩
  · rw [encodeHeader_disk]
    unfold maxDbHeaderSize
    omega
  · exact hpp
  · show rootPtrLt (diskRoot h.byIdRoot) P; rw [hi]; intro p hp; cases hp
  · show rootPtrLt (diskRoot h.bySeqRoot) P; rw [hs]; intro p hp; cases hp
  · show rootPtrLt (diskRoot h.localRoot) P; rw [hl]; intro p hp; cases hp
  · rw [encodeHeader_disk]
    show Stored d (P + 1) (headerChunk E (crcOf h.diskVersion) _) q
    rw [hm]; exact hst
  · have := stored_end hst (by unfold blockSize at *; omega) (by
      simp only [headerChunk, List.length_append, length_beEnc]
      unfold blockSize at *
      omega)
    simp only [headerChunk, List.length_append, length_beEnc] at this
    omega

/-- A newly created database. -/
structure Created (E : Env) (getKey : KeyGetter) (noCommit : Bool) (db' : Db) : Prop where
  handle : Handle E db' [] [] []
  safe : Safe E getKey db'.file.cfg db'.file.disk [] (Sys.created db' noCommit).commits
    (Sys.created db' noCommit).commits db'.file.pos
  replay : db'.file.disk = replay [] db'.file.log
  nav : db'.header.position % blockSize = 0 ∧ db'.header.position < db'.file.pos ∧
    (14 ≤ db'.header.diskVersion → db'.header.prevHeaderPos = noPrevHeaderPos)

theorem Fresh.inv {E : Env} {db : Db} (h : Fresh db) : Inv E db [] [] [] := by
  refine ⟨h.wf, h.pos, h.thr, ?_, ?_, ?_, List.Pairwise.nil, List.Pairwise.nil,
    List.Pairwise.nil, List.Perm.nil, by simp, by simp, h.empty.2.2.2, by simp, by simp⟩
  · rw [h.empty.1]; rfl
  · rw [h.empty.2.1]; rfl
  · rw [h.empty.2.2.1]; rfl

/-- A file before its first header is written. -/
structure Blank (E : Env) (getKey : KeyGetter) (db : Db) : Prop where
  wf : db.file.WF
  thr : 2 ≤ db.file.cfg.kvThr
  opened : db.dropped = false
  isMeta : db.header.haveMeta = db.file.cfg.cipher.isSome
  crc : db.header.haveMeta = true → db.file.cfg.crcMode = .crc32c
  replay : db.file.disk = Couchstore.replay [] db.file.log
  len : db.file.disk.length = db.file.pos
  small : db.file.pos ≤ 4096
  first : 0 < db.file.pos → db.file.disk[0]? = some btMeta
  key : ∀ k, db.file.cfg.cipher = some k → 0 < db.file.pos ∧ ∃ v id ctx q,
    MetaAt E getKey db.file.disk k v id ctx q ∧ q ≤ db.file.pos

theorem createHeader_spec (E : Env) (getKey : KeyGetter) (noCommit : Bool) (db : Db) (B : Blank E getKey db) :
    Sp (createHeader E noCommit) db
      (fun _ db' => (0 < db'.file.pos → Created E getKey noCommit db') ∧
        (db'.file.pos = 0 → noCommit = true ∧ Blank E getKey db' ∧ db'.header.isEmpty ∧ db'.header.purgePtr = 0 ∧
          goodVersion db'.header.diskVersion ∧ crcOf db'.header.diskVersion = db'.file.cfg.crcMode ∧
          db'.header.position = 0 ∧ db'.header.prevHeaderPos = noPrevHeaderPos) ∧
        (noCommit = true → db'.header.diskVersion = if db.file.cfg.crcMode = .crc32 then 11 else 14))
      (fun _ _ => True) := by
  unfold createHeader
  apply Sp.get_bind
  have hgoal : ∀ {α β : Type} {m : DbM α} {k : α → DbM β} {s s' : Db} {a : α} {Q R}, m s = .ok a s' → Sp (k a) s' Q R →
      Sp (m >>= k) s Q R := by
    intro α β m k s s' a Q R h1 h2
    unfold Sp
    rw [bind_ok h1]
    exact h2
  refine hgoal (setHeader_eq _ db) ?_
  generalize hver : (if db.file.cfg.crcMode = .crc32 then 11 else 14) = v
  have hv : goodVersion v := by
    rw [← hver]; split
    · exact Or.inl rfl
    · exact Or.inr (Or.inr (Or.inr rfl))
  have hcrc : crcOf v = db.file.cfg.crcMode := by
    rw [← hver]
    have := B.wf.crc
    cases hc : db.file.cfg.crcMode with
    | unknown => exact absurd hc this
    | crc32 => rfl
    | crc32c => rfl
  have hold : v < 14 → db.header.haveMeta = false := by
    intro h
    cases hm : db.header.haveMeta with
    | false => rfl
    | true =>
      rw [B.crc hm] at hver
      rw [← hver] at h
      simp at h
  generalize hh : ({ db.header with
    diskVersion := v
    updateSeq := 0, byIdRoot := none, bySeqRoot := none, localRoot := none
    purgeSeq := 0, purgePtr := 0, position := 0, timestamp := 0, prevHeaderPos := noPrevHeaderPos } : Header) = h1
  have B1 : Blank E getKey { db with header := h1 } := by
    refine ⟨B.wf, B.thr, B.opened, ?_, ?_, B.replay, B.len, B.small, B.first, B.key⟩
    · rw [← hh]; exact B.isMeta
    · rw [← hh]; exact B.crc
  have hemp : h1.isEmpty := by rw [← hh]; exact ⟨rfl, rfl, rfl, by show 0 < 2 ^ 48; decide⟩
  have hmeta1 : h1.haveMeta = db.header.haveMeta := by rw [← hh]
  have hv1 : h1.diskVersion = v := by rw [← hh]
  have hpp : h1.purgePtr = 0 := by rw [← hh]
  have hpos1 : h1.position = 0 := by rw [← hh]
  have hts1 : h1.timestamp = 0 := by rw [← hh]
  have hprev1 : h1.prevHeaderPos = noPrevHeaderPos := by rw [← hh]
  have hpur : h1.purgeSeq = 0 := by rw [← hh]
  clear hh
  cases noCommit with
  | true =>
    refine ⟨fun hp => ?_, fun hp => ⟨rfl, B1, hemp, hpp, by rw [hv1]; exact hv, by rw [hv1]; exact hcrc, hpos1, hprev1⟩,
      fun _ => by show h1.diskVersion = _; rw [hv1]⟩
    have hp : 0 < db.file.pos := hp
    refine ⟨⟨Fresh.inv ⟨B.wf, hp, B.thr, hemp, B.opened⟩, B.opened, by rw [hv1]; exact hv, by rw [hv1]; exact hcrc,
      hpp, B1.isMeta, ?_⟩, ?_, B.replay,
      ⟨by rw [hpos1]; rfl, by rw [hpos1]; exact hp, fun _ => hprev1⟩⟩
    · rw [hv1, hmeta1]; exact hold
    · have hlow : ∀ P, P % blockSize = 0 → ∀ x, Poss db.file.disk [] P x → x = btData ∨ x = btMeta := by
        intro P hP x hx
        rcases hx with hx | ⟨_, rfl⟩
        · have hlt := (List.getElem?_eq_some_iff.mp hx).1
          have hl := B.len
          have hs := B.small
          have : P = 0 := by unfold blockSize at hP; omega
          subst this
          rw [B.first hp] at hx
          cases hx
          exact Or.inr rfl
        · exact Or.inl rfl
      refine ⟨B.thr, B.wf.crc, ?_, ?_, by simp [Sys.created], ?_⟩
      · intro P hP x hx
        rcases hlow P hP x hx with h | h
        · exact Or.inl h
        · exact Or.inr (Or.inl h)
      · intro P hP hx
        rcases hlow P hP _ hx with h | h <;> cases h
      · intro k hk
        obtain ⟨h0, v, id, ctx, q, h1, h2⟩ := B.key k hk
        have hl := B.len
        exact ⟨v, id, ctx, q, h1, cert_nil (by show 0 < db.file.disk.length; omega), B.first h0, h2, h0,
          fun i hi _ => cert_nil (by show i < db.file.disk.length; omega), by
            show q ≤ db.file.disk.length; omega⟩
  | false =>
    refine (dbWriteHeader_spec E btHeader { db with header := h1 } B.wf (by rw [hv1]; exact hv)).mono ?_
      (fun _ _ _ => trivial)
    rintro _ db' ⟨P, hPe, h2, h3, h4, h5, h6, h7, h8, h9⟩
    have hver : verHeader h1 = { h1 with prevHeaderPos := if 14 ≤ v then noPrevHeaderPos else unknownPrevHeaderPos } := by
      unfold verHeader
      rw [hv1, hts1, hprev1]
      simp only [ite_self]
      by_cases h14 : 14 ≤ v
      · rw [if_pos h14, if_pos h14]
      · rw [if_neg h14, if_neg h14]
        have := hold (by omega)
        rw [← hmeta1] at this
        rw [this]
    have hmod : P % blockSize = 0 := by rw [hPe]; exact alignToNextBlock_mod _
    have hcfg : db'.file.cfg = db.file.cfg := h3.cfg
    have hhd : db'.header = { verHeader h1 with position := P } := by rw [h2]
    have hdrop : db'.dropped = false := by rw [h2]; exact B.opened
    have hPv : P = 0 ∧ db.file.pos = 0 ∨ P = 4096 ∧ 0 < db.file.pos := by
      have := B.small
      rw [hPe]
      show alignToNextBlock db.file.pos = 0 ∧ _ ∨ alignToNextBlock db.file.pos = _ ∧ _
      unfold alignToNextBlock blockSize
      split <;> omega
    have hemp' : db'.header.isEmpty := by
      rw [hhd]
      obtain ⟨a1, a2, a3, a4⟩ := hemp
      exact ⟨a1, a2, a3, a4⟩
    have hst := headerAt_empty (E := E) (d := db'.file.disk) (h := verHeader h1) (P := P) (q := db'.file.pos)
      (m := db.file.cfg.crcMode) (by show goodVersion h1.diskVersion; rw [hv1]; exact hv) hemp.1 hemp.2.1 hemp.2.2.1 hpp
      h8 hmod h4 (by show crcOf h1.diskVersion = _; rw [hv1]; exact hcrc) h7
    have hFresh : Fresh db' := ⟨h5, by omega, by rw [hcfg]; exact B.thr, hemp', hdrop⟩
    have hagree : ∀ i, i < db.file.pos → db'.file.disk[i]? = db.file.disk[i]? := by
      intro i hi
      refine h3.agree i ?_ (by rw [B.len]; exact hi)
      have := B.small; omega
    have hlen' : db'.file.disk.length ≤ db'.file.pos := by
      have h9 : db'.file.disk.length ≤ max db.file.disk.length db'.file.pos := h9
      have := B.len; have := B.small; omega
    have hle' := h5.pos_le
    refine ⟨fun _ => ?_, fun h => by omega, fun h => nomatch h⟩
    have hvd : db'.header.diskVersion = v := by rw [hhd]; exact hv1
    have hmd : db'.header.haveMeta = db.header.haveMeta := by rw [hhd, hver]; exact hmeta1
    refine ⟨⟨Fresh.inv hFresh, hdrop, by rw [hvd]; exact hv, by rw [hvd, hcfg]; exact hcrc, ?_, ?_, ?_⟩, ?_, ?_,
      ⟨by rw [hhd]; exact hmod, by rw [hhd]; show P < _; omega, fun h14 => by
        rw [hvd] at h14; rw [hhd, hver]; show (if 14 ≤ v then _ else _) = _; rw [if_pos h14]⟩⟩
    · rw [hhd]; exact hpp
    · rw [hmd, hcfg]; exact B.isMeta
    · rw [hvd, hmd]; exact hold
    · have hpd : db'.header.position = P := by rw [hhd]
      have hlow : ∀ P', P' % blockSize = 0 → ∀ x, Poss db'.file.disk [] P' x →
          x = btData ∨ x = btMeta ∨ (x = btHeader ∧ P' = P) := by
        intro P' hP' x hx
        rcases hx with hx | ⟨_, rfl⟩
        · have hlt := (List.getElem?_eq_some_iff.mp hx).1
          have hq := hst.2
          rcases hPv with ⟨hp0, hp1⟩ | ⟨hp0, hp1⟩
          · have : P' = P := by unfold blockSize at hP'; omega
            subst this
            rw [h6] at hx; cases hx
            exact Or.inr (Or.inr ⟨rfl, rfl⟩)
          · have : P' = P ∨ P' = 0 := by unfold blockSize at hP'; omega
            rcases this with rfl | rfl
            · rw [h6] at hx; cases hx
              exact Or.inr (Or.inr ⟨rfl, rfl⟩)
            · rw [hagree 0 hp1, B.first hp1] at hx; cases hx
              exact Or.inr (Or.inl rfl)
        · exact Or.inl rfl
      have hlenP : P < db'.file.disk.length := by omega
      refine ⟨by rw [hcfg]; exact B.thr, h5.crc, ?_, ?_, ?_, ?_⟩
      · intro P' hP' x hx
        rcases hlow P' hP' x hx with h | h | ⟨h, _⟩
        · exact Or.inl h
        · exact Or.inr (Or.inl h)
        · exact Or.inr (Or.inr h)
      · intro P' hP' hx
        rcases hlow P' hP' _ hx with h | h | ⟨-, rfl⟩
        · cases h
        · cases h
        · refine ⟨({ pos := db'.header.position, db := db', timestamp := 0, prev := noPrevHeaderPos } : Commit),
            diskHeader (verHeader h1) P', db'.file.pos, ?_, ⟨hst.1, ?_, ?_, ?_, hdrop, (by
              show h1.diskVersion = db'.header.diskVersion; rw [hvd, hv1]), ?_, ?_⟩, Nat.le_refl _, ?_, hle'⟩
          · show List.find? _ [_] = _
            exact List.find?_cons_of_pos (by simpa using hpd)
          · show crcOf h1.diskVersion = _
            rw [hv1, hcfg]; exact hcrc
          · show (if 14 ≤ h1.diskVersion then (verHeader h1).haveMeta else false) = _
            rw [hcfg, ← B.isMeta, hver]
            show (if 14 ≤ h1.diskVersion then h1.haveMeta else false) = _
            rw [hv1, hmeta1]
            split
            · rfl
            · rw [hold (by omega)]
          · refine ⟨[], [], [], Fresh.inv ⟨⟨hle', h5.crc⟩, by show 0 < db'.file.pos; omega, by
              show 2 ≤ db'.file.cfg.kvThr; rw [hcfg]; exact B.thr, ?_, rfl⟩, Fresh.inv hFresh, ?_⟩
            · obtain ⟨a1, a2, a3, a4⟩ := hemp
              refine ⟨?_, ?_, ?_, a4⟩
              · show diskRoot h1.byIdRoot = none; rw [a1]; rfl
              · show diskRoot h1.bySeqRoot = none; rw [a2]; rfl
              · show diskRoot h1.localRoot = none; rw [a3]; rfl
            · have hs : HSame (verHeader h1) (diskHeader (verHeader h1) P') :=
                ⟨rfl, rfl, diskRoot_idem _, diskRoot_idem _, diskRoot_idem _⟩
              rw [hs.stats, hhd]; rfl
          · show (if 13 ≤ h1.diskVersion then (if 13 ≤ h1.diskVersion then h1.timestamp else 0) else 0) = _
            rw [hts1]; simp
          · show 14 ≤ h1.diskVersion → (if 14 ≤ h1.diskVersion then (if 14 ≤ h1.diskVersion then h1.prevHeaderPos else _) else _) = noPrevHeaderPos
            intro h
            rw [if_pos h, if_pos h, hprev1]
          · exact fun i hi _ => cert_nil (by omega)
      · intro c hc
        have hc : c ∈ [({ pos := db'.header.position, db := db', timestamp := 0, prev := noPrevHeaderPos } : Commit)] := hc
        rw [List.mem_singleton] at hc
        subst hc
        show List.find? _ [_] = _ ∧ db'.header.position % blockSize = 0 ∧ Cert _ _ db'.header.position ∧
          (replay db'.file.disk [])[db'.header.position]? = _
        rw [hpd]
        refine ⟨List.find?_cons_of_pos (by simp), hmod, cert_nil hlenP, h6⟩
      · intro k hk
        rw [hcfg] at hk
        obtain ⟨h0, v, id, ctx, q, h1, h2⟩ := B.key k hk
        have := B.small
        refine ⟨v, id, ctx, q, h1.congr fun i hi _ => hagree i (by omega), cert_nil (by omega), ?_, by omega, by omega,
          fun i hi _ => cert_nil (by omega), ?_⟩
        · show db'.file.disk[0]? = _
          rw [hagree 0 h0]; exact B.first h0
        · show q ≤ db'.file.disk.length; omega
    · obtain ⟨evs, e1, e2, e3⟩ := h3.log
      dsimp only at e1 e3
      rw [e3, e1, replay_append, ← B.replay]

theorem replay_zero {m : List Event} (hm : ∀ e ∈ m, ∃ b, e = .write 0 b ∧ (b = [btData] ∨ b = [])) :
    (replay [] m = [] ∨ replay [] m = [btData]) ∧ (.write 0 [btData] ∈ m → replay [] m = [btData]) := by
  induction m with
  | nil => exact ⟨Or.inl rfl, by simp⟩
  | cons e m ih =>
    obtain ⟨ih1, ih2⟩ := ih fun e he => hm e (by simp [he])
    obtain ⟨b, rfl, rfl | rfl⟩ := hm e (by simp)
    · have : replay [] (.write 0 [btData] :: m) = [btData] := by
        rw [replay]
        rcases ih1 with h | h <;> rw [h] <;> rfl
      exact ⟨Or.inr this, fun _ => this⟩
    · refine ⟨ih1, fun h => ih2 (by simpa using h)⟩

/-- Creating a database. -/
theorem openBody_create (E : Env) (flags : OpenFlags) (getKey : KeyGetter) (ctx : Bytes) (faults : List Fault)
    (ht : 2 ≤ flags.kvThr) (K : KeysOk getKey flags.legacyCrc) :
    Sp (openBody E flags getKey ctx) (newHandle flags (crashedFile [] faults))
      (fun _ db' => Created E getKey flags.noCommitAtCreate db' ∧
        (flags.noCommitAtCreate = true → db'.header.diskVersion = if flags.legacyCrc then 11 else 14))
      (fun _ _ => True) := by
  have hgoal : ∀ {α β : Type} {m : DbM α} {k : α → DbM β} {s s' : Db} {a : α} {Q R}, m s = .ok a s' → Sp (k a) s' Q R →
      Sp (m >>= k) s Q R := by
    intro α β m k s s' a Q R h1 h2
    unfold Sp
    rw [bind_ok h1]
    exact h2
  unfold openBody
  refine Sp.bind' (liftF_spec (db := newHandle flags (crashedFile [] faults)) (gotoEof_spec _)) ?_
    (fun _ _ _ => trivial)
  rintro n db1 ⟨h1, rfl, hr⟩
  have hf1 : db1.file = { crashedFile [] faults with
      cfg := ⟨.unknown, none, flags.kvThr, flags.kpThr⟩, faults := db1.file.faults } := hr.2
  generalize hfs : db1.file.faults = fs1 at hf1
  have h1' : db1 = { newHandle flags (crashedFile [] faults) with file := { crashedFile [] faults with
      cfg := ⟨.unknown, none, flags.kvThr, flags.kpThr⟩, faults := fs1 } } := by
    rw [h1, hf1]
  clear h1 hr hfs hf1
  subst h1'
  refine hgoal (a := ()) (s' := { newHandle flags (crashedFile [] faults) with file := { crashedFile [] faults with
      cfg := ⟨.unknown, none, flags.kvThr, flags.kpThr⟩, faults := fs1 } }) rfl ?_
  dsimp only
  rw [if_pos (by rfl)]
  by_cases hro : flags.rdonly = true
  · rw [if_pos hro]; trivial
  rw [if_neg hro]
  generalize hmode : (if flags.legacyCrc = true then CrcMode.crc32 else .crc32c) = mode
  have hmode' : mode ≠ .unknown := by rw [← hmode]; split <;> simp
  generalize hdb2 : ({ newHandle flags (crashedFile [] faults) with file := { crashedFile [] faults with
      cfg := ⟨mode, none, flags.kvThr, flags.kpThr⟩, faults := fs1 } } : Db) = db2
  have hcalc : setCrcMode mode { newHandle flags (crashedFile [] faults) with file := { crashedFile [] faults with
      cfg := ⟨.unknown, none, flags.kvThr, flags.kpThr⟩, faults := fs1 } } = .ok () db2 := by rw [← hdb2]; rfl
  refine hgoal hcalc ?_
  have hw2 : db2.file.WF := by rw [← hdb2]; exact ⟨Nat.le_refl _, hmode'⟩
  refine Sp.bind' (createMetadataHeader_spec E getKey ctx db2 hw2 (by rw [← hdb2]; rfl) (by rw [← hdb2]; rfl)
    (by rw [← hdb2]; rfl) K.stable ?_) ?_ (fun _ _ _ => trivial)
  · intro f k hf hk
    rw [← hdb2]
    show mode = _
    rw [← hmode]
    split
    · rename_i hl
      rw [K.noLegacy hl f hf] at hk; cases hk
    · rfl
  intro _ db3 h3
  have B3 : Blank E getKey db3 := by
    rcases h3 with rfl | ⟨k, v, id, q, a1, a2, a3, a4, a5, a6, a7, a8, a9, a10, a11⟩
    · subst hdb2
      refine ⟨hw2, ht, rfl, rfl, ?_, rfl, rfl, ?_, ?_, ?_⟩
      · intro h; cases h
      · exact Nat.zero_le _
      · intro h; exact absurd h (Nat.lt_irrefl 0)
      · intro k h; cases h
    · refine ⟨a7, ?_, ?_, ?_, ?_, a11, ?_, by omega, fun _ => a9, ?_⟩
      · rw [a2, ← hdb2]; exact ht
      · rw [a1, ← hdb2]; rfl
      · rw [a2, a1]; rfl
      · intro _; rw [a2]; exact a3
      · have := a7.pos_le; omega
      · intro k' hk'
        rw [a2] at hk'
        cases hk'
        exact ⟨by omega, v, id, ctx, q, a8, by omega⟩
  have hm3 : db3.file.cfg.crcMode = mode := by
    rcases h3 with rfl | ⟨k, v, id, q, a1, a2, _⟩
    · rw [← hdb2]
    · rw [a2, ← hdb2]
  refine Sp.bind' (createHeader_spec E getKey flags.noCommitAtCreate db3 B3) ?_ (fun _ _ _ => trivial)
  rintro _ db4 ⟨c1, c2, c3⟩
  have hv4 : flags.noCommitAtCreate = true → db4.header.diskVersion = if flags.legacyCrc then 11 else 14 := by
    intro h
    rw [c3 h, hm3, ← hmode]
    cases flags.legacyCrc <;> rfl
  have hfin : ∀ db5 : Db, Created E getKey flags.noCommitAtCreate db5 → db5.header = db4.header →
      Sp (do let db ← get; if db.header.haveMeta = true ∧ db.file.cfg.cipher = none then
               readAndSetEncryptionKey E getKey else pure ()) db5
        (fun _ db' => Created E getKey flags.noCommitAtCreate db' ∧
          (flags.noCommitAtCreate = true → db'.header.diskVersion = if flags.legacyCrc then 11 else 14))
        (fun _ _ => True) := by
    intro db5 hc hh5
    apply Sp.get_bind
    rw [if_neg (by
      rintro ⟨h1, h2⟩
      have := hc.handle.isMeta
      rw [h1, h2] at this
      cases this)]
    exact ⟨hc, by rw [hh5]; exact hv4⟩
  apply Sp.get_bind
  by_cases hp : db4.file.pos = 0
  · rw [if_pos hp]
    obtain ⟨d1, d2, d3, d4, d5, d6, d7, d8⟩ := c2 hp
    have hdisk : db4.file.disk = [] := List.length_eq_zero_iff.mp (by rw [d2.len]; exact hp)
    refine Sp.bind' (liftF_spec (db := db4) (writeBlockType_spec btData 0 db4.file)) ?_ (fun _ _ _ => trivial)
    rintro _ db5 ⟨h1, m, M, hm⟩
    refine hgoal (a := ()) (s' := { db5 with file := { db5.file with pos := 1 } }) rfl ?_
    refine hfin _ ?_ (by show db5.header = _; rw [h1])
    have hd5 : db5.file.disk = [btData] := by
      rw [M.disk, hdisk]
      exact (replay_zero M.evs).2 hm
    have hcfg : db5.file.cfg = db4.file.cfg := M.cfg
    have hh : db5.header = db4.header := by rw [h1]
    have hdr : db5.dropped = false := by rw [h1]; exact d2.opened
    have hciph : db4.file.cfg.cipher = none := by
      cases hc : db4.file.cfg.cipher with
      | none => rfl
      | some k => have := (d2.key k hc).1; omega
    have hmt : db4.header.haveMeta = false := by rw [d2.isMeta, hciph]; rfl
    refine ⟨⟨Fresh.inv ⟨⟨?_, ?_⟩, Nat.one_pos, ?_, ?_, hdr⟩, hdr, ?_, ?_, ?_, ?_, ?_⟩, ?_, ?_,
      ⟨by show db5.header.position % _ = 0; rw [hh, d7]; rfl, by show db5.header.position < 1; rw [hh, d7]; exact Nat.one_pos,
        fun _ => by show db5.header.prevHeaderPos = _; rw [hh]; exact d8⟩⟩
    · show 1 ≤ db5.file.disk.length; rw [hd5]; exact Nat.le_refl _
    · show db5.file.cfg.crcMode ≠ _; rw [hcfg]; exact d2.wf.crc
    · show 2 ≤ db5.file.cfg.kvThr; rw [hcfg]; exact d2.thr
    · show db5.header.isEmpty; rw [hh]; exact d3
    · show goodVersion db5.header.diskVersion; rw [hh]; exact d5
    · show crcOf db5.header.diskVersion = db5.file.cfg.crcMode; rw [hh, hcfg]; exact d6
    · show db5.header.purgePtr = 0; rw [hh, d4]
    · show db5.header.haveMeta = db5.file.cfg.cipher.isSome; rw [hh, hcfg]; exact d2.isMeta
    · intro _; show db5.header.haveMeta = false; rw [hh]; exact hmt
    · rw [d1]
      show Safe E getKey db5.file.cfg db5.file.disk [] [] [] 1
      have hty : ∀ P x, Poss db5.file.disk [] P x → x = btData := by
        intro P x hx
        rcases hx with hx | ⟨_, rfl⟩
        · rw [hd5] at hx
          cases P with
          | zero => simp at hx; exact hx.symm
          | succ n => simp at hx
        · rfl
      refine ⟨by rw [hcfg]; exact d2.thr, by rw [hcfg]; exact d2.wf.crc, fun P hP x hx => Or.inl (hty P x hx), ?_,
        by simp, ?_⟩
      · intro P _ hx
        have := hty P _ hx
        cases this
      · intro k hk
        rw [hcfg, hciph] at hk; cases hk
    · show db5.file.disk = replay [] db5.file.log
      rw [M.disk, M.log, replay_append, ← d2.replay]
  · rw [if_neg hp]
    exact hfin db4 (c1 (by omega)) rfl

/-- A new file made without failures of the raw operations (and not committed yet). -/
theorem openBody_calm (E : Env) (flags : OpenFlags) (hn : flags.noCommitAtCreate = true) (getKey : KeyGetter) (ctx : Bytes) :
    Sp (openBody E flags getKey ctx) (newHandle flags (crashedFile [] [])) (fun _ db' => db'.file.faults = [])
      (fun _ _ => True) := by
  unfold openBody
  refine Sp.bind' (Q1 := fun n db => n = 0 ∧ db = newHandle flags (crashedFile [] [])) (R1 := fun _ _ => True) ⟨rfl, rfl⟩ ?_ (fun _ _ _ => trivial)
  rintro _ _ ⟨rfl, rfl⟩
  refine Sp.bind' (Q1 := fun _ db => db = newHandle flags (crashedFile [] [])) (R1 := fun _ _ => True) rfl ?_ (fun _ _ _ => trivial)
  rintro _ _ rfl
  dsimp only
  rw [if_pos rfl]
  by_cases hro : flags.rdonly = true
  · rw [if_pos hro]; trivial
  rw [if_neg hro]
  have hmode : (if flags.legacyCrc = true then CrcMode.crc32 else .crc32c) ≠ .unknown := by split <;> simp
  refine Sp.bind' (Q1 := fun _ db => db.file.WF ∧ db.file.faults = [] ∧ db.file.cfg.cipher = none) (R1 := fun _ _ => True) ⟨⟨Nat.le_refl _, hmode⟩, rfl, rfl⟩ ?_ (fun _ _ _ => trivial)
  rintro _ db ⟨w, hf, hc⟩
  have hm : Sp (createMetadataHeader E getKey ctx) db
      (fun _ db' => db'.file.faults = [] ∧ db'.header.haveMeta = db'.file.cfg.cipher.isSome) (fun _ _ => True) := by
    unfold createMetadataHeader
    refine Sp.bind' (Q1 := fun _ db' => db' = { db with header := { db.header with haveMeta := false } })
      (R1 := fun _ _ => True) rfl ?_ (fun _ _ _ => trivial)
    rintro _ _ rfl
    cases getKey with
    | none => exact ⟨hf, by rw [hc]; rfl⟩
    | some f =>
      dsimp only
      cases f [] with
      | none => exact ⟨hf, by rw [hc]; rfl⟩
      | some key =>
        dsimp only
        split
        · trivial
        split
        · trivial
        split
        · trivial
        rename_i k hk
        refine Sp.bind' (Q1 := fun _ db' => db'.file.WF ∧ db'.file.faults = [] ∧ db'.file.cfg.cipher = some k)
          (R1 := fun _ _ => True) ⟨⟨w.pos_le, w.crc⟩, hf, rfl⟩ ?_ (fun _ _ _ => trivial)
        rintro _ db1 ⟨w1, hf1, hc1⟩
        split
        · trivial
        refine Sp.bind' (Q1 := fun _ db' => db' = { db1 with header := { db1.header with haveMeta := true } })
          (R1 := fun _ _ => True) rfl ?_ (fun _ _ _ => trivial)
        rintro _ _ rfl
        refine Sp.bind' (liftF_spec (db := { db1 with header := { db1.header with haveMeta := true } })
          (writeHeader_spec E btMeta _ db1.file w1)) ?_ (fun _ _ _ => trivial)
        rintro P db2 ⟨h1, -, h2, -⟩
        refine ⟨?_, ?_⟩
        · have := h2.faults
          rw [hf1] at this
          exact List.suffix_nil.mp this
        · rw [h2.cfg, hc1, h1]; rfl
  refine Sp.bind' hm ?_ (fun _ _ _ => trivial)
  rintro _ db3 ⟨h1, h2⟩
  rw [hn]
  have hcr : Sp (createHeader E true) db3
      (fun _ db' => db'.file.faults = [] ∧ db'.header.haveMeta = db'.file.cfg.cipher.isSome) (fun _ _ => True) := ⟨h1, h2⟩
  refine Sp.bind' hcr ?_ (fun _ _ _ => trivial)
  rintro _ db4 ⟨h3, h4⟩
  apply Sp.get_bind
  have hend : ∀ db : Db, db.file.faults = [] → db.header.haveMeta = db.file.cfg.cipher.isSome →
      Sp (do let db ← get; if db.header.haveMeta = true ∧ db.file.cfg.cipher = none then readAndSetEncryptionKey E getKey)
        db (fun _ db' => db'.file.faults = []) (fun _ _ => True) := by
    intro db a b
    apply Sp.get_bind
    rw [if_neg]
    · exact a
    · rintro ⟨c, d⟩
      rw [d] at b
      rw [b] at c
      cases c
  split
  · refine Sp.bind' (liftF_spec (writeBlockType_spec btData 0 db4.file)) ?_ (fun _ _ _ => trivial)
    rintro _ db5 ⟨k1, m, k2, -⟩
    refine Sp.bind' (Q1 := fun _ db' => db'.file.faults = [] ∧ db'.header.haveMeta = db'.file.cfg.cipher.isSome)
      (R1 := fun _ _ => True) ⟨?_, ?_⟩ ?_ (fun _ _ _ => trivial)
    · have := k2.faults
      rw [h3] at this
      exact List.suffix_nil.mp this
    · show db5.header.haveMeta = db5.file.cfg.cipher.isSome
      rw [k2.cfg, k1]; exact h4
    · rintro _ db6 ⟨a, b⟩
      exact hend db6 a b
  · exact hend db4 h3 h4

end Couchstore
