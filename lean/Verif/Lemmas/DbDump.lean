import Verif.Lemmas.Reach
import Verif.Lemmas.RecoverFill
import Verif.Spec.DbDump

/-! Lemmas for the program that dumps documents. -/

namespace Couchstore

variable {E : Env} {lib : DumpLib} {o : DumpOpts} {db : Db}

/-! ### Metadata -/

theorem and_bit (n i : Nat) : (n &&& 2 ^ i != 0) = decide (n / 2 ^ i % 2 = 1) := by
  rw [← Nat.testBit_eq_decide_div_mod_eq]
  by_cases h : n.testBit i = true
  · have : n &&& 2 ^ i ≠ 0 := by
      intro h0
      have := congrArg (Nat.testBit · i) h0
      simp [Nat.testBit_and, h] at this
    simp [h, this]
  · have h' : n.testBit i = false := by simpa using h
    have : n &&& 2 ^ i = 0 := by
      apply Nat.eq_of_testBit_eq
      intro j
      rw [Nat.testBit_and, Nat.testBit_two_pow, Nat.zero_testBit]
      by_cases hj : i = j
      · subst hj; simp [h']
      · simp [hj]
    simp [h', this]

theorem datatype_shown (d : DocInfo) : (kvShown d.revMeta).datatype.getD 0 = d.datatype := by
  unfold kvShown DocInfo.datatype byteAt
  dsimp only
  split <;> rfl

theorem isJson_iff (d : DocInfo) : d.isJson = decide (d.datatype % 2 = 1) := by
  unfold DocInfo.isJson
  simpa using and_bit d.datatype 0

theorem isSnappy_iff (d : DocInfo) : d.isSnappy = decide (d.datatype / 2 % 2 = 1) := and_bit d.datatype 1

theorem hasXattr_iff (d : DocInfo) : d.hasXattr = decide (d.datatype / 4 % 2 = 1) := and_bit d.datatype 2

theorem byteAt_enc (n : Nat) (h : n < 256) : (UInt8.ofNat (n / 256 ^ 0)).toNat = n := by
  rw [UInt8.toNat_ofNat']
  simp
  omega

theorem kvShown_bytes (m : KvMeta) (h : m.Ok) : kvShown m.bytes = m.shown := by
  obtain ⟨cas, expiry, flags, ttl, datatype, sync⟩ := m
  obtain ⟨h1, h2, h3, h4, h5⟩ := h
  have e1 : beDec (beEnc 8 cas) = cas := beDec_beEnc _ _ h1
  have e2 : beDec (beEnc 4 expiry) = expiry := beDec_beEnc _ _ h2
  have e3 : beDec (beEnc 4 flags) = flags := beDec_beEnc _ _ h3
  have e4 := byteAt_enc datatype h4
  have e5 : ((UInt8.ofNat ((if ttl then 128 else 0) / 256 ^ 0)).toNat / 128 % 2 == 1) = ttl := by cases ttl <;> decide
  cases sync with
  | none =>
    show KvShown.mk (some (beDec (beEnc 8 cas), beDec (beEnc 4 expiry), beDec (beEnc 4 flags)))
      (some (UInt8.ofNat (datatype / 256 ^ 0)).toNat) none none _ = _
    rw [e1, e2, e3, e4]
    show KvShown.mk _ _ _ _ ((UInt8.ofNat ((if ttl then 128 else 0) / 256 ^ 0)).toNat / 128 % 2 == 1) = _
    rw [e5]
    rfl
  | some s =>
    have h5 := h5 s rfl
    have hs : kvShown (KvMeta.bytes ⟨cas, expiry, flags, ttl, datatype, some s⟩) =
        KvShown.mk (some (beDec (beEnc 8 cas), beDec (beEnc 4 expiry), beDec (beEnc 4 flags)))
          (some (UInt8.ofNat (datatype / 256 ^ 0)).toNat) none
          (some (syncOf (KvMeta.bytes ⟨cas, expiry, flags, ttl, datatype, some s⟩)))
          ((UInt8.ofNat ((if ttl then 128 else 0) / 256 ^ 0)).toNat / 128 % 2 == 1) := by
      cases s <;> rfl
    suffices hsync : syncOf (KvMeta.bytes ⟨cas, expiry, flags, ttl, datatype, some s⟩) = s.shown by
      rw [hs, e1, e2, e3, e4, e5, hsync]
      rfl
    clear hs e1 e2 e3 e4 e5
    cases s with
    | pending level isDelete =>
      have h5 : level < 4 := h5
      have e6 := byteAt_enc (level * 2 + if isDelete then 1 else 0) (by split <;> omega)
      show SyncShown.pending ((UInt8.ofNat ((level * 2 + if isDelete then 1 else 0) / 256 ^ 0)).toNat / 2 % 4)
        ((UInt8.ofNat ((level * 2 + if isDelete then 1 else 0) / 256 ^ 0)).toNat % 2 == 1) = SyncShown.pending level isDelete
      rw [e6]
      congr 1
      · split <;> omega
      · cases isDelete
        · show ((level * 2 + 0) % 2 == 1) = false
          simp
        · show ((level * 2 + 1) % 2 == 1) = true
          simp
    | commit n =>
      show SyncShown.commit (beDec (beEnc 6 n)) = SyncShown.commit n
      rw [beDec_beEnc _ _ h5]
    | abort n =>
      show SyncShown.abort (beDec (beEnc 6 n)) = SyncShown.abort n
      rw [beDec_beEnc _ _ h5]

/-! ### One document -/

/-- What is read of the body of a document. -/
theorem open_body (L : E.Laws) {ids seqs locs} (inv : Inv E db ids seqs locs) (hd : db.dropped = false)
    (hf : db.file.faults = []) {e : Entry} (he : e ∈ ids) :
    (∃ data d, openDocWithDocinfo E e.info true db = .ok data d ∧ bodyOf E db e.info.id = some data) ∨
    (∃ x d, openDocWithDocinfo E e.info true db = .error x d ∧ bodyOf E db e.info.id = none) := by
  have hs := openDocWithDocinfo_spec E L db inv hd e he true
  have hb : bodyOf E db e.info.id = match openAns E true e with
      | .ok b => some b
      | .error _ => none := by
    unfold bodyOf
    rw [ask_eq E L inv hd (.open e.info.id true) trivial]
    show (match Reply.body (openIdAns E true (entFind e.info.id ids)) with | .body (.ok b) => some b | _ => none) = _
    rw [entFind_of_mem inv.idSorted he]
    show (match Reply.body (openAns E true e) with | .body (.ok b) => some b | _ => none) = _
    cases openAns E true e <;> rfl
  unfold Answers Sp at hs
  cases hx : openDocWithDocinfo E e.info true db with
  | ok data d =>
    rw [hx] at hs
    rw [hs.2] at hb
    exact Or.inl ⟨data, d, rfl, hb⟩
  | error x d =>
    rw [hx] at hs
    rcases hs.2 with h | h
    · exact absurd hf h
    · rw [h] at hb
      exact Or.inr ⟨x, d, rfl, hb⟩

theorem not_corrupt {ids seqs locs} (inv : Inv E db ids seqs locs) {e : Entry} (he : e ∈ ids) :
    ¬ (e.info.bp = 0 ∧ e.info.deleted = false ∧ o.json = false) := by
  have hb := inv.body e he
  obtain ⟨info, raw⟩ := e
  cases raw with
  | none =>
    have hb : info.bp = 0 ∧ info.deleted = true := hb
    rintro ⟨-, h, -⟩
    rw [hb.2] at h
    cases h
  | some b =>
    have hb : info.bp ≠ 0 ∧ _ := hb
    exact fun h => hb.1 h.1

theorem name_none {id : Bytes} : lib.name o id = none ↔ o.decodeNamespace = true ∧ lib.showId id = none := by
  unfold DumpLib.name
  split <;> simp_all

theorem bodyShown_right (L : E.Laws) {ids seqs locs} (inv : Inv E db ids seqs locs) (hd : db.dropped = false)
    (hf : db.file.faults = []) {e : Entry} (he : e ∈ ids) {b : BodyShown}
    (h : bodyShown E lib o db e.info = some (some b)) :
    if o.body then BodyRight E lib db e.info b else b = .omitted := by
  unfold bodyShown at h
  rw [datatype_shown] at h
  dsimp only at h
  cases ho : o.body with
  | false =>
    rw [ho] at h
    simp only [Bool.false_eq_true, if_false, Option.some.injEq] at h ⊢
    exact h.symm
  | true =>
    rw [ho] at h
    simp only [if_true] at h ⊢
    unfold BodyRight
    rcases open_body L inv hd hf he with ⟨data, d, h1, h2⟩ | ⟨x, d, h1, h2⟩
    · rw [h1] at h
      rw [h2]
      dsimp only at h ⊢
      unfold docContents
      rw [isSnappy_iff, hasXattr_iff]
      have hc : (decide (e.info.datatype / 2 % 2 = 1) && !isCompressed e.info.contentMeta) =
          decide (e.info.datatype / 2 % 2 = 1 ∧ isCompressed e.info.contentMeta = false) := by
        rw [Bool.decide_and]
        cases isCompressed e.info.contentMeta <;> rfl
      rw [hc]
      simp only [decide_eq_true_eq]
      cases hx : (if e.info.datatype / 2 % 2 = 1 ∧ isCompressed e.info.contentMeta = false then E.inflate data else some data) with
      | none =>
        rw [hx] at h
        dsimp only at h ⊢
        split at h
        · cases h
        · simpa using h.symm
      | some y =>
        rw [hx] at h
        dsimp only at h ⊢
        by_cases hxa : e.info.datatype / 4 % 2 = 1
        · rw [if_pos hxa] at h ⊢
          cases hl : lib.xattr y with
          | none => rw [hl] at h; cases h
          | some p =>
            obtain ⟨xa, rest⟩ := p
            rw [hl] at h
            simp only [Option.map_some] at h
            split at h
            · cases h
            · exact ⟨xa, rest, rfl, by simpa using h.symm⟩
        · rw [if_neg hxa] at h ⊢
          dsimp only at h
          split at h
          · cases h
          · simpa using h.symm
    · rw [h1] at h
      rw [h2]
      simpa using h.symm

theorem bodyShown_printable (L : E.Laws) {ids seqs locs} (inv : Inv E db ids seqs locs) (hd : db.dropped = false)
    (hf : db.file.faults = []) {e : Entry} (he : e ∈ ids) (hp : Printable E lib o db e.info) :
    ∃ b, bodyShown E lib o db e.info = some (some b) := by
  unfold bodyShown
  rw [datatype_shown]
  dsimp only
  cases ho : o.body with
  | false => exact ⟨_, rfl⟩
  | true =>
    simp only [if_true]
    rcases open_body L inv hd hf he with ⟨data, d, h1, h2⟩ | ⟨x, d, h1, h2⟩
    · rw [h1]
      dsimp only
      have hp1 := fun h => hp.inflates ho h data h2
      have hp2 := fun x => hp.xattr ho data x h2
      have hp3 := fun h h' x => hp.json ho h h' data x h2
      unfold docContents at hp1 hp2 hp3
      rw [isSnappy_iff] at hp1 hp2 hp3
      rw [hasXattr_iff] at hp2 hp3
      rw [isJson_iff] at hp3
      have hc : (decide (e.info.datatype / 2 % 2 = 1) && !isCompressed e.info.contentMeta) =
          decide (e.info.datatype / 2 % 2 = 1 ∧ isCompressed e.info.contentMeta = false) := by
        rw [Bool.decide_and]
        cases isCompressed e.info.contentMeta <;> rfl
      rw [hc] at hp1 hp2 hp3
      simp only [decide_eq_true_eq] at hp1 hp2 hp3
      cases hx : (if e.info.datatype / 2 % 2 = 1 ∧ isCompressed e.info.contentMeta = false then E.inflate data else some data) with
      | none =>
        dsimp only
        split
        · exact absurd hx (hp1 ‹_›)
        · exact ⟨_, rfl⟩
      | some y =>
        dsimp only
        have hp2 := hp2 y hx
        have hp3 := fun h h' => hp3 h h' y hx
        by_cases hxa : e.info.datatype / 4 % 2 = 1
        · rw [if_pos hxa] at hp3 ⊢
          cases hl : lib.xattr y with
          | none => exact absurd hl (hp2 hxa)
          | some p =>
            obtain ⟨xa, rest⟩ := p
            rw [hl] at hp3
            simp only [Option.map_some]
            split
            · rename_i hj
              have := hp3 hj.1 hj.2.1
              simp only [Option.getD_some] at this
              rw [hj.2.2] at this
              cases this
            · exact ⟨_, rfl⟩
        · rw [if_neg hxa] at hp3 ⊢
          dsimp only
          split
          · rename_i hj
            have := hp3 hj.1 hj.2.1
            rw [hj.2.2] at this
            cases this
          · exact ⟨_, rfl⟩
    · rw [h1]
      exact ⟨_, rfl⟩

/-- A line that is printed is right. -/
theorem dumpDoc_right (L : E.Laws) {ids seqs locs} (inv : Inv E db ids seqs locs) (hd : db.dropped = false)
    (hf : db.file.faults = []) {e : Entry} (he : e ∈ ids) {l : DumpLine} (h : dumpDoc E lib o db e.info = .line l) :
    ∃ d, l = .doc d ∧ LineRight E lib o db e.info d := by
  unfold dumpDoc at h
  cases hn : lib.name o e.info.id with
  | none => rw [hn] at h; cases h
  | some id =>
    rw [hn] at h
    dsimp only at h
    rw [if_neg (not_corrupt inv he)] at h
    cases hb : bodyShown E lib o db e.info with
    | none => rw [hb] at h; cases h
    | some b =>
      cases b with
      | none => rw [hb] at h; cases h
      | some b =>
        rw [hb] at h
        dsimp only at h
        have h := DumpOut.line.inj h
        refine ⟨_, h.symm, ?_, rfl, rfl, rfl, rfl, rfl, ?_, ?_, bodyShown_right L inv hd hf he hb⟩
        · unfold DumpLib.name at hn
          split at hn
          · rename_i hdn
            rw [if_pos hdn]
            exact hn
          · rename_i hdn
            rw [if_neg hdn]
            exact (Option.some.inj hn).symm
        · intro m hm hr
          rw [hr, kvShown_bytes m hm]
          exact ⟨rfl, fun hdel => by rw [if_pos hdel]; rfl⟩
        · cases e.info.deleted <;> rfl

theorem dumpDoc_printable (L : E.Laws) {ids seqs locs} (inv : Inv E db ids seqs locs) (hd : db.dropped = false)
    (hf : db.file.faults = []) {e : Entry} (he : e ∈ ids) (hp : Printable E lib o db e.info) :
    ∃ l, dumpDoc E lib o db e.info = .line l := by
  obtain ⟨b, hb⟩ := bodyShown_printable L inv hd hf he hp
  unfold dumpDoc
  cases hn : lib.name o e.info.id with
  | none => exact absurd (name_none.mp hn).2 (hp.name (name_none.mp hn).1)
  | some id =>
    dsimp only
    rw [if_neg (not_corrupt inv he), hb]
    exact ⟨_, rfl⟩

/-! ### The walk -/

/-- Two lists of the same length, whose elements are related. -/
def Paired {α β : Type} (P : α → β → Prop) : List α → List β → Prop
  | [], [] => True
  | a :: as, b :: bs => P a b ∧ Paired P as bs
  | _, _ => False

/-- What the callback leaves behind. -/
def dumpRun (E : Env) (lib : DumpLib) (o : DumpOpts) (db : Db) : List DocInfo → DumpState → DumpState
  | [], st => st
  | d :: ds, st => dumpRun E lib o db ds (dumpCb E lib o db st d).1

theorem dumpCb_ok (st : DumpState) (d : DocInfo) : (dumpCb E lib o db st d).2 = none := by
  unfold dumpCb
  split
  · rfl
  · split <;> rfl

theorem feed_dump (ds : List DocInfo) (st : DumpState) : feed (dumpCb E lib o db) ds st = (dumpRun E lib o db ds st, none) := by
  induction ds generalizing st with
  | nil => rfl
  | cons d ds ih =>
    unfold feed dumpRun
    have := dumpCb_ok (E := E) (lib := lib) (o := o) (db := db) st d
    cases hc : dumpCb E lib o db st d with
    | mk u e =>
      rw [hc] at this
      dsimp only at this
      subst this
      exact ih u

theorem dumpRun_thrown (ds : List DocInfo) (st : DumpState) (h : st.thrown = true) : dumpRun E lib o db ds st = st := by
  induction ds generalizing st with
  | nil => rfl
  | cons d ds ih =>
    unfold dumpRun
    have : dumpCb E lib o db st d = (st, none) := by unfold dumpCb; rw [if_pos h]
    rw [this]
    exact ih st h

/-- Every line is that of a document, in the order of the walk. -/
theorem dumpRun_lines {P : DocInfo → DumpLine → Prop} : ∀ (ds : List DocInfo),
    (∀ d ∈ ds, ∀ l, dumpDoc E lib o db d = .line l → P d l) → ∀ st : DumpState,
    ∃ new ds', (dumpRun E lib o db ds st).lines = st.lines ++ new ∧ ds'.Sublist ds ∧ Paired P ds' new := by
  intro ds
  induction ds with
  | nil => intro _ st; exact ⟨[], [], by simp [dumpRun], List.Sublist.refl _, trivial⟩
  | cons d ds ih =>
    intro hP st
    have ih := ih fun d hd => hP d (List.mem_cons_of_mem _ hd)
    unfold dumpRun
    obtain ⟨new, ds', h1, h2, h3⟩ := ih (dumpCb E lib o db st d).1
    rw [h1]
    unfold dumpCb
    split
    · exact ⟨new, ds', rfl, h2.cons _, h3⟩
    · cases hd : dumpDoc E lib o db d with
      | line l => exact ⟨l :: new, d :: ds', by simp, h2.cons_cons _, hP d List.mem_cons_self l hd, h3⟩
      | nothing => exact ⟨new, ds', rfl, h2.cons _, h3⟩
      | throws => exact ⟨new, ds', rfl, h2.cons _, h3⟩

/-- If all documents can be printed, all are. -/
theorem dumpRun_all {P : DocInfo → DumpLine → Prop} : ∀ (ds : List DocInfo),
    (∀ d ∈ ds, ∀ l, dumpDoc E lib o db d = .line l → P d l) → (∀ d ∈ ds, ∃ l, dumpDoc E lib o db d = .line l) →
    ∀ st : DumpState, st.thrown = false →
    ∃ new, dumpRun E lib o db ds st = { lines := st.lines ++ new, count := st.count + ds.length, thrown := false } ∧ Paired P ds new := by
  intro ds
  induction ds with
  | nil => intro _ _ st h; exact ⟨[], by obtain ⟨a, b, c⟩ := st; cases h; simp [dumpRun], trivial⟩
  | cons d ds ih =>
    intro hP hl st hst
    obtain ⟨l, hl0⟩ := hl d List.mem_cons_self
    unfold dumpRun
    have hcb : dumpCb E lib o db st d = ({ st with lines := st.lines ++ [l], count := st.count + 1 }, none) := by
      unfold dumpCb
      rw [if_neg (by rw [hst]; simp), hl0]
    rw [hcb]
    obtain ⟨new, h1, h2⟩ := ih (fun d hd => hP d (List.mem_cons_of_mem _ hd)) (fun d hd => hl d (List.mem_cons_of_mem _ hd))
      { st with lines := st.lines ++ [l], count := st.count + 1 } hst
    refine ⟨l :: new, ?_, hP d List.mem_cons_self l hl0, h2⟩
    rw [h1]
    simp only [List.append_assoc, List.singleton_append, List.length_cons]
    congr 1
    omega

def dumpStart : DumpState := { lines := [], count := 0, thrown := false }

theorem dumped_bySeq (L : E.Laws) {ids seqs locs} (inv : Inv E db ids seqs locs) (hd : db.dropped = false) :
    dumped E db .bySeq = seqs.map (·.info) := by
  unfold dumped
  rw [ask_eq E L inv hd (.changes 0 ⟨false, false, false⟩) (by show 0 < 2 ^ 48; decide)]
  show (seqs.map (·.info)).filter _ = _
  exact List.filter_eq_self.mpr (by intro d _; simp [selects_all])

theorem dumped_byId (L : E.Laws) {ids seqs locs} (inv : Inv E db ids seqs locs) (hd : db.dropped = false) :
    dumped E db .byId = ids.map (·.info) := by
  unfold dumped
  rw [ask_eq E L inv hd (.allDocs none ⟨false, false, false⟩) trivial]
  show (ids.map (·.info)).filter _ = _
  exact List.filter_eq_self.mpr (by intro d _; simp [selects_all])

theorem dumped_key (L : E.Laws) {ids seqs locs} (inv : Inv E db ids seqs locs) (hd : db.dropped = false) (k : Bytes) :
    dumped E db (.key k) = ((entFind k ids).map (·.info)).toList := by
  unfold dumped
  dsimp only
  rw [ask_eq E L inv hd (.docinfo k) trivial]
  show (match Reply.doc (foundOr (entFind k ids)) with | .doc (.ok d) => [d] | _ => []) = _
  cases entFind k ids <;> rfl

theorem dumped_mem (L : E.Laws) {ids seqs locs} (inv : Inv E db ids seqs locs) (hd : db.dropped = false) (mode : DumpMode)
    {d : DocInfo} (h : d ∈ dumped E db mode) : ∃ e ∈ ids, e.info = d := by
  cases mode with
  | bySeq =>
    rw [dumped_bySeq L inv hd, (inv.perm.map (fun e : Entry => e.info)).mem_iff] at h
    exact List.mem_map.mp h
  | byId =>
    rw [dumped_byId L inv hd] at h
    exact List.mem_map.mp h
  | key k =>
    rw [dumped_key L inv hd] at h
    cases hf : entFind k ids with
    | none => rw [hf] at h; cases h
    | some e =>
      rw [hf] at h
      simp only [Option.map_some, Option.toList_some, List.mem_singleton] at h
      exact ⟨e, (mem_of_entFind hf).1, h.symm⟩

theorem selects_tol (d : DocInfo) : (ScanOpts.mk true false false).selects d = true := rfl

/-- What the program prints for an open handle. -/
theorem dumpDb_eq (L : E.Laws) {ids seqs locs} (inv : Inv E db ids seqs locs) (hd : db.dropped = false)
    (hf : db.file.faults = []) (mode : DumpMode) (hk : ∀ k, mode = .key k → dumped E db mode ≠ []) :
    dumpDb E lib o mode db = dumpEnd (dumpRun E lib o db (dumped E db mode) dumpStart) none := by
  unfold dumpDb
  cases mode with
  | bySeq =>
    rw [dumped_bySeq L inv hd]
    have h := changesSince_spec E L db inv hd 0 (by decide) ⟨true, false, false⟩ (dumpCb E lib o db)
      (fun _ => ⟨fun u d => dumpCb_ok u d, hf⟩) dumpStart
    rw [List.filter_eq_self.mpr (by intro d _; simp [selects_tol])] at h
    unfold Sp at h
    dsimp only
    cases hx : changesSince E 0 ⟨true, false, false⟩ (dumpCb E lib o db) dumpStart db with
    | error e d => rw [hx] at h; exact h.elim
    | ok r d =>
      rw [hx] at h
      rcases h.2 with h | h
      · rw [feed_dump] at h
        rw [show (changesSince E 0 ⟨true, false, false⟩ (dumpCb E lib o db) { lines := [], count := 0, thrown := false } db) =
          .ok r d from hx, ← h]
      · exact absurd hf h.1
  | byId =>
    rw [dumped_byId L inv hd]
    have h := allDocs_spec E L db inv hd none ⟨true, false, false⟩ (dumpCb E lib o db)
      (fun _ => ⟨fun u d => dumpCb_ok u d, hf⟩) dumpStart
    rw [List.filter_eq_self.mpr (by intro d _; simp [selects_tol])] at h
    unfold Sp at h
    dsimp only
    cases hx : allDocs E none ⟨true, false, false⟩ (dumpCb E lib o db) dumpStart db with
    | error e d => rw [hx] at h; exact h.elim
    | ok r d =>
      rw [hx] at h
      rcases h.2 with h | h
      · rw [feed_dump] at h
        rw [show (allDocs E none ⟨true, false, false⟩ (dumpCb E lib o db) { lines := [], count := 0, thrown := false } db) =
          .ok r d from hx, ← h]
      · exact absurd hf h.1
  | key k =>
    have hk := hk k rfl
    rw [dumped_key L inv hd] at hk ⊢
    have h := docinfoById_spec E L db inv hd k
    unfold Answers Sp at h
    dsimp only
    cases hx : docinfoById E k db with
    | error e d =>
      rw [hx] at h
      rcases h.2 with h | h
      · exact absurd hf h
      · cases he : entFind k ids with
        | none => rw [he] at hk; exact absurd rfl hk
        | some e => rw [he] at h; cases h
    | ok r d =>
      rw [hx] at h
      cases he : entFind k ids with
      | none => rw [he] at h; cases h.2
      | some e =>
        rw [he] at h
        have : e.info = r := by have := h.2; simpa [foundOr] using this
        subst this
        rfl

theorem dumpDb_missing (L : E.Laws) {ids seqs locs} (inv : Inv E db ids seqs locs) (hd : db.dropped = false)
    (hf : db.file.faults = []) (k : Bytes) (hk : dumped E db (.key k) = []) : dumpDb E lib o (.key k) db = .failed [] := by
  rw [dumped_key L inv hd] at hk
  have h := docinfoById_spec E L db inv hd k
  unfold Answers Sp at h
  unfold dumpDb
  dsimp only
  cases hx : docinfoById E k db with
  | error e d => rfl
  | ok r d =>
    rw [hx] at h
    cases he : entFind k ids with
    | none => rw [he] at h; cases h.2
    | some e => rw [he] at hk; cases hk

theorem paired_right : ∀ (ds : List DocInfo) (ls : List DumpLine),
    Paired (fun d l => ∃ x, l = DumpLine.doc x ∧ LineRight E lib o db d x) ds ls → LinesRight E lib o db ds ls
  | [], [], _ => trivial
  | [], _ :: _, h => h.elim
  | _ :: _, [], h => h.elim
  | d :: ds, l :: ls, h => by
    obtain ⟨⟨x, rfl, h1⟩, h2⟩ := h
    exact ⟨h1, paired_right ds ls h2⟩

/-- All that is printed is right. -/
theorem dumpDb_right (L : E.Laws) {ids seqs locs} (inv : Inv E db ids seqs locs) (hd : db.dropped = false)
    (hf : db.file.faults = []) (mode : DumpMode) :
    ∃ ds, ds.Sublist (dumped E db mode) ∧ LinesRight E lib o db ds (dumpDb E lib o mode db).lines := by
  by_cases hk : ∀ k, mode = .key k → dumped E db mode ≠ []
  · rw [dumpDb_eq L inv hd hf mode hk]
    obtain ⟨new, ds', h1, h2, h3⟩ := dumpRun_lines (E := E) (lib := lib) (o := o) (db := db)
      (P := fun d l => ∃ x, l = DumpLine.doc x ∧ LineRight E lib o db d x) (dumped E db mode) (by
        intro d hdm l hl
        obtain ⟨e, he, rfl⟩ := dumped_mem L inv hd mode hdm
        exact dumpDoc_right L inv hd hf he hl) dumpStart
    refine ⟨ds', h2, ?_⟩
    have : (dumpEnd (dumpRun E lib o db (dumped E db mode) dumpStart) none).lines =
        (dumpRun E lib o db (dumped E db mode) dumpStart).lines := by
      unfold dumpEnd
      split <;> rfl
    rw [this, h1]
    exact paired_right _ _ h3
  · cases mode with
    | bySeq => exact absurd (fun k h => nomatch h) hk
    | byId => exact absurd (fun k h => nomatch h) hk
    | key k =>
      have : dumped E db (.key k) = [] := by
        cases hx : dumped E db (.key k) with
        | nil => rfl
        | cons a l => exact absurd (fun k' h h' => by rw [hx] at h'; cases h') hk
      rw [dumpDb_missing L inv hd hf k this]
      exact ⟨[], List.nil_sublist _, trivial⟩

/-- All documents are printed if they can be. -/
theorem dumpDb_all (L : E.Laws) {ids seqs locs} (inv : Inv E db ids seqs locs) (hd : db.dropped = false)
    (hf : db.file.faults = []) (mode : DumpMode) (hk : ∀ k, mode = .key k → dumped E db mode ≠ [])
    (hp : ∀ d ∈ dumped E db mode, Printable E lib o db d) :
    ∃ ls, dumpDb E lib o mode db = .done ls (dumped E db mode).length ∧ LinesRight E lib o db (dumped E db mode) ls := by
  rw [dumpDb_eq L inv hd hf mode hk]
  obtain ⟨new, h1, h2⟩ := dumpRun_all (E := E) (lib := lib) (o := o) (db := db)
    (P := fun d l => ∃ x, l = DumpLine.doc x ∧ LineRight E lib o db d x) (dumped E db mode) (by
      intro d hdm l hl
      obtain ⟨e, he, rfl⟩ := dumped_mem L inv hd mode hdm
      exact dumpDoc_right L inv hd hf he hl) (by
      intro d hdm
      obtain ⟨e, he, rfl⟩ := dumped_mem L inv hd mode hdm
      exact dumpDoc_printable L inv hd hf he (hp _ hdm)) dumpStart rfl
  refine ⟨new, ?_, paired_right _ _ h2⟩
  rw [h1]
  simp [dumpEnd, dumpStart]

/-! ### Handles with the same answers -/

theorem bodyOf_same {db' : Db} (h : SameAnswers E db db') (id : Bytes) : bodyOf E db' id = bodyOf E db id := by
  unfold bodyOf
  rw [h (.open id true) trivial]

theorem dumped_same {db' : Db} (h : SameAnswers E db db') (mode : DumpMode) : dumped E db' mode = dumped E db mode := by
  cases mode with
  | bySeq => unfold dumped; dsimp only; rw [h (.changes 0 ⟨false, false, false⟩) (by show 0 < 2 ^ 48; decide)]
  | byId => unfold dumped; dsimp only; rw [h (.allDocs none ⟨false, false, false⟩) trivial]
  | key k => unfold dumped; dsimp only; rw [h (.docinfo k) trivial]

theorem LineRight.same {db' : Db} (h : SameAnswers E db db') {d : DocInfo} {l : DocShown} (r : LineRight E lib o db' d l) :
    LineRight E lib o db d l := by
  refine ⟨r.id, r.seq, r.rev, r.contentMeta, r.size, r.offset, r.kv, r.deleted, ?_⟩
  have := r.body
  unfold BodyRight at this ⊢
  rw [bodyOf_same h] at this
  exact this

theorem LinesRight.same {db' : Db} (h : SameAnswers E db db') : ∀ (ds : List DocInfo) (ls : List DumpLine),
    LinesRight E lib o db' ds ls → LinesRight E lib o db ds ls
  | [], [], _ => trivial
  | [], _ :: _, r => r.elim
  | _ :: _, [], r => r.elim
  | d :: ds, .doc l :: ls, r => ⟨LineRight.same h r.1, LinesRight.same h ds ls r.2⟩
  | d :: ds, .corrupt _ _ _ :: ls, r => r.elim

theorem Printable.same {db' : Db} (h : SameAnswers E db db') {d : DocInfo} (r : Printable E lib o db d) :
    Printable E lib o db' d := by
  refine ⟨r.name, ?_, ?_, ?_⟩
  · intro h1 h2 data h3
    rw [bodyOf_same h] at h3
    exact r.inflates h1 h2 data h3
  · intro h1 data x h3
    rw [bodyOf_same h] at h3
    exact r.xattr h1 data x h3
  · intro h1 h2 hj data x h3
    rw [bodyOf_same h] at h3
    exact r.json h1 h2 hj data x h3

/-! ### Documents that are not printed -/

theorem dumpDoc_leaves_out (L : E.Laws) {ids seqs locs} (inv : Inv E db ids seqs locs) (hd : db.dropped = false)
    (hf : db.file.faults = []) {e : Entry} (he : e ∈ ids) (ho : o.json = true) (hb : o.body = true)
    (hn : o.decodeNamespace = true → lib.showId e.info.id ≠ none) {data : Bytes}
    (hbody : bodyOf E db e.info.id = some data) (hinf : docContents E e.info data = none) :
    dumpDoc E lib o db e.info = .nothing := by
  have hbs : bodyShown E lib o db e.info = some none := by
    unfold bodyShown
    rw [datatype_shown]
    dsimp only
    rw [if_pos hb]
    rcases open_body L inv hd hf he with ⟨data', d, h1, h2⟩ | ⟨x, d, h1, h2⟩
    · rw [h1]
      rw [h2] at hbody
      cases hbody
      dsimp only
      unfold docContents at hinf
      rw [isSnappy_iff] at hinf
      have hc : (decide (e.info.datatype / 2 % 2 = 1) && !isCompressed e.info.contentMeta) =
          decide (e.info.datatype / 2 % 2 = 1 ∧ isCompressed e.info.contentMeta = false) := by
        rw [Bool.decide_and]
        cases isCompressed e.info.contentMeta <;> rfl
      rw [hc] at hinf
      simp only [decide_eq_true_eq] at hinf
      rw [hinf]
      dsimp only
      rw [if_pos ho]
    · rw [h2] at hbody; cases hbody
  unfold dumpDoc
  cases hname : lib.name o e.info.id with
  | none => exact absurd (name_none.mp hname).2 (hn (name_none.mp hname).1)
  | some id =>
    dsimp only
    rw [if_neg (not_corrupt inv he), hbs]

theorem dumpDoc_throws (L : E.Laws) {ids seqs locs} (inv : Inv E db ids seqs locs) (hd : db.dropped = false)
    (hf : db.file.faults = []) {e : Entry} (he : e ∈ ids) (ho : o.json = true) (hb : o.body = true) {data x : Bytes}
    (hbody : bodyOf E db e.info.id = some data) (hinf : docContents E e.info data = some x) (hj : e.info.isJson = true)
    (hx : e.info.hasXattr = false) (hno : lib.isJson x = false) : dumpDoc E lib o db e.info = .throws := by
  have hbs : bodyShown E lib o db e.info = none := by
    unfold bodyShown
    rw [datatype_shown]
    dsimp only
    rw [if_pos hb]
    rcases open_body L inv hd hf he with ⟨data', d, h1, h2⟩ | ⟨x, d, h1, h2⟩
    · rw [h1]
      rw [h2] at hbody
      cases hbody
      dsimp only
      unfold docContents at hinf
      rw [isSnappy_iff] at hinf
      rw [isJson_iff, decide_eq_true_eq] at hj
      rw [hasXattr_iff, decide_eq_false_iff_not] at hx
      have hc : (decide (e.info.datatype / 2 % 2 = 1) && !isCompressed e.info.contentMeta) =
          decide (e.info.datatype / 2 % 2 = 1 ∧ isCompressed e.info.contentMeta = false) := by
        rw [Bool.decide_and]
        cases isCompressed e.info.contentMeta <;> rfl
      rw [hc] at hinf
      simp only [decide_eq_true_eq] at hinf
      rw [hinf]
      dsimp only
      rw [if_neg hx]
      dsimp only
      rw [if_pos ⟨ho, hj, hno⟩]
    · rw [h2] at hbody; cases hbody
  unfold dumpDoc
  cases hname : lib.name o e.info.id with
  | none => rfl
  | some id =>
    dsimp only
    rw [if_neg (not_corrupt inv he), hbs]

theorem dumpRun_append (a b : List DocInfo) (st : DumpState) :
    dumpRun E lib o db (a ++ b) st = dumpRun E lib o db b (dumpRun E lib o db a st) := by
  induction a generalizing st with
  | nil => rfl
  | cons d a ih => exact ih _

end Couchstore
