import Verif.Lemmas.DbDump
import Verif.Spec.DbDiff

/-! Lemmas for the program that compares two files. -/

namespace Couchstore

variable {E : Env} {db db1 db2 : Db}

/-! ### What is read -/

theorem infoOf_eq (L : E.Laws) {ids seqs locs} (inv : Inv E db ids seqs locs) (hd : db.dropped = false) (id : Bytes) :
    infoOf E db id = (entFind id ids).map (·.info) := by
  unfold infoOf
  rw [ask_eq E L inv hd (.docinfo id) trivial]
  show (match Reply.doc (foundOr (entFind id ids)) with | .doc (.ok d) => some d | _ => none) = _
  cases entFind id ids <;> rfl

theorem infoOf_id (L : E.Laws) {ids seqs locs} (inv : Inv E db ids seqs locs) (hd : db.dropped = false) {id : Bytes} {d : DocInfo}
    (h : infoOf E db id = some d) : d.id = id := by
  rw [infoOf_eq L inv hd] at h
  cases hf : entFind id ids with
  | none => rw [hf] at h; cases h
  | some e =>
    rw [hf] at h
    cases h
    exact (mem_of_entFind hf).2

theorem infoOf_mem (L : E.Laws) {ids seqs locs} (inv : Inv E db ids seqs locs) (hd : db.dropped = false) (d : DocInfo) :
    d ∈ ids.map (·.info) ↔ infoOf E db d.id = some d := by
  rw [infoOf_eq L inv hd]
  constructor
  · intro h
    obtain ⟨e, he, rfl⟩ := List.mem_map.mp h
    rw [entFind_of_mem inv.idSorted he]
    rfl
  · intro h
    cases hf : entFind d.id ids with
    | none => rw [hf] at h; cases h
    | some e =>
      rw [hf] at h
      cases h
      exact List.mem_map.mpr ⟨e, (mem_of_entFind hf).1, rfl⟩

theorem docinfoById_calm (L : E.Laws) {ids seqs locs} (inv : Inv E db ids seqs locs) (hd : db.dropped = false)
    (hf : db.file.faults = []) (id : Bytes) :
    (∃ d db', docinfoById E id db = .ok d db' ∧ infoOf E db id = some d) ∨
    (∃ db', docinfoById E id db = .error .docNotFound db' ∧ infoOf E db id = none) := by
  have h := docinfoById_spec E L db inv hd id
  rw [infoOf_eq L inv hd]
  unfold Answers Sp at h
  cases hx : docinfoById E id db with
  | ok d db' =>
    rw [hx] at h
    left
    refine ⟨d, db', rfl, ?_⟩
    cases he : entFind id ids with
    | none => rw [he] at h; cases h.2
    | some e =>
      rw [he] at h
      have := h.2
      simp only [foundOr, Except.ok.injEq] at this
      rw [← this]
      rfl
  | error e db' =>
    rw [hx] at h
    right
    rcases h.2 with h | h
    · exact absurd hf h
    · cases he : entFind id ids with
      | none =>
        rw [he] at h
        simp only [foundOr, Except.error.injEq] at h
        exact ⟨db', by rw [← h], rfl⟩
      | some x => rw [he] at h; cases h

theorem readStored_eq (L : E.Laws) {ids seqs locs} (inv : Inv E db ids seqs locs) (hd : db.dropped = false)
    (hf : db.file.faults = []) (id : Bytes) : readStored E id db = rawBodyOf E db id := by
  have h := openDocument_spec E L db inv hd id false
  unfold rawBodyOf readStored
  rw [ask_eq E L inv hd (.open id false) trivial]
  show _ = match Reply.body (openIdAns E false (entFind id ids)) with | .body (.ok b) => some b | _ => none
  unfold Answers Sp at h
  cases hx : openDocument E id false db with
  | ok b db' =>
    rw [hx] at h
    rw [h.2]
  | error e db' =>
    rw [hx] at h
    rcases h.2 with h | h
    · exact absurd hf h
    · rw [h]

theorem deepCompare_eq (L : E.Laws) {ids1 seqs1 locs1 ids2 seqs2 locs2} (inv1 : Inv E db1 ids1 seqs1 locs1)
    (hd1 : db1.dropped = false) (hf1 : db1.file.faults = []) (inv2 : Inv E db2 ids2 seqs2 locs2)
    (hd2 : db2.dropped = false) (hf2 : db2.file.faults = []) (d : DocInfo) :
    deepCompare E db1 db2 d = match infoOf E db2 d.id with
      | some o => diffPair E d o (rawBodyOf E db1 d.id) (rawBodyOf E db2 d.id)
      | none => .lines [.missing d.id false] := by
  unfold deepCompare
  rcases docinfoById_calm L inv2 hd2 hf2 d.id with ⟨o, db', h1, h2⟩ | ⟨db', h1, h2⟩
  · rw [h1, h2]
    dsimp only
    rw [infoOf_id L inv2 hd2 h2, readStored_eq L inv1 hd1 hf1, readStored_eq L inv2 hd2 hf2]
  · rw [h1, h2]

theorem checkExisting_eq (L : E.Laws) {ids seqs locs} (inv : Inv E db ids seqs locs) (hd : db.dropped = false)
    (hf : db.file.faults = []) (d : DocInfo) :
    checkExisting E db d = .lines (match infoOf E db d.id with
      | some o => if o.deleted ≠ d.deleted then [.missing d.id true] else []
      | none => [.missing d.id true]) := by
  unfold checkExisting
  rcases docinfoById_calm L inv hd hf d.id with ⟨o, db', h1, h2⟩ | ⟨db', h1, h2⟩ <;> rw [h1, h2] <;> rfl

/-! ### The walks -/

/-- What the callback leaves behind. -/
def diffRun (out : DocInfo → DiffOut) : List DocInfo → DiffState → DiffState
  | [], st => st
  | d :: ds, st => diffRun out ds (diffCb out st d).1

theorem diffCb_ok (out : DocInfo → DiffOut) (st : DiffState) (d : DocInfo) : (diffCb out st d).2 = none := by
  unfold diffCb
  cases st with
  | going ls => dsimp only; cases out d <;> rfl
  | failed ls => rfl
  | undefined => rfl

theorem feed_diff (out : DocInfo → DiffOut) (ds : List DocInfo) (st : DiffState) :
    feed (diffCb out) ds st = (diffRun out ds st, none) := by
  induction ds generalizing st with
  | nil => rfl
  | cons d ds ih =>
    unfold feed diffRun
    have := diffCb_ok out st d
    cases hc : diffCb out st d with
    | mk u e =>
      rw [hc] at this
      dsimp only at this
      subst this
      exact ih u

theorem diffWalk_eq (L : E.Laws) {ids seqs locs} (inv : Inv E db ids seqs locs) (hd : db.dropped = false)
    (hf : db.file.faults = []) (out : DocInfo → DiffOut) (st : DiffState) :
    diffWalk E out st db = diffRun out (ids.map (·.info)) st := by
  unfold diffWalk
  have h := allDocs_spec E L db inv hd none ⟨false, false, false⟩ (diffCb out) (fun h => nomatch h) st
  rw [List.filter_eq_self.mpr (by intro d _; simp [selects_all])] at h
  unfold Sp at h
  cases hx : allDocs E none ⟨false, false, false⟩ (diffCb out) st db with
  | error e d => rw [hx] at h; exact h.elim
  | ok r d =>
    rw [hx] at h
    rcases h.2 with h | h
    · rw [feed_diff] at h
      rw [← h]
    · exact absurd hf h.1

def DiffOut.ls : DiffOut → List DiffLine
  | .lines l => l
  | _ => []

theorem diffRun_stop (out : DocInfo → DiffOut) (ds : List DocInfo) {st : DiffState} (h : ∀ ls, st ≠ .going ls) :
    diffRun out ds st = st := by
  induction ds with
  | nil => rfl
  | cons d ds ih =>
    unfold diffRun
    cases st with
    | going ls => exact absurd rfl (h ls)
    | failed ls => exact ih
    | undefined => exact ih

theorem diffRun_going (out : DocInfo → DiffOut) (ds : List DocInfo) (ls0 ls : List DiffLine) :
    diffRun out ds (.going ls0) = .going ls ↔ (∀ d ∈ ds, ∃ l, out d = .lines l) ∧ ls = ls0 ++ ds.flatMap fun d => (out d).ls := by
  induction ds generalizing ls0 with
  | nil => simp [diffRun, eq_comm]
  | cons d ds ih =>
    unfold diffRun diffCb
    dsimp only
    cases ho : out d with
    | lines l =>
      dsimp only
      rw [ih]
      simp [ho, DiffOut.ls, List.append_assoc]
    | ends l =>
      dsimp only
      rw [diffRun_stop _ _ (by simp)]
      simp [ho]
    | undefined =>
      dsimp only
      rw [diffRun_stop _ _ (by simp)]
      simp [ho]

/-- If a document ends the program and none has undefined behaviour, the walk fails. -/
theorem diffRun_failed (out : DocInfo → DiffOut) (ds : List DocInfo) (ls0 : List DiffLine) (hu : ∀ d ∈ ds, out d ≠ .undefined)
    (he : ∃ d ∈ ds, ∃ l, out d = .ends l) : ∃ ls, diffRun out ds (.going ls0) = .failed ls := by
  induction ds generalizing ls0 with
  | nil => obtain ⟨d, hd, -⟩ := he; cases hd
  | cons d ds ih =>
    unfold diffRun diffCb
    dsimp only
    cases ho : out d with
    | lines l =>
      dsimp only
      apply ih
      · exact fun d hd => hu d (List.mem_cons_of_mem _ hd)
      · obtain ⟨x, hx, l', h⟩ := he
        rcases List.mem_cons.mp hx with rfl | hx
        · rw [ho] at h; cases h
        · exact ⟨x, hx, l', h⟩
    | ends l => exact ⟨_, diffRun_stop _ _ (by simp)⟩
    | undefined => exact absurd ho (hu d List.mem_cons_self)

/-! ### One document -/

theorem diffIf_nil {c : Prop} [Decidable c] {f : DiffField} : diffIf c f = [] ↔ ¬ c := by
  unfold diffIf
  split <;> simp_all

theorem diffData_nil {x y : Bytes} : diffData x y = [] ↔ x = y := by
  unfold diffData
  split
  · rename_i h
    exact ⟨fun h => (List.cons_ne_nil _ _ h).elim, fun e => absurd (congrArg List.length e) h⟩
  · rw [diffIf_nil, not_not]

theorem beDec_eq_iff {a b : Bytes} (hl : a.length = b.length) : beDec a = beDec b ↔ a = b :=
  ⟨beDec_inj hl, fun h => by rw [h]⟩

theorem drop16_eq {m n : Bytes} (hm : m.length = 18) (hn : n.length = 18) :
    (byteAt m 16 = byteAt n 16 ∧ byteAt m 17 = byteAt n 17) ↔ m.drop 16 = n.drop 16 := by
  have key : ∀ l : Bytes, l.length = 18 → l.drop 16 = [l.getD 16 0, l.getD 17 0] := by
    intro l hl
    apply List.ext_getElem
    · simp [hl]
    · intro i h1 h2
      have hi : i < 2 := by simpa using h2
      rw [List.getElem_drop]
      rcases (by omega : i = 0 ∨ i = 1) with rfl | rfl <;> simp [List.getD_eq_getElem?_getD, hl]
  rw [key m hm, key n hn]
  unfold byteAt
  simp [UInt8.toNat_inj]

theorem take12_eq {m n : Bytes} (hl : m.length = n.length) (h16 : 16 ≤ m.length) :
    m.take 12 = n.take 12 ↔ m.take 8 = n.take 8 ∧ (m.drop 8).take 4 = (n.drop 8).take 4 := by
  have h1 : m.take 12 = m.take 8 ++ (m.drop 8).take 4 := List.take_add (i := 8) (j := 4)
  have h2 : n.take 12 = n.take 8 ++ (n.drop 8).take 4 := List.take_add (i := 8) (j := 4)
  rw [h1, h2]
  constructor
  · exact fun h => List.append_inj h (by simp [hl])
  · rintro ⟨e1, e2⟩
    rw [e1, e2]

theorem diffMeta_nil {a b : DocInfo} (hb : diffBeyond a b = false) :
    diffMeta a b = [] ↔ MetaAgree a.deleted a.revMeta b.revMeta := by
  unfold diffMeta MetaAgree
  by_cases hl : a.revMeta.length = b.revMeta.length
  · rw [if_neg (not_not.mpr hl)]
    have h17 : a.revMeta.length ≠ 17 := by
      intro h
      simp [diffBeyond, ← hl, h] at hb
    by_cases h16 : 16 ≤ a.revMeta.length
    · rw [if_pos h16, if_neg (show ¬ a.revMeta.length < 16 by omega)]
      simp only [List.append_eq_nil_iff, diffIf_nil, not_not, not_and_or, Bool.not_eq_false]
      rw [beDec_eq_iff (by simp [hl]), beDec_eq_iff (by simp [hl]), beDec_eq_iff (by simp [hl]), take12_eq hl h16]
      have hlast : (if 16 < a.revMeta.length ∧ a.revMeta.length ≤ 18 then
          diffIf (byteAt a.revMeta 16 ≠ byteAt b.revMeta 16) DiffField.flexCode ++
            diffIf (byteAt a.revMeta 17 ≠ byteAt b.revMeta 17) DiffField.datatype else []) = [] ↔
          (a.revMeta.length = 18 → a.revMeta.drop 16 = b.revMeta.drop 16) := by
        by_cases h18 : a.revMeta.length = 18
        · rw [if_pos (by omega)]
          simp only [List.append_eq_nil_iff, diffIf_nil, not_not]
          rw [drop16_eq h18 (hl ▸ h18)]
          simp [h18]
        · rw [if_neg (by omega)]
          simp [h18]
      rw [hlast]
      have hdel : ((a.revMeta.drop 12).take 4 = (b.revMeta.drop 12).take 4 ∨ a.deleted = true) ↔
          (a.deleted = false → (a.revMeta.drop 12).take 4 = (b.revMeta.drop 12).take 4) := by
        cases a.deleted <;> simp
      rw [hdel]
      tauto
    · rw [if_neg h16, if_pos (show a.revMeta.length < 16 by omega), diffIf_nil, not_not]
      tauto
  · rw [if_pos hl]
    simp [hl]

theorem diffCompressed_iff {a b : DocInfo} (hb : diffBeyond a b = false) (hl : a.revMeta.length = b.revMeta.length) :
    diffCompressed a b = !a.saysSnappy := by
  have h17 : a.revMeta.length ≠ 17 := by
    intro h
    simp [diffBeyond, ← hl, h] at hb
  unfold diffCompressed diffDatatype DocInfo.saysSnappy
  rw [isSnappy_iff]
  unfold DocInfo.datatype byteAt
  by_cases h18 : a.revMeta.length = 18
  · rw [if_pos ⟨hl, by omega, by omega⟩, if_pos (by omega), h18]
    have : ∀ n : Nat, (n / 2 % 2 == 0) = !decide (n / 2 % 2 = 1) := by
      intro n
      rcases Nat.mod_two_eq_zero_or_one (n / 2) with h | h <;> simp [h]
    simp [this]
  · rw [if_neg (by omega)]
    simp [h18]

theorem diffPair_nil {a b : DocInfo} {x y : Option Bytes} : diffPair E a b x y = .lines [] ↔ DocsAgree E a b x y := by
  unfold diffPair
  cases hb : diffBeyond a b with
  | true =>
    constructor
    · intro h; cases h
    · intro h
      simp only [diffBeyond, Bool.and_eq_true, beq_iff_eq] at hb
      exact absurd hb.1 h.kv.2.1
  | false =>
    have hc := diffCompressed_iff (a := a) (b := b) hb
    rw [if_neg (by simp)]
    have hinfo : diffInfo a b = [] ↔ (a.dbSeq = b.dbSeq ∧ a.revSeq = b.revSeq ∧ MetaAgree a.deleted a.revMeta b.revMeta ∧
        a.deleted = b.deleted ∧ a.contentMeta = b.contentMeta ∧ (a.saysSnappy = true → a.physicalSize = b.physicalSize)) := by
      unfold diffInfo
      simp only [List.append_eq_nil_iff, diffIf_nil, not_not, not_and_or, Bool.not_eq_false, diffMeta_nil hb, and_assoc]
      constructor
      · rintro ⟨h1, h2, h3, h4, h5, h6⟩
        refine ⟨h1, h2, h3, h4, h5, fun hs => h6.resolve_right ?_⟩
        rw [hc h3.1, hs]
        simp
      · rintro ⟨h1, h2, h3, h4, h5, h6⟩
        refine ⟨h1, h2, h3, h4, h5, ?_⟩
        rw [hc h3.1]
        cases hs : a.saysSnappy with
        | true => exact Or.inl (h6 hs)
        | false => right; rfl
    have hbody : ∀ (hl : a.revMeta.length = b.revMeta.length), (∃ fs, diffBody E a b x y = some fs ∧ fs = []) ↔
        (a.deleted = false → ∃ p q, x = some p ∧ y = some q ∧
          if a.saysSnappy then p = q else ∃ z, E.inflate p = some z ∧ E.inflate q = some z) := by
      intro hl
      unfold diffBody
      rw [hc hl]
      cases hdel : a.deleted with
      | true => simp
      | false =>
        simp only [Bool.false_eq_true, if_false, forall_const]
        cases x with
        | none => simp
        | some p =>
          cases y with
          | none => simp
          | some q =>
            dsimp only
            cases a.saysSnappy with
            | true => simp [diffData_nil]
            | false =>
              simp only [Bool.not_false, if_true, Bool.false_eq_true, if_false]
              cases hp : E.inflate p with
              | none => simp [hp]
              | some p' =>
                cases hq : E.inflate q with
                | none => simp [hq]
                | some q' => simp [hp, hq, diffData_nil, eq_comm]
    constructor
    · intro h
      cases hf : diffBody E a b x y with
      | none => rw [hf] at h; cases h
      | some fs =>
        rw [hf] at h
        simp only [DiffOut.lines.injEq, List.map_eq_nil_iff, List.append_eq_nil_iff] at h
        obtain ⟨h1, h2, h3, h4, h5, h6⟩ := hinfo.mp h.1
        exact ⟨h1, h2, h4, h5, h3, h6, (hbody h3.1).mp ⟨fs, hf, h.2⟩⟩
    · intro h
      obtain ⟨fs, h1, rfl⟩ := (hbody h.kv.1).mpr h.body
      rw [h1, hinfo.mpr ⟨h.seq, h.rev, h.kv, h.deleted, h.contentMeta, h.size⟩]
      rfl

/-- The lines for a document that is in both files name it. -/
theorem diffPair_lines {a b : DocInfo} {x y : Option Bytes} {ls : List DiffLine} (h : diffPair E a b x y = .lines ls) :
    ∀ l ∈ ls, ∃ f, l = .differs a.id f := by
  unfold diffPair at h
  split at h
  · cases h
  · split at h
    · cases h
      intro l hl
      obtain ⟨f, -, rfl⟩ := List.mem_map.mp hl
      exact ⟨f, rfl⟩
    · cases h

theorem mem_diffIf {c : Prop} [Decidable c] {f g : DiffField} : g ∈ diffIf c f ↔ g = f ∧ c := by
  unfold diffIf
  split <;> simp_all

theorem byteAt_eq {m n : Bytes} (hm : m.length = 18) (hn : n.length = 18) (i : Nat) (hi : i < 18) :
    byteAt m i = byteAt n i ↔ m[i]? = n[i]? := by
  unfold byteAt
  rw [List.getD_eq_getElem?_getD, List.getD_eq_getElem?_getD, List.getElem?_eq_getElem (by omega), List.getElem?_eq_getElem (by omega)]
  simp [UInt8.toNat_inj]

theorem mem_diffMeta {a b : DocInfo} (hb : diffBeyond a b = false) (f : DiffField) : f ∈ diffMeta a b ↔
    (f = .metaSize ∧ a.revMeta.length ≠ b.revMeta.length) ∨
    (f = .cas ∧ BothKv a b ∧ a.revMeta.take 8 ≠ b.revMeta.take 8) ∨
    (f = .expiry ∧ BothKv a b ∧ (a.revMeta.drop 8).take 4 ≠ (b.revMeta.drop 8).take 4) ∨
    (f = .flags ∧ BothKv a b ∧ (a.revMeta.drop 12).take 4 ≠ (b.revMeta.drop 12).take 4 ∧ a.deleted = false) ∨
    (f = .flexCode ∧ a.revMeta.length = 18 ∧ b.revMeta.length = 18 ∧ a.revMeta[16]? ≠ b.revMeta[16]?) ∨
    (f = .datatype ∧ a.revMeta.length = 18 ∧ b.revMeta.length = 18 ∧ a.revMeta[17]? ≠ b.revMeta[17]?) ∨
    (f = .metaBytes ∧ a.revMeta.length = b.revMeta.length ∧ a.revMeta.length < 16 ∧ a.revMeta ≠ b.revMeta) := by
  unfold diffMeta BothKv
  by_cases hl : a.revMeta.length = b.revMeta.length
  · rw [if_neg (not_not.mpr hl)]
    have h17 : a.revMeta.length ≠ 17 := by
      intro h
      simp [diffBeyond, ← hl, h] at hb
    by_cases h16 : 16 ≤ a.revMeta.length
    · rw [if_pos h16]
      have hlt : ¬ a.revMeta.length < 16 := by omega
      have e1 := beDec_eq_iff (a := a.revMeta.take 8) (b := b.revMeta.take 8) (by simp [hl])
      have e2 := beDec_eq_iff (a := (a.revMeta.drop 8).take 4) (b := (b.revMeta.drop 8).take 4) (by simp [hl])
      have e3 := beDec_eq_iff (a := (a.revMeta.drop 12).take 4) (b := (b.revMeta.drop 12).take 4) (by simp [hl])
      by_cases h18 : a.revMeta.length = 18
      · have h18' : b.revMeta.length = 18 := hl ▸ h18
        have e4 := byteAt_eq h18 h18' 16 (by omega)
        have e5 := byteAt_eq h18 h18' 17 (by omega)
        rw [if_pos (show 16 < a.revMeta.length ∧ a.revMeta.length ≤ 18 by omega)]
        simp only [List.mem_append, mem_diffIf, ne_eq, e1, e2, e3, e4, e5]
        simp only [h18, h18']
        simp [or_assoc]
      · rw [if_neg (show ¬ (16 < a.revMeta.length ∧ a.revMeta.length ≤ 18) by omega)]
        simp only [List.mem_append, mem_diffIf, ne_eq, e1, e2, e3]
        have k1 : ¬ b.revMeta.length = 18 := by omega
        have k2 : ¬ b.revMeta.length < 16 := by omega
        have k3 : 16 ≤ b.revMeta.length := by omega
        simp [or_assoc, hl, k1, k2, k3]
    · rw [if_neg h16, mem_diffIf]
      have k1 : ¬ b.revMeta.length = 18 := by omega
      have k2 : b.revMeta.length < 16 := by omega
      have k3 : ¬ 16 ≤ b.revMeta.length := by omega
      simp [hl, k1, k2, k3]
  · rw [if_pos hl]
    have : ¬ (a.revMeta.length = 18 ∧ b.revMeta.length = 18) := fun h => hl (h.1.trans h.2.symm)
    simp [hl]
    rintro (⟨-, h1, h2, -⟩ | ⟨-, h1, h2, -⟩)
    · exact absurd ⟨h1, h2⟩ this
    · exact absurd ⟨h1, h2⟩ this

theorem diffCompressed_eq {a b : DocInfo} (hb : diffBeyond a b = false) :
    diffCompressed a b = !(a.saysSnappy && a.revMeta.length == b.revMeta.length) := by
  by_cases hl : a.revMeta.length = b.revMeta.length
  · rw [diffCompressed_iff hb hl]
    simp [hl]
  · unfold diffCompressed diffDatatype
    rw [if_neg (fun h => hl h.1)]
    have : (a.revMeta.length == b.revMeta.length) = false := by simpa using hl
    rw [this, Bool.and_false]
    rfl

theorem diffBody_eq {a b : DocInfo} (hb : diffBeyond a b = false) (x y : Option Bytes) :
    diffBody E a b x y = if a.deleted then some [] else
      match comparedBody E a b x, comparedBody E a b y with
      | some p, some q => some (diffData p q)
      | _, _ => none := by
  unfold diffBody comparedBody
  rw [diffCompressed_eq hb]
  cases a.deleted with
  | true => rfl
  | false =>
    simp only [Bool.false_eq_true, if_false]
    cases (a.saysSnappy && a.revMeta.length == b.revMeta.length) with
    | true => cases x <;> cases y <;> rfl
    | false =>
      cases x with
      | none => cases y <;> rfl
      | some p =>
        simp only [Bool.not_false, if_true, Bool.false_eq_true, if_false, Option.bind_some]
        cases y with
        | none => cases E.inflate p <;> rfl
        | some q =>
          simp only [Option.bind_some]
          cases E.inflate p <;> cases E.inflate q <;> rfl

theorem mem_diffData {p q : Bytes} {f : DiffField} :
    f ∈ diffData p q ↔ (f = .bodySize ∧ p.length ≠ q.length) ∨ (f = .body ∧ p.length = q.length ∧ p ≠ q) := by
  unfold diffData
  by_cases h : p.length = q.length
  · rw [if_neg (not_not.mpr h), mem_diffIf]
    simp [h]
  · rw [if_pos h]
    simp [h]

/-- The lines for a document that is in both files say what differs. -/
theorem mem_diffPair {a b : DocInfo} {x y : Option Bytes} {ls : List DiffLine} (h : diffPair E a b x y = .lines ls)
    (id : Bytes) (f : DiffField) : .differs id f ∈ ls ↔ id = a.id ∧ FieldDiffers E a b x y f := by
  unfold diffPair at h
  cases hb : diffBeyond a b with
  | true => rw [hb] at h; cases h
  | false =>
    rw [hb, diffBody_eq hb] at h
    have hsz : (a.physicalSize ≠ b.physicalSize ∧ diffCompressed a b = false) ↔
        (a.saysSnappy = true ∧ a.revMeta.length = b.revMeta.length ∧ a.physicalSize ≠ b.physicalSize) := by
      rw [diffCompressed_eq hb]
      simp only [Bool.not_eq_false', Bool.and_eq_true, beq_iff_eq]
      tauto
    have hi : ∀ f, f ∈ diffInfo a b ↔ (f ≠ .bodySize ∧ f ≠ .body ∧ FieldDiffers E a b x y f) := by
      intro f
      unfold diffInfo
      simp only [List.mem_append, mem_diffIf, mem_diffMeta hb, hsz]
      cases f <;> simp [FieldDiffers]
    simp only [Bool.false_eq_true, if_false] at h
    have key : ∀ fs, ls = (diffInfo a b ++ fs).map (DiffLine.differs a.id) →
        (∀ f, f ∈ fs ↔ (f = .bodySize ∨ f = .body) ∧ FieldDiffers E a b x y f) →
        (.differs id f ∈ ls ↔ id = a.id ∧ FieldDiffers E a b x y f) := by
      rintro fs rfl hfs
      simp only [List.mem_map, List.mem_append, DiffLine.differs.injEq, hi, hfs]
      constructor
      · rintro ⟨g, hg, rfl, rfl⟩
        exact ⟨rfl, hg.elim (fun h => h.2.2) (fun h => h.2)⟩
      · rintro ⟨rfl, hf⟩
        refine ⟨f, ?_, rfl, rfl⟩
        by_cases h1 : f = .bodySize
        · exact Or.inr ⟨Or.inl h1, hf⟩
        · by_cases h2 : f = .body
          · exact Or.inr ⟨Or.inr h2, hf⟩
          · exact Or.inl ⟨h1, h2, hf⟩
    cases hdel : a.deleted with
    | true =>
      rw [hdel] at h
      simp only [if_true, DiffOut.lines.injEq] at h
      refine key [] h.symm fun f => ?_
      constructor
      · intro h; cases h
      · rintro ⟨h1 | h1, h2⟩ <;> subst h1 <;> exact absurd (hdel.symm.trans h2.1) (by simp)
    | false =>
      rw [hdel] at h
      simp only [Bool.false_eq_true, if_false] at h
      cases hp : comparedBody E a b x with
      | none => rw [hp] at h; cases h
      | some p =>
        cases hq : comparedBody E a b y with
        | none => rw [hp, hq] at h; cases h
        | some q =>
          rw [hp, hq] at h
          simp only [DiffOut.lines.injEq] at h
          refine key _ h.symm fun f => ?_
          rw [mem_diffData]
          cases f <;> simp [FieldDiffers, hp, hq, hdel]

/-! ### The whole program -/

/-- What the first walk prints for a document. -/
def deepOut (E : Env) (db1 db2 : Db) (d : DocInfo) : DiffOut :=
  match infoOf E db2 d.id with
  | some o => diffPair E d o (rawBodyOf E db1 d.id) (rawBodyOf E db2 d.id)
  | none => .lines [.missing d.id false]

/-- What the second walk prints. -/
def existOut (E : Env) (db1 : Db) (d : DocInfo) : DiffOut :=
  .lines (match infoOf E db1 d.id with
    | some o => if o.deleted ≠ d.deleted then [.missing d.id true] else []
    | none => [.missing d.id true])

theorem diffDb_eq (L : E.Laws) {ids1 seqs1 locs1 ids2 seqs2 locs2} (inv1 : Inv E db1 ids1 seqs1 locs1)
    (hd1 : db1.dropped = false) (hf1 : db1.file.faults = []) (inv2 : Inv E db2 ids2 seqs2 locs2)
    (hd2 : db2.dropped = false) (hf2 : db2.file.faults = []) :
    diffDb E db1 db2 = match diffRun (deepOut E db1 db2) (ids1.map (·.info)) (.going []) with
      | .going ls =>
        if (ls ++ (ids2.map (·.info)).flatMap fun d => (existOut E db1 d).ls).isEmpty then .same
        else .differ (ls ++ (ids2.map (·.info)).flatMap fun d => (existOut E db1 d).ls)
      | .failed ls => .failed ls
      | .undefined => .undefined := by
  have h1 : deepCompare E db1 db2 = deepOut E db1 db2 := funext fun d => deepCompare_eq L inv1 hd1 hf1 inv2 hd2 hf2 d
  have h2 : checkExisting E db1 = existOut E db1 := funext fun d => checkExisting_eq L inv1 hd1 hf1 d
  unfold diffDb
  rw [h1, h2, diffWalk_eq L inv1 hd1 hf1]
  cases diffRun (deepOut E db1 db2) (ids1.map (·.info)) (.going []) with
  | failed ls => rfl
  | undefined => rfl
  | going ls =>
    dsimp only
    rw [diffWalk_eq L inv2 hd2 hf2,
      (diffRun_going (existOut E db1) (ids2.map (·.info)) ls _).mpr ⟨fun d _ => ⟨_, rfl⟩, rfl⟩]

end Couchstore
