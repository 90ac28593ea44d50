import Verif.Lemmas.Recover

/-! Helper lemmas: what compaction in recovery mode copies. -/

namespace Couchstore

variable {υ : Type}

/-- The body of the document cannot be read. -/
def bodyGone (E : Env) (f : File) (e : Entry) : Bool :=
  e.raw.isSome && (match preadBin E e.info.bp f with | .ok _ _ => false | .error _ _ => true)

/-- Tombstones are dropped only without a filter. -/
def dropNow (drop : Bool) (flt : Option (CompactFilter υ)) : Bool := drop && flt.isNone

theorem keepItem_all {E : Env} {flt : Option (CompactFilter υ)} (hk : KeepsAll flt) (e : Entry) (hok : DocOk e.info)
    (bp : Nat) (st : CompactSt υ) :
    ∃ u, keepItem E flt (enc48 e.info.dbSeq) (assembleSeqIndexValue e.info) bp st = .ok (true, none) { st with user := u } := by
  unfold keepItem
  cases flt with
  | none => exact ⟨st.user, rfl⟩
  | some g =>
    refine ⟨(g st.user (some e.info) none).1, ?_⟩
    dsimp only
    unfold filterItem
    rw [bySeq_roundtrip _ hok.fits]
    dsimp only
    rw [bind_ok (callFilter_eq _ _ _ _), hk g rfl]
    rfl

/-- What happens to one document. -/
theorem compactSeqFetch_damaged (E : Env) (L : E.Laws) {f0 f tgt : File} (D : DamagedFile E f0 f)
    (hcrc : f0.cfg.crcMode ≠ .unknown) (ht0 : tgt.faults = []) (drop : Bool) (flt : Option (CompactFilter υ))
    (hk : KeepsAll flt) {cfg : Cfg} (ht : 2 ≤ cfg.kvThr) (st : CompactSt υ) {moved : List Entry}
    (C : CInv E f tgt st moved) (e : Entry) (hok : DocOk e.info) (hb : BodyAt E f0 e) :
    Sp (compactSeqFetch E (seqRq cfg) drop flt none (enc48 e.info.dbSeq) (assembleSeqIndexValue e.info)) st
      (fun _ st' => ((dropNow drop flt && e.info.deleted) = true ∧ CInv E f tgt st' moved) ∨
        ((dropNow drop flt && e.info.deleted) = false ∧ bodyGone E f e = false ∧
          ∃ e', Moved e e' ∧ CInv E f tgt st' (moved ++ [e'])))
      (fun er st' => er = .formatLimit ∨
        ((dropNow drop flt && e.info.deleted) = false ∧ bodyGone E f e = true ∧ CInv E f tgt st' moved)) := by
  have P := seqValueParts e.info
  have hbp := hok.fits.bp
  unfold compactSeqFetch
  rw [if_neg (by rw [P.len]; omega)]
  dsimp only
  rw [P.e1, beDec_beEnc 6 (bpField e.info) (by have := bpField_lt e.info hbp; simpa using this),
    (bpField_split _ hbp).1, (bpField_split _ hbp).2]
  have hd : (e.info.deleted && flt.isNone && drop) = (dropNow drop flt && e.info.deleted) := by
    unfold dropNow
    cases e.info.deleted <;> cases flt.isNone <;> cases drop <;> rfl
  rw [hd]
  by_cases hc : (dropNow drop flt && e.info.deleted) = true
  · rw [if_pos hc]
    exact Or.inl ⟨hc, C⟩
  · rw [if_neg hc]
    have hc' : (dropNow drop flt && e.info.deleted) = false := by simpa using hc
    obtain ⟨u, hu⟩ := keepItem_all (E := E) hk e hok e.info.bp st
    have CU : CInv E f tgt { st with user := u } moved := ⟨C.src, C.ext, C.wf, C.pos, C.mr, C.mod, C.added, C.ok⟩
    unfold Sp
    rw [bind_ok hu]
    dsimp only
    rw [if_pos rfl]
    have hsrc : st.src = f := C.src.same D.faults
    have hcause : ∀ er, ¬ Cause (υ := υ) f tgt none er ∨ er = .formatLimit := by
      intro er
      by_cases h : er = .formatLimit
      · exact Or.inr h
      · left
        rintro (h1 | h1 | h1 | h1)
        · exact h1 D.faults
        · exact h1 ht0
        · exact h h1
        · obtain ⟨g, h2, -⟩ := h1
          cases h2
    have hread : ∀ b, e.raw = some b → (preadBin E e.info.bp f = .ok b f ∧ bodyGone E f e = false) ∨
        ∃ x, preadBin E e.info.bp f = .error x f ∧ bodyGone E f e = true := by
      intro b hr
      have hch : e.info.bp ≠ 0 ∧ ChunkAt E f0 e.info.bp b := by
        unfold BodyAt at hb
        rw [hr] at hb
        exact hb
      rcases D.chunk L hcrc hch.2 with h | ⟨x, h⟩
      · exact Or.inl ⟨h, by unfold bodyGone; rw [h, hr]; rfl⟩
      · exact Or.inr ⟨x, h, by unfold bodyGone; rw [h, hr]; rfl⟩
    have key := copyItem_core E (flt := none) ht { st with user := u } CU none (fun _ h => nomatch h) e hok none hb.shape
      (R := fun _ st' => st' = { st with user := u } ∧ bodyGone E f e = true) (by
        intro b hr
        show Sp (onSrc (preadBin E e.info.bp)) _ _ _
        unfold Sp onSrc
        dsimp only
        rw [hsrc]
        rcases hread b hr with ⟨h, -⟩ | ⟨x, h, h2⟩
        · rw [h]
          exact ⟨rfl, f, rfl, RFrame.refl _⟩
        · rw [h]
          refine ⟨?_, h2⟩
          rw [← hsrc])
    have hgone : bodyGone E f e = true → ∃ x, copyItem E (seqRq cfg) none (enc48 e.info.dbSeq) (assembleSeqIndexValue e.info)
        (bpField e.info) none { st with user := u } = .error x { st with user := u } := by
      intro hg
      cases hr : e.raw with
      | none => unfold bodyGone at hg; rw [hr] at hg; cases hg
      | some b =>
        rcases hread b hr with ⟨-, h⟩ | ⟨x, h, -⟩
        · rw [hg] at h; cases h
        · refine ⟨x, ?_⟩
          have hb0 : e.info.bp ≠ 0 := by
            have := hb.shape
            unfold BodyShape at this
            rw [hr] at this
            exact this
          unfold copyItem
          dsimp only
          rw [(bpField_split _ hbp).1, if_pos hb0]
          apply bind_error
          show onSrc (preadBin E e.info.bp) _ = _
          unfold onSrc
          dsimp only
          rw [hsrc, h]
    unfold Sp at key
    cases hcp : copyItem E (seqRq cfg) none (enc48 e.info.dbSeq) (assembleSeqIndexValue e.info) (bpField e.info) none
        { st with user := u } with
    | ok a st' =>
      rw [hcp] at key
      obtain ⟨e', k1, k2, -⟩ := key
      refine Or.inr ⟨hc', ?_, e', k1, k2⟩
      cases hg : bodyGone E f e with
      | false => rfl
      | true =>
        obtain ⟨x, hx⟩ := hgone hg
        rw [hx] at hcp
        cases hcp
    | error x st' =>
      rw [hcp] at key
      rcases key with k | ⟨rfl, k⟩
      · exact Or.inl ((hcause x).resolve_left fun h => h k)
      · exact Or.inr ⟨hc', k, CU⟩

/-- The documents that are copied. -/
def keptDoc (E : Env) (f : File) (drop : Bool) (e : Entry) : Bool := !(drop && e.info.deleted) && !bodyGone E f e

/-- Why a document is not copied although it is met. -/
def skippedDoc (E : Env) (f : File) (drop : Bool) (e : Entry) : Bool := !(drop && e.info.deleted) && bodyGone E f e

theorem visitMet_ok {σ : Type} (tol : Bool) (fetch : σ → Bytes → Option Bytes → σ × Option Err) (kv : KV)
    (r : List (Except Err KV)) (u : σ) (ec : Option Err) :
    visitMet tol fetch (.ok kv :: r) u ec =
      match tolerateOr tol (fetch u kv.1 (some kv.2)).2 ec with
      | .error x => ((fetch u kv.1 (some kv.2)).1, some x)
      | .ok ec => visitMet tol fetch r (fetch u kv.1 (some kv.2)).1 ec := rfl

theorem none_iff (kv : KV) (e : Entry) (l : List Entry) (evs : List (Except Err KV)) (ec : Option Err) (P : Entry → Bool) :
    (ec = none ∧ (∀ x, .error x ∉ (.ok kv :: evs)) ∧ ∀ x ∈ e :: l, P x = false) ↔
      P e = false ∧ ec = none ∧ (∀ x, .error x ∉ evs) ∧ ∀ x ∈ l, P x = false := by
  constructor
  · rintro ⟨h1, h2, h3⟩
    exact ⟨h3 e (by simp), h1, fun x hx => h2 x (by simp [hx]), fun x hx => h3 x (by simp [hx])⟩
  · rintro ⟨h0, h1, h2, h3⟩
    refine ⟨h1, fun x hx => ?_, fun x hx => ?_⟩
    · rcases List.mem_cons.mp hx with h | h
      · cases h
      · exact h2 x h
    · rcases List.mem_cons.mp hx with rfl | h
      · exact h0
      · exact h3 x h

theorem visit_recover (E : Env) (L : E.Laws) {f0 f tgt : File} (D : DamagedFile E f0 f)
    (hcrc : f0.cfg.crcMode ≠ .unknown) (ht0 : tgt.faults = []) (drop : Bool) (flt : Option (CompactFilter υ))
    (hk : KeepsAll flt) {cfg : Cfg} (ht : 2 ≤ cfg.kvThr) (evs : List (Except Err KV)) (l : List Entry)
    (hl : oks evs = seqKVs l) (hok : ∀ e ∈ l, DocOk e.info ∧ BodyAt E f0 e) (st : CompactSt υ) {moved : List Entry}
    (C : CInv E f tgt st moved) (ec : Option Err) :
    (visitMet true (recoverFetch E (seqRq cfg) drop flt none) evs (st, false) ec).1.2 = true ∨
    ((visitMet true (recoverFetch E (seqRq cfg) drop flt none) evs (st, false) ec).1.2 = false ∧
      (∃ moved', List.Forall₂ Moved (l.filter (keptDoc E f (dropNow drop flt))) moved' ∧
        CInv E f tgt (visitMet true (recoverFetch E (seqRq cfg) drop flt none) evs (st, false) ec).1.1 (moved ++ moved')) ∧
      ((visitMet true (recoverFetch E (seqRq cfg) drop flt none) evs (st, false) ec).2 = none ↔
        ec = none ∧ (∀ e, .error e ∉ evs) ∧ ∀ e ∈ l, skippedDoc E f (dropNow drop flt) e = false)) := by
  have stuck : ∀ (evs : List (Except Err KV)) (st : CompactSt υ) (ec : Option Err),
      (visitMet true (recoverFetch E (seqRq cfg) drop flt none) evs (st, true) ec).1.2 = true := by
    intro evs
    induction evs with
    | nil => intros; rfl
    | cons x evs ih =>
      intro st ec
      cases x with
      | error e => exact ih st (some e)
      | ok kv =>
        simp only [visitMet]
        cases hr : (recoverFetch E (seqRq cfg) drop flt none (st, true) kv.1 (some kv.2)).2 with
        | none => exact ih _ _
        | some e => exact ih _ _
  induction evs generalizing l st moved ec with
  | nil =>
    have hl : l = [] := List.map_eq_nil_iff.mp hl.symm
    subst hl
    exact Or.inr ⟨rfl, ⟨[], .nil, by rw [List.append_nil]; exact C⟩, by simp [visitMet]⟩
  | cons x evs ih =>
    cases x with
    | error e =>
      rcases ih l hl hok st C (some e) with h | ⟨h1, h2, h3⟩
      · exact Or.inl h
      · refine Or.inr ⟨h1, h2, ?_⟩
        show (visitMet true (recoverFetch E (seqRq cfg) drop flt none) evs (st, false) (some e)).2 = none ↔ _
        rw [h3]
        exact ⟨(fun h => nomatch h.1), fun h => absurd (List.mem_cons_self ..) (h.2.1 e)⟩
    | ok kv =>
      cases l with
      | nil => cases hl
      | cons e l =>
        have hl' : kv :: oks evs = seqKV e.info :: seqKVs l := hl
        injection hl' with hkv hl'
        subst hkv
        obtain ⟨hdoc, hbody⟩ := hok e (by simp)
        have hok' : ∀ x ∈ l, DocOk x.info ∧ BodyAt E f0 x := fun x hx => hok x (by simp [hx])
        have S := compactSeqFetch_damaged E L D hcrc ht0 drop flt hk ht st C e hdoc hbody
        unfold Sp at S
        rw [visitMet_ok]
        cases hf : compactSeqFetch E (seqRq cfg) drop flt none (enc48 e.info.dbSeq) (assembleSeqIndexValue e.info) st with
        | ok a s1 =>
          rw [hf] at S
          have hr : recoverFetch E (seqRq cfg) drop flt none (st, false) (seqKV e.info).1 (some (seqKV e.info).2) =
              ((s1, false), none) := by
            unfold recoverFetch runFetch seqKV
            dsimp only
            rw [hf]
            rfl
          rw [hr]
          dsimp only [tolerateOr] at S ⊢
          rcases S with ⟨s2, C1⟩ | ⟨s2, s3, e', s4, C1⟩
          · rcases ih l hl' hok' s1 C1 ec with h | ⟨h1, h2, h3⟩
            · exact Or.inl h
            · refine Or.inr ⟨h1, ?_, ?_⟩
              · rw [List.filter_cons_of_neg (by simp [keptDoc, s2])]
                exact h2
              · rw [h3, none_iff]
                exact ⟨fun h => ⟨by simp [skippedDoc, s2], h⟩, fun h => h.2⟩
          · rcases ih l hl' hok' s1 C1 ec with h | ⟨h1, ⟨moved', h2, h2'⟩, h3⟩
            · exact Or.inl h
            · refine Or.inr ⟨h1, ⟨e' :: moved', ?_, ?_⟩, ?_⟩
              · rw [List.filter_cons_of_pos (by simp [keptDoc, s2, s3])]
                exact .cons s4 h2
              · rw [List.append_assoc] at h2'
                exact h2'
              · rw [h3, none_iff]
                exact ⟨fun h => ⟨by simp [skippedDoc, s3], h⟩, fun h => h.2⟩
        | error x s1 =>
          rw [hf] at S
          have hr : recoverFetch E (seqRq cfg) drop flt none (st, false) (seqKV e.info).1 (some (seqKV e.info).2) =
              ((s1, decide (x = Err.formatLimit)), some x) := by
            unfold recoverFetch runFetch seqKV
            dsimp only
            rw [hf]
            simp
          rw [hr]
          dsimp only [tolerateOr] at S ⊢
          rcases S with rfl | ⟨s2, s3, C1⟩
          · exact Or.inl (stuck _ _ _)
          · by_cases hx : x = .formatLimit
            · subst hx
              exact Or.inl (stuck _ _ _)
            · rw [decide_eq_false hx]
              rcases ih l hl' hok' s1 C1 (some x) with h | ⟨h1, h2, h3⟩
              · exact Or.inl h
              · refine Or.inr ⟨h1, ?_, ?_⟩
                · rw [List.filter_cons_of_neg (by simp [keptDoc, s2, s3])]
                  exact h2
                · rw [h3, none_iff]
                  exact ⟨(fun h => nomatch h.1), fun h => absurd h.1 (by simp [skippedDoc, s2, s3])⟩

/-! ### Which documents a traversal meets -/

theorem btreeLookup_of {σ : Type} {E : Env} {rq : LookRq σ} {fold : Bool} {root : Nat} {keys : List Bytes} {u : σ} {f : File}
    {st : LSt σ} {e : Option Err}
    (h : lookInner E rq (f.disk.length + 1) root keys ⟨u, fold, false⟩ f = .ok (st, e) f) :
    btreeLookup E rq fold root keys u f = .ok (st.user, e) f := by
  unfold btreeLookup
  show (lookInner E rq (f.disk.length + 1) root keys ⟨u, fold, false⟩ >>= _) f = _
  rw [bind_ok h]
  rfl

theorem root_met (E : Env) (L : E.Laws) {X : Idx} {cmp : Bytes → Bytes → Ordering} {K}
    (C : CmpLaws (lookupCompare cmp) K) (hV : ∀ kv, X.V kv → K kv.1 ∧ kv.1.length < 4096) {f0 f : File}
    (D : DamagedFile E f0 f) (w : f0.WF) (p : NodePointer) (kvs : List KV) (h : RootAt E X f0 (some p) kvs)
    (hs : SortedKV (lookupCompare cmp) kvs) :
    ∃ evs, MetAt cmp f kvs evs fun rq => lookInner E rq (f.disk.length + 1) p.pointer := by
  obtain ⟨l, ht⟩ := h
  have := ht.height
  have := ht.pointer_lt
  have := w.pos_le
  have := D.length
  exact lookInner_met E L C hV D w _ l (by omega) p kvs ht hs

/-- Is the document met? -/
def reached (evs : List (Except Err KV)) (e : Entry) : Bool := decide (seqKV e.info ∈ oks evs)

theorem seqKV_inj {d d' : DocInfo} (h : DocOk d) (h' : DocOk d') (he : seqKV d = seqKV d') : d = d' := by
  have h1 := bySeq_roundtrip d h.fits
  have h2 := bySeq_roundtrip d' h'.fits
  unfold seqKV at he
  injection he with e1 e2
  rw [e1, e2, h2] at h1
  injection h1 with h1
  exact h1.symm

theorem met_entries {seqs : List Entry} (hs : SeqSorted seqs) (hok : ∀ e ∈ seqs, DocOk e.info) {evs : List (Except Err KV)}
    (h : (oks evs).Sublist (seqKVs seqs)) : oks evs = seqKVs (seqs.filter (reached evs)) := by
  obtain ⟨l, h1, h2⟩ := List.sublist_map_iff.mp h
  have hn : (seqs.map (·.info)).Nodup := by
    have := sorted_seqs_nodup hs
    unfold List.Nodup at this ⊢
    rw [List.pairwise_map] at this ⊢
    exact this.imp fun h he => h (by rw [he])
  have h3 := sublist_filter h1 hn
  have h4 : l = seqs.filter (reached evs) := by
    conv_lhs => rw [h3]
    apply List.filter_congr
    intro e he
    unfold reached
    rw [h2, Bool.not_not, Bool.eq_iff_iff, List.contains_iff_mem, decide_eq_true_iff, List.mem_map, List.mem_map]
    constructor
    · rintro ⟨a, ha, hi⟩
      exact ⟨a, ha, by rw [hi]⟩
    · rintro ⟨a, ha, hi⟩
      exact ⟨a, ha, seqKV_inj (hok a (h1.subset ha)) (hok e he) hi⟩
  rw [h2, ← h4]
  rfl

theorem calm_of {db : Db} (h : db.file.faults = []) : db.calm = db := by
  obtain ⟨⟨_, _, _, faults, _⟩, _⟩ := db
  cases h
  rfl

/-- The documents that are beyond recovery. -/
theorem lost_eq {E : Env} {db0 db : Db} {ids seqs locs} (inv : Inv E db0 ids seqs locs)
    (hd : db0.dropped = false) (D : DamagedFile E db0.file db.file) (hdb : db = { db0 with file := db.file }) {p : NodePointer}
    (hp : db0.header.bySeqRoot = some p) {evs : List (Except Err KV)}
    (M : MetAt seqCmp db.file (seqKVs seqs) evs fun rq => lookInner E rq (db.file.disk.length + 1) p.pointer) {e : Entry}
    (he : e ∈ seqs) :
    lost E db e.info = (!reached evs e || bodyGone E db.file e) := by
  have hok := inv.seqOk e he
  have hbody := inv.body e (inv.perm.mem_iff.mp he)
  have hd' : db.dropped = false := by rw [hdb]; exact hd
  have hp' : db.header.bySeqRoot = some p := by rw [hdb]; exact hp
  have hcalm : db.calm = db := calm_of D.faults
  obtain ⟨q, hq⟩ : ∃ q, db.header.byIdRoot = some q := by
    have : ∃ q, db0.header.byIdRoot = some q := by
      obtain ⟨hn1, hn2⟩ := inv.roots_none
      cases hr : db0.header.byIdRoot with
      | some q => exact ⟨q, rfl⟩
      | none =>
        have := hn1.mp hr
        subst this
        have : seqs = [] := List.perm_nil.mp inv.perm
        subst this
        cases he
    rw [hdb]; exact this
  have hrq : MetRq (docinfoRq seqCmp bySeqReadDocInfo) seqCmp := ⟨rfl, rfl⟩
  have hget : ∀ r, btreeLookup E (docinfoRq seqCmp bySeqReadDocInfo) false p.pointer [enc48 e.info.dbSeq] none db.file =
      .ok r db.file → docinfoBySequence E e.info.dbSeq db = docinfoResult r db := by
    intro r hr
    unfold docinfoBySequence
    show (if db.dropped = true then throw Err.fileClosed else _ : DbM DocInfo) db = _
    rw [hd', if_neg (by simp), hq, hp']
    show (liftF _ >>= _) db = _
    have : liftF (btreeLookup E (docinfoRq seqCmp bySeqReadDocInfo) false p.pointer [enc48 e.info.dbSeq] none) db =
        .ok r db := by
      unfold liftF
      rw [hr]
    rw [bind_ok this]
  unfold lost answer
  rw [hcalm]
  by_cases hr : seqKV e.info ∈ oks evs
  · have hre : reached evs e = true := decide_eq_true hr
    rw [hget _ (btreeLookup_of (M.found _ hrq _ (mem_oks.mp hr) none)), hre]
    have h1 : docinfoResult (docinfoFetch bySeqReadDocInfo none (enc48 e.info.dbSeq) (some (assembleSeqIndexValue e.info))) db =
        .ok e.info db := by
      unfold docinfoFetch
      dsimp only
      rw [bySeq_roundtrip _ hok.fits]
      rfl
    have h2 : docinfoResult ((docinfoRq seqCmp bySeqReadDocInfo).fetch none (seqKV e.info).1 (some (seqKV e.info).2)) db =
        .ok e.info db := h1
    dsimp only
    rw [h2]
    dsimp only
    unfold openDocWithDocinfo bodyGone
    cases hraw : e.raw with
    | none =>
      unfold BodyAt at hbody
      rw [hraw] at hbody
      rw [hbody.1]
      rfl
    | some b =>
      unfold BodyAt at hbody
      rw [hraw] at hbody
      rw [if_neg hbody.1, decide_eq_true hbody.1]
      have hb : bpToDoc E e.info.bp (false && isCompressed e.info.contentMeta) db = liftF (preadBin E e.info.bp) db := by
        unfold bpToDoc
        show (if db.dropped = true then throw Err.fileClosed else _ : DbM Bytes) db = _
        rw [hd', if_neg (by simp)]
        rfl
      rw [hb]
      unfold liftF
      cases preadBin E e.info.bp db.file <;> rfl
  · have hre : reached evs e = false := decide_eq_false hr
    obtain ⟨x, hx⟩ := M.missed _ hrq (seqKV e.info) (List.mem_map.mpr ⟨e, he, rfl⟩) (fun h => hr (mem_oks.mpr h)) none
    rw [hget _ (btreeLookup_of hx), hre]
    rfl

/-! ### The indexes of the target -/

/-- The by-sequence index of the target. -/
theorem recoverSeqTree_spec (E : Env) (L : E.Laws) (c : Compaction υ) {db0 : Db} {ids seqs locs}
    (inv : Inv E db0 ids seqs locs) (hd : db0.dropped = false) (D : DamagedFile E db0.file c.source.file)
    (hdb : c.source = { db0 with file := c.source.file }) (hb : c.bodyFaults = []) (hk : KeepsAll c.filter) (hrw : c.rewrite = none)
    (p : NodePointer) (hp : c.source.header.bySeqRoot = some p) (t : Db) (w : t.file.WF) (hpos : 0 < t.file.pos)
    (hf : t.file.faults = []) :
    Sp (recoverSeqTree E c p) t
      (fun r t' => ∃ moved root,
        List.Forall₂ Moved (seqs.filter fun e => !(dropNow c.dropDeletes c.filter && e.info.deleted || lost E c.source e.info))
          moved ∧
        r.1 = idKVs moved ∧ t' = { t with file := t'.file, header := { t.header with bySeqRoot := root } } ∧
        Ext t.file t'.file ∧ RootAt E Idx.bySeq t'.file root (seqKVs moved) ∧
        (∀ e ∈ moved, DocOk e.info ∧ BodyAt E t'.file e) ∧
        (r.2.2 = none → ∀ e ∈ seqs, lost E c.source e.info = true → (dropNow c.dropDeletes c.filter && e.info.deleted) = true) ∧
        (r.2.2 ≠ none → ∃ e ∈ seqs, lost E c.source e.info = true))
      (fun er _ => er = .formatLimit) := by
  have hp0 : db0.header.bySeqRoot = some p := by rw [hdb] at hp; exact hp
  obtain ⟨evs, M⟩ := root_met E L (X := Idx.bySeq) seq_look bySeq_hV D inv.wf p (seqKVs seqs)
    (by have := inv.seqRoot; rw [hp0] at this; exact this) (sorted_seqKVs_look inv.seqSorted inv.seqOk)
  have hlost : ∀ e ∈ seqs, lost E c.source e.info = (!reached evs e || bodyGone E c.source.file e) :=
    fun e he => lost_eq inv hd D hdb hp0 M he
  have hsrc : ({ c.source.file with faults := c.bodyFaults } : File) = c.source.file := by
    rw [hb, ← D.faults]
  have hl := met_entries inv.seqSorted inv.seqOk M.met.sub
  have hthr : 2 ≤ c.source.file.cfg.kvThr := by rw [D.cfg]; exact inv.thr
  have C0 : CInv E c.source.file t.file (⟨c.source.file, t.file, newBtreeModres, [], c.user⟩ : CompactSt υ) [] :=
    ⟨RFrame.refl _, Ext.refl _, w, hpos, ⟨[], [], MRInv.new E Idx.bySeq t.file 0 true⟩, rfl, rfl, by simp⟩
  have V := visit_recover E L D inv.wf.crc hf c.dropDeletes c.filter hk hthr evs _ hl (fun e he => by
    have he := List.mem_of_mem_filter he
    exact ⟨inv.seqOk e he, inv.body e (inv.perm.mem_iff.mp he)⟩) _ C0 none
  have hlo : ∀ kv ∈ seqKVs seqs, lookupCompare seqCmp kv.1 (enc48 0) ≠ .lt := by
    intro kv hkv
    obtain ⟨e, he, rfl⟩ := List.mem_map.mp hkv
    have hne : ∀ s, enc48 s ≠ [] := fun s h => by have := congrArg List.length h; simp at this
    unfold seqKV
    dsimp only
    rw [lookupCompare_nonempty (hne _) (hne _), seqCmp_enc48 (inv.seqOk e he).fits.dbSeq (by omega)]
    by_cases h : e.info.dbSeq = 0
    · simp [h]
    · rw [if_neg h, if_neg (by omega)]; simp
  obtain ⟨b', -, hw⟩ := M.walk (⟨seqCmp, true, recoverFetch E (seqRq c.source.file.cfg) c.dropDeletes c.filter none, none⟩)
    ⟨rfl, rfl⟩ (enc48 0) hlo (⟨c.source.file, t.file, newBtreeModres, [], c.user⟩, false) false
  unfold recoverSeqTree Sp
  dsimp only
  rw [hsrc, hrw, btreeLookup_of hw]
  dsimp only at V ⊢
  generalize visitMet true (recoverFetch E (seqRq c.source.file.cfg) c.dropDeletes c.filter none) evs
    (⟨c.source.file, t.file, newBtreeModres, [], c.user⟩, false) none = R at V
  obtain ⟨⟨st, lim⟩, er⟩ := R
  dsimp only at V ⊢
  rcases V with rfl | ⟨rfl, ⟨moved, v1, v2⟩, v3⟩
  · rfl
  · dsimp only
    rw [List.nil_append] at v2
    have S := completeNewBtree_spec E (seqRq_ok c.source.file.cfg hthr) st.mr _ st.tgt v2.wf v2.mr v2.mod
    unfold Sp at S
    unfold recoverRoot
    cases hcn : completeNewBtree E (seqRq c.source.file.cfg) st.mr st.tgt with
    | error x g =>
      rw [hcn] at S
      obtain ⟨-, h2⟩ := S
      have : x = .formatLimit := h2.resolve_left fun h => v2.ext.faults_ne h hf
      subst this
      rfl
    | ok root g =>
      rw [hcn] at S
      obtain ⟨h1, h2⟩ := S
      dsimp only
      refine ⟨moved, root, ?_, v2.added, rfl, v2.ext.trans h1, h2, fun e he => ⟨(v2.ok e he).1,
          (v2.ok e he).2.keep (h1.keep v2.wf)⟩, ?_, ?_⟩
      · rw [List.filter_filter] at v1
        rw [List.filter_congr (q := fun e => keptDoc E c.source.file (dropNow c.dropDeletes c.filter) e && reached evs e)]
        · exact v1
        · intro e he
          rw [hlost e he]
          unfold keptDoc
          cases (dropNow c.dropDeletes c.filter && e.info.deleted) <;> cases reached evs e <;>
            cases bodyGone E c.source.file e <;> rfl
      · intro hn e he hle
        obtain ⟨-, n1, n2⟩ := v3.mp hn
        have hfull := M.met.full n1
        have hre : reached evs e = true := by
          unfold reached
          rw [hfull]
          exact decide_eq_true (List.mem_map.mpr ⟨e, he, rfl⟩)
        rw [hlost e he, hre] at hle
        have hg : bodyGone E c.source.file e = true := by simpa using hle
        have := n2 e (List.mem_filter.mpr ⟨he, hre⟩)
        unfold skippedDoc at this
        rw [hg] at this
        simpa using this
      · intro hn
        by_contra hno
        apply hn
        rw [v3]
        have hall : ∀ e ∈ seqs, reached evs e = true ∧ bodyGone E c.source.file e = false := by
          intro e he
          have : lost E c.source e.info = false := by
            cases h : lost E c.source e.info with
            | false => rfl
            | true => exact absurd ⟨e, he, h⟩ hno
          rw [hlost e he] at this
          simpa using this
        refine ⟨rfl, fun x hx => ?_, fun e he => ?_⟩
        · have h1 := M.met.loss x hx
          have h2 : seqs.filter (reached evs) = seqs := List.filter_eq_self.mpr fun e he => (hall e he).1
          rw [hl, h2] at h1
          omega
        · unfold skippedDoc
          rw [(hall e (List.mem_of_mem_filter he)).2]
          simp

/-- A traversal that does not tolerate errors and ends without one has met everything. -/
theorem visitMet_strict {σ : Type} (fetch : σ → Bytes → Option Bytes → σ × Option Err) (evs : List (Except Err KV)) (u : σ) :
    ((visitMet false fetch evs u none).2 = none → (∀ e, .error e ∉ evs)) ∧
    ((∀ e, .error e ∉ evs) →
      visitMet false fetch evs u none = visit fetch ((oks evs).map fun kv => (kv.1, some kv.2)) u) := by
  induction evs generalizing u with
  | nil => exact ⟨fun _ _ => by simp, fun _ => rfl⟩
  | cons x evs ih =>
    cases x with
    | error e => exact ⟨(fun h => nomatch h), fun h => absurd (List.mem_cons_self ..) (h e)⟩
    | ok kv =>
      rw [visitMet_ok]
      have ho : oks (.ok kv :: evs) = kv :: oks evs := rfl
      have hmem : ∀ e, (.error e : Except Err KV) ∉ (.ok kv :: evs) ↔ .error e ∉ evs := by
        intro e; simp
      simp only [hmem, ho, List.map_cons, visit]
      rcases fetch u kv.1 (some kv.2) with ⟨u', _ | e⟩
      · exact ih u'
      · refine ⟨(fun h => nomatch h), fun _ => rfl⟩

/-- The index of the local documents in the target; it is not copied unless all of it can be read. -/
theorem compactLocalTree_damaged (E : Env) (L : E.Laws) {db0 : Db} {ids seqs locs} (inv : Inv E db0 ids seqs locs)
    {f : File} (D : DamagedFile E db0.file f) (p : NodePointer) (hp : db0.header.localRoot = some p) (t : Db) (w : t.file.WF)
    (hf : t.file.faults = []) :
    Sp (compactLocalTree E f p) t
      (fun _ t' => ∃ root, t' = { t with file := t'.file, header := { t.header with localRoot := root } } ∧
        Ext t.file t'.file ∧ RootAt E Idx.loc t'.file root locs)
      (fun er _ => er = .formatLimit ∨
        ∃ k v, kvFind k locs = some v ∧ ∃ x, btreeLookup E ⟨ebinCmp, false, localDocFetch, none⟩ false p.pointer [k] none f =
          .ok (none, some x) f) := by
  have hroot : RootAt E Idx.loc db0.file (some p) locs := by
    have := inv.locRoot
    rw [hp] at this
    exact this
  obtain ⟨evs, M⟩ := root_met E L (X := Idx.loc) ebin_look (fun kv h => ⟨trivial, h.1⟩) D inv.wf p locs hroot
    (by rw [lookupCompare_ebin]; exact inv.locSorted)
  have hthr : 2 ≤ f.cfg.kvThr := by rw [D.cfg]; exact inv.thr
  obtain ⟨b', -, hw⟩ := M.walk (⟨ebinCmp, false, runFetch (compactLocalFetch E (localRq f.cfg)), none⟩)
    ⟨rfl, rfl⟩ [] (by
      intro kv _
      rw [lookupCompare_ebin]
      simp [ebinCmp_lt_iff]) (t.file, newBtreeModres) false
  have hV : ∀ kv ∈ locs, Idx.loc.V kv := inv.locRoot.valid
  have hst := visitMet_strict (runFetch (compactLocalFetch E (localRq f.cfg))) evs (t.file, newBtreeModres)
  unfold compactLocalTree Sp
  dsimp only
  rw [btreeLookup_of hw]
  dsimp only
  have C0 : MRC E Idx.loc t.file 0 newBtreeModres [] := ⟨[], [], MRInv.new E Idx.loc t.file 0 true⟩
  by_cases hn : ∀ e, .error e ∉ evs
  · rw [hst.2 hn, M.met.full hn]
    have V := visit_locals E hthr locs hV t.file w _ rfl _ C0 _ _ rfl
    generalize visit (runFetch (compactLocalFetch E (localRq f.cfg))) (locs.map fun kv => (kv.1, some kv.2))
      (t.file, newBtreeModres) = R at V
    obtain ⟨st, er⟩ := R
    cases er with
    | some x => exact Or.inl ((V.2 x rfl).resolve_left fun h => h hf)
    | none =>
      obtain ⟨k1, k2, k3⟩ := V.1 rfl
      rw [List.nil_append] at k2
      dsimp only
      refine Sp.intro ?_
      apply Sp.bind' (liftF_spec (db := { t with file := st.1 })
        (completeNewBtree_spec E (localRq_ok f.cfg hthr) st.2 _ st.1 (k1.wf w) k2 k3))
      · rintro root d ⟨hd', h1, h2⟩
        exact ⟨root, by rw [hd'], k1.trans h1, h2⟩
      · rintro er d ⟨-, h1, h2⟩
        exact Or.inl (h2.resolve_left fun h => k1.faults_ne h hf)
  · have he : (visitMet false (runFetch (compactLocalFetch E (localRq f.cfg))) evs (t.file, newBtreeModres) none).2 ≠ none :=
      fun h => hn (hst.1 h)
    generalize visitMet false (runFetch (compactLocalFetch E (localRq f.cfg))) evs (t.file, newBtreeModres) none = R at he
    obtain ⟨st, er⟩ := R
    cases er with
    | none => exact absurd rfl he
    | some x =>
      right
      obtain ⟨y, hy⟩ : ∃ y, .error y ∈ evs := by
        by_contra h
        exact hn fun e he => h ⟨e, he⟩
      have hlt := M.met.loss y hy
      obtain ⟨kv, h1, h2⟩ : ∃ kv ∈ locs, kv ∉ oks evs := by
        by_contra h
        have hall : ∀ kv ∈ locs, kv ∈ oks evs := fun kv hkv => by
          by_contra h0
          exact h ⟨kv, hkv, h0⟩
        have hnd : locs.Nodup := by
          refine inv.locSorted.imp ?_
          intro a b hab he
          rw [he] at hab
          exact absurd hab (by rw [ebinCmp_lt_iff]; exact List.lt_irrefl _)
        have := nodup_length_le hnd hall
        omega
      obtain ⟨z, hz⟩ := M.missed (⟨ebinCmp, false, localDocFetch, none⟩ : LookRq (Option LocalDoc)) ⟨rfl, rfl⟩ kv h1
        (fun h => h2 (mem_oks.mpr h)) none
      exact ⟨kv.1, kv.2, kvFind_of_mem ebinCmp_laws (fun _ _ => trivial) inv.locSorted h1, z, btreeLookup_of hz⟩

/-! ### All of the target -/

/-- The documents that recovery does not copy. -/
def unrecovered (E : Env) (c : Compaction υ) (d : DocInfo) : Bool :=
  dropNow c.dropDeletes c.filter && d.deleted || lost E c.source d

theorem recoverDocs_spec (E : Env) (L : E.Laws) (c : Compaction υ) {db0 : Db} {ids seqs locs}
    (inv : Inv E db0 ids seqs locs) (hd : db0.dropped = false) (D : DamagedFile E db0.file c.source.file)
    (hdb : c.source = { db0 with file := c.source.file }) (hb : c.bodyFaults = []) (hk : KeepsAll c.filter) (hrw : c.rewrite = none)
    (t0 t : Db) (w : t.file.WF) (hpos : 0 < t.file.pos) (ht : 2 ≤ t.file.cfg.kvThr) (hf : t.file.faults = [])
    (F : Filled E c t0 [] [] [] t) :
    Sp (recoverDocs E c) t
      (fun r t' => ∃ moved ids', List.Forall₂ Moved (seqs.filter fun e => !unrecovered E c e.info) moved ∧
        ids'.Perm moved ∧ IdSorted ids' ∧ Filled E c t0 ids' moved [] t' ∧ Ext t.file t'.file ∧
        (r.2 = none → ∀ e ∈ seqs, lost E c.source e.info = true → (dropNow c.dropDeletes c.filter && e.info.deleted) = true) ∧
        (r.2 ≠ none → ∃ e ∈ seqs, lost E c.source e.info = true))
      (fun er _ => er = .formatLimit) := by
  unfold recoverDocs
  cases hp : c.source.header.bySeqRoot with
  | none =>
    have hs : seqs = [] := by
      have := inv.seqRoot
      rw [hdb] at hp
      have hp : db0.header.bySeqRoot = none := hp
      rw [hp] at this
      exact List.map_eq_nil_iff.mp this
    subst hs
    exact ⟨[], [], .nil, List.Perm.refl _, List.Pairwise.nil, F, Ext.refl _, by simp, fun h => absurd rfl h⟩
  | some p =>
    dsimp only
    apply Sp.bind' (recoverSeqTree_spec E L c inv hd D hdb hb hk hrw p hp t w hpos hf)
    · rintro ⟨added, u, er⟩ t1 ⟨moved, root, k2, k3, k4, k5, k6, k7, k8, k9⟩
      have hn : (moved.map (·.info.id)).Nodup := by
        rw [moved_map (·.info.id) (fun _ _ h => h.id) k2]
        exact ((List.filter_sublist (l := seqs)).map _).nodup (nodup_ids inv)
      dsimp only at k3 k8 k9 ⊢
      subst k3
      have hcfg : t1.file.cfg = t.file.cfg := k5.frame.cfg
      apply Sp.bind' (compactIdTree_spec E moved hn (fun e he => (k7 e he).1) t1 (k5.wf w) (by rw [hcfg]; exact ht))
      · rintro _ t2 ⟨ids', root', m1, m2, m3, m4, m5⟩
        have hkp := m4.keep (k5.wf w)
        refine ⟨moved, ids', k2, m1, m2, ⟨?_, (F.ext.trans k5).trans m4, ?_, ?_, ?_, ?_⟩, k5.trans m4, k8, k9⟩
        · rw [m3, k4, F.same]
        · rw [m3]; exact m5
        · rw [m3, k4]; exact k6.keep hkp
        · have := F.locRoot.keep ((k5.trans m4).keep w)
          rw [m3, k4]; exact this
        · exact fun e he => ⟨(k7 e he).1, (k7 e he).2.keep hkp⟩
      · rintro er d (h | h)
        · exact absurd hf (k5.faults_ne h)
        · exact h
    · exact fun _ _ h => h

/-- Some local document is beyond recovery. -/
def LocalLost (E : Env) (db : Db) (locs : List KV) : Prop :=
  ∃ k v, kvFind k locs = some v ∧ (answer (openLocalDocument E k) db).toOption = none

theorem recoverLocals_spec (E : Env) (L : E.Laws) (c : Compaction υ) {db0 : Db} {ids seqs locs}
    (inv : Inv E db0 ids seqs locs) (hd : db0.dropped = false) (D : DamagedFile E db0.file c.source.file)
    (hdb : c.source = { db0 with file := c.source.file }) (hl : c.localFaults = [])
    (t0 t : Db) (w : t.file.WF) (hf : t.file.faults = []) {ids' seqs'} (F : Filled E c t0 ids' seqs' [] t) :
    Sp (compactLocals E c) t
      (fun _ t' => Filled E c t0 ids' seqs' locs t' ∧ Ext t.file t'.file)
      (fun er _ => er = .formatLimit ∨ LocalLost E c.source locs) := by
  unfold compactLocals
  cases hp : c.source.header.localRoot with
  | none =>
    have hs : locs = [] := by
      have := inv.locRoot
      rw [hdb] at hp
      have hp : db0.header.localRoot = none := hp
      rw [hp] at this
      exact this
    subst hs
    exact ⟨F, Ext.refl _⟩
  | some p =>
    dsimp only
    have hsrc : ({ c.source.file with faults := c.localFaults } : File) = c.source.file := by
      rw [hl, ← D.faults]
    have hp0 : db0.header.localRoot = some p := by rw [hdb] at hp; exact hp
    rw [hsrc]
    refine (compactLocalTree_damaged E L inv D p hp0 t w hf).mono ?_ ?_
    · rintro _ t' ⟨root, h1, h2, h3⟩
      have hk := h2.keep w
      refine ⟨⟨?_, F.ext.trans h2, ?_, ?_, ?_, ?_⟩, h2⟩
      · rw [h1, F.same]
      · rw [h1]; exact F.idRoot.keep hk
      · rw [h1]; exact F.seqRoot.keep hk
      · rw [h1]; exact h3
      · exact fun e he => ⟨(F.ok e he).1, (F.ok e he).2.keep hk⟩
    · rintro er d (h | ⟨k, v, h1, x, h2⟩)
      · exact Or.inl h
      · refine Or.inr ⟨k, v, h1, ?_⟩
        have hd' : c.source.dropped = false := by rw [hdb]; exact hd
        have : ∃ g, openLocalDocument E k c.source = .error x g := by
          unfold openLocalDocument
          show ∃ g, (if c.source.dropped = true then throw Err.fileClosed else _ : DbM LocalDoc) c.source = _
          rw [hd', if_neg (by simp), hp]
          refine ⟨{ c.source with file := c.source.file }, ?_⟩
          dsimp only
          rw [bind_ok (m := liftF _) (by unfold liftF; rw [h2])]
          rfl
        obtain ⟨g, hg⟩ := this
        unfold answer
        rw [calm_of D.faults, hg]
        rfl

theorem recoverFill_spec (E : Env) (L : E.Laws) (c : Compaction υ) {db0 : Db} {ids seqs locs}
    (S : Handle E db0 ids seqs locs) (D : DamagedFile E db0.file c.source.file)
    (hdb : c.source = { db0 with file := c.source.file }) (hb : c.bodyFaults = []) (hl : c.localFaults = [])
    (hk : KeepsAll c.filter) (hrw : c.rewrite = none) (t : Db) (T : Handle E t [] [] []) (hf : t.file.faults = []) :
    Sp (recoverFill E c) t
      (fun er t' => ∃ moved ids', List.Forall₂ Moved (seqs.filter fun e => !unrecovered E c e.info) moved ∧
        ids'.Perm moved ∧ Filled E c t ids' moved locs t' ∧ Handle E t' ids' moved locs ∧
        (er = none → ∀ e ∈ seqs, lost E c.source e.info = true → (dropNow c.dropDeletes c.filter && e.info.deleted) = true) ∧
        (er ≠ none → ∃ e ∈ seqs, lost E c.source e.info = true))
      (fun er _ => er = .formatLimit ∨ LocalLost E c.source locs) := by
  have inv := S.inv
  unfold recoverFill
  have hset : Sp (setHeader fun h => { h with
      updateSeq := c.source.header.updateSeq
      purgeSeq := if c.dropDeletes then c.source.header.purgeSeq + 1 else c.source.header.purgeSeq
      purgePtr := c.source.header.purgePtr }) t
      (fun _ t' => Filled E c t [] [] [] t' ∧ t'.file = t.file) (fun _ _ => False) :=
    ⟨⟨rfl, Ext.refl _, T.inv.idRoot, T.inv.seqRoot, T.inv.locRoot, by simp⟩, rfl⟩
  apply Sp.bind' hset
  · rintro _ t1 ⟨F1, hf1⟩
    apply Sp.bind' (recoverDocs_spec E L c inv S.opened D hdb hb hk hrw t t1 (by rw [hf1]; exact T.inv.wf)
      (by rw [hf1]; exact T.inv.pos) (by rw [hf1]; exact T.inv.thr) (by rw [hf1]; exact hf) F1)
    · rintro ⟨u, er⟩ t2 ⟨moved, ids', k2, k3, k4, F2, x2, k5, k6⟩
      have w2 := F2.ext.wf T.inv.wf
      have hf2 : t2.file.faults = [] := by
        by_contra h
        exact F2.ext.faults_ne h hf
      apply Sp.bind' (recoverLocals_spec E L c inv S.opened D hdb hl t t2 w2 hf2 F2)
      · rintro _ t3 ⟨F3, x3⟩
        have hlast : Sp (lastFilterCall c u) t3 (fun _ t' => t' = t3) (fun _ _ => False) := by
          unfold lastFilterCall
          cases hfl : c.filter with
          | none => exact rfl
          | some g =>
            dsimp only
            rw [hk g hfl]
            exact rfl
        apply Sp.bind' hlast
        · rintro _ t4 rfl
          exact ⟨moved, ids', k2, k3, F3, F3.handle S (by rw [hdb]) T (List.filter_sublist.map _) k2 k3 k4, k5, k6⟩
        · exact fun _ _ h => h.elim
      · exact fun _ _ h => h
    · exact fun _ _ h => Or.inl h
  · exact fun _ _ h => h.elim

end Couchstore
