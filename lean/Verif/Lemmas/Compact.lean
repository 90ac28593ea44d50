import Verif.Model.Compact
import Verif.Spec.Compact
import Verif.Lemmas.Commit
import Verif.Lemmas.MergeSort
import Mathlib.Data.List.Forall2

/-! Helper lemmas: what compaction copies. -/

namespace Couchstore

variable {υ : Type}

theorem Sp.intro {S α : Type} {m : EStateM Err S α} {f : S} {Q : α → S → Prop} {R : Err → S → Prop} (h : Sp m f Q R) :
    match m f with
    | .ok a f' => Q a f'
    | .error e f' => R e f' := h

/-! ### Entries -/

structure SeqValueParts (d : DocInfo) : Prop where
  len : (assembleSeqIndexValue d).length = 18 + d.id.length + d.revMeta.length
  e0 : slice (assembleSeqIndexValue d) 0 5 = encodeKvLength d.id.length d.physicalSize
  e1 : slice (assembleSeqIndexValue d) 5 6 = enc48 (bpField d)
  e2 : slice (assembleSeqIndexValue d) 11 6 = enc48 d.revSeq
  e3 : slice (assembleSeqIndexValue d) 17 1 = enc8 d.contentMeta
  e4 : slice (assembleSeqIndexValue d) 18 d.id.length = d.id
  e5 : (assembleSeqIndexValue d).drop (18 + d.id.length) = d.revMeta
  e6 : (assembleSeqIndexValue d).take 5 = encodeKvLength d.id.length d.physicalSize
  e7 : (assembleSeqIndexValue d).drop 11 = enc48 d.revSeq ++ enc8 d.contentMeta ++ d.id ++ d.revMeta

theorem seqValueParts (d : DocInfo) : SeqValueParts d := by
  have hk := encodeKvLength_length d.id.length d.physicalSize
  have e0 : slice (assembleSeqIndexValue d) 0 5 = encodeKvLength d.id.length d.physicalSize := by
    simp only [assembleSeqIndexValue, List.append_assoc]; exact slice_prefix _ _ _ (by simp [hk])
  refine ⟨?_, e0, ?_, ?_, ?_, ?_, ?_, ?_, ?_⟩
  · simp [assembleSeqIndexValue, encodeKvLength_length]; omega
  · simp only [assembleSeqIndexValue, List.append_assoc]
    rw [slice_cons_app _ _ _ _ (by simp [hk])]; exact slice_prefix _ _ _ (by simp)
  · simp only [assembleSeqIndexValue, List.append_assoc]
    rw [← List.append_assoc, slice_cons_app _ _ _ _ (by simp [hk])]
    exact slice_prefix _ _ _ (by simp)
  · simp only [assembleSeqIndexValue]
    rw [List.append_assoc, List.append_assoc, slice_cons_app _ _ _ _ (by simp [hk])]
    exact slice_prefix _ _ _ (by simp)
  · simp only [assembleSeqIndexValue]
    rw [List.append_assoc, slice_cons_app _ _ _ _ (by simp [hk])]
    exact slice_prefix _ _ _ rfl
  · simp only [assembleSeqIndexValue]
    exact drop_append_eq _ _ _ (by simp [hk]; omega)
  · simp only [assembleSeqIndexValue, List.append_assoc]
    rw [List.take_append_of_le_length (by simp [hk]), List.take_of_length_le (by simp [hk])]
  · simp only [assembleSeqIndexValue, List.append_assoc]
    rw [← List.append_assoc]
    exact drop_append_eq _ _ _ (by simp [hk])

theorem patchBp_assemble (d : DocInfo) (p : Nat) (hd : d.bp < 2 ^ 47) :
    patchBp (assembleSeqIndexValue d) ((bpField d &&& bpDeletedFlag) ||| p) =
      assembleSeqIndexValue { d with bp := p } := by
  have P := seqValueParts d
  unfold patchBp
  rw [P.e6, P.e7]
  have : (bpField d &&& bpDeletedFlag) ||| p = bpField { d with bp := p } := by
    have h1 := bpField_deleted d hd
    unfold bpField at *
    simp only [bpDeletedFlag] at *
    have h2 : d.bp &&& 2 ^ 47 = 0 := by
      apply Nat.eq_of_testBit_eq
      intro i
      rw [Nat.testBit_and, Nat.zero_testBit, Nat.testBit_two_pow]
      by_cases hi : 47 = i
      · subst hi
        rw [Nat.testBit_lt_two_pow hd]; rfl
      · simp [hi]
    cases d.deleted
    · simp [h2]
    · simp only [if_true]
      rw [Nat.and_or_distrib_right, h2, Nat.zero_or, Nat.and_self, Nat.or_comm]
  rw [this]
  simp [assembleSeqIndexValue]

theorem idValueOfSeq_assemble (d : DocInfo) (h : d.Fits) :
    idValueOfSeq (enc48 d.dbSeq) (assembleSeqIndexValue d) = assembleIdIndexValue d := by
  have P := seqValueParts d
  unfold idValueOfSeq
  rw [P.e0, decode_encode_kvLength _ _ h.id h.physicalSize]
  simp only
  rw [P.e1, P.e2, P.e3, P.e5, List.take_of_length_le (by simp)]
  rfl

/-! ### Copying one document -/

theorem onSrc_spec {α : Type} {m : M α} {st : CompactSt υ} {Q : α → File → Prop} {R : Err → File → Prop}
    (h : Sp m st.src Q R) :
    Sp (onSrc m) st (fun a st' => ∃ f, st' = { st with src := f } ∧ Q a f)
      (fun e st' => ∃ f, st' = { st with src := f } ∧ R e f) := by
  unfold Sp onSrc at *
  dsimp only
  cases hp : m st.src with
  | ok a f => rw [hp] at h; exact ⟨f, rfl, h⟩
  | error e f => rw [hp] at h; exact ⟨f, rfl, h⟩

theorem onTgt_spec {α : Type} {m : M α} {st : CompactSt υ} {Q : α → File → Prop} {R : Err → File → Prop}
    (h : Sp m st.tgt Q R) :
    Sp (onTgt m) st (fun a st' => ∃ f, st' = { st with tgt := f } ∧ Q a f)
      (fun e st' => ∃ f, st' = { st with tgt := f } ∧ R e f) := by
  unfold Sp onTgt at *
  dsimp only
  cases hp : m st.tgt with
  | ok a f => rw [hp] at h; exact ⟨f, rfl, h⟩
  | error e f => rw [hp] at h; exact ⟨f, rfl, h⟩

/-- The copy of a document: only the position of its body differs. -/
structure Moved (e e' : Entry) : Prop where
  info : e'.info = { e.info with bp := e'.info.bp }
  raw : e'.raw = e.raw

/-- The answer that decides about an item. -/
def verdict (keep : Bool) : FilterAct := if keep then .keep else .drop

/-- How it is decided whether a document is kept. -/
def Decides (drop : Bool) (flt : Option (CompactFilter υ)) (u : υ) (e : Entry) (u' : υ) (keep : Bool) : Prop :=
  match flt with
  | none => u' = u ∧ keep = !(e.info.deleted && drop)
  | some g =>
    g u (some e.info) none = (u', verdict keep) ∨
      ∃ u1 b, g u (some e.info) none = (u1, .needBody) ∧ (∀ b', e.raw = some b' → b = b') ∧
        g u1 (some e.info) (some b) = (u', verdict keep)

/-- What holds while documents are copied; `moved` are the copies so far. -/
structure CInv (E : Env) (src tgt : File) (st : CompactSt υ) (moved : List Entry) : Prop where
  src : RFrame src st.src
  ext : Ext tgt st.tgt
  wf : st.tgt.WF
  pos : 0 < st.tgt.pos
  mr : MRC E Idx.bySeq st.tgt 0 st.mr (seqKVs moved)
  mod : st.mr.modified = true
  added : st.added = idKVs moved
  ok : ∀ e ∈ moved, DocOk e.info ∧ BodyAt E st.tgt e

/-- There is a filter, which may fail. -/
def FilterFails (flt : Option (CompactFilter υ)) : Prop := ∃ g, flt = some g ∧ ¬ Reliable g

/-- Why compaction may fail. -/
def Cause (src tgt : File) (flt : Option (CompactFilter υ)) (e : Err) : Prop :=
  src.faults ≠ [] ∨ tgt.faults ≠ [] ∨ e = .formatLimit ∨ FilterFails flt

theorem outputSeqtreeItem_spec (E : Env) {src tgt : File} {flt : Option (CompactFilter υ)} {cfg : Cfg} (ht : 2 ≤ cfg.kvThr)
    (st : CompactSt υ) {moved : List Entry} (C : CInv E src tgt st moved) (e : Entry) (hok : DocOk e.info)
    (hb : BodyAt E st.tgt e) :
    Sp (outputSeqtreeItem E (seqRq cfg) (enc48 e.info.dbSeq) (assembleSeqIndexValue e.info)) st
      (fun _ st' => CInv E src tgt st' (moved ++ [e]) ∧ st'.user = st.user)
      (fun er _ => Cause src tgt flt er) := by
  have P := seqValueParts e.info
  unfold outputSeqtreeItem
  apply Sp.get_bind
  apply Sp.bind' (onTgt_spec (mrPushItem_spec E (seqRq_ok cfg ht) _ _ _ _ _ C.wf C.mr ⟨e.info, hok, rfl⟩))
  · rintro mr st' ⟨f, rfl, h1, h2, h3⟩
    dsimp only
    unfold Sp
    dsimp only [bind, EStateM.bind, modify, modifyGet, MonadStateOf.modifyGet, EStateM.modifyGet]
    rw [P.e0, decode_encode_kvLength _ _ hok.fits.id hok.fits.physicalSize]
    dsimp only
    rw [if_neg (by rw [P.len]; omega), if_neg (by simp), P.e4, idValueOfSeq_assemble _ hok.fits]
    refine ⟨⟨C.src, C.ext.trans h1, h1.wf C.wf, Nat.lt_of_lt_of_le C.pos h1.pos, ?_, h2.trans C.mod, ?_, ?_⟩, rfl⟩
    · show MRC E Idx.bySeq f 0 mr (seqKVs (moved ++ [e]))
      unfold seqKVs at *
      rw [List.map_append]
      exact h3
    · show st.added ++ _ = _
      rw [C.added]
      unfold idKVs
      rw [List.map_append]
      rfl
    · intro x hx
      rcases List.mem_append.mp hx with hx | hx
      · exact ⟨(C.ok x hx).1, (C.ok x hx).2.keep (h1.keep C.wf)⟩
      · rw [List.mem_singleton.mp hx]
        exact ⟨hok, hb.keep (h1.keep C.wf)⟩
  · rintro er st' ⟨f, rfl, h1, h2⟩
    rcases h2 with h2 | h2
    · exact Or.inr (Or.inl (C.ext.faults_ne h2))
    · exact Or.inr (Or.inr (Or.inl h2))

theorem bpField_split (d : DocInfo) (hd : d.bp < 2 ^ 47) :
    bpField d % bpDeletedFlag = d.bp ∧ (bpField d &&& bpDeletedFlag != 0) = d.deleted :=
  ⟨bpField_bp d hd, bpField_deleted d hd⟩

theorem itemBody_spec (E : Env) (L : E.Laws) {src : File} (hcrc : src.cfg.crcMode ≠ .unknown) (st : CompactSt υ)
    (hs : RFrame src st.src) {bp : Nat} {b : Bytes} (hb : ChunkAt E src bp b) (item : Option Bytes)
    (hi : ∀ x, item = some x → x = b) :
    Sp (itemBody E bp item) st (fun r st' => r = b ∧ ∃ f, st' = { st with src := f } ∧ RFrame src f)
      (fun _ _ => src.faults ≠ []) := by
  cases item with
  | some x => exact ⟨hi x rfl, st.src, rfl, hs⟩
  | none =>
    refine (onSrc_spec (preadBin_spec E L bp b st.src (by rw [hs.cfg]; exact hcrc) (hb.keep hs.keep))).mono ?_ ?_
    · rintro r st' ⟨f, rfl, rfl, h⟩
      exact ⟨rfl, f, rfl, hs.trans h⟩
    · rintro e st' ⟨f, rfl, h, h2⟩
      exact hs.faults_ne h2

/-- Only tombstones are without a body. -/
def BodyShape (e : Entry) : Prop :=
  match e.raw with
  | none => e.info.bp = 0 ∧ e.info.deleted = true
  | some _ => e.info.bp ≠ 0

theorem BodyAt.shape {E : Env} {f : File} {e : Entry} (h : BodyAt E f e) : BodyShape e := by
  unfold BodyAt at h
  unfold BodyShape
  cases hr : e.raw with
  | none => rw [hr] at h; exact h
  | some b => rw [hr] at h; exact h.1

/-- The document with the metadata that the callback gives it, and the state after that. -/
def rewriteEntry (rw : Option (DocInfoRewrite υ)) (u : υ) (e : Entry) : υ × Entry :=
  match rw, e.raw with
  | some w, some b => ((w u e.info b).1,
      match (w u e.info b).2 with
      | some d => { e with info := { e.info with revMeta := d.revMeta } }
      | none => e)
  | _, _ => (u, e)

theorem rewriteEntry_none (u : υ) (e : Entry) : rewriteEntry none u e = (u, e) := rfl

theorem rewriteEntry_raw (rw : Option (DocInfoRewrite υ)) (u : υ) (e : Entry) : (rewriteEntry rw u e).2.raw = e.raw := by
  unfold rewriteEntry
  split
  · dsimp only
    split <;> rfl
  · rfl

theorem rewriteEntry_info (rw : Option (DocInfoRewrite υ)) (u : υ) (e : Entry) :
    ∃ m, (rewriteEntry rw u e).2.info = { e.info with revMeta := m } := by
  unfold rewriteEntry
  split
  · dsimp only
    split
    · exact ⟨_, rfl⟩
    · exact ⟨_, rfl⟩
  · exact ⟨_, rfl⟩

theorem spliceMeta_assemble (d : DocInfo) (h : d.Fits) (m : Bytes) :
    spliceMeta (assembleSeqIndexValue d) m = some (assembleSeqIndexValue { d with revMeta := m }) := by
  have P := seqValueParts d
  unfold spliceMeta
  rw [if_neg (by rw [P.len]; omega)]
  dsimp only
  rw [P.e0, decode_encode_kvLength _ _ h.id h.physicalSize]
  dsimp only
  rw [if_neg (by rw [P.len]; omega)]
  congr 1
  have hk := encodeKvLength_length d.id.length d.physicalSize
  simp only [assembleSeqIndexValue]
  rw [List.take_append_of_le_length (by simp [hk]; omega), List.take_of_length_le (by simp [hk]; omega)]
  rfl

theorem rewriteMeta_eq (rw : Option (DocInfoRewrite υ)) (e : Entry) (hf : e.info.Fits) {b : Bytes} (hr : e.raw = some b)
    (st : CompactSt υ) :
    ∃ m, rewriteMeta rw (enc48 e.info.dbSeq) (assembleSeqIndexValue e.info) b st =
        .ok m { st with user := (rewriteEntry rw st.user e).1 } ∧
      ∀ p, p < 2 ^ 47 → newValue (assembleSeqIndexValue { e.info with bp := p }) m =
        some (assembleSeqIndexValue { (rewriteEntry rw st.user e).2.info with bp := p }) := by
  unfold rewriteMeta
  cases rw with
  | none => exact ⟨none, rfl, fun _ _ => rfl⟩
  | some w =>
    dsimp only
    rw [bySeq_roundtrip _ hf]
    dsimp only
    refine ⟨(w st.user e.info b).2.map (·.revMeta), ?_, ?_⟩
    · unfold rewriteEntry
      rw [hr]
    · intro p hp
      unfold rewriteEntry
      rw [hr]
      dsimp only
      cases (w st.user e.info b).2 with
      | none => rfl
      | some d =>
        exact spliceMeta_assemble { e.info with bp := p } ⟨hf.id, hf.dbSeq, hf.revSeq, hf.contentMeta, hp, hf.physicalSize⟩ _

theorem rewriteEntry_ok (rw : Option (DocInfoRewrite υ)) (hw : RewritesFit rw) (u : υ) (e : Entry) (hok : DocOk e.info) :
    DocOk (rewriteEntry rw u e).2.info := by
  unfold rewriteEntry
  split
  · dsimp only
    split
    · rename_i d' h
      exact ⟨⟨hok.fits.id, hok.fits.dbSeq, hok.fits.revSeq, hok.fits.contentMeta, hok.fits.bp, hok.fits.physicalSize⟩,
        hw _ rfl u e.info _ d' hok.fits.id h⟩
    · exact hok
  · exact hok

/-- Copying a document whose body is read with the result that it has, or not read (`R`). -/
theorem copyItem_core (E : Env) {src tgt : File} {flt : Option (CompactFilter υ)}
    {cfg : Cfg} (ht : 2 ≤ cfg.kvThr) (st : CompactSt υ) {moved : List Entry}
    (C : CInv E src tgt st moved) (rw : Option (DocInfoRewrite υ)) (hw : RewritesFit rw) (e : Entry) (hok : DocOk e.info)
    (item : Option Bytes) (hbp0 : BodyShape e) {R : Err → CompactSt υ → Prop}
    (hread : ∀ b, e.raw = some b → Sp (itemBody E e.info.bp item) st
      (fun r st' => r = b ∧ ∃ f, st' = { st with src := f } ∧ RFrame src f) R) :
    Sp (copyItem E (seqRq cfg) rw (enc48 e.info.dbSeq) (assembleSeqIndexValue e.info) (bpField e.info) item) st
      (fun _ st' => ∃ e', Moved (rewriteEntry rw st.user e).2 e' ∧ CInv E src tgt st' (moved ++ [e']) ∧
        st'.user = (rewriteEntry rw st.user e).1)
      (fun er st' => Cause src tgt flt er ∨ R er st') := by
  have hbp : e.info.bp < 2 ^ 47 := hok.fits.bp
  unfold copyItem
  dsimp only
  rw [(bpField_split e.info hbp).1]
  cases hraw : e.raw with
  | none =>
    have hsh : e.info.bp = 0 ∧ e.info.deleted = true := by
      unfold BodyShape at hbp0
      rw [hraw] at hbp0
      exact hbp0
    have hre : rewriteEntry rw st.user e = (st.user, e) := by
      unfold rewriteEntry
      rw [hraw]
      cases rw <;> rfl
    have hbody : BodyAt E st.tgt e := by
      unfold BodyAt
      rw [hraw]
      exact hsh
    rw [if_neg (by omega), hre]
    show Sp (outputSeqtreeItem E (seqRq cfg) _ _) _ _ _
    refine (outputSeqtreeItem_spec E (flt := flt) ht st C e hok hbody).mono ?_ fun _ _ h => Or.inl h
    rintro _ st' ⟨h1, h2⟩
    exact ⟨_, ⟨rfl, rfl⟩, h1, h2⟩
  | some b =>
    have hb0 : e.info.bp ≠ 0 := by
      unfold BodyShape at hbp0
      rw [hraw] at hbp0
      exact hbp0
    rw [if_pos hb0]
    apply Sp.bind' (hread b hraw)
    · rintro r st' ⟨rfl, f, rfl, hs⟩
      obtain ⟨m, hm1, hm2⟩ := rewriteMeta_eq rw e hok.fits hraw { st with src := f }
      unfold Sp
      rw [bind_ok hm1]
      refine Sp.intro ?_
      apply Sp.bind' (onTgt_spec (st := { st with src := f, user := (rewriteEntry rw st.user e).1 })
        (dbWriteBuf_spec E r st.tgt C.wf))
      · rintro ⟨p, n⟩ st' ⟨g, rfl, h1, h2, h3, h4, -, -⟩
        dsimp only at h2 ⊢
        subst h2
        have hp47 : st.tgt.pos < 2 ^ 47 := h4.2.1
        rw [patchBp_assemble e.info _ hbp]
        unfold outputItem
        rw [hm2 _ hp47]
        dsimp only
        have C' : CInv E src tgt { st with src := f, tgt := g, user := (rewriteEntry rw st.user e).1 } moved :=
          ⟨hs, C.ext.trans h1, h1.wf C.wf, Nat.lt_of_lt_of_le C.pos h1.pos, C.mr.keep (h1.keep C.wf), C.mod, C.added,
            fun x hx => ⟨(C.ok x hx).1, (C.ok x hx).2.keep (h1.keep C.wf)⟩⟩
        have hseq : enc48 e.info.dbSeq = enc48 (rewriteEntry rw st.user e).2.info.dbSeq := by
          obtain ⟨m, h⟩ := rewriteEntry_info rw st.user e
          rw [h]
        rw [hseq]
        have hok' := rewriteEntry_ok rw hw st.user e hok
        refine (outputSeqtreeItem_spec E (flt := flt) ht _ C' ⟨{ (rewriteEntry rw st.user e).2.info with bp := st.tgt.pos }, some r⟩
          ⟨⟨hok'.fits.id, hok'.fits.dbSeq, hok'.fits.revSeq, hok'.fits.contentMeta, hp47, hok'.fits.physicalSize⟩, hok'.size⟩
          ⟨by have := C.pos; show st.tgt.pos ≠ 0; omega, h4⟩).mono ?_ fun _ _ h => Or.inl h
        rintro _ st' ⟨k1, k2⟩
        exact ⟨⟨{ (rewriteEntry rw st.user e).2.info with bp := st.tgt.pos }, some r⟩,
          ⟨rfl, by rw [rewriteEntry_raw, hraw]⟩, k1, k2⟩
      · rintro er st' ⟨g, rfl, h⟩
        rcases h.2.2 with h | h
        · exact Or.inl (Or.inr (Or.inl (C.ext.faults_ne h)))
        · exact Or.inl (Or.inr (Or.inr (Or.inl h)))
    · exact fun _ _ h => Or.inr h

theorem copyItem_spec (E : Env) (L : E.Laws) {src tgt : File} {flt : Option (CompactFilter υ)}
    (hcrc : src.cfg.crcMode ≠ .unknown) {cfg : Cfg} (ht : 2 ≤ cfg.kvThr) (st : CompactSt υ) {moved : List Entry}
    (C : CInv E src tgt st moved) (rw : Option (DocInfoRewrite υ)) (hw : RewritesFit rw) (e : Entry) (hok : DocOk e.info)
    (hb : BodyAt E src e) (item : Option Bytes)
    (hi : ∀ b x, e.raw = some b → item = some x → x = b) :
    Sp (copyItem E (seqRq cfg) rw (enc48 e.info.dbSeq) (assembleSeqIndexValue e.info) (bpField e.info) item) st
      (fun _ st' => ∃ e', Moved (rewriteEntry rw st.user e).2 e' ∧ CInv E src tgt st' (moved ++ [e']) ∧
        st'.user = (rewriteEntry rw st.user e).1)
      (fun er _ => Cause src tgt flt er) := by
  refine (copyItem_core E (flt := flt) ht st C rw hw e hok item hb.shape (R := fun _ _ => src.faults ≠ []) ?_).mono
    (fun _ _ h => h) ?_
  · intro b hr
    have : e.info.bp ≠ 0 ∧ ChunkAt E src e.info.bp b := by
      unfold BodyAt at hb
      rw [hr] at hb
      exact hb
    exact itemBody_spec E L hcrc st C.src this.2 item fun x hx => hi b x hr hx
  · rintro er _ (h | h)
    · exact h
    · exact Or.inl h

theorem pair_eq {α β : Type} {p : α × β} {b : β} (h : p.2 = b) : p = (p.1, b) := by rw [← h]

theorem callFilter_eq (g : CompactFilter υ) (d : Option DocInfo) (b : Option Bytes) (st : CompactSt υ) :
    callFilter g d b st = .ok (g st.user d b).2 { st with user := (g st.user d b).1 } := rfl

theorem keepItem_spec (E : Env) (L : E.Laws) {src tgt : File} {flt : Option (CompactFilter υ)} {drop : Bool}
    (hcrc : src.cfg.crcMode ≠ .unknown) (st : CompactSt υ) {moved : List Entry}
    (C : CInv E src tgt st moved) (e : Entry) (hok : DocOk e.info) (hb : BodyAt E src e)
    (hd : flt = none → (e.info.deleted && drop) = false) :
    Sp (keepItem E flt (enc48 e.info.dbSeq) (assembleSeqIndexValue e.info) e.info.bp) st
      (fun r st' => CInv E src tgt st' moved ∧ Decides drop flt st.user e st'.user r.1 ∧
        (∀ b x, e.raw = some b → r.2 = some x → x = b))
      (fun er _ => Cause src tgt flt er) := by
  unfold keepItem
  cases flt with
  | none => exact ⟨C, ⟨rfl, by rw [hd rfl]; rfl⟩, fun _ _ _ h => nomatch h⟩
  | some g =>
    have hcause : ¬ Reliable g → ∀ er, Cause src tgt (some g) er := fun hr er => Or.inr (Or.inr (Or.inr ⟨g, rfl, hr⟩))
    dsimp only
    unfold filterItem
    rw [bySeq_roundtrip _ hok.fits]
    dsimp only
    unfold Sp
    rw [bind_ok (callFilter_eq _ _ _ _)]
    have CU : ∀ (f : File) (u : υ), RFrame src f → CInv E src tgt { st with src := f, user := u } moved :=
      fun f u h => ⟨h, C.ext, C.wf, C.pos, C.mr, C.mod, C.added, C.ok⟩
    cases hg : (g st.user (some e.info) none).2 with
    | keep => exact ⟨CU _ _ C.src, Or.inl (pair_eq hg), fun _ _ _ h => nomatch h⟩
    | drop => exact ⟨CU _ _ C.src, Or.inl (pair_eq hg), fun _ _ _ h => nomatch h⟩
    | fail x => exact hcause (fun hr => hr.first _ _ _ hg) _
    | needBody =>
      dsimp only
      have hread : Sp (preadBin E e.info.bp) st.src
          (fun b f => RFrame src f ∧ ∀ b', e.raw = some b' → b = b') (fun _ _ => e.info.bp ≠ 0 → src.faults ≠ []) := by
        have h1 := preadBin_rframe E e.info.bp st.src
        cases hraw : e.raw with
        | none =>
          have hb0 : e.info.bp = 0 := by
            unfold BodyAt at hb
            rw [hraw] at hb
            exact hb.1
          refine h1.mono ?_ fun _ _ _ h => absurd hb0 h
          intro b f h
          exact ⟨C.src.trans h, fun _ h => nomatch h⟩
        | some b' =>
          have hb : e.info.bp ≠ 0 ∧ ChunkAt E src e.info.bp b' := by
            unfold BodyAt at hb
            rw [hraw] at hb
            exact hb
          refine (preadBin_spec E L e.info.bp b' st.src (by rw [C.src.cfg]; exact hcrc) (hb.2.keep C.src.keep)).mono
            ?_ fun _ _ h _ => C.src.faults_ne h.2
          rintro b f ⟨rfl, h⟩
          exact ⟨C.src.trans h, fun _ h => by cases h; rfl⟩
      apply Sp.bind' (onSrc_spec (st := { st with user := (g st.user (some e.info) none).1 }) hread)
      · rintro b st' ⟨f, rfl, h1, h2⟩
        unfold Sp
        rw [bind_ok (callFilter_eq _ _ _ _)]
        dsimp only
        have hd : ∀ k, (g (g st.user (some e.info) none).1 (some e.info) (some b)).2 = verdict k →
            Decides drop (some g) st.user e (g (g st.user (some e.info) none).1 (some e.info) (some b)).1 k := by
          intro k hk
          exact Or.inr ⟨_, b, pair_eq hg, h2, pair_eq hk⟩
        cases hg2 : (g (g st.user (some e.info) none).1 (some e.info) (some b)).2 with
        | keep => exact ⟨CU _ _ h1, hd true hg2, fun b' x hb' hx => by cases hx; exact h2 b' hb'⟩
        | drop => exact ⟨CU _ _ h1, hd false hg2, fun b' x hb' hx => by cases hx; exact h2 b' hb'⟩
        | fail x => exact hcause (fun hr => by rcases hr.second (g st.user (some e.info) none).1 e.info b with h | h <;> rw [hg2] at h <;> cases h) _
        | needBody => exact hcause (fun hr => by rcases hr.second (g st.user (some e.info) none).1 e.info b with h | h <;> rw [hg2] at h <;> cases h) _
      · rintro x st' ⟨f, rfl, h1⟩
        by_cases hr : Reliable g
        · exact Or.inl (h1 (hr.asks _ _ hg))
        · exact hcause hr _

/-- What happens to one document. -/
theorem compactSeqFetch_spec (E : Env) (L : E.Laws) {src tgt : File} (drop : Bool) (flt : Option (CompactFilter υ))
    (hcrc : src.cfg.crcMode ≠ .unknown) {cfg : Cfg} (ht : 2 ≤ cfg.kvThr) (st : CompactSt υ) {moved : List Entry}
    (C : CInv E src tgt st moved) (rw : Option (DocInfoRewrite υ)) (hw : RewritesFit rw) (e : Entry) (hok : DocOk e.info)
    (hb : BodyAt E src e) :
    Sp (compactSeqFetch E (seqRq cfg) drop flt rw (enc48 e.info.dbSeq) (assembleSeqIndexValue e.info)) st
      (fun _ st' => (Decides drop flt st.user e st'.user false ∧ CInv E src tgt st' moved) ∨
        (∃ u1, Decides drop flt st.user e u1 true ∧ st'.user = (rewriteEntry rw u1 e).1 ∧
          ∃ e', Moved (rewriteEntry rw u1 e).2 e' ∧ CInv E src tgt st' (moved ++ [e'])))
      (fun er _ => Cause src tgt flt er) := by
  have P := seqValueParts e.info
  have hbp := hok.fits.bp
  unfold compactSeqFetch
  rw [if_neg (by rw [P.len]; omega)]
  dsimp only
  rw [P.e1, beDec_beEnc 6 (bpField e.info) (by have := bpField_lt e.info hbp; simpa using this),
    (bpField_split _ hbp).1, (bpField_split _ hbp).2]
  by_cases hc : (e.info.deleted && flt.isNone && drop) = true
  · rw [if_pos hc]
    left
    simp only [Bool.and_eq_true, Option.isNone_iff_eq_none] at hc
    obtain ⟨⟨h1, rfl⟩, h3⟩ := hc
    exact ⟨⟨rfl, by rw [h1, h3]; rfl⟩, C⟩
  · rw [if_neg hc]
    apply Sp.bind' (keepItem_spec E L (flt := flt) (drop := drop) hcrc st C e hok hb (by
      rintro rfl
      simpa using hc))
    · rintro ⟨keep, item⟩ st' ⟨h1, h2, h3⟩
      dsimp only at h2 h3 ⊢
      cases keep with
      | false => exact Or.inl ⟨h2, h1⟩
      | true =>
        rw [if_pos rfl]
        refine (copyItem_spec E L (flt := flt) hcrc ht st' h1 rw hw e hok hb item h3).mono ?_ fun _ _ h => h
        rintro _ st'' ⟨e', k1, k2, k3⟩
        exact Or.inr ⟨_, h2, k3, e', k1, k2⟩
    · exact fun _ _ h => h

/-! ### Copying all documents -/

/-- The documents that are kept, with the metadata that they get, when those of a list are decided about one after
the other. -/
inductive Kept (drop : Bool) (flt : Option (CompactFilter υ)) (rw : Option (DocInfoRewrite υ)) :
    υ → List Entry → υ → List Entry → Prop where
  | nil (u : υ) : Kept drop flt rw u [] u []
  | keep {u u1 u2 : υ} {e : Entry} {l k : List Entry} : Decides drop flt u e u1 true →
      Kept drop flt rw (rewriteEntry rw u1 e).1 l u2 k → Kept drop flt rw u (e :: l) u2 ((rewriteEntry rw u1 e).2 :: k)
  | drop {u u1 u2 : υ} {e : Entry} {l k : List Entry} : Decides drop flt u e u1 false → Kept drop flt rw u1 l u2 k →
      Kept drop flt rw u (e :: l) u2 k

theorem Kept.sublist {drop : Bool} {flt : Option (CompactFilter υ)} {u u' : υ} {l k : List Entry}
    (h : Kept drop flt none u l u' k) : k.Sublist l := by
  induction h with
  | nil => exact List.Sublist.refl _
  | keep _ _ ih => exact ih.cons_cons _
  | drop _ _ ih => exact ih.cons _

/-- Everything but the metadata is as it was. -/
theorem Kept.sublist_map {drop : Bool} {flt : Option (CompactFilter υ)} {rw : Option (DocInfoRewrite υ)} {u u' : υ}
    {l k : List Entry} (h : Kept drop flt rw u l u' k) {β : Type} (g : DocInfo → β)
    (hg : ∀ d m, g { d with revMeta := m } = g d) : (k.map fun e => g e.info).Sublist (l.map fun e => g e.info) := by
  induction h with
  | nil => exact List.Sublist.refl _
  | @keep u u1 u2 e l k _ _ ih =>
    obtain ⟨m, hm⟩ := rewriteEntry_info rw u1 e
    rw [List.map_cons, List.map_cons, hm, hg]
    exact ih.cons_cons _
  | drop _ _ ih => exact ih.cons _

theorem visit_compact (E : Env) (L : E.Laws) {src tgt : File} (drop : Bool) (flt : Option (CompactFilter υ))
    (rw : Option (DocInfoRewrite υ)) (hw : RewritesFit rw) (hcrc : src.cfg.crcMode ≠ .unknown) {cfg : Cfg} (ht : 2 ≤ cfg.kvThr) (l : List Entry)
    (hl : ∀ e ∈ l, DocOk e.info ∧ BodyAt E src e) (st : CompactSt υ) {moved : List Entry} (C : CInv E src tgt st moved)
    (st' : CompactSt υ) (er : Option Err)
    (h : visit (runFetch (compactSeqFetch E (seqRq cfg) drop flt rw)) ((seqKVs l).map fun kv => (kv.1, some kv.2)) st =
      (st', er)) :
    (er = none → ∃ kept moved', Kept drop flt rw st.user l st'.user kept ∧ List.Forall₂ Moved kept moved' ∧
      CInv E src tgt st' (moved ++ moved')) ∧ (∀ x, er = some x → Cause src tgt flt x) := by
  induction l generalizing st moved with
  | nil =>
    cases h
    exact ⟨fun _ => ⟨[], [], .nil _, .nil, by rw [List.append_nil]; exact C⟩, fun _ h => nomatch h⟩
  | cons e l ih =>
    have S := compactSeqFetch_spec E L drop flt hcrc ht st C rw hw e (hl e (by simp)).1 (hl e (by simp)).2
    unfold Sp at S
    simp only [seqKVs, List.map_cons, visit, runFetch, seqKV] at h
    cases hf : compactSeqFetch E (seqRq cfg) drop flt rw (enc48 e.info.dbSeq) (assembleSeqIndexValue e.info) st with
    | ok a s1 =>
      rw [hf] at h S
      dsimp only at h S
      rcases S with ⟨h1, C1⟩ | ⟨u1, h1, h1u, e', h2, C1⟩
      · obtain ⟨i1, i2⟩ := ih (fun x hx => hl x (by simp [hx])) s1 C1 h
        refine ⟨fun hn => ?_, i2⟩
        obtain ⟨kept, moved', k1, k2, k3⟩ := i1 hn
        exact ⟨kept, moved', .drop h1 k1, k2, k3⟩
      · obtain ⟨i1, i2⟩ := ih (fun x hx => hl x (by simp [hx])) s1 C1 h
        refine ⟨fun hn => ?_, i2⟩
        obtain ⟨kept, moved', k1, k2, k3⟩ := i1 hn
        rw [h1u] at k1
        refine ⟨_ :: kept, e' :: moved', .keep h1 k1, .cons h2 k2, ?_⟩
        rw [List.append_assoc] at k3
        exact k3
    | error x s1 =>
      rw [hf] at h S
      cases h
      exact ⟨(fun h => nomatch h), fun _ h => (Option.some.inj h) ▸ S⟩

theorem seq_all (l : List Entry) (hl : ∀ x ∈ l, DocOk x.info) :
    rangeEvents (lookupCompare seqCmp) (enc48 0) none (seqKVs l) = (seqKVs l).map fun kv => (kv.1, some kv.2) := by
  unfold rangeEvents
  rw [List.filter_eq_self.mpr]
  intro kv hkv
  obtain ⟨e, he, rfl⟩ := List.mem_map.mp hkv
  have hne : ∀ s, enc48 s ≠ [] := fun s h => by have := congrArg List.length h; simp at this
  unfold inRange seqKV
  rw [lookupCompare_nonempty (hne _) (hne _), seqCmp_enc48 (hl e he).fits.dbSeq (by omega)]
  by_cases h : e.info.dbSeq = 0
  · simp [h]
  · rw [if_neg h, if_neg (by omega)]; rfl

theorem loc_all (l : List KV) : rangeEvents (lookupCompare ebinCmp) [] none l = l.map fun kv => (kv.1, some kv.2) := by
  unfold rangeEvents
  rw [List.filter_eq_self.mpr]
  intro kv _
  rw [lookupCompare_ebin]
  unfold inRange
  simp [ebinCmp_lt_iff]

/-- The by-sequence index of the target. -/
theorem compactSeqTree_spec (E : Env) (L : E.Laws) (c : Compaction υ) (hw : RewritesFit c.rewrite) {ids seqs locs} (inv : Inv E c.source ids seqs locs)
    (p : NodePointer) (hp : c.source.header.bySeqRoot = some p) (t : Db) (w : t.file.WF) (hpos : 0 < t.file.pos) :
    Sp (compactSeqTree E c p) t
      (fun r t' => ∃ kept moved root, Kept c.dropDeletes c.filter c.rewrite c.user seqs r.2 kept ∧ List.Forall₂ Moved kept moved ∧
        r.1 = idKVs moved ∧ t' = { t with file := t'.file, header := { t.header with bySeqRoot := root } } ∧
        Ext t.file t'.file ∧ RootAt E Idx.bySeq t'.file root (seqKVs moved) ∧
        (∀ e ∈ moved, DocOk e.info ∧ BodyAt E t'.file e))
      (fun er _ => c.source.file.faults ≠ [] ∨ Cause { c.source.file with faults := c.bodyFaults } t.file c.filter er) := by
  have hcrc : ({ c.source.file with faults := c.bodyFaults } : File).cfg.crcMode ≠ .unknown := inv.wf.crc
  have hlook : LookOk (σ := CompactSt υ) ⟨seqCmp, false,
      runFetch (compactSeqFetch E (seqRq c.source.file.cfg) c.dropDeletes c.filter c.rewrite), none⟩ _ :=
    ⟨seq_look, (fun h => nomatch h), rfl⟩
  have hl : ∀ e ∈ seqs, DocOk e.info ∧ BodyAt E { c.source.file with faults := c.bodyFaults } e := by
    intro e he
    refine ⟨inv.seqOk e he, ?_⟩
    exact (inv.body e (inv.perm.mem_iff.mp he)).keep ⟨fun _ _ _ => rfl, rfl, rfl, Nat.le_refl _⟩
  have C0 : CInv E { c.source.file with faults := c.bodyFaults } t.file
      (⟨{ c.source.file with faults := c.bodyFaults }, t.file, newBtreeModres, [], c.user⟩ : CompactSt υ) [] :=
    ⟨RFrame.refl _, Ext.refl _, w, hpos, ⟨[], [], MRInv.new E Idx.bySeq t.file 0 true⟩, rfl, rfl, by simp⟩
  have hfold := btreeLookup_fold E L hlook bySeq_hV p (seqKVs seqs) c.source.file inv.wf
      (by have := inv.seqRoot; rw [hp] at this; exact this) (sorted_seqKVs_look inv.seqSorted inv.seqOk)
      (fun h => nomatch h) (enc48 0) none (Or.inl (by simp)) (by simp)
      ⟨{ c.source.file with faults := c.bodyFaults }, t.file, newBtreeModres, [], c.user⟩
  unfold compactSeqTree
  unfold Sp at hfold ⊢
  dsimp only [boundKeys, Option.toList] at hfold ⊢
  cases hb : btreeLookup E _ true p.pointer [enc48 0] _ c.source.file with
  | error e f => rw [hb] at hfold; exact hfold.elim
  | ok r f =>
    obtain ⟨st, er⟩ := r
    rw [hb] at hfold
    dsimp only at hfold ⊢
    obtain ⟨-, hd⟩ := hfold
    rw [seq_all seqs inv.seqOk] at hd
    cases er with
    | some x =>
      rcases hd with hd | ⟨hd, -⟩
      · exact Or.inr ((visit_compact E L c.dropDeletes c.filter c.rewrite hw hcrc inv.thr seqs hl _ C0 _ _ hd).2 x rfl)
      · exact Or.inl hd
    | none =>
      have hd := hd.none_eq
      obtain ⟨kept, moved, k1, k2, C⟩ := (visit_compact E L c.dropDeletes c.filter c.rewrite hw hcrc inv.thr seqs hl _ C0 _ _ hd).1 rfl
      rw [List.nil_append] at C
      dsimp only
      refine Sp.intro ?_
      apply Sp.bind' (liftF_spec (db := { t with file := st.tgt })
        (completeNewBtree_spec E (seqRq_ok c.source.file.cfg inv.thr) st.mr _ st.tgt C.wf C.mr C.mod))
      · rintro root d ⟨hd', h1, h2⟩
        exact ⟨kept, moved, root, k1, k2, C.added, by rw [hd'], C.ext.trans h1, h2, fun e he => ⟨(C.ok e he).1,
          (C.ok e he).2.keep (h1.keep C.wf)⟩⟩
      · rintro er d ⟨-, h1, h2⟩
        rcases h2 with h2 | h2
        · exact Or.inr (Or.inr (Or.inl (C.ext.faults_ne h2)))
        · exact Or.inr (Or.inr (Or.inr (Or.inl h2)))

/-! ### The other indexes -/

theorem pushItems_spec {σ : Type} (E : Env) {rq : Rq σ} {K X} (ok : RqOk rq K X) (kvs : List KV) (hv : ∀ kv ∈ kvs, X.V kv)
    (mr : MR) (c : List KV) (f : File) (w : f.WF) (h : MRC E X f 0 mr c) :
    Sp (pushItems E rq kvs mr) f
      (fun r g => Ext f g ∧ r.modified = mr.modified ∧ MRC E X g 0 r (c ++ kvs)) (FailT f) := by
  induction kvs generalizing mr c f with
  | nil => exact ⟨Ext.refl f, rfl, by rw [List.append_nil]; exact h⟩
  | cons kv kvs ih =>
    unfold pushItems
    apply Sp.bind' (mrPushItem_spec E ok kv.1 kv.2 mr c f w h (hv kv (by simp)))
    · rintro r g ⟨h1, h2, h3⟩
      refine (ih (fun x hx => hv x (by simp [hx])) r _ g (h1.wf w) h3).mono ?_ fun _ _ h => FailT.trans h1 h
      rintro r' g' ⟨k1, k2, k3⟩
      refine ⟨h1.trans k1, k2.trans h2, ?_⟩
      rw [List.append_assoc] at k3
      exact k3
    · exact fun _ _ h => h

theorem keyLess_ok : LessOk fun a b : KV => ebinCmp a.1 b.1 == .lt where
  trans a b c h1 h2 := by
    simp only [leOf, Bool.not_eq_true', beq_eq_false_iff_ne, ne_eq, ebinCmp_lt_iff, List.not_lt] at *
    exact List.le_trans h1 h2
  asymm a b h := by
    simp only [beq_iff_eq, beq_eq_false_iff_ne, ne_eq, ebinCmp_lt_iff, List.not_lt] at *
    exact List.le_of_lt h

/-- A list sorted by id: the by-id entries of the documents in another order. -/
theorem sorted_moved {l : List Entry} (hn : (l.map (·.info.id)).Nodup) {out : List KV} (hp : out.Perm (idKVs l))
    (hs : out.Pairwise fun x y => leOf (fun a b : KV => ebinCmp a.1 b.1 == .lt) x y = true) :
    ∃ l', l'.Perm l ∧ out = idKVs l' ∧ IdSorted l' := by
  obtain ⟨l', h1, h2⟩ : ∃ l', l'.Perm l ∧ idKVs l' = out := by
    clear hn hs
    unfold idKVs at *
    induction out generalizing l with
    | nil =>
      have := List.map_eq_nil_iff.mp (List.nil_perm.mp hp)
      exact ⟨[], by rw [this], rfl⟩
    | cons x out ih =>
      have hx : x ∈ l.map fun e => idKV e.info := hp.mem_iff.mp (by simp)
      obtain ⟨e, he, rfl⟩ := List.mem_map.mp hx
      obtain ⟨a, b, rfl⟩ := List.append_of_mem he
      have hp' : out.Perm ((a ++ b).map fun e => idKV e.info) := by
        have h3 : (List.map (fun e : Entry => idKV e.info) (a ++ e :: b)).Perm
            (idKV e.info :: (a ++ b).map fun e => idKV e.info) :=
          (List.perm_middle (l₁ := a) (l₂ := b) (a := e)).map _
        exact (hp.trans h3).cons_inv
      obtain ⟨l', h1, h2⟩ := ih hp'
      exact ⟨e :: l', (h1.cons e).trans List.perm_middle.symm, by simp [h2]⟩
  refine ⟨l', h1, h2.symm, ?_⟩
  subst h2
  have hn' : (l'.map (·.info.id)).Nodup := (h1.map _).nodup_iff.mpr hn
  unfold IdSorted
  unfold idKVs at hs
  rw [List.pairwise_map] at hs
  rw [List.Nodup, List.pairwise_map] at hn'
  refine (hs.and hn').imp ?_
  rintro a b ⟨h1, h2⟩
  simp only [leOf, idKV, Bool.not_eq_true', beq_eq_false_iff_ne, ne_eq, ebinCmp_lt_iff, List.not_lt] at h1 ⊢
  rcases List.le_iff_lt_or_eq.mp h1 with h | h
  · exact h
  · exact absurd h h2

theorem compactIdTree_spec (E : Env) (moved : List Entry) (hn : (moved.map (·.info.id)).Nodup)
    (hok : ∀ e ∈ moved, DocOk e.info) (t : Db) (w : t.file.WF) (ht : 2 ≤ t.file.cfg.kvThr) :
    Sp (compactIdTree E (idKVs moved)) t
      (fun _ t' => ∃ ids' root, ids'.Perm moved ∧ IdSorted ids' ∧
        t' = { t with file := t'.file, header := { t.header with byIdRoot := root } } ∧
        Ext t.file t'.file ∧ RootAt E Idx.byId t'.file root (idKVs ids'))
      (fun er _ => t.file.faults ≠ [] ∨ er = .formatLimit) := by
  unfold compactIdTree
  obtain ⟨out, h1, h2, h3⟩ := mergeSortStream_spec keyLess_ok (bs := 512 * 1024) (by omega) (idKVs moved)
  unfold treeWriterSort
  rw [h1]
  obtain ⟨ids', k1, rfl, k3⟩ := sorted_moved hn h3 h2
  dsimp only
  apply Sp.get_bind
  have hwrite : Sp (treeWriterWrite E t.file.cfg (idKVs ids')) t.file
      (fun r g => Ext t.file g ∧ RootAt E Idx.byId g r (idKVs ids')) (FailT t.file) := by
    unfold treeWriterWrite
    apply Sp.bind' (pushItems_spec E (idRq_ok t.file.cfg ht 0 none) (idKVs ids') (by
      intro kv hkv
      obtain ⟨e, he, rfl⟩ := List.mem_map.mp hkv
      exact ⟨e.info, hok e (k1.mem_iff.mp he), rfl⟩) newBtreeModres [] t.file w
      ⟨[], [], MRInv.new E Idx.byId t.file 0 true⟩)
    · rintro mr g ⟨a1, a2, a3⟩
      refine (completeNewBtree_spec E (idRq_ok t.file.cfg ht 0 none) mr _ g (a1.wf w) a3 a2).mono ?_
        fun _ _ h => FailT.trans a1 h
      rintro r g' ⟨b1, b2⟩
      exact ⟨a1.trans b1, b2⟩
    · exact fun _ _ h => h
  apply Sp.bind' (liftF_spec (db := t) hwrite)
  · rintro root d ⟨hd, a1, a2⟩
    have hlen : (idKVs moved).length = (idKVs ids').length := h3.length_eq.symm
    rw [if_neg (by rw [hlen]; simp)]
    exact ⟨ids', root, k1, k3, by rw [hd], a1, a2⟩
  · rintro er d ⟨-, -, h⟩
    exact h

theorem visit_locals (E : Env) {cfg : Cfg} (ht : 2 ≤ cfg.kvThr) (l : List KV) (hl : ∀ kv ∈ l, Idx.loc.V kv)
    (f : File) (w : f.WF) (mr : MR) (hm : mr.modified = true) (c : List KV) (C : MRC E Idx.loc f 0 mr c)
    (st : File × MR) (er : Option Err)
    (h : visit (runFetch (compactLocalFetch E (localRq cfg))) (l.map fun kv => (kv.1, some kv.2)) (f, mr) = (st, er)) :
    (er = none → Ext f st.1 ∧ MRC E Idx.loc st.1 0 st.2 (c ++ l) ∧ st.2.modified = true) ∧
      (∀ x, er = some x → f.faults ≠ [] ∨ x = .formatLimit) := by
  induction l generalizing f mr c with
  | nil =>
    cases h
    exact ⟨fun _ => ⟨Ext.refl f, by rw [List.append_nil]; exact C, hm⟩, fun _ h => nomatch h⟩
  | cons kv l ih =>
    have S := mrPushItem_spec E (localRq_ok cfg ht) kv.1 kv.2 mr c f w C (hl kv (by simp))
    unfold Sp at S
    simp only [List.map_cons, visit, runFetch, compactLocalFetch] at h
    cases hf : mrPushItem E (localRq cfg) kv.1 kv.2 mr f with
    | ok r g =>
      rw [hf] at h S
      dsimp only at h S
      obtain ⟨s1, s2, s3⟩ := S
      obtain ⟨i1, i2⟩ := ih (fun x hx => hl x (by simp [hx])) g (s1.wf w) r (s2.trans hm) _ s3 h
      refine ⟨fun hn => ?_, fun x hx => (i2 x hx).imp s1.faults_ne id⟩
      obtain ⟨j1, j2, j3⟩ := i1 hn
      rw [List.append_assoc] at j2
      exact ⟨s1.trans j1, j2, j3⟩
    | error x g =>
      rw [hf] at h S
      cases h
      exact ⟨(fun h => nomatch h), fun _ h => (Option.some.inj h) ▸ S.2⟩

theorem compactLocalTree_spec (E : Env) (L : E.Laws) {db : Db} {ids seqs locs} (inv : Inv E db ids seqs locs)
    (faults : List Fault) (p : NodePointer) (hp : db.header.localRoot = some p) (t : Db) (w : t.file.WF) :
    Sp (compactLocalTree E { db.file with faults := faults } p) t
      (fun _ t' => ∃ root, t' = { t with file := t'.file, header := { t.header with localRoot := root } } ∧
        Ext t.file t'.file ∧ RootAt E Idx.loc t'.file root locs)
      (fun er _ => faults ≠ [] ∨ t.file.faults ≠ [] ∨ er = .formatLimit) := by
  have hlook : LookOk (σ := File × MR) ⟨ebinCmp, false, runFetch (compactLocalFetch E (localRq db.file.cfg)), none⟩ (fun _ => True) :=
    ⟨ebin_look, (fun h => nomatch h), rfl⟩
  have hk : Keep db.file { db.file with faults := faults } := ⟨fun _ _ _ => rfl, rfl, rfl, Nat.le_refl _⟩
  have hroot : RootAt E Idx.loc { db.file with faults := faults } (some p) locs := by
    have := inv.locRoot.keep hk
    rw [hp] at this
    exact this
  have hfold := btreeLookup_fold (X := Idx.loc) E L hlook (fun kv h => ⟨trivial, h.1⟩) p locs { db.file with faults := faults } ⟨inv.wf.pos_le, inv.wf.crc⟩
    hroot (by rw [lookupCompare_ebin]; exact inv.locSorted) (fun h => nomatch h) [] none trivial (by simp)
    (t.file, newBtreeModres)
  have hV : ∀ kv ∈ locs, Idx.loc.V kv := inv.locRoot.valid
  unfold compactLocalTree
  unfold Sp at hfold ⊢
  dsimp only [boundKeys, Option.toList] at hfold ⊢
  cases hb : btreeLookup E _ true p.pointer [[]] _ { db.file with faults := faults } with
  | error e f => rw [hb] at hfold; exact hfold.elim
  | ok r f =>
    obtain ⟨st, er⟩ := r
    rw [hb] at hfold
    dsimp only at hfold ⊢
    obtain ⟨-, hd⟩ := hfold
    rw [loc_all] at hd
    have C0 : MRC E Idx.loc t.file 0 newBtreeModres [] := ⟨[], [], MRInv.new E Idx.loc t.file 0 true⟩
    cases er with
    | some x =>
      rcases hd with hd | ⟨hd, -⟩
      · exact Or.inr ((visit_locals E inv.thr locs hV t.file w _ rfl _ C0 _ _ hd).2 x rfl)
      · exact Or.inl hd
    | none =>
      have hd := hd.none_eq
      obtain ⟨k1, k2, k3⟩ := (visit_locals E inv.thr locs hV t.file w _ rfl _ C0 _ _ hd).1 rfl
      rw [List.nil_append] at k2
      dsimp only
      refine Sp.intro ?_
      apply Sp.bind' (liftF_spec (db := { t with file := st.1 })
        (completeNewBtree_spec E (localRq_ok db.file.cfg inv.thr) st.2 _ st.1 (k1.wf w) k2 k3))
      · rintro root d ⟨hd', h1, h2⟩
        exact ⟨root, by rw [hd'], k1.trans h1, h2⟩
      · rintro er d ⟨-, h1, h2⟩
        exact Or.inr (h2.imp k1.faults_ne id)

/-! ### Filling the new file -/

/-- The state of the new file while it is filled, and what is already there. -/
structure Filled (E : Env) (c : Compaction υ) (t : Db) (ids seqs : List Entry) (locs : List KV) (t' : Db) : Prop where
  same : t' = { t with
    file := t'.file
    header := { t.header with
      updateSeq := c.source.header.updateSeq
      purgeSeq := if c.dropDeletes then c.source.header.purgeSeq + 1 else c.source.header.purgeSeq
      purgePtr := c.source.header.purgePtr
      byIdRoot := t'.header.byIdRoot
      bySeqRoot := t'.header.bySeqRoot
      localRoot := t'.header.localRoot } }
  ext : Ext t.file t'.file
  idRoot : RootAt E Idx.byId t'.file t'.header.byIdRoot (idKVs ids)
  seqRoot : RootAt E Idx.bySeq t'.file t'.header.bySeqRoot (seqKVs seqs)
  locRoot : RootAt E Idx.loc t'.file t'.header.localRoot locs
  ok : ∀ e ∈ seqs, DocOk e.info ∧ BodyAt E t'.file e

/-- Why compaction may fail. -/
def CompactFails (c : Compaction υ) (t : Db) (e : Err) : Prop :=
  c.source.file.faults ≠ [] ∨ c.bodyFaults ≠ [] ∨ c.localFaults ≠ [] ∨ t.file.faults ≠ [] ∨ e = .formatLimit ∨
    FilterFails c.filter

theorem moved_map {β : Type} (g : Entry → β) (hg : ∀ e e', Moved e e' → g e' = g e) {k m : List Entry}
    (h : List.Forall₂ Moved k m) : m.map g = k.map g := by
  induction h with
  | nil => rfl
  | cons h _ ih => rw [List.map_cons, List.map_cons, hg _ _ h, ih]

theorem Moved.id {e e' : Entry} (h : Moved e e') : e'.info.id = e.info.id := by rw [h.info]
theorem Moved.seq {e e' : Entry} (h : Moved e e') : e'.info.dbSeq = e.info.dbSeq := by rw [h.info]

theorem nodup_ids {E : Env} {db : Db} {ids seqs locs} (inv : Inv E db ids seqs locs) : (seqs.map (·.info.id)).Nodup := by
  refine (inv.perm.map _).nodup_iff.mpr ?_
  unfold List.Nodup
  rw [List.pairwise_map]
  refine List.Pairwise.imp ?_ inv.idSorted
  intro a b h he
  rw [he] at h
  exact absurd h (by rw [ebinCmp_lt_iff]; exact List.lt_irrefl _)

theorem compactDocs_spec (E : Env) (L : E.Laws) (c : Compaction υ) (hw : RewritesFit c.rewrite) {ids seqs locs} (inv : Inv E c.source ids seqs locs)
    (t0 t : Db) (w : t.file.WF) (hpos : 0 < t.file.pos) (ht : 2 ≤ t.file.cfg.kvThr) (F : Filled E c t0 [] [] [] t) :
    Sp (compactDocs E c) t
      (fun u t' => ∃ kept moved ids', Kept c.dropDeletes c.filter c.rewrite c.user seqs u kept ∧ List.Forall₂ Moved kept moved ∧
        ids'.Perm moved ∧ IdSorted ids' ∧ Filled E c t0 ids' moved [] t' ∧ Ext t.file t'.file)
      (fun e _ => CompactFails c t e) := by
  unfold compactDocs
  cases hp : c.source.header.bySeqRoot with
  | none =>
    have hs : seqs = [] := by
      have := inv.seqRoot
      rw [hp] at this
      exact List.map_eq_nil_iff.mp this
    subst hs
    exact ⟨[], [], [], .nil _, .nil, List.Perm.refl _, List.Pairwise.nil, F, Ext.refl _⟩
  | some p =>
    dsimp only
    apply Sp.bind' (compactSeqTree_spec E L c hw inv p hp t w hpos)
    · rintro ⟨added, u⟩ t1 ⟨kept, moved, root, k1, k2, k3, k4, k5, k6, k7⟩
      have hn : (moved.map (·.info.id)).Nodup := by
        rw [moved_map (·.info.id) (fun _ _ h => h.id) k2]
        exact (k1.sublist_map (·.id) (fun _ _ => rfl)).nodup (nodup_ids inv)
      dsimp only at k3 ⊢
      subst k3
      have hcfg : t1.file.cfg = t.file.cfg := k5.frame.cfg
      apply Sp.bind' (compactIdTree_spec E moved hn (fun e he => (k7 e he).1) t1 (k5.wf w) (by rw [hcfg]; exact ht))
      · rintro _ t2 ⟨ids', root', m1, m2, m3, m4, m5⟩
        have hk := m4.keep (k5.wf w)
        refine ⟨kept, moved, ids', k1, k2, m1, m2, ⟨?_, (F.ext.trans k5).trans m4, ?_, ?_, ?_, ?_⟩, k5.trans m4⟩
        · rw [m3, k4, F.same]
        · rw [m3]; exact m5
        · rw [m3, k4]; exact k6.keep hk
        · have := F.locRoot.keep ((k5.trans m4).keep w)
          rw [m3, k4]; exact this
        · exact fun e he => ⟨(k7 e he).1, (k7 e he).2.keep hk⟩
      · rintro er d (h | h)
        · exact Or.inr (Or.inr (Or.inr (Or.inl (k5.faults_ne h))))
        · exact Or.inr (Or.inr (Or.inr (Or.inr (Or.inl h))))
    · rintro er d (h | h | h | h | h)
      · exact Or.inl h
      · exact Or.inr (Or.inl h)
      · exact Or.inr (Or.inr (Or.inr (Or.inl h)))
      · exact Or.inr (Or.inr (Or.inr (Or.inr (Or.inl h))))
      · exact Or.inr (Or.inr (Or.inr (Or.inr (Or.inr h))))

theorem compactLocals_spec (E : Env) (L : E.Laws) (c : Compaction υ) {ids seqs locs} (inv : Inv E c.source ids seqs locs)
    (t0 t : Db) (w : t.file.WF) {ids' seqs'} (F : Filled E c t0 ids' seqs' [] t) :
    Sp (compactLocals E c) t
      (fun _ t' => Filled E c t0 ids' seqs' locs t' ∧ Ext t.file t'.file)
      (fun e _ => CompactFails c t e) := by
  unfold compactLocals
  cases hp : c.source.header.localRoot with
  | none =>
    have hs : locs = [] := by
      have := inv.locRoot
      rw [hp] at this
      exact this
    subst hs
    exact ⟨F, Ext.refl _⟩
  | some p =>
    dsimp only
    refine (compactLocalTree_spec E L inv c.localFaults p hp t w).mono ?_ ?_
    · rintro _ t' ⟨root, h1, h2, h3⟩
      have hk := h2.keep w
      refine ⟨⟨?_, F.ext.trans h2, ?_, ?_, ?_, ?_⟩, h2⟩
      · rw [h1, F.same]
      · rw [h1]; exact F.idRoot.keep hk
      · rw [h1]; exact F.seqRoot.keep hk
      · rw [h1]; exact h3
      · exact fun e he => ⟨(F.ok e he).1, (F.ok e he).2.keep hk⟩
    · rintro er d (h | h | h)
      · exact Or.inr (Or.inr (Or.inl h))
      · exact Or.inr (Or.inr (Or.inr (Or.inl h)))
      · exact Or.inr (Or.inr (Or.inr (Or.inr (Or.inl h))))

theorem lastFilterCall_spec (c : Compaction υ) (u : υ) (t : Db) :
    Sp (lastFilterCall c u) t (fun _ t' => t' = t) (fun e _ => CompactFails c t e) := by
  unfold lastFilterCall
  cases hf : c.filter with
  | none => exact rfl
  | some g =>
    dsimp only
    cases hg : (g u none none).2 with
    | fail e => exact Or.inr (Or.inr (Or.inr (Or.inr (Or.inr ⟨g, hf, fun hr => hr.last _ _ hg⟩))))
    | keep => exact rfl
    | drop => exact rfl
    | needBody => exact rfl

/-- The target, when everything has been copied. -/
theorem Filled.handle {E : Env} {c : Compaction υ} {db : Db} {ids seqs locs} (S : Handle E db ids seqs locs)
    (hsrc : c.source.header = db.header) {t : Db} (T : Handle E t [] [] []) {kept moved ids' : List Entry}
    (hsub : (kept.map (·.info.dbSeq)).Sublist (seqs.map (·.info.dbSeq))) (k2 : List.Forall₂ Moved kept moved) (k3 : ids'.Perm moved) (k4 : IdSorted ids')
    {t4 : Db} (F3 : Filled E c t ids' moved locs t4) : Handle E t4 ids' moved locs := by
  have inv := S.inv
  have hcfg : t4.file.cfg = t.file.cfg := F3.ext.frame.cfg
  have hh := F3.same
  have hlen : ids'.length ≤ ids.length := by
    rw [k3.length_eq, ← k2.length_eq, ← inv.perm.length_eq]
    simpa using hsub.length_le
  refine ⟨⟨F3.ext.wf T.inv.wf, Nat.lt_of_lt_of_le T.inv.pos F3.ext.pos,
    by rw [hcfg]; exact T.inv.thr, F3.idRoot, F3.seqRoot, F3.locRoot, k4, ?_, inv.locSorted, k3.symm, ?_, ?_, ?_,
    ?_, by have := inv.few; omega⟩, ?_, ?_, ?_, ?_, ?_, ?_⟩
  · have h1 : (moved.map (·.info.dbSeq)).Pairwise (· < ·) := by
      rw [moved_map (·.info.dbSeq) (fun _ _ h => h.seq) k2]
      exact (List.pairwise_map.mpr inv.seqSorted).sublist hsub
    rw [List.pairwise_map] at h1
    exact h1
  · exact fun e he => (F3.ok e (k3.mem_iff.mp he)).1
  · intro e he
    rw [hh]
    have : e.info.dbSeq ∈ kept.map (·.info.dbSeq) := by
      rw [← moved_map (·.info.dbSeq) (fun _ _ h => h.seq) k2]
      exact List.mem_map.mpr ⟨e, k3.mem_iff.mp he, rfl⟩
    obtain ⟨e0, h0, h1⟩ := List.mem_map.mp (hsub.subset this)
    rw [← h1]
    show _ ≤ c.source.header.updateSeq
    rw [hsrc]
    exact inv.upd e0 (inv.perm.mem_iff.mp h0)
  · rw [hh]
    show c.source.header.updateSeq < _
    rw [hsrc]; exact inv.updLt
  · exact fun e he => (F3.ok e (k3.mem_iff.mp he)).2
  · rw [hh]; exact T.opened
  · rw [hh]; exact T.ver
  · rw [hh]
    show crcOf t.header.diskVersion = t4.file.cfg.crcMode
    rw [hcfg]; exact T.crc
  · rw [hh]
    show c.source.header.purgePtr = 0
    rw [hsrc]; exact S.purge
  · rw [hh]
    show t.header.haveMeta = t4.file.cfg.cipher.isSome
    rw [hcfg]; exact T.isMeta
  · rw [hh]; exact T.old

theorem compactFill_spec (E : Env) (L : E.Laws) (c : Compaction υ) (hw : RewritesFit c.rewrite) {ids seqs locs} (S : Handle E c.source ids seqs locs)
    (t : Db) (T : Handle E t [] [] []) :
    Sp (compactFill E c) t
      (fun _ t' => ∃ u kept moved ids', Kept c.dropDeletes c.filter c.rewrite c.user seqs u kept ∧ List.Forall₂ Moved kept moved ∧
        ids'.Perm moved ∧ Filled E c t ids' moved locs t' ∧ Handle E t' ids' moved locs)
      (fun e _ => CompactFails c t e) := by
  have inv := S.inv
  unfold compactFill
  have hset : Sp (setHeader fun h => { h with
      updateSeq := c.source.header.updateSeq
      purgeSeq := if c.dropDeletes then c.source.header.purgeSeq + 1 else c.source.header.purgeSeq
      purgePtr := c.source.header.purgePtr }) t
      (fun _ t' => Filled E c t [] [] [] t' ∧ t'.file = t.file) (fun _ _ => False) :=
    ⟨⟨rfl, Ext.refl _, T.inv.idRoot, T.inv.seqRoot, T.inv.locRoot, by simp⟩, rfl⟩
  apply Sp.bind' hset
  · rintro _ t1 ⟨F1, hf1⟩
    apply Sp.bind' (compactDocs_spec E L c hw inv t t1 (by rw [hf1]; exact T.inv.wf) (by rw [hf1]; exact T.inv.pos)
      (by rw [hf1]; exact T.inv.thr) F1)
    · rintro u t2 ⟨kept, moved, ids', k1, k2, k3, k4, F2, x2⟩
      have w2 := F2.ext.wf T.inv.wf
      apply Sp.bind' (compactLocals_spec E L c inv t t2 w2 F2)
      · rintro _ t3 ⟨F3, x3⟩
        refine (lastFilterCall_spec c u t3).mono ?_ ?_
        · rintro _ t4 rfl
          exact ⟨u, kept, moved, ids', k1, k2, k3, F3, F3.handle S rfl T (k1.sublist_map (·.dbSeq) (fun _ _ => rfl)) k2 k3 k4⟩
        · rintro e _ (h | h | h | h | h)
          · exact Or.inl h
          · exact Or.inr (Or.inl h)
          · exact Or.inr (Or.inr (Or.inl h))
          · exact Or.inr (Or.inr (Or.inr (Or.inl (F3.ext.faults_ne h))))
          · exact Or.inr (Or.inr (Or.inr (Or.inr h)))
      · rintro e _ (h | h | h | h | h)
        · exact Or.inl h
        · exact Or.inr (Or.inl h)
        · exact Or.inr (Or.inr (Or.inl h))
        · exact Or.inr (Or.inr (Or.inr (Or.inl (F2.ext.faults_ne h))))
        · exact Or.inr (Or.inr (Or.inr (Or.inr h)))
    · rintro e _ (h | h | h | h | h)
      · exact Or.inl h
      · exact Or.inr (Or.inl h)
      · exact Or.inr (Or.inr (Or.inl h))
      · exact Or.inr (Or.inr (Or.inr (Or.inl (F1.ext.faults_ne h))))
      · exact Or.inr (Or.inr (Or.inr (Or.inr h)))
  · exact fun _ _ h => h.elim

theorem sorted_seqs_nodup {l : List Entry} (h : SeqSorted l) : (l.map (·.info.dbSeq)).Nodup := by
  unfold List.Nodup
  rw [List.pairwise_map]
  exact List.Pairwise.imp (fun h => Nat.ne_of_lt h) h

/-- A sublist of distinct elements is made of those it has. -/
theorem sublist_filter {k l : List Entry} (h : k.Sublist l) (hn : (l.map (·.info)).Nodup) :
    k = l.filter fun e => !(!(k.map (·.info)).contains e.info) := by
  have key : ∀ (K : List DocInfo) {k l : List Entry}, k.Sublist l → (l.map (·.info)).Nodup →
      (∀ e ∈ l, e.info ∈ K ↔ e.info ∈ k.map (·.info)) → k = l.filter fun e => !(!K.contains e.info) := by
    intro K k l h
    induction h with
    | slnil => intro _ _; rfl
    | @cons k l a h ih =>
      intro hn hK
      rw [List.map_cons, List.nodup_cons] at hn
      have hna : a.info ∉ K := by
        rw [hK a (by simp)]
        exact fun hx => hn.1 ((h.map _).subset hx)
      rw [List.filter_cons_of_neg (by simpa using hna)]
      exact ih hn.2 fun e he => hK e (by simp [he])
    | @cons_cons k l a h ih =>
      intro hn hK
      rw [List.map_cons, List.nodup_cons] at hn
      have hna : a.info ∈ K := by
        rw [hK a (by simp)]
        simp
      rw [List.filter_cons_of_pos (by simpa using hna)]
      rw [← ih hn.2 fun e he => by
        rw [hK e (by simp [he]), List.map_cons, List.mem_cons]
        exact ⟨fun hx => hx.resolve_left fun hx => hn.1 (List.mem_map.mpr ⟨e, he, hx⟩), Or.inr⟩]
  exact key _ h hn fun _ _ => Iff.rfl

end Couchstore
