import Verif.Lemmas.SeqBatch
import Verif.Lemmas.Modify2
import Verif.Spec.Store

/-! Helper lemmas: saving documents keeps the two indexes consistent. -/

namespace Couchstore

/-- A file operation on the handle changes only the file. -/
theorem liftF_spec {α : Type} {m : M α} {db : Db} {Q : α → File → Prop} {R : Err → File → Prop}
    (h : Sp m db.file Q R) :
    Sp (liftF m) db (fun a d => d = { db with file := d.file } ∧ Q a d.file)
      (fun e d => d = { db with file := d.file } ∧ R e d.file) := by
  unfold Sp liftF at *
  split <;> rename_i heq <;> split at heq <;> rename_i hm <;> rw [hm] at h <;> cases heq
  · exact ⟨rfl, h⟩
  · exact ⟨rfl, h⟩

/-- The stored body of a document is in the file; a document without a body is deleted and has
position 0. -/
def BodyAt (E : Env) (f : File) (e : Entry) : Prop :=
  match e.raw with
  | none => e.info.bp = 0 ∧ e.info.deleted = true
  | some b => e.info.bp ≠ 0 ∧ ChunkAt E f e.info.bp b

theorem BodyAt.keep {E : Env} {f g : File} {e : Entry} (h : BodyAt E f e) (k : Keep f g) :
    BodyAt E g e := by
  obtain ⟨info, raw⟩ := e
  cases raw with
  | none => exact h
  | some b => exact ⟨h.1, h.2.keep k⟩

theorem length_chunkBytes (E : Env) (L : E.Laws) (c : Cfg) (pos : Nat) (b : Bytes) :
    (chunkBytes E c pos b).length = chunkLen E c b := by
  unfold chunkBytes chunkLen
  cases c.cipher with
  | none => simp; omega
  | some k => simp [L.cipher_length, L.mac_length]; omega

/-- What is stored for a document of a batch, `d` being its metadata with the sequence number. -/
def SavedAs (E : Env) (c : Cfg) (opts : SaveOpts) (doc : Option Bytes) (d : DocInfo) (e : Entry) : Prop :=
  match doc with
  | none => e = ⟨{ d with deleted := true, bp := 0, physicalSize := 0 }, none⟩
  | some b => ∃ bp, bp ≠ 0 ∧
      e = ⟨{ d with bp := bp, physicalSize := chunkLen E c (storedBody E opts d b) },
        some (storedBody E opts d b)⟩

/-- The index terms of a document. -/
def termsOf (e : Entry) : Terms :=
  { seqKey := enc48 e.info.dbSeq, idKey := e.info.id,
    seqVal := assembleSeqIndexValue e.info, idVal := assembleIdIndexValue e.info }

theorem isCompressed_eq (m : Nat) : isCompressed m = m.testBit 7 := by
  unfold isCompressed
  have h : m &&& 128 = if m.testBit 7 then 128 else 0 := by
    apply Nat.eq_of_testBit_eq
    intro i
    rw [Nat.testBit_and, show (128 : Nat) = 2 ^ 7 from rfl, Nat.testBit_two_pow]
    by_cases hi : 7 = i
    · subst hi; cases m.testBit 7 <;> decide
    · rw [decide_eq_false hi, Bool.and_false]
      cases h : m.testBit 7
      · simp
      · rw [if_pos rfl, Nat.testBit_two_pow, decide_eq_false hi]
  rw [h]
  cases m.testBit 7 <;> rfl

theorem writeDoc_spec (E : Env) (L : E.Laws) (opts : SaveOpts) (d : DocInfo) (body : Bytes) (f : File)
    (w : f.WF) :
    Sp (writeDoc E (opts.compress && isCompressed d.contentMeta) body) f
      (fun r g => Ext f g ∧ r.1 = f.pos ∧ f.pos < g.pos ∧
        ChunkAt E g f.pos (storedBody E opts d body) ∧
        r.2 = chunkLen E f.cfg (storedBody E opts d body)) (FailT f) := by
  unfold writeDoc storedBody
  rw [isCompressed_eq]
  split
  · refine (dbWriteBufCompressed_spec E body f w).mono ?_ fun e g h => h.failT
    rintro r g ⟨h1, h2, h3, h4, -, h6⟩
    exact ⟨h1, h2, h3, h4, by rw [h6, length_chunkBytes E L]⟩
  · refine (dbWriteBuf_spec E body f w).mono ?_ fun e g h => h.failT
    rintro r g ⟨h1, h2, h3, h4, -, h6⟩
    exact ⟨h1, h2, h3, h4, by rw [h6, length_chunkBytes E L]⟩

theorem updatedInfo_spec (E : Env) (L : E.Laws) (opts : SaveOpts) (it : SaveItem) (d : DocInfo)
    (f : File) (w : f.WF) (hp : 0 < f.pos) (hit : ItemOk E f.cfg opts it)
    (hd : d = { it.info with dbSeq := d.dbSeq }) (hs : d.dbSeq < 2 ^ 48) :
    Sp (updatedInfo E opts it.doc d) f
      (fun r g => Ext f g ∧ ∃ e, SavedAs E f.cfg opts it.doc d e ∧ r = e.info ∧ DocOk e.info ∧
        BodyAt E g e) (FailT f) := by
  unfold updatedInfo
  have e1 : d.id = it.info.id := by rw [hd]
  have e2 : d.revMeta = it.info.revMeta := by rw [hd]
  have e3 : d.revSeq = it.info.revSeq := by rw [hd]
  have e4 : d.contentMeta = it.info.contentMeta := by rw [hd]
  cases hdoc : it.doc with
  | none =>
    refine ⟨Ext.refl f, ⟨{ d with deleted := true, bp := 0, physicalSize := 0 }, none⟩, rfl, rfl, ?_, ⟨rfl, rfl⟩⟩
    refine ⟨⟨?_, hs, ?_, ?_, ?_, ?_⟩, ?_⟩ <;> simp only
    · rw [e1]; exact hit.id
    · rw [e3]; exact hit.revSeq
    · rw [e4]; exact hit.contentMeta
    · decide
    · decide
    · rw [e1, e2]; exact hit.size
  | some b =>
    refine Sp.bind' (writeDoc_spec E L opts d b f w) ?_ fun _ _ h => h
    rintro ⟨bp, sz⟩ g ⟨h1, h2, h3, h4, h5⟩
    dsimp only at h2 h5
    have hb : storedBody E opts d b = storedBody E opts it.info b := by unfold storedBody; rw [e4]
    refine ⟨h1, ⟨{ d with bp := bp, physicalSize := sz }, some (storedBody E opts d b)⟩,
      ⟨bp, by omega, by rw [h5]⟩, rfl, ?_, by simp only; omega, by simp only; rw [h2]; exact h4⟩
    refine ⟨⟨?_, hs, ?_, ?_, ?_, ?_⟩, ?_⟩ <;> simp only
    · rw [e1]; exact hit.id
    · rw [e3]; exact hit.revSeq
    · rw [e4]; exact hit.contentMeta
    · rw [h2]; exact h4.2.1
    · rw [h5, hb]; exact hit.body b hdoc
    · rw [e1, e2]; exact hit.size

theorem fatbufGet_ok {fb n : Nat} (h : n ≤ fb) : fatbufGet fb n = .ok (fb - n) := by
  unfold fatbufGet; rw [if_neg (by omega)]

theorem Sp.ofExcept_ok {α β : Type} {x : α} {k : α → M β} {f : File} {Q R}
    (h : Sp (k x) f Q R) : Sp (ofExcept (.ok x) >>= k) f Q R := h

theorem addDocToUpdateList_spec (E : Env) (L : E.Laws) (opts : SaveOpts) (it : SaveItem) (d : DocInfo)
    (fb : Nat) (f : File) (w : f.WF) (hp : 0 < f.pos) (hit : ItemOk E f.cfg opts it)
    (hd : d = { it.info with dbSeq := d.dbSeq }) (hs : d.dbSeq < 2 ^ 48)
    (hfb : termMetaSize [it] ≤ fb) :
    Sp (addDocToUpdateList E opts it.doc d fb) f
      (fun r g => Ext f g ∧ r.2 = fb - termMetaSize [it] ∧
        ∃ e, SavedAs E f.cfg opts it.doc d e ∧ r.1 = termsOf e ∧ DocOk e.info ∧ BodyAt E g e)
      (FailT f) := by
  unfold addDocToUpdateList
  simp only [termMetaSize, List.map_cons, List.map_nil, List.sum_cons, List.sum_nil] at *
  rw [fatbufGet_ok (by omega)]
  apply Sp.ofExcept_ok
  refine Sp.bind' (updatedInfo_spec E L opts it d f w hp hit hd hs) ?_ fun _ _ h => h
  rintro r g ⟨h1, e, h2, rfl, h4, h5⟩
  have hid : e.info.id = d.id ∧ e.info.revMeta = d.revMeta ∧ e.info.dbSeq = d.dbSeq := by
    unfold SavedAs at h2
    cases hdoc : it.doc with
    | none => rw [hdoc] at h2; simp only at h2; rw [h2]; exact ⟨rfl, rfl, rfl⟩
    | some b =>
      rw [hdoc] at h2
      obtain ⟨bp, _, rfl⟩ := h2
      exact ⟨rfl, rfl, rfl⟩
  have e1 : d.id = it.info.id := by rw [hd]
  have e2 : d.revMeta = it.info.revMeta := by rw [hd]
  have l1 : e.info.id.length = it.info.id.length := by rw [hid.1, e1]
  have l2 : e.info.revMeta.length = it.info.revMeta.length := by rw [hid.2.1, e2]
  rw [fatbufGet_ok (by omega)]
  apply Sp.ofExcept_ok
  rw [fatbufGet_ok (by omega)]
  apply Sp.ofExcept_ok
  refine ⟨h1, by simp only; omega, e, h2, ?_, h4, h5⟩
  simp only [termsOf, hid.2.2]

/-- The metadata of a batch with sequence numbers assigned, and the last sequence number. -/
def assignAll (opts : SaveOpts) : Nat → List SaveItem → List DocInfo × Nat
  | seq, [] => ([], seq)
  | seq, it :: its =>
    let a := assignSeq opts seq it.info
    let r := assignAll opts a.1 its
    (a.2 :: r.1, r.2)

theorem assignSeq_eq (opts : SaveOpts) (seq : Nat) (d : DocInfo) :
    (assignSeq opts seq d).2 = { d with dbSeq := (assignSeq opts seq d).2.dbSeq } := by
  unfold assignSeq; split <;> rfl

/-- What is stored for the documents of a batch, one by one. -/
inductive AllSaved (E : Env) (c : Cfg) (opts : SaveOpts) :
    List SaveItem → List DocInfo → List Entry → Prop where
  | nil : AllSaved E c opts [] [] []
  | cons {it its d ds e es} : SavedAs E c opts it.doc d e → AllSaved E c opts its ds es →
      AllSaved E c opts (it :: its) (d :: ds) (e :: es)

theorem addDocs_spec (E : Env) (L : E.Laws) (opts : SaveOpts) (its : List SaveItem) (seq fb : Nat)
    (f : File) (w : f.WF) (hp : 0 < f.pos) (hit : ∀ it ∈ its, ItemOk E f.cfg opts it)
    (hs : ∀ d ∈ (assignAll opts seq its).1, d.dbSeq < 2 ^ 48) (hfb : termMetaSize its ≤ fb) :
    Sp (addDocs E opts its seq fb) f
      (fun r g => Ext f g ∧ r.1 = (assignAll opts seq its).1 ∧ r.2.2.1 = (assignAll opts seq its).2 ∧
        ∃ es : List Entry, r.2.1 = es.map termsOf ∧ es.length = its.length ∧
          AllSaved E f.cfg opts its (assignAll opts seq its).1 es ∧
          ∀ e ∈ es, DocOk e.info ∧ BodyAt E g e)
      (FailT f) := by
  induction its generalizing seq fb f with
  | nil => exact ⟨Ext.refl f, rfl, rfl, [], rfl, rfl, .nil, by simp⟩
  | cons it its ih =>
    have hsz : termMetaSize (it :: its) = termMetaSize [it] + termMetaSize its := by
      simp [termMetaSize]
    have hs' : ∀ d ∈ (assignSeq opts seq it.info).2 :: (assignAll opts (assignSeq opts seq it.info).1 its).1,
        d.dbSeq < 2 ^ 48 := hs
    unfold addDocs
    refine Sp.bind' (addDocToUpdateList_spec E L opts it (assignSeq opts seq it.info).2 fb f w hp
      (hit it (by simp)) (assignSeq_eq opts seq it.info) (hs' _ (by simp)) (by omega)) ?_ fun _ _ h => h
    rintro ⟨t, fb'⟩ g ⟨h1, h2, e, h3, h4, h5, h6⟩
    dsimp only at h2 h4 ⊢
    refine Sp.bind' (ih (assignSeq opts seq it.info).1 fb' g (h1.wf w) (by have := h1.pos; omega)
      (fun it h => by rw [h1.frame.cfg]; exact hit it (by simp [h])) (fun d hd => hs' d (by simp [hd]))
      (by omega)) ?_ fun e g' h => FailT.trans h1 h
    rintro ⟨infos, ts, seq', fb''⟩ g' ⟨k1, k2, k3, es, k4, k5, k6, k7⟩
    dsimp only at k2 k3 k4 ⊢
    refine ⟨h1.trans k1, by rw [k2]; rfl, by rw [k3]; rfl, e :: es, by simp [h4, k4], by simp [k5], ?_, ?_⟩
    · refine AllSaved.cons h3 ?_
      rw [h1.frame.cfg] at k6
      exact k6
    · intro x hx
      rcases List.mem_cons.mp hx with rfl | hx
      · exact ⟨h5, h6.keep (k1.keep (h1.wf w))⟩
      · exact k7 x hx

end Couchstore
