import Verif.Lemmas.CouchCheckDb
import Verif.Lemmas.CompactAsk

/-! Helper lemmas: when the check program is content with a file. -/

namespace Couchstore

variable {σ : Type}

theorem lookup_nil_ne_lt (cmp : Bytes → Bytes → Ordering) (k : Bytes) : lookupCompare cmp k [] ≠ .lt := by
  unfold lookupCompare
  by_cases h : k.length = 0 <;> simp [h]

/-! ### Reading never fails with "document not found" -/

/-- The operation does not fail with "document not found". -/
def NeverMissing {α : Type} (m : M α) : Prop := ∀ f e g, m f = .error e g → e ≠ .docNotFound

theorem NeverMissing.throw {α : Type} {e : Err} (h : e ≠ .docNotFound) : NeverMissing (throw e : M α) := by
  intro f x g hx
  cases hx
  exact h

theorem NeverMissing.pure {α : Type} (a : α) : NeverMissing (Pure.pure a : M α) := by
  intro f x g hx
  cases hx

theorem NeverMissing.bind {α β : Type} {m : M α} {k : α → M β} (h : NeverMissing m) (hk : ∀ a, NeverMissing (k a)) :
    NeverMissing (m >>= k) := by
  intro f e g he
  cases hm : m f with
  | ok a f' => rw [bind_ok hm] at he; exact hk a f' e g he
  | error x f' => rw [bind_error hm] at he; cases he; exact h f e _ hm

theorem NeverMissing.get {β : Type} {k : File → M β} (hk : ∀ a, NeverMissing (k a)) :
    NeverMissing (MonadState.get >>= k) := fun f e g he => hk f f e g he

theorem pread_never (off n : Nat) : NeverMissing (pread off n) := by
  unfold pread
  refine NeverMissing.bind ?_ fun a => ?_
  · intro f e g he
    unfold popFault at he
    revert he
    show (match f.faults with | _ => _ : EStateM.Result Err File Fault) = _ → _
    cases f.faults <;> (intro he; cases he)
  · cases a with
    | none => exact NeverMissing.get fun _ => NeverMissing.pure _
    | short k => exact NeverMissing.get fun _ => NeverMissing.pure _
    | err e => exact NeverMissing.throw (fun h => by cases h)

theorem readSkipLoop_never (fuel pos len : Nat) (acc : Bytes) : NeverMissing (readSkipLoop fuel pos len acc) := by
  induction fuel generalizing pos len acc with
  | zero => cases len with
    | zero => exact NeverMissing.pure _
    | succ n => exact NeverMissing.throw (fun h => by cases h)
  | succ fuel ih => cases len with
    | zero => exact NeverMissing.pure _
    | succ n =>
      unfold readSkipLoop
      refine NeverMissing.bind (pread_never _ _) fun got => ?_
      dsimp only
      split
      · exact NeverMissing.throw (fun h => by cases h)
      · exact ih _ _ _

theorem preadBin_never (E : Env) (p : Nat) : NeverMissing (preadBin E p) := by
  have hs : ∀ pos len, NeverMissing (readSkip pos len) := fun pos len => readSkipLoop_never _ _ _ _
  unfold preadBin
  refine NeverMissing.get fun f => ?_
  split
  · unfold preadEncrypted
    refine NeverMissing.bind (hs _ _) ?_
    rintro ⟨h, pos1⟩
    dsimp only
    split
    · exact NeverMissing.throw (fun h => by cases h)
    · refine NeverMissing.bind (hs _ _) ?_
      rintro ⟨buf, _⟩
      dsimp only
      split
      · exact NeverMissing.pure _
      · exact NeverMissing.throw (fun h => by cases h)
  · unfold preadPlain
    refine NeverMissing.get fun f => NeverMissing.bind (hs _ _) ?_
    rintro ⟨h, pos1⟩
    dsimp only
    split
    · exact NeverMissing.throw (fun h => by cases h)
    · refine NeverMissing.bind (hs _ _) ?_
      rintro ⟨buf, _⟩
      dsimp only
      split
      · exact NeverMissing.pure _
      · exact NeverMissing.throw (fun h => by cases h)

/-! ### The walks of the program -/

theorem lookupCallback_noOpts (read : Bytes → Bytes → Option DocInfo) (cb : ChangesCb σ) (u : σ) (k v : Bytes) :
    lookupCallback noOpts read cb u k (some v) = match read k v with
      | none => (u, some .corrupt)
      | some d => cb u d := by
  unfold lookupCallback
  dsimp only
  cases h : read k v with
  | none => rfl
  | some d => rfl

/-- A complete walk over a tree of the intact file, in the damaged one. -/
theorem root_pass (E : Env) (L : E.Laws) {X : Idx} (hV : ∀ kv, X.V kv → kv.1.length < 4096) {f0 f : File}
    (D : DamagedFile E f0 f) (w : f0.WF) {rq : LookRq σ} (ht : rq.tolerate = false)
    {I : σ → Prop} (hI : ∀ u k v, I u → I (rq.fetch u k v).1)
    (hn : ∀ cb, rq.node = some cb → ∀ u a, (cb u a).2 = none ∧ (I u → I (cb u a).1)) {good : KV → Prop}
    (hg : ∀ u kv, (rq.fetch u kv.1 (some kv.2)).2 = none ↔ good kv) (p : NodePointer)
    (kvs : List KV) (h : RootAt E X f0 (some p) kvs) (lo : Bytes) (hlo : ∀ kv ∈ kvs, lookupCompare rq.cmp kv.1 lo ≠ .lt)
    (u : σ) (hu : I u) :
    ∃ u' e, I u' ∧ btreeLookup E rq true p.pointer [lo] u f = .ok (u', e) f ∧
      (e = none ↔ Whole E f0.calm f (f0.disk.length + 1) p.pointer ∧ ∀ kv ∈ kvs, good kv) := by
  obtain ⟨l, htree⟩ := h
  have := htree.height
  have := htree.pointer_lt
  have := w.pos_le
  obtain ⟨u', b', e, h0, -, h2, h3⟩ := tree_pass E L hV D w ht hI hn hg (f0.disk.length + 1) l (by omega) p kvs htree lo hlo u false hu
  rw [← D.length] at h2
  exact ⟨u', e, h0, btreeLookup_of h2, h3⟩

/-- In the intact file all nodes of a tree are read. -/
theorem whole_intact {E : Env} (L : E.Laws) {X : Idx} (hV : ∀ kv, X.V kv → kv.1.length < 4096) {f0 : File} (w : f0.WF)
    (fuel l : Nat) (hl : l < fuel) (p : NodePointer) (kvs : List KV) (h : TreeAt E X f0 l p kvs) :
    Whole E f0.calm f0.calm fuel p.pointer := by
  induction fuel generalizing l p kvs with
  | zero => omega
  | succ fuel ih =>
    obtain ⟨cs, hne, hcs, rfl, hz, _⟩ := h
    have h0 := readNode_calm E L w.crc hz (by
      intro i hi
      obtain ⟨c, hc, rfl⟩ := List.mem_map.mp hi
      exact (hcs c hc).fits hV)
    refine ⟨_, _, h0, h0, ?_⟩
    intro ht k v hm _
    cases l with
    | zero => cases ht
    | succ l =>
      obtain ⟨i, hi, he⟩ := List.mem_map.mp hm
      obtain ⟨c, hc, rfl⟩ := List.mem_map.mp hi
      cases he
      obtain ⟨q, hq, hrp, hlk, htree, hlk', htree'⟩ := (hcs c hc).ptr
      rw [← (readPointer_pointer hrp).2]
      exact ih l (by omega) (truncPtr q) c.2 htree'

/-- The same with the callback of the iterating functions. -/
theorem scan_pass (E : Env) (L : E.Laws) {X : Idx} (hV : ∀ kv, X.V kv → kv.1.length < 4096) {f0 f : File}
    (D : DamagedFile E f0 f) (w : f0.WF) (cmp : Bytes → Bytes → Ordering) (read : Bytes → Bytes → Option DocInfo)
    {I : σ → Prop} (cb : ChangesCb σ) (hI : ∀ u d, I u → I (cb u d).1) {good : DocInfo → Prop}
    (hg : ∀ u d, (cb u d).2 = none ↔ good d) (p : NodePointer) (l : List Entry) (enc : DocInfo → KV)
    (hread : ∀ e ∈ l, read (enc e.info).1 (enc e.info).2 = some e.info)
    (h : RootAt E X f0 (some p) (l.map fun e => enc e.info)) (lo : Bytes)
    (hlo : ∀ e ∈ l, lookupCompare cmp (enc e.info).1 lo ≠ .lt) (u : σ) (hu : I u) :
    ∃ u' e, I u' ∧ btreeLookup E (scanRq cmp noOpts read cb false) true p.pointer [lo] u f = .ok (u', e) f ∧
      (e = none ↔ WholeRoot E f0.calm f (some p) ∧ ∀ e ∈ l, good e.info) := by
  have hI' : ∀ u k v, I u → I ((scanRq cmp noOpts read cb false).fetch u k v).1 := by
    intro u k v hu
    cases v with
    | none => exact hu
    | some v =>
      show I (lookupCallback noOpts read cb u k (some v)).1
      rw [lookupCallback_noOpts]
      cases h : read k v with
      | none => exact hu
      | some d => exact hI u d hu
  have hg' : ∀ u (kv : KV), ((scanRq cmp noOpts read cb false).fetch u kv.1 (some kv.2)).2 = none ↔
      ∃ d, read kv.1 kv.2 = some d ∧ good d := by
    intro u kv
    show (lookupCallback noOpts read cb u kv.1 (some kv.2)).2 = none ↔ _
    rw [lookupCallback_noOpts]
    cases h : read kv.1 kv.2 with
    | none => simp
    | some d =>
      show (cb u d).2 = none ↔ _
      rw [hg]
      simp
  obtain ⟨u', e, h0, h1, h2⟩ := root_pass E L hV D w (rq := scanRq cmp noOpts read cb false) rfl hI' (fun cb h => (nomatch h))
    hg' p _ h lo (by
      intro kv hkv
      obtain ⟨e, he, rfl⟩ := List.mem_map.mp hkv
      exact hlo e he) u hu
  refine ⟨u', e, h0, h1, ?_⟩
  rw [h2]
  refine and_congr ⟨?_, fun h => h p rfl⟩ ⟨?_, ?_⟩
  · intro h q hq; cases hq; exact h
  · intro h e he
    obtain ⟨d, h3, h4⟩ := h _ (List.mem_map.mpr ⟨e, he, rfl⟩)
    rw [hread e he] at h3
    cases h3
    exact h4
  · intro h kv hkv
    obtain ⟨e, he, rfl⟩ := List.mem_map.mp hkv
    exact ⟨e.info, hread e he, h e he⟩

section
variable {E : Env} (L : E.Laws) {db0 db : Db} {ids seqs : List Entry} {locs : List KV} (inv : Inv E db0 ids seqs locs)
  (hd : db0.dropped = false) (D : DamagedFile E db0.file db.file) (hdb : db = { db0 with file := db.file })
include L inv hd D hdb

theorem changes_pass {I : σ → Prop} (cb : ChangesCb σ) (hI : ∀ u d, I u → I (cb u d).1) {good : DocInfo → Prop}
    (hg : ∀ u d, (cb u d).2 = none ↔ good d) (u : σ) (hu : I u) :
    ∃ u' e, I u' ∧ changesSince E 0 noOpts cb u db = .ok (u', e) db ∧
      (e = none ↔ WholeRoot E db0.file.calm db.file db0.header.bySeqRoot ∧ ∀ e ∈ seqs, good e.info) := by
  have hd' : db.dropped = false := by rw [hdb]; exact hd
  have hh : db.header = db0.header := by rw [hdb]
  unfold changesSince
  show ∃ u' e, _ ∧ (if db.dropped = true then throw Err.fileClosed else _ : DbM (σ × Option Err)) db = _ ∧ _
  rw [hd', if_neg (by simp), hh]
  have hroot := inv.seqRoot
  cases hr : db0.header.bySeqRoot with
  | none =>
    have h0 := inv.seqRoot.none_iff.mp hr
    have : seqs = [] := by unfold seqKVs at h0; simpa using h0
    subst this
    refine ⟨u, none, hu, rfl, ?_⟩
    simp [WholeRoot]
  | some p =>
    rw [hr] at hroot
    have hne : ∀ s, enc48 s ≠ [] := fun s h => by have := congrArg List.length h; simp at this
    obtain ⟨u', e, h0, h1, h2⟩ := scan_pass E L (X := Idx.bySeq) (fun kv hkv => (bySeq_hV kv hkv).2) D inv.wf
      seqCmp bySeqReadDocInfo cb hI hg p seqs seqKV (fun e he => bySeq_roundtrip _ (inv.seqOk e he).fits) hroot (enc48 0)
      (by
        intro e he
        unfold seqKV
        dsimp only
        rw [lookupCompare_nonempty (hne _) (hne _), seqCmp_enc48 (inv.seqOk e he).fits.dbSeq (by omega)]
        by_cases h : e.info.dbSeq = 0
        · simp [h]
        · rw [if_neg h, if_neg (by omega)]; simp) u hu
    refine ⟨u', e, h0, ?_, h2⟩
    show liftF _ db = _
    unfold liftF
    rw [show noOpts.tolerate = false from rfl, h1]

theorem allDocs_pass {I : σ → Prop} (cb : ChangesCb σ) (hI : ∀ u d, I u → I (cb u d).1)
    (hg : ∀ u d, (cb u d).2 = none) (u : σ) (hu : I u) :
    ∃ u' e, I u' ∧ allDocs E none noOpts cb u db = .ok (u', e) db ∧
      (e = none ↔ WholeRoot E db0.file.calm db.file db0.header.byIdRoot) := by
  have hd' : db.dropped = false := by rw [hdb]; exact hd
  have hh : db.header = db0.header := by rw [hdb]
  unfold allDocs
  show ∃ u' e, _ ∧ (if db.dropped = true then throw Err.fileClosed else _ : DbM (σ × Option Err)) db = _ ∧ _
  rw [hd', if_neg (by simp), hh]
  have hroot := inv.idRoot
  cases hr : db0.header.byIdRoot with
  | none =>
    refine ⟨u, none, hu, rfl, ?_⟩
    simp [WholeRoot]
  | some p =>
    rw [hr] at hroot
    obtain ⟨u', e, h0, h1, h2⟩ := scan_pass E L (X := Idx.byId) (fun kv hkv => (byId_hV kv hkv).2) D inv.wf
      ebinCmp byIdReadDocInfo cb hI (good := fun _ => True) (fun u d => by simp [hg]) p ids idKV
      (fun e he => byId_roundtrip _ (inv.ok e he).fits) hroot []
      (fun e _ => lookup_nil_ne_lt _ _) u hu
    refine ⟨u', e, h0, ?_, by simpa using h2⟩
    show liftF _ db = _
    unfold liftF
    rw [show noOpts.tolerate = false from rfl, show (none : Option Bytes).getD [] = [] from rfl, h1]

/-- The walk over the local documents. -/
theorem locals_pass (cb : WalkCb Unit) (hnode : ∀ u n a b, (cb u n (.node a b)).2 = none) {good : DocInfo → Prop}
    (hg : ∀ u n d, (cb u n (.doc d)).2 = none ↔ good d) :
    ∃ e, walkLocalTree E none noOpts cb () db = .ok ((), e) db ∧
      (e = none ↔ WholeRoot E db0.file.calm db.file db0.header.localRoot ∧
        ∀ kv ∈ locs, ∀ d, localReadDocInfo kv.1 kv.2 = some d → good d) := by
  have hd' : db.dropped = false := by rw [hdb]; exact hd
  have hh : db.header = db0.header := by rw [hdb]
  unfold walkLocalTree walkTree
  show ∃ e, (if db.dropped = true then throw Err.fileClosed else _ : DbM (Unit × Option Err)) db = _ ∧ _
  rw [hd', if_neg (by simp), hh]
  have hroot := inv.locRoot
  cases hr : db0.header.localRoot with
  | none =>
    have h0 := inv.locRoot.none_iff.mp hr
    subst h0
    refine ⟨none, rfl, ?_⟩
    simp [WholeRoot]
  | some p =>
    rw [hr] at hroot
    have hg' : ∀ (u : Unit × Nat) (kv : KV), ((walkRq ebinCmp noOpts localReadDocInfo cb).fetch u kv.1 (some kv.2)).2 = none ↔
        ∀ d, localReadDocInfo kv.1 kv.2 = some d → good d := by
      intro u kv
      show (lookupCallback noOpts localReadDocInfo _ u kv.1 (some kv.2)).2 = none ↔ _
      rw [lookupCallback_noOpts]
      unfold localReadDocInfo
      show (cb u.1 u.2 (.doc _)).2 = none ↔ _
      rw [hg]
      constructor
      · intro h d hd
        cases hd
        exact h
      · intro h
        exact h _ rfl
    have hn : ∀ c, (walkRq ebinCmp noOpts localReadDocInfo cb).node = some c →
        ∀ u a, (c u a).2 = none ∧ (True → True) := by
      intro c hc u a
      cases hc
      refine ⟨?_, id⟩
      cases a with
      | none => rfl
      | some a => exact hnode _ _ _ _
    obtain ⟨u', e, -, h1, h2⟩ := root_pass E L (X := Idx.loc) (fun kv hkv => hkv.1) D inv.wf
      (rq := walkRq ebinCmp noOpts localReadDocInfo cb) rfl (I := fun _ => True) (fun _ _ _ h => h) hn hg' p locs hroot []
      (fun kv _ => lookup_nil_ne_lt _ _) ((), 1) trivial
    have hcb : cb () 0 (.node p.subtreesize p.reduceValue) = ((), none) := by
      have := hnode () 0 p.subtreesize p.reduceValue
      cases hc : cb () 0 (.node p.subtreesize p.reduceValue) with
      | mk a b => rw [hc] at this; cases this; rfl
    dsimp only
    rw [hcb]
    dsimp only
    refine ⟨e, ?_, ?_⟩
    · have : liftF (btreeLookup E (walkRq ebinCmp noOpts localReadDocInfo cb) true p.pointer [[]] ((), 1)) db = .ok (u', e) db := by
        unfold liftF
        rw [h1]
      show (liftF (btreeLookup E (walkRq ebinCmp noOpts localReadDocInfo cb) true p.pointer [[]] ((), 1)) >>= _) db = _
      rw [bind_ok this]
      rfl
    · rw [h2]
      exact and_congr ⟨fun h q hq => by cases hq; exact h, fun h => h p rfl⟩ Iff.rfl

omit L inv hd in
theorem twin_of (h1 : WholeRoot E db0.file.calm db.file db0.header.byIdRoot)
    (h2 : WholeRoot E db0.file.calm db.file db0.header.bySeqRoot)
    (h3 : WholeRoot E db0.file.calm db.file db0.header.localRoot) : Twin E db0.calm db.calm := by
  rw [calm_of D.faults]
  exact ⟨by rw [hdb]; rfl, by rw [hdb]; rfl, D.length, h1, h2, h3⟩

/-- The program is content with the local documents if their index can be read. -/
theorem checkLocals_pass : ∃ e, walkLocalTree E none noOpts (checkLocalDoc E db) () db = .ok ((), e) db ∧
    (e = none ↔ WholeRoot E db0.file.calm db.file db0.header.localRoot) := by
  obtain ⟨e, h1, h2⟩ := locals_pass L inv hd D hdb (checkLocalDoc E db) (fun _ _ _ _ => rfl)
    (good := fun d => (checkLocalDoc E db () 0 (.doc d)).2 = none) (fun _ _ _ => Iff.rfl)
  refine ⟨e, h1, ?_⟩
  rw [h2]
  refine ⟨fun h => h.1, fun h => ⟨h, ?_⟩⟩
  intro kv hkv d hd'
  have hag : DAgree db0.calm db (openLocalDocument E d.id) (openLocalDocument E d.id) := by
    unfold openLocalDocument
    apply DAgree.get
    rw [show db.header = db0.header by rw [hdb], show db.dropped = false by rw [hdb]; exact hd,
      show db0.calm.dropped = false from hd, show db0.calm.header = db0.header from rfl, if_neg (by simp)]
    cases hp : db0.header.localRoot with
    | none => exact DAgree.throw _
    | some p =>
      have hl : db.file.disk.length = db0.calm.file.disk.length := D.length
      refine DAgree.bind (DAgree.liftF (btreeLookup_agree hl (h p hp))) fun r _ => ?_
      obtain ⟨d, e⟩ := r
      cases e with
      | some e => cases d <;> exact DAgree.throw _
      | none => cases d with
        | none => exact DAgree.throw _
        | some d => exact DAgree.pure _
  have hsp := openLocalDocument_spec E L db0.calm inv.calm hd d.id
  unfold Answers Sp at hsp
  show (match openLocalDocument E d.id db with
    | .ok _ _ => ((), none)
    | .error e _ => if e = .docNotFound then ((), none) else ((), some e) : Unit × Option Err).2 = none
  rcases hag with ⟨a, -, ha⟩ | ⟨x, hx, ha⟩
  · rw [ha]
  · rw [ha]
    rw [hx] at hsp
    have h0 := hsp.2.resolve_left (fun h => h rfl)
    have : x = .docNotFound := by
      cases hf : kvFind d.id locs with
      | none => rw [hf] at h0; cases h0; rfl
      | some v => rw [hf] at h0; cases h0
    rw [this]
    rfl

/-- The body of the document is read, if it has one. -/
def bodyRead (E : Env) (f : File) (e : Entry) : Prop := ∀ b, e.raw = some b → preadBin E e.info.bp f = .ok b f

/-- The program is content with a document if its body is read and decompressed. -/
theorem checkDoc_pass (e : Entry) (he : e ∈ ids) (n : Nat) :
    (checkDoc E db n e.info).2 = none ↔
      bodyRead E db.file e ∧ ∀ b, e.raw = some b → ∃ b', openAns E true e = .ok b' := by
  have hd' : db.dropped = false := by rw [hdb]; exact hd
  have hb := inv.body e he
  unfold checkDoc openDocWithDocinfo bodyRead openAns
  unfold BodyAt at hb
  cases hraw : e.raw with
  | none =>
    rw [hraw] at hb
    rw [hb.1, if_pos rfl, hb.2]
    simp [throw, throwThe, MonadExceptOf.throw, EStateM.throw]
  | some b =>
    rw [hraw] at hb
    rw [if_neg hb.1]
    have hbp : ∀ c, bpToDoc E e.info.bp c db = liftF (if c = true then preadCompressed E e.info.bp else preadBin E e.info.bp) db := by
      intro c
      unfold bpToDoc
      show (if db.dropped = true then throw Err.fileClosed else _ : DbM Bytes) db = _
      rw [hd', if_neg (by simp)]
    rw [hbp]
    rcases D.chunk L inv.wf.crc hb.2 with hr | ⟨x, hx⟩
    · cases hc : (true && isCompressed e.info.contentMeta) with
      | false =>
        unfold liftF
        rw [if_neg (by simp), hr]
        simp
      | true =>
        have hz : preadCompressed E e.info.bp db.file = match E.inflate b with
            | some x => .ok x db.file
            | none => .error .corrupt db.file := by
          unfold preadCompressed
          rw [bind_ok hr]
          cases E.inflate b <;> rfl
        unfold liftF
        rw [if_pos rfl, hz]
        cases hi : E.inflate b with
        | some x => simp [hr, hi]
        | none => simp [hi]
    · have hne : ∀ c : Bool, (liftF (if c = true then preadCompressed E e.info.bp else preadBin E e.info.bp) db) = .error x db := by
        intro c
        unfold liftF
        cases c with
        | false => rw [if_neg (by simp), hx]
        | true =>
          rw [if_pos rfl]
          unfold preadCompressed
          rw [bind_error hx]
      rw [hne]
      constructor
      · intro h
        exfalso
        have hxe := preadBin_never E _ _ _ _ hx
        dsimp only at h
        rw [if_neg (fun h => hxe h.2)] at h
        cases h
      · rintro ⟨h, -⟩
        have := h b rfl
        rw [hx] at this
        cases this

theorem check_iff : checkDb E db = 0 ↔ (WholeRoot E db0.file.calm db.file db0.header.byIdRoot ∧
    WholeRoot E db0.file.calm db.file db0.header.bySeqRoot ∧ WholeRoot E db0.file.calm db.file db0.header.localRoot) ∧
    ∀ e ∈ ids, bodyRead E db.file e ∧ ∀ b, e.raw = some b → ∃ b', openAns E true e = .ok b' := by
  obtain ⟨e1, l1, l2⟩ := checkLocals_pass L inv hd D hdb
  obtain ⟨n2, e2, i2, s1, s2⟩ := changes_pass L inv hd D hdb (I := fun n => n = 0) (checkDoc E db)
    (by
      intro u d hu
      subst hu
      unfold checkDoc
      cases openDocWithDocinfo E d true db with
      | ok a b => rfl
      | error e b => dsimp only; split <;> rfl)
    (good := fun d => (checkDoc E db 0 d).2 = none)
    (by
      intro u d
      unfold checkDoc
      cases openDocWithDocinfo E d true db with
      | ok a b => simp
      | error e b => dsimp only; split <;> simp) 0 rfl
  obtain ⟨n3, e3, i3, a1, a2⟩ := allDocs_pass L inv hd D hdb (I := fun n => n = 0) checkNothing (fun _ _ h => h) (fun _ _ => rfl) 0 rfl
  subst i2 i3
  have hdocs : (∀ e ∈ seqs, (checkDoc E db 0 e.info).2 = none) ↔
      ∀ e ∈ ids, bodyRead E db.file e ∧ ∀ b, e.raw = some b → ∃ b', openAns E true e = .ok b' := by
    constructor
    · intro h e he
      exact (checkDoc_pass L inv hd D hdb e he 0).mp (h e (inv.perm.mem_iff.mpr he))
    · intro h e he
      exact (checkDoc_pass L inv hd D hdb e (inv.perm.mem_iff.mp he) 0).mpr (h e (inv.perm.mem_iff.mp he))
  rw [hdocs] at s2
  unfold checkDb
  rw [l1]
  cases e1 with
  | some e => simp only [reduceCtorEq, false_iff] at l2; simp [l2]
  | none =>
    have l2 := l2.mp rfl
    dsimp only
    rw [s1]
    cases e2 with
    | some e =>
      simp only [reduceCtorEq, false_iff] at s2
      simp only [Nat.one_ne_zero, false_iff]
      exact fun h => s2 ⟨h.1.2.1, h.2⟩
    | none =>
      have s2 := s2.mp rfl
      dsimp only
      rw [a1]
      cases e3 with
      | some e => simp only [reduceCtorEq, false_iff] at a2; simp [a2]
      | none => exact ⟨fun _ => ⟨⟨a2.mp rfl, s2.1, l2⟩, s2.2⟩, fun _ => rfl⟩

omit hd hdb in
/-- A body that is read. -/
theorem bodyRead.agree {e : Entry} (he : e ∈ ids) (h : bodyRead E db.file e) (hbp : e.info.bp ≠ 0) :
    Agree db0.file.calm db.file (preadBin E e.info.bp) := by
  have hb := inv.body e he
  unfold BodyAt at hb
  cases hraw : e.raw with
  | none => rw [hraw] at hb; exact absurd hb.1 hbp
  | some b =>
    rw [hraw] at hb
    have hk : Keep db0.file db0.file.calm := ⟨fun _ _ _ => rfl, rfl, rfl, Nat.le_refl _⟩
    have hs := preadBin_spec E L e.info.bp b db0.file.calm inv.wf.crc (hb.2.keep hk)
    unfold Sp at hs
    cases hp : preadBin E e.info.bp db0.file.calm with
    | ok r g =>
      rw [hp] at hs
      exact Or.inl ⟨b, by rw [hp, hs.1, hs.2.same rfl], h b hraw⟩
    | error x g =>
      rw [hp] at hs
      exact absurd rfl hs.2

theorem sameReads_of (T : Twin E db0.calm db.calm) (hb : ∀ e ∈ ids, bodyRead E db.file e) : SameReads E db0 db := by
  have hcalm : db.calm = db := calm_of D.faults
  have hbody : ∀ e ∈ ids, ∀ dec, DAgree db0.calm db.calm (openDocWithDocinfo E e.info dec) (openDocWithDocinfo E e.info dec) := by
    intro e he dec
    refine T.body e.info (fun h => ?_) dec
    rw [hcalm]
    exact bodyRead.agree L inv D he (hb e he) h
  refine ⟨?_, fun _ _ _ _ => (T.walkIdTree _ _ _ _).answer, fun _ _ _ _ => (T.walkSeqTree _ _ _ _).answer,
    fun _ _ _ _ => (T.walkLocalTree _ _ _ _).answer, ?_⟩
  · intro q
    cases q with
    | docinfo id => exact congrArg Reply.doc (T.docinfoById id).answer
    | docinfoSeq s => exact congrArg Reply.doc (T.docinfoBySequence s).answer
    | «open» id dec =>
      refine congrArg Reply.body (DAgree.answer ?_)
      unfold openDocument
      apply DAgree.get
      rw [T.dropped]
      split
      · exact DAgree.throw _
      · refine DAgree.bind (T.docinfoById id) fun d hd' => ?_
        have hsp := docinfoById_spec E L db0.calm inv.calm hd id
        unfold Answers Sp at hsp
        rw [hd'] at hsp
        have h0 := hsp.2
        cases hf : entFind id ids with
        | none => rw [hf] at h0; cases h0
        | some e =>
          rw [hf] at h0
          cases h0
          exact hbody e (List.mem_of_find?_eq_some hf) dec
    | changes s opts => exact congrArg Reply.docs (T.changesSince _ _ _ _).answer
    | allDocs s opts => exact congrArg Reply.docs (T.allDocs _ _ _ _).answer
    | docinfos ids => exact congrArg Reply.docs (T.docinfosById _ _ _ _ _).answer
    | docinfosSeq ids => exact congrArg Reply.docs (T.docinfosBySequence _ _ _ _ _).answer
    | range lo hi => exact congrArg Reply.docs (T.docinfosById _ _ _ _ _).answer
    | rangeSeq lo hi => exact congrArg Reply.docs (T.docinfosBySequence _ _ _ _ _).answer
    | count lo hi => exact congrArg Reply.num (T.changesCount _ _).answer
    | localDoc id => exact congrArg Reply.loc (T.openLocalDocument _).answer
    | info =>
      refine congrArg Reply.stats (DAgree.answer ?_)
      have key : ∀ x : Db, (dbInfo >>= fun r => pure (r.lastSequence, r.docCount, r.deletedCount, r.spaceUsed, r.purgeSeq)) x =
          match x.header.byIdRoot with
          | none => .ok (x.header.updateSeq, 0, 0, rootSize x.header.bySeqRoot + rootSize x.header.localRoot, x.header.purgeSeq) x
          | some p =>
            if p.reduceValue.length < 16 then .error .corrupt x
            else .ok (x.header.updateSeq, beDec (slice p.reduceValue 0 5), beDec (slice p.reduceValue 5 5),
              beDec (slice p.reduceValue 10 6) + p.subtreesize + rootSize x.header.bySeqRoot + rootSize x.header.localRoot,
              x.header.purgeSeq) x := by
        intro x
        have h1 : (dbInfo >>= fun r => pure (r.lastSequence, r.docCount, r.deletedCount, r.spaceUsed, r.purgeSeq)) x =
            match dbInfo x with
            | .ok r y => .ok (r.lastSequence, r.docCount, r.deletedCount, r.spaceUsed, r.purgeSeq) y
            | .error e y => .error e y := by
          cases h : dbInfo x with
          | ok a y => rw [bind_ok h]; rfl
          | error e y => rw [bind_error h]
        rw [h1]
        have h2 : dbInfo x = (match x.header.byIdRoot with
            | none => pure _
            | some p => if p.reduceValue.length < 16 then throw .corrupt else pure _ : DbM DbInfo) x := rfl
        rw [h2]
        cases x.header.byIdRoot with
        | none => rfl
        | some p =>
          dsimp only
          by_cases hp : p.reduceValue.length < 16
          · rw [if_pos hp, if_pos hp]; rfl
          · rw [if_neg hp, if_neg hp]; rfl
      unfold DAgree
      rw [key, key, T.header]
      cases db0.calm.header.byIdRoot with
      | none => exact Or.inl ⟨_, rfl, rfl⟩
      | some p =>
        dsimp only
        by_cases hp : p.reduceValue.length < 16
        · rw [if_pos hp, if_pos hp]; exact Or.inr ⟨_, rfl, rfl⟩
        · rw [if_neg hp, if_neg hp]; exact Or.inl ⟨_, rfl, rfl⟩
  · intro d hd' dec
    rw [documents_eq L inv hd] at hd'
    obtain ⟨e, he, rfl⟩ := List.mem_map.mp hd'
    exact (hbody e (inv.perm.mem_iff.mp he) dec).answer

theorem same_iff : checkDb E db = 0 ↔ SameReads E db0 db ∧ ∀ d ∈ documents E db0, Decompresses E db0 d.id := by
  have hcalm : db.calm = db := calm_of D.faults
  have hans : ∀ e ∈ ids, ∀ dec, ask E db0 (.open e.info.id dec) = .body (openAns E dec e) := by
    intro e he dec
    have := (openDocument_spec E L db0.calm inv.calm hd e.info.id dec).answer_eq
    unfold ask
    dsimp only
    rw [this, entFind_of_mem inv.idSorted he]
    rfl
  have hans' : ∀ e ∈ ids, ∀ dec, answer (openDocWithDocinfo E e.info dec) db0 = openAns E dec e := fun e he dec =>
    (openDocWithDocinfo_spec E L db0.calm inv.calm hd e he dec).answer_eq
  have hdoc : (∀ d ∈ documents E db0, Decompresses E db0 d.id) ↔
      ∀ e ∈ ids, ∀ b, e.raw = some b → ∃ b', openAns E true e = .ok b' := by
    rw [documents_eq L inv hd]
    constructor
    · intro h e he b hb
      have := h e.info (List.mem_map.mpr ⟨e, inv.perm.mem_iff.mpr he, rfl⟩) b (by
        rw [hans e he]
        unfold openAns
        rw [hb]
        rfl)
      rw [hans e he] at this
      obtain ⟨b', hb'⟩ := this
      exact ⟨b', Reply.body.inj hb'⟩
    · intro h d hd' b hb
      obtain ⟨e, he, rfl⟩ := List.mem_map.mp hd'
      have he := inv.perm.mem_iff.mp he
      rw [hans e he] at hb ⊢
      cases hraw : e.raw with
      | none => unfold openAns at hb; rw [hraw] at hb; cases hb
      | some b =>
        obtain ⟨b', hb'⟩ := h e he b hraw
        exact ⟨b', congrArg _ hb'⟩
  rw [check_iff L inv hd D hdb, hdoc]
  constructor
  · rintro ⟨⟨h1, h2, h3⟩, h4⟩
    exact ⟨sameReads_of L inv hd D hdb (twin_of D hdb h1 h2 h3) fun e he => (h4 e he).1, fun e he => (h4 e he).2⟩
  · rintro ⟨S, h4⟩
    -- the walks give on the damaged file what they give on the intact one: no error
    have D0 : DamagedFile E db0.file db0.calm.file := by
      refine ⟨rfl, rfl, rfl, ?_⟩
      intro p b b' g g' h h'
      have : preadBin E p { db0.file with faults := [] } = .ok b' g' := h'
      rw [h] at this
      cases this
      rfl
    have hd0 : db0.calm = { db0 with file := db0.calm.file } := rfl
    have hw : ∀ {X : Idx} (_ : ∀ kv, X.V kv → kv.1.length < 4096) {root kvs}, RootAt E X db0.file root kvs →
        WholeRoot E db0.file.calm db0.calm.file root := by
      intro X hV root kvs h p hp
      subst hp
      obtain ⟨l, htree⟩ := h
      have := htree.height
      have := htree.pointer_lt
      have := inv.wf.pos_le
      exact whole_intact L hV inv.wf _ l (by show l < db0.file.disk.length + 1; omega) p kvs htree
    have hI : ∀ (_ : List DocInfo) (_ : DocInfo), True → True := fun _ _ h => h
    refine ⟨⟨?_, ?_, ?_⟩, fun e he => ⟨?_, h4 e he⟩⟩
    · obtain ⟨u0, e0, -, a1, a2⟩ := allDocs_pass L inv hd D0 hd0 (I := fun _ => True) recordCb hI (fun _ _ => rfl) [] trivial
      obtain ⟨u1, e1, -, b1, b2⟩ := allDocs_pass L inv hd D hdb (I := fun _ => True) recordCb hI (fun _ _ => rfl) [] trivial
      have h0 := a2.mpr (hw (fun kv hkv => (byId_hV kv hkv).2) inv.idRoot)
      subst h0
      have hs := S.asks (.allDocs none noOpts)
      unfold ask answer at hs
      dsimp only at hs
      rw [hcalm, a1, b1] at hs
      dsimp only at hs
      cases hs
      exact b2.mp rfl
    · obtain ⟨u0, e0, -, a1, a2⟩ := changes_pass L inv hd D0 hd0 (I := fun _ => True) recordCb hI (good := fun _ => True)
        (fun _ _ => by simp [recordCb]) [] trivial
      obtain ⟨u1, e1, -, b1, b2⟩ := changes_pass L inv hd D hdb (I := fun _ => True) recordCb hI (good := fun _ => True)
        (fun _ _ => by simp [recordCb]) [] trivial
      have h0 := a2.mpr ⟨hw (fun kv hkv => (bySeq_hV kv hkv).2) inv.seqRoot, fun _ _ => trivial⟩
      subst h0
      have hs := S.asks (.changes 0 noOpts)
      unfold ask answer at hs
      dsimp only at hs
      rw [hcalm, a1, b1] at hs
      dsimp only at hs
      cases hs
      exact (b2.mp rfl).1
    · obtain ⟨e0, a1, a2⟩ := locals_pass L inv hd D0 hd0 (fun _ _ _ => ((), none)) (fun _ _ _ _ => rfl) (good := fun _ => True)
        (fun _ _ _ => by simp)
      obtain ⟨e1, b1, b2⟩ := locals_pass L inv hd D hdb (fun _ _ _ => ((), none)) (fun _ _ _ _ => rfl) (good := fun _ => True)
        (fun _ _ _ => by simp)
      have h0 := a2.mpr ⟨hw (X := Idx.loc) (fun kv hkv => hkv.1) inv.locRoot, fun _ _ _ _ => trivial⟩
      subst h0
      have hs := S.locals none noOpts (fun _ _ _ => ((), none)) ()
      unfold answer at hs
      rw [hcalm, a1, b1] at hs
      cases hs
      exact (b2.mp rfl).1
    · intro b hraw
      have hs := S.bodies e.info (by
        rw [documents_eq L inv hd]
        exact List.mem_map.mpr ⟨e, inv.perm.mem_iff.mpr he, rfl⟩) false
      rw [hans' e he] at hs
      unfold openAns at hs
      rw [hraw] at hs
      have hbp := inv.body e he
      unfold BodyAt at hbp
      rw [hraw] at hbp
      rcases D.chunk L inv.wf.crc hbp.2 with hr | ⟨x, hx⟩
      · exact hr
      · exfalso
        have hd' : db.dropped = false := by rw [hdb]; exact hd
        have : openDocWithDocinfo E e.info false db = .error x db := by
          unfold openDocWithDocinfo bpToDoc
          rw [if_neg hbp.1]
          show (if db.dropped = true then throw Err.fileClosed else _ : DbM Bytes) db = _
          rw [hd', if_neg (by simp)]
          unfold liftF
          rw [if_neg (by simp), hx]
        unfold answer at hs
        rw [hcalm, this] at hs
        cases hs

end

end Couchstore
