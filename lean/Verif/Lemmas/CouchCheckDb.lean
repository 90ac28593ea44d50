import Verif.Spec.CouchCheck
import Verif.Lemmas.CouchCheck

/-! Helper lemmas: the check program and the handle of a damaged file. -/

namespace Couchstore

variable {σ α β : Type}

/-! ### Handles that read the same -/

/-- The operations give the same with the two handles, and leave them as they are. -/
def DAgree (db0 db : Db) (m0 m : DbM α) : Prop :=
  (∃ a, m0 db0 = .ok a db0 ∧ m db = .ok a db) ∨ ∃ e, m0 db0 = .error e db0 ∧ m db = .error e db

theorem DAgree.pure {db0 db : Db} (a : α) : DAgree db0 db (Pure.pure a : DbM α) (Pure.pure a) := Or.inl ⟨a, rfl, rfl⟩

theorem DAgree.throw {db0 db : Db} (e : Err) : DAgree db0 db (throw e : DbM α) (throw e) := Or.inr ⟨e, rfl, rfl⟩

theorem DAgree.bind {db0 db : Db} {m0 m : DbM α} {k0 k : α → DbM β} (h : DAgree db0 db m0 m)
    (hk : ∀ a, m0 db0 = .ok a db0 → DAgree db0 db (k0 a) (k a)) : DAgree db0 db (m0 >>= k0) (m >>= k) := by
  rcases h with ⟨a, h1, h2⟩ | ⟨e, h1, h2⟩
  · rcases hk a h1 with ⟨b, h3, h4⟩ | ⟨e, h3, h4⟩
    · exact Or.inl ⟨b, by rw [bind_ok h1, h3], by rw [bind_ok h2, h4]⟩
    · exact Or.inr ⟨e, by rw [bind_ok h1, h3], by rw [bind_ok h2, h4]⟩
  · exact Or.inr ⟨e, bind_error h1, bind_error h2⟩

theorem DAgree.get {db0 db : Db} {k0 k : Db → DbM α} (h : DAgree db0 db (k0 db0) (k db)) :
    DAgree db0 db (get >>= k0) (get >>= k) := h

theorem DAgree.liftF {db0 db : Db} {m : M α} (h : Agree db0.file db.file m) :
    DAgree db0 db (Couchstore.liftF m) (Couchstore.liftF m) := by
  rcases h with ⟨a, h1, h2⟩ | ⟨e, h1, h2⟩
  · exact Or.inl ⟨a, by unfold Couchstore.liftF; rw [h1], by unfold Couchstore.liftF; rw [h2]⟩
  · exact Or.inr ⟨e, by unfold Couchstore.liftF; rw [h1], by unfold Couchstore.liftF; rw [h2]⟩

theorem DAgree.answer {db0 db : Db} {m : DbM α} (h : DAgree db0.calm db.calm m m) :
    Couchstore.answer m db = Couchstore.answer m db0 := by
  unfold Couchstore.answer
  rcases h with ⟨a, h1, h2⟩ | ⟨e, h1, h2⟩ <;> rw [h1, h2]

/-- The tree with the given root reads the same. -/
def WholeRoot (E : Env) (f0 f : File) (root : Option NodePointer) : Prop :=
  ∀ p, root = some p → Whole E f0 f (f0.disk.length + 1) p.pointer

/-- What is needed for two handles to read the same. -/
structure Twin (E : Env) (db0 db : Db) : Prop where
  header : db.header = db0.header
  dropped : db.dropped = db0.dropped
  length : db.file.disk.length = db0.file.disk.length
  ids : WholeRoot E db0.file db.file db0.header.byIdRoot
  seqs : WholeRoot E db0.file db.file db0.header.bySeqRoot
  locs : WholeRoot E db0.file db.file db0.header.localRoot

section
variable {E : Env} {db0 db : Db} (T : Twin E db0 db)
include T

theorem Twin.lookup {root : NodePointer} (h : Whole E db0.file db.file (db0.file.disk.length + 1) root.pointer)
    {rq : LookRq σ} {fold : Bool} {keys : List Bytes} {u : σ} :
    DAgree db0 db (liftF (btreeLookup E rq fold root.pointer keys u)) (liftF (btreeLookup E rq fold root.pointer keys u)) :=
  DAgree.liftF (btreeLookup_agree T.length h)

theorem docinfoResult_agree (r : Option DocInfo × Option Err) : DAgree db0 db (docinfoResult r) (docinfoResult r) := by
  obtain ⟨d, e⟩ := r
  cases e with
  | some e => cases d <;> exact DAgree.throw _
  | none => cases d with
    | none => exact DAgree.throw _
    | some d => exact DAgree.pure _

theorem Twin.docinfoById (id : Bytes) : DAgree db0 db (docinfoById E id) (docinfoById E id) := by
  unfold Couchstore.docinfoById
  apply DAgree.get
  rw [T.dropped, T.header]
  split
  · exact DAgree.throw _
  · cases hr : db0.header.byIdRoot with
    | none => exact DAgree.throw _
    | some p => exact DAgree.bind (T.lookup (T.ids p hr)) fun r _ => docinfoResult_agree T r

theorem Twin.docinfoBySequence (s : Nat) : DAgree db0 db (docinfoBySequence E s) (docinfoBySequence E s) := by
  unfold Couchstore.docinfoBySequence
  apply DAgree.get
  rw [T.dropped, T.header]
  split
  · exact DAgree.throw _
  · cases hr : db0.header.byIdRoot with
    | none => exact DAgree.throw _
    | some q =>
      cases hp : db0.header.bySeqRoot with
      | none => exact DAgree.throw _
      | some p => exact DAgree.bind (T.lookup (T.seqs p hp)) fun r _ => docinfoResult_agree T r

theorem Twin.changesSince (since : Nat) (opts : ScanOpts) (cb : ChangesCb σ) (u : σ) :
    DAgree db0 db (changesSince E since opts cb u) (changesSince E since opts cb u) := by
  unfold Couchstore.changesSince
  apply DAgree.get
  rw [T.dropped, T.header]
  split
  · exact DAgree.throw _
  · cases hp : db0.header.bySeqRoot with
    | none => exact DAgree.pure _
    | some p => exact T.lookup (T.seqs p hp)

theorem Twin.allDocs (start : Option Bytes) (opts : ScanOpts) (cb : ChangesCb σ) (u : σ) :
    DAgree db0 db (allDocs E start opts cb u) (allDocs E start opts cb u) := by
  unfold Couchstore.allDocs
  apply DAgree.get
  rw [T.dropped, T.header]
  split
  · exact DAgree.throw _
  · cases hp : db0.header.byIdRoot with
    | none => exact DAgree.pure _
    | some p => exact T.lookup (T.ids p hp)

theorem Twin.iterate (keys : List Bytes) (root : Option NodePointer) (h : WholeRoot E db0.file db.file root)
    (cmp : Bytes → Bytes → Ordering) (read : Bytes → Bytes → Option DocInfo) (cb : ChangesCb σ) (fold tol : Bool) (u : σ) :
    DAgree db0 db (iterateDocinfos E keys root cmp read cb fold tol u) (iterateDocinfos E keys root cmp read cb fold tol u) := by
  unfold iterateDocinfos
  apply DAgree.get
  rw [T.dropped]
  split
  · exact DAgree.throw _
  · cases root with
    | none => exact DAgree.pure _
    | some p =>
      dsimp only
      split
      · exact DAgree.throw _
      · exact T.lookup (h p rfl)

theorem Twin.docinfosById (ids : List Bytes) (ranges tol : Bool) (cb : ChangesCb σ) (u : σ) :
    DAgree db0 db (docinfosById E ids ranges tol cb u) (docinfosById E ids ranges tol cb u) := by
  unfold Couchstore.docinfosById
  apply DAgree.get
  rw [T.header]
  exact T.iterate _ _ T.ids _ _ _ _ _ _

theorem Twin.docinfosBySequence (seqs : List Nat) (ranges tol : Bool) (cb : ChangesCb σ) (u : σ) :
    DAgree db0 db (docinfosBySequence E seqs ranges tol cb u) (docinfosBySequence E seqs ranges tol cb u) := by
  unfold Couchstore.docinfosBySequence
  apply DAgree.get
  rw [T.header, T.dropped]
  split
  · exact DAgree.throw _
  · exact T.iterate _ _ T.seqs _ _ _ _ _ _

theorem Twin.changesCount (lo hi : Nat) : DAgree db0 db (changesCount E lo hi) (changesCount E lo hi) := by
  unfold Couchstore.changesCount
  apply DAgree.get
  rw [T.header, T.length]
  cases hp : db0.header.bySeqRoot with
  | none => exact DAgree.pure _
  | some p => exact DAgree.liftF (evalSeqReduce_agree _ _ (T.seqs p hp) _ _)

theorem Twin.openLocalDocument (id : Bytes) : DAgree db0 db (openLocalDocument E id) (openLocalDocument E id) := by
  unfold Couchstore.openLocalDocument
  apply DAgree.get
  rw [T.header, T.dropped]
  split
  · exact DAgree.throw _
  · cases hp : db0.header.localRoot with
    | none => exact DAgree.throw _
    | some p =>
      refine DAgree.bind (T.lookup (T.locs p hp)) fun r _ => ?_
      obtain ⟨d, e⟩ := r
      cases e with
      | some e => cases d <;> exact DAgree.throw _
      | none => cases d with
        | none => exact DAgree.throw _
        | some d => exact DAgree.pure _

theorem Twin.walkTree (read : Bytes → Bytes → Option DocInfo) (root : Option NodePointer)
    (h : WholeRoot E db0.file db.file root) (start : Bytes) (opts : ScanOpts) (cmp : Bytes → Bytes → Ordering)
    (cb : WalkCb σ) (u : σ) :
    DAgree db0 db (walkTree E read root start opts cmp cb u) (walkTree E read root start opts cmp cb u) := by
  unfold Couchstore.walkTree
  apply DAgree.get
  rw [T.dropped]
  split
  · exact DAgree.throw _
  · cases root with
    | none => exact DAgree.pure _
    | some p =>
      dsimp only
      split
      · exact DAgree.pure _
      · exact DAgree.bind (T.lookup (h p rfl)) fun r _ => DAgree.pure _

theorem Twin.walkIdTree (start : Option Bytes) (opts : ScanOpts) (cb : WalkCb σ) (u : σ) :
    DAgree db0 db (walkIdTree E start opts cb u) (walkIdTree E start opts cb u) := by
  unfold Couchstore.walkIdTree
  apply DAgree.get
  rw [T.header]
  exact T.walkTree _ _ T.ids _ _ _ _ _

theorem Twin.walkSeqTree (start : Nat) (opts : ScanOpts) (cb : WalkCb σ) (u : σ) :
    DAgree db0 db (walkSeqTree E start opts cb u) (walkSeqTree E start opts cb u) := by
  unfold Couchstore.walkSeqTree
  apply DAgree.get
  rw [T.header]
  exact T.walkTree _ _ T.seqs _ _ _ _ _

theorem Twin.walkLocalTree (start : Option Bytes) (opts : ScanOpts) (cb : WalkCb σ) (u : σ) :
    DAgree db0 db (walkLocalTree E start opts cb u) (walkLocalTree E start opts cb u) := by
  unfold Couchstore.walkLocalTree
  apply DAgree.get
  rw [T.header]
  exact T.walkTree _ _ T.locs _ _ _ _ _

/-- A body that is read from both files. -/
theorem Twin.body (d : DocInfo) (hb : d.bp ≠ 0 → Agree db0.file db.file (preadBin E d.bp)) (dec : Bool) :
    DAgree db0 db (openDocWithDocinfo E d dec) (openDocWithDocinfo E d dec) := by
  unfold openDocWithDocinfo
  by_cases h : d.bp = 0
  · rw [if_pos h]; exact DAgree.throw _
  · rw [if_neg h]
    unfold bpToDoc
    apply DAgree.get
    rw [T.dropped]
    split
    · exact DAgree.throw _
    · apply DAgree.liftF
      split
      · unfold preadCompressed
        refine Agree.bind (hb h) fun b => ?_
        split
        · exact Agree.pure _
        · exact Agree.throw _
      · exact hb h

end

end Couchstore
