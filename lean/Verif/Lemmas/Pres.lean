import Verif.Lemmas.Save
import Verif.Model.Db

/-! Whatever the contents of the file (also a corrupt one), the functions that write only append:
they leave everything before the position of the handle alone. -/

namespace Couchstore

variable {σ α β : Type}

/-- `m` only appends, whether it succeeds or fails. -/
def Pres (m : M α) : Prop := ∀ f : File, f.WF → Sp m f (fun _ g => Ext f g) (fun _ g => Ext f g)

theorem Pres.pure (a : α) : Pres (Pure.pure a : M α) := fun f _ => Ext.refl f
theorem Pres.throw (e : Err) : Pres (MonadExcept.throw e : M α) := fun f _ => Ext.refl f

theorem Pres.bind {m : M α} {k : α → M β} (hm : Pres m) (hk : ∀ a, Pres (k a)) : Pres (m >>= k) := by
  intro f w
  refine Sp.bind' (hm f w) ?_ fun _ _ h => h
  intro a g hg
  exact (hk a g (hg.wf w)).mono (fun _ _ h => hg.trans h) (fun _ _ h => hg.trans h)

theorem Pres.get_bind {k : File → M β} (hk : ∀ a, Pres (k a)) : Pres (get >>= k) := by
  intro f w
  apply Sp.get_bind
  exact hk f f w

theorem Pres.ofExcept (x : Except Err α) : Pres (ofExcept x) := by
  cases x with
  | ok a => exact Pres.pure a
  | error e => exact Pres.throw e

theorem Pres.ite {c : Prop} [Decidable c] {a b : M α} (ha : Pres a) (hb : Pres b) :
    Pres (if c then a else b) := by split <;> assumption

theorem Pres.of_rframe {m : M α} (h : ∀ f, Sp m f (fun _ g => RFrame f g) (fun _ g => RFrame f g)) : Pres m :=
  fun f _ => (h f).mono (fun _ _ h => h.ext) (fun _ _ h => h.ext)

theorem pres_dbWriteBuf (E : Env) (b : Bytes) : Pres (dbWriteBuf E b) :=
  fun f w => (dbWriteBuf_spec E b f w).mono (fun _ _ h => h.1) (fun _ _ h => h.1)

theorem pres_dbWriteBufCompressed (E : Env) (b : Bytes) : Pres (dbWriteBufCompressed E b) :=
  pres_dbWriteBuf E _

theorem pres_readNode (E : Env) (pos : Nat) : Pres (readNode E pos) := by
  unfold readNode
  refine Pres.bind (Pres.of_rframe (preadCompressed_rframe E pos)) ?_
  intro b
  cases b with
  | nil => exact Pres.throw _
  | cons => exact Pres.pure _

theorem pres_flushMrPartial (E : Env) (rq : Rq σ) (mr : MR) (quota : Nat) :
    Pres (flushMrPartial E rq mr quota) := by
  unfold flushMrPartial
  cases mr.values with
  | nil => exact Pres.pure _
  | cons =>
    dsimp only
    refine Pres.ite (Pres.pure _) ?_
    refine Pres.bind (Pres.ofExcept _) ?_
    rintro ⟨taken, rest⟩
    refine Pres.bind (pres_dbWriteBufCompressed E _) ?_
    rintro ⟨pos, size⟩
    refine Pres.bind (Pres.ofExcept _) ?_
    intro red
    exact Pres.ite (Pres.throw _) (Pres.pure _)

theorem pres_flushMr (E : Env) (rq : Rq σ) (mr : MR) : Pres (flushMr E rq mr) :=
  pres_flushMrPartial E rq mr _

theorem pres_maybeFlush (E : Env) (rq : Rq σ) (mr : MR) : Pres (maybeFlush E rq mr) := by
  unfold maybeFlush
  refine Pres.ite (Pres.ite (pres_flushMr E rq mr) (Pres.pure _)) (Pres.ite ?_ (Pres.pure _))
  exact Pres.ite (pres_flushMrPartial E rq mr _) (Pres.ite (pres_flushMrPartial E rq mr _) (Pres.pure _))

theorem pres_mrPush (E : Env) (rq : Rq σ) (i : Item) (dst : MR) : Pres (mrPush E rq i dst) :=
  pres_maybeFlush E rq _

theorem pres_mrPushList (E : Env) (rq : Rq σ) (is : List Item) (dst : MR) : Pres (mrPushList E rq is dst) := by
  induction is generalizing dst with
  | nil => exact Pres.pure _
  | cons i is ih => exact Pres.bind (pres_mrPush E rq i dst) fun d => ih d

theorem pres_mrMovePointers (E : Env) (rq : Rq σ) (src dst : MR) : Pres (mrMovePointers E rq src dst) :=
  Pres.bind (pres_mrPushList E rq _ dst) fun _ => Pres.pure _

theorem pres_maybePurgeKv (E : Env) (rq : Rq σ) (k v : Bytes) (st : St σ) (res : MR) :
    Pres (maybePurgeKv E rq k v st res) := by
  unfold maybePurgeKv
  dsimp only
  split
  refine Pres.bind (Pres.ofExcept _) fun _ => ?_
  all_goals
    refine Pres.bind (Pres.pure _) ?_
    rintro ⟨st, act⟩
    cases act with
    | item => exact Pres.pure _
    | stop => exact Pres.bind (pres_mrPush E rq _ _) fun _ => Pres.pure _
    | keep => exact Pres.bind (pres_mrPush E rq _ _) fun _ => Pres.pure _
    | part => exact Pres.pure _

theorem pres_maybePurgeKp (E : Env) (rq : Rq σ) {pn : NodePointer → St σ → MR → M (St σ × MR)}
    (hp : ∀ p st r, Pres (pn p st r)) (p : NodePointer) (st : St σ) (res : MR) :
    Pres (maybePurgeKp E rq pn p st res) := by
  unfold maybePurgeKp
  dsimp only
  split
  refine Pres.bind (Pres.ofExcept _) fun _ => ?_
  all_goals
    refine Pres.bind (Pres.pure _) ?_
    rintro ⟨st, act⟩
    cases act with
    | item => exact Pres.pure _
    | stop => exact Pres.bind (pres_mrPush E rq _ _) fun _ => Pres.pure _
    | keep => exact Pres.bind (pres_mrPush E rq _ _) fun _ => Pres.pure _
    | part => exact hp _ _ _

theorem pres_purgeKvLoop (E : Env) (rq : Rq σ) (l : List (Option (Bytes × Bytes))) (st : St σ) (mr : MR) :
    Pres (purgeKvLoop E rq l st mr) := by
  induction l generalizing st mr with
  | nil => exact Pres.pure _
  | cons x l ih =>
    cases x with
    | none => exact Pres.throw _
    | some kv => exact Pres.bind (pres_maybePurgeKv E rq _ _ st mr) fun r => ih r.1 r.2

theorem pres_purgeKpLoop (E : Env) (rq : Rq σ) {pn : NodePointer → St σ → MR → M (St σ × MR)}
    (hp : ∀ p st r, Pres (pn p st r)) (l : List (Option (Bytes × Bytes))) (st : St σ) (mr : MR) :
    Pres (purgeKpLoop E rq pn l st mr) := by
  induction l generalizing st mr with
  | nil => exact Pres.pure _
  | cons x l ih =>
    cases x with
    | none => exact Pres.throw _
    | some kv =>
      obtain ⟨k, v⟩ := kv
      unfold purgeKpLoop
      cases readPointer k v with
      | none => exact Pres.throw _
      | some p => exact Pres.bind (pres_maybePurgeKp E rq hp p st mr) fun r => ih r.1 r.2

theorem pres_purgeNode (E : Env) (rq : Rq σ) (fuel : Nat) (p : NodePointer) (st : St σ) (dst : MR) :
    Pres (purgeNode E rq fuel p st dst) := by
  induction fuel generalizing p st dst with
  | zero => exact Pres.throw _
  | succ fuel ih =>
    unfold purgeNode
    refine Pres.ite (Pres.bind (pres_mrPush E rq _ _) fun _ => Pres.pure _) ?_
    refine Pres.bind (pres_readNode E _) ?_
    rintro ⟨t, recs⟩
    have key : ∀ x : St σ × MR, Pres (if x.2.modified then do
        let loc ← flushMr E rq x.2
        let (_, dst) ← mrMovePointers E rq loc { dst with modified := true }
        pure (x.1, dst)
      else pure (x.1, dst)) := by
      rintro ⟨st, loc⟩
      refine Pres.ite ?_ (Pres.pure _)
      refine Pres.bind (pres_flushMr E rq _) fun loc => ?_
      exact Pres.bind (pres_mrMovePointers E rq _ _) fun _ => Pres.pure _
    dsimp only
    split
    · exact Pres.bind (pres_purgeKvLoop E rq _ _ _) key
    · split
      · exact Pres.bind (pres_purgeKpLoop E rq ih _ _ _) key
      · exact Pres.bind (Pres.throw _) key

theorem pres_doSave (rq : Rq σ) (a : Action) (old : Option Bytes) (st : St σ) : Pres (doSave rq a old st) := by
  unfold doSave
  split
  · exact Pres.pure _
  · exact Pres.bind (Pres.ofExcept _) fun _ => Pres.pure _

theorem pres_doFetch (rq : Rq σ) (a : Action) (old : Option Bytes) (st : St σ) : Pres (doFetch rq a old st) := by
  unfold doFetch
  split
  · exact Pres.pure _
  · exact Pres.bind (Pres.ofExcept _) fun _ => Pres.pure _

theorem pres_doInsert (E : Env) (rq : Rq σ) (a : Action) (old : Option Bytes) (st : St σ) (loc : MR) :
    Pres (doInsert E rq a old st loc) :=
  Pres.bind (pres_mrPush E rq _ _) fun _ => Pres.bind (pres_doSave rq a old st) fun _ => Pres.pure _

theorem pres_notFound (E : Env) (rq : Rq σ) (a : Action) (st : St σ) (loc : MR) :
    Pres (notFound E rq a st loc) := by
  unfold notFound
  split
  · exact Pres.pure _
  · exact pres_doInsert E rq a none st loc
  · exact Pres.bind (pres_doFetch rq a none st) fun _ => Pres.ite (Pres.pure _) (pres_doInsert E rq a none _ loc)

theorem pres_kvInner (E : Env) (rq : Rq σ) (k v : Bytes) (as : List Action) (st : St σ) (loc : MR) :
    Pres (kvInner E rq k v as st loc) := by
  induction as generalizing st loc with
  | nil => exact Pres.pure _
  | cons a as ih =>
    unfold kvInner
    split
    · exact Pres.bind (pres_maybePurgeKv E rq k v st loc) fun _ => Pres.pure _
    · exact Pres.bind (pres_notFound E rq a st loc) fun r => ih r.1 r.2
    · split
      · exact Pres.pure _
      · exact Pres.bind (pres_doInsert E rq a _ st loc) fun _ => Pres.pure _
      · refine Pres.bind (pres_doFetch rq a _ st) fun r => Pres.ite (ih _ _) ?_
        exact Pres.bind (pres_doInsert E rq a _ _ loc) fun _ => Pres.pure _

theorem pres_kvTail (E : Env) (rq : Rq σ) (as : List Action) (st : St σ) (loc : MR) :
    Pres (kvTail E rq as st loc) := by
  induction as generalizing st loc with
  | nil => exact Pres.pure _
  | cons a as ih => exact Pres.bind (pres_notFound E rq a st loc) fun r => ih r.1 r.2

theorem pres_kvLoop (E : Env) (rq : Rq σ) (l : List (Option (Bytes × Bytes))) (as : List Action)
    (st : St σ) (loc : MR) : Pres (kvLoop E rq l as st loc) := by
  induction l generalizing as st loc with
  | nil => exact pres_kvTail E rq as st loc
  | cons x l ih =>
    cases x with
    | none => exact Pres.throw _
    | some kv =>
      refine Pres.bind (pres_kvInner E rq _ _ as st loc) ?_
      rintro ⟨as', adv, st', loc'⟩
      dsimp only
      split
      · exact Pres.bind (pres_maybePurgeKv E rq _ _ st' loc') fun r => ih _ r.1 r.2
      · exact Pres.bind (Pres.pure _) fun r => ih _ r.1 r.2

theorem pres_kpLoop (E : Env) (rq : Rq σ)
    {descend : NodePointer → List Action → St σ → MR → M (St σ × MR)}
    {purge : NodePointer → St σ → MR → M (St σ × MR)}
    (hd : ∀ p as st r, Pres (descend p as st r)) (hp : ∀ p st r, Pres (purge p st r))
    (l : List (Option (Bytes × Bytes))) (as : List Action) (st : St σ) (loc : MR) :
    Pres (kpLoop E rq descend purge l as st loc) := by
  induction l generalizing as st loc with
  | nil => cases as <;> exact Pres.pure _
  | cons x l ih =>
    cases as with
    | nil =>
      have h := pres_purgeKpLoop E rq hp (x :: l) st loc
      cases x <;> exact h
    | cons a as =>
      cases x with
      | none => exact Pres.throw _
      | some kv =>
        obtain ⟨k, v⟩ := kv
        unfold kpLoop
        cases readPointer k v with
        | none => exact Pres.throw _
        | some p =>
          dsimp only
          refine Pres.ite (hd _ _ _ _) (Pres.ite ?_ ?_)
          · exact Pres.bind (pres_maybePurgeKp E rq hp p st loc) fun r => ih _ r.1 r.2
          · exact Pres.bind (hd _ _ _ _) fun r => ih _ r.1 r.2

theorem pres_modifyBody (E : Env) (rq : Rq σ)
    {descend : NodePointer → List Action → St σ → MR → M (St σ × MR)}
    {purge : NodePointer → St σ → MR → M (St σ × MR)}
    (hd : ∀ p as st r, Pres (descend p as st r)) (hp : ∀ p st r, Pres (purge p st r))
    (nptr : Option NodePointer) (as : List Action) (st : St σ) :
    Pres (modifyBody E rq descend purge nptr as st) := by
  unfold modifyBody
  have key : ∀ x : St σ × MR, Pres (do
      let loc ← flushMr E rq x.2
      pure (x.1, loc)) := fun x => Pres.bind (pres_flushMr E rq x.2) fun _ => Pres.pure _
  dsimp only
  have key2 : ∀ x : UInt8 × List (Option (Bytes × Bytes)), Pres (if x.1 = 1 then do
        let y ← kvLoop E rq x.2 as st (MR.new .kv)
        let loc ← flushMr E rq y.2
        pure (y.1, loc)
      else if x.1 = 0 then do
        let y ← kpLoop E rq descend purge x.2 as st (MR.new .kp)
        let loc ← flushMr E rq y.2
        pure (y.1, loc)
      else do
        let y : St σ × MR ← throw .corrupt
        let loc ← flushMr E rq y.2
        pure (y.1, loc)) := by
    intro x
    exact Pres.ite (Pres.bind (pres_kvLoop E rq _ _ _ _) key)
      (Pres.ite (Pres.bind (pres_kpLoop E rq hd hp _ _ _ _) key) (Pres.bind (Pres.throw _) key))
  cases nptr with
  | none => exact Pres.bind (Pres.pure _) key2
  | some p => exact Pres.bind (pres_readNode E _) key2

theorem pres_modifyNode (E : Env) (rq : Rq σ) (fuel : Nat) (nptr : Option NodePointer) (as : List Action)
    (st : St σ) (dst : MR) : Pres (modifyNode E rq fuel nptr as st dst) := by
  induction fuel generalizing nptr as st dst with
  | zero =>
    cases as with
    | nil => exact Pres.pure _
    | cons => exact Pres.throw _
  | succ fuel ih =>
    cases as with
    | nil => exact Pres.pure _
    | cons a as =>
      unfold modifyNode
      refine Pres.bind (pres_modifyBody E rq (fun p as st r => ih _ as st r)
        (fun p st r => pres_purgeNode E rq fuel p st r) nptr _ st) ?_
      rintro ⟨st', loc⟩
      dsimp only
      split
      · exact Pres.bind (pres_mrPush E rq _ _) fun _ => Pres.pure _
      · exact Pres.bind (pres_mrMovePointers E rq _ _) fun _ => Pres.pure _

theorem pres_finishRootLoop (E : Env) (rq : Rq σ) (fuel : Nat) (root coll : MR) :
    Pres (finishRootLoop E rq fuel root coll) := by
  induction fuel generalizing root coll with
  | zero =>
    unfold finishRootLoop
    split
    · exact Pres.pure _
    · exact Pres.throw _
  | succ fuel ih =>
    unfold finishRootLoop
    split
    · exact Pres.pure _
    · refine Pres.bind (pres_mrMovePointers E rq root coll) ?_
      rintro ⟨r, c⟩
      exact Pres.bind (pres_flushMr E rq c) fun c => ih _ _

theorem pres_finishRoot (E : Env) (rq : Rq σ) (root : MR) : Pres (finishRoot E rq root) :=
  Pres.bind (pres_flushMr E rq root) fun _ => pres_finishRootLoop E rq _ _ _

theorem pres_modifyBtree (E : Env) (rq : Rq σ) (root : Option NodePointer) (as : List Action) (st : St σ) :
    Pres (modifyBtree E rq root as st) := by
  unfold modifyBtree
  refine Pres.get_bind fun f0 => ?_
  refine Pres.bind (pres_modifyNode E rq _ root as st _) ?_
  rintro ⟨st', res⟩
  refine Pres.ite (Pres.ite ?_ (Pres.pure _)) (Pres.pure _)
  exact Pres.bind (pres_finishRoot E rq res) fun _ => Pres.pure _

theorem pres_guidedPurge (E : Env) (rq : Rq σ) (root : Option NodePointer) (u : σ) :
    Pres (guidedPurge E rq root u) := by
  unfold guidedPurge
  refine Pres.get_bind fun f0 => ?_
  have key : ∀ x : St σ × MR, Pres (if x.2.modified then pure (x.1, lastPointer x.2) else pure (x.1, root)) :=
    fun x => Pres.ite (Pres.pure _) (Pres.pure _)
  dsimp only
  cases root with
  | none => exact Pres.bind (Pres.pure _) key
  | some p => exact Pres.bind (pres_purgeNode E rq _ _ _ _) key

/-! ### Functions on a handle -/

/-- Two headers that differ only in their roots and the last sequence number. -/
def HKeep (h h' : Header) : Prop :=
  h' = { h with byIdRoot := h'.byIdRoot, bySeqRoot := h'.bySeqRoot, localRoot := h'.localRoot
                updateSeq := h'.updateSeq }

theorem HKeep.refl (h : Header) : HKeep h h := rfl

theorem HKeep.trans {a b c : Header} (h : HKeep a b) (h' : HKeep b c) : HKeep a c := by
  unfold HKeep at *
  rw [h', h]

/-- What a saving function does to a handle, whatever happens: it only appends to the file and
leaves the flags and most of the header alone. -/
structure DbExt (db d : Db) : Prop where
  ext : Ext db.file d.file
  dropped : d.dropped = db.dropped
  readOnly : d.readOnly = db.readOnly
  header : HKeep db.header d.header

theorem DbExt.refl (db : Db) : DbExt db db := ⟨Ext.refl _, rfl, rfl, rfl⟩

theorem DbExt.trans {a b c : Db} (h : DbExt a b) (h' : DbExt b c) : DbExt a c :=
  ⟨h.ext.trans h'.ext, h'.dropped.trans h.dropped, h'.readOnly.trans h.readOnly, h.header.trans h'.header⟩

/-- `m` only appends to the file and leaves the flags and most of the header alone. -/
def PresDb (m : DbM α) : Prop := ∀ db : Db, db.file.WF →
  Sp m db (fun _ d => DbExt db d) (fun _ d => DbExt db d)

theorem PresDb.pure (a : α) : PresDb (Pure.pure a : DbM α) := fun db _ => DbExt.refl db
theorem PresDb.throw (e : Err) : PresDb (MonadExcept.throw e : DbM α) := fun db _ => DbExt.refl db

theorem PresDb.bind {m : DbM α} {k : α → DbM β} (hm : PresDb m) (hk : ∀ a, PresDb (k a)) : PresDb (m >>= k) := by
  intro f w
  refine Sp.bind' (hm f w) ?_ fun _ _ h => h
  intro a g h1
  exact (hk a g (h1.ext.wf w)).mono (fun _ _ h => h1.trans h) (fun _ _ h => h1.trans h)

theorem PresDb.get_bind {k : Db → DbM β} (hk : ∀ a, PresDb (k a)) : PresDb (get >>= k) := by
  intro f w
  apply Sp.get_bind
  exact hk f f w

theorem PresDb.ite {c : Prop} [Decidable c] {a b : DbM α} (ha : PresDb a) (hb : PresDb b) :
    PresDb (if c then a else b) := by split <;> assumption

theorem PresDb.liftF {m : M α} (h : Pres m) : PresDb (liftF m) := by
  intro db w
  have := h db.file w
  exact (liftF_spec this).mono (fun _ _ h => ⟨h.2, by rw [h.1], by rw [h.1], by rw [h.1]; rfl⟩)
    (fun _ _ h => ⟨h.2, by rw [h.1], by rw [h.1], by rw [h.1]; rfl⟩)

theorem PresDb.setHeader (g : Header → Header) (hg : ∀ h, HKeep h (g h)) : PresDb (setHeader g) :=
  fun db _ => ⟨Ext.refl db.file, rfl, rfl, hg _⟩

theorem PresDb.ofExceptD (x : Except Err α) : PresDb (updateIndexes.ofExceptD x) := by
  cases x with
  | ok a => exact PresDb.pure a
  | error e => exact PresDb.throw e

theorem pres_writeDoc (E : Env) (c : Bool) (b : Bytes) : Pres (writeDoc E c b) :=
  Pres.ite (pres_dbWriteBufCompressed E b) (pres_dbWriteBuf E b)

theorem pres_updatedInfo (E : Env) (opts : SaveOpts) (doc : Option Bytes) (info : DocInfo) :
    Pres (updatedInfo E opts doc info) := by
  cases doc with
  | none => exact Pres.pure _
  | some b => exact Pres.bind (pres_writeDoc E _ b) fun _ => Pres.pure _

theorem pres_addDocToUpdateList (E : Env) (opts : SaveOpts) (doc : Option Bytes) (info : DocInfo) (fb : Nat) :
    Pres (addDocToUpdateList E opts doc info fb) :=
  Pres.bind (Pres.ofExcept _) fun _ => Pres.bind (pres_updatedInfo E opts doc info) fun _ =>
    Pres.bind (Pres.ofExcept _) fun _ => Pres.bind (Pres.ofExcept _) fun _ => Pres.pure _

theorem pres_addDocs (E : Env) (opts : SaveOpts) (items : List SaveItem) (seq fb : Nat) :
    Pres (addDocs E opts items seq fb) := by
  induction items generalizing seq fb with
  | nil => exact Pres.pure _
  | cons it its ih =>
    unfold addDocs
    refine Pres.bind (pres_addDocToUpdateList E opts _ _ _) fun r => ?_
    exact Pres.bind (ih _ _) fun _ => Pres.pure _

theorem pres_updateIndexes (E : Env) (cb : Option (SaveCb σ)) (ts : List (Terms × Nat)) (u : σ) :
    PresDb (updateIndexes E cb ts u) := by
  unfold updateIndexes
  refine PresDb.get_bind fun db => ?_
  refine PresDb.bind (PresDb.ofExceptD _) fun _ => PresDb.bind (PresDb.ofExceptD _) fun _ => ?_
  refine PresDb.bind (PresDb.liftF (pres_modifyBtree E _ _ _ _)) fun _ => ?_
  refine PresDb.ite (PresDb.throw _) ?_
  refine PresDb.bind (PresDb.liftF (pres_modifyBtree E _ _ _ _)) fun _ => ?_
  exact PresDb.bind (PresDb.setHeader _ fun _ => rfl) fun _ => PresDb.pure _

theorem pres_saveDocuments (E : Env) (opts : SaveOpts) (cb : Option (SaveCb σ)) (items : List SaveItem) (u : σ) :
    PresDb (saveDocuments E opts cb items u) := by
  unfold saveDocuments
  refine PresDb.get_bind fun db => PresDb.ite (PresDb.throw _) ?_
  refine PresDb.bind (PresDb.ofExceptD _) fun _ => ?_
  refine PresDb.bind (PresDb.liftF (pres_addDocs E _ _ _ _)) fun _ => ?_
  refine PresDb.bind (pres_updateIndexes E cb _ u) fun _ => ?_
  exact PresDb.bind (PresDb.setHeader _ fun _ => rfl) fun _ => PresDb.pure _

theorem pres_saveLocalDocument (E : Env) (d : LocalDoc) : PresDb (saveLocalDocument E d) := by
  unfold saveLocalDocument
  refine PresDb.get_bind fun db => PresDb.ite (PresDb.throw _) ?_
  exact PresDb.bind (PresDb.liftF (pres_modifyBtree E _ _ _ _)) fun _ => PresDb.setHeader _ fun _ => rfl

theorem pres_saveLocalDocuments (E : Env) (ds : List LocalDoc) : PresDb (saveLocalDocuments E ds) := by
  unfold saveLocalDocuments
  refine PresDb.get_bind fun db => PresDb.ite (PresDb.throw _) ?_
  exact PresDb.bind (PresDb.liftF (pres_modifyBtree E _ _ _ _)) fun _ => PresDb.setHeader _ fun _ => rfl

theorem pres_updateLocalDocuments (E : Env) (ds : List LocalDoc) : PresDb (updateLocalDocuments E ds) := by
  unfold updateLocalDocuments
  refine PresDb.get_bind fun db => PresDb.ite (PresDb.throw _) ?_
  exact PresDb.bind (PresDb.liftF (pres_modifyBtree E _ _ _ _)) fun _ => PresDb.setHeader _ fun _ => rfl

end Couchstore
