import Verif.Spec.Purge
import Verif.Lemmas.Modify2
import Verif.Lemmas.Check

/-! Lemmas about the guided purge. -/

namespace Couchstore

variable {σ : Type}

/-! ### Entry-wise purging -/

/-- Purging a list of entries if purging is on. -/
def purgeIf (D : KV → PurgeAct) (b : Bool) (kvs : List KV) : List KV × Bool :=
  if b then purgeList D kvs else (kvs, false)

theorem purgeList_append (D : KV → PurgeAct) (a b : List KV) :
    purgeList D (a ++ b) = ((purgeList D a).1 ++ (purgeIf D (purgeList D a).2 b).1,
      (purgeIf D (purgeList D a).2 b).2) := by
  induction a with
  | nil => simp [purgeList, purgeIf]
  | cons kv a ih =>
    simp only [List.cons_append, purgeList]
    cases D kv with
    | item => exact ih
    | stop => simp [purgeIf]
    | keep => simp [ih]
    | part => simp [ih]

theorem purgeIf_append (D : KV → PurgeAct) (s : Bool) (a b : List KV) :
    purgeIf D s (a ++ b) = ((purgeIf D s a).1 ++ (purgeIf D (purgeIf D s a).2 b).1,
      (purgeIf D (purgeIf D s a).2 b).2) := by
  cases s with
  | false => simp [purgeIf]
  | true => exact purgeList_append D a b

theorem purgeList_sublist (D : KV → PurgeAct) (a : List KV) : (purgeList D a).1.Sublist a := by
  induction a with
  | nil => exact List.Sublist.refl _
  | cons kv a ih =>
    simp only [purgeList]
    cases D kv with
    | item => exact ih.cons _
    | stop => exact List.Sublist.refl _
    | keep => exact ih.cons_cons _
    | part => exact ih.cons_cons _

theorem purgeIf_sublist (D : KV → PurgeAct) (s : Bool) (a : List KV) :
    (purgeIf D s a).1.Sublist a := by
  cases s with
  | false => exact List.Sublist.refl _
  | true => exact purgeList_sublist D a

theorem purgeIf_length (D : KV → PurgeAct) (s : Bool) (a : List KV) :
    (purgeIf D s a).1.length ≤ a.length := (purgeIf_sublist D s a).length_le

theorem purgeIf_nil (D : KV → PurgeAct) (s : Bool) : purgeIf D s [] = ([], s) := by
  cases s <;> rfl

/-- Without stops, purging is filtering. -/
theorem purgeList_filter (D : KV → PurgeAct) (kvs : List KV) (h : ∀ kv ∈ kvs, D kv ≠ .stop) :
    (purgeList D kvs).1 = kvs.filter fun kv => D kv ≠ .item := by
  induction kvs with
  | nil => rfl
  | cons kv kvs ih =>
    have ih' := ih fun x hx => h x (by simp [hx])
    have h0 := h kv (by simp)
    simp only [purgeList]
    cases hD : D kv with
    | item => simp [hD, ih']
    | stop => exact absurd hD h0
    | keep => simp [hD, ih']
    | part => simp [hD, ih']

/-! ### Nodes without overflow -/

theorem kvBytes_append (a b : List KV) : kvBytes (a ++ b) = kvBytes a + kvBytes b := by
  simp [kvBytes]

theorem kvBytes_cons (kv : KV) (a : List KV) :
    kvBytes (kv :: a) = kv.1.length + kv.2.length + 5 + kvBytes a := by
  simp [kvBytes]

/-- The tree at a pointer, and if `q` holds, none of its nodes can overflow. -/
def TreeIf (E : Env) (X : Idx) (q : Prop) (kvThr kpThr M : Nat) (f : File) :
    Nat → NodePointer → List KV → Prop
  | 0, p, kvs => TreeAt E X f 0 p kvs ∧ (q → kvs.length ≤ 3 ∨ kvBytes kvs ≤ kvThr)
  | l + 1, p, kvs => ∃ cs : List (Item × List KV), cs ≠ [] ∧ kvs = cs.flatMap (·.2) ∧
      ZChunkAt E f p.pointer ((kindOf (l + 1)).byte :: encodeItems (cs.map (·.1))) ∧
      (∀ c ∈ cs, ItemAt E X f (l + 1) c.1 c.2 ∧
        ∀ p', c.1 = ptrItem p' → TreeIf E X q kvThr kpThr M f l (truncPtr p') c.2) ∧
      (q → cs.length ≤ 3 ∨ cs.length * M ≤ kpThr)

theorem TreeIf.keep {E X q a b M f g} (k : Keep f g) :
    ∀ {l p kvs}, TreeIf E X q a b M f l p kvs → TreeIf E X q a b M g l p kvs
  | 0, _, _, h => ⟨h.1.keep k, h.2⟩
  | l + 1, p, kvs, h => by
    obtain ⟨cs, h1, h2, h3, h4, h5⟩ := h
    exact ⟨cs, h1, h2, ChunkAt.keep h3 k, fun c hc => ⟨(h4 c hc).1.keep k,
      fun p' hp' => TreeIf.keep k ((h4 c hc).2 p' hp')⟩, h5⟩

theorem leaf_recs {E X f} {cs : List (Item × List KV)} (h2 : ∀ c ∈ cs, ItemAt E X f 0 c.1 c.2) :
    (cs.map (·.1)).map (fun i => (i.key, i.data)) = cs.flatMap (·.2) := by
  have := leaf_items h2
  have h3 := congrArg (List.filterMap id) this
  simpa [List.filterMap_map, Function.comp_def] using h3

theorem ptrItem_inj {p q : NodePointer} (h : ptrItem p = ptrItem q) : p = q := by
  have := congrArg Item.pointer h
  simpa [ptrItem] using this

theorem TreeAt.treeIf {E : Env} (L : E.Laws) {X : Idx} {f : File} (w : f.WF) {q : Prop}
    {a b M : Nat} (hV : ∀ kv, X.V kv → kv.1.length < 4096) :
    ∀ {l p kvs}, TreeAt E X f l p kvs → (q → roomy E f a b M l p = true) →
      TreeIf E X q a b M f l p kvs
  | 0, p, kvs, h, hq => by
    refine ⟨h, fun hq' => ?_⟩
    have hr := hq hq'
    obtain ⟨cs, h1, h2, rfl, hz, _⟩ := h
    have hn := nodeAt_spec L w hz (by
      intro i hi
      obtain ⟨c, hc, rfl⟩ := List.mem_map.mp hi
      exact (h2 c hc).fits hV)
    unfold roomy at hr
    rw [hn] at hr
    simp only at hr
    rw [leaf_recs h2] at hr
    exact of_decide_eq_true hr
  | l + 1, p, kvs, h, hq => by
    obtain ⟨cs, h1, h2, rfl, hz, _⟩ := h
    have hn := nodeAt_spec L w hz (by
      intro i hi
      obtain ⟨c, hc, rfl⟩ := List.mem_map.mp hi
      exact (h2 c hc).fits hV)
    have hq2 : q → (cs.length ≤ 3 ∨ cs.length * M ≤ b) ∧
        ∀ c ∈ cs, ∀ p', readPointer c.1.key c.1.data = some p' → roomy E f a b M l p' = true := by
      intro hq'
      have hr := hq hq'
      unfold roomy at hr
      rw [hn] at hr
      simp only [Bool.and_eq_true, decide_eq_true_eq, List.length_map, List.all_eq_true] at hr
      refine ⟨hr.1, fun c hc p' hp' => ?_⟩
      have := hr.2 (c.1.key, c.1.data) (List.mem_map.mpr ⟨c.1, List.mem_map.mpr ⟨c, hc, rfl⟩, rfl⟩)
      rw [hp'] at this
      exact this
    refine ⟨cs, h1, rfl, hz, fun c hc => ⟨h2 c hc, ?_⟩, fun hq' => (hq2 hq').1⟩
    intro p' hp'
    obtain ⟨p2, hp2, hrd, _, _, _, ht⟩ := (h2 c hc).ptr
    have : p' = p2 := ptrItem_inj (hp'.symm.trans hp2)
    subst this
    exact TreeAt.treeIf L w hV ht fun hq' => (hq2 hq').2 c hc _ hrd

/-- The node under construction holds `c`; if `q`, it has not been split and has at most `n`
records. -/
def MRQ (E : Env) (X : Idx) (q : Prop) (f : File) (l : Nat) (mr : MR) (c : List KV) (n : Nat) :
    Prop :=
  ∃ ps vs, MRInv E X f l mr c ps vs ∧ (q → ps = [] ∧ vs.length ≤ n)

theorem MRQ.keep {E X q f g l mr c n} (h : MRQ E X q f l mr c n) (k : Keep f g) :
    MRQ E X q g l mr c n := by
  obtain ⟨ps, vs, h, h'⟩ := h; exact ⟨ps, vs, h.keep k, h'⟩

theorem MRQ.setModified {E X q f l mr c n} (h : MRQ E X q f l mr c n) (b : Bool) :
    MRQ E X q f l { mr with modified := b } c n := by
  obtain ⟨ps, vs, h, h'⟩ := h; exact ⟨ps, vs, h.setModified b, h'⟩

theorem MRQ.le {E X q f l mr c n n'} (h : MRQ E X q f l mr c n) (hn : n ≤ n') :
    MRQ E X q f l mr c n' := by
  obtain ⟨ps, vs, h, h'⟩ := h
  exact ⟨ps, vs, h, fun hq => ⟨(h' hq).1, Nat.le_trans (h' hq).2 hn⟩⟩

theorem MRInv.push {E X f l mr c ps vs} (h : MRInv E X f l mr c ps vs) {it : Item} {kvs : List KV}
    (hit : ItemAt E X f l it kvs) :
    MRInv E X f l { mr with values := mr.values ++ [it], nodeLen := mr.nodeLen + it.kvSize,
                            count := mr.count + 1 } (c ++ kvs) ps (vs ++ [(it, kvs)]) := by
  refine ⟨h.kind, h.pointers, ?_, h.ps_ok, ?_, ?_, ?_, ?_⟩
  · simp [h.values]
  · intro x hx
    rcases List.mem_append.mp hx with hx | hx
    · exact h.vs_ok x hx
    · simp at hx; subst hx; exact hit
  · simp [h.len, itemsSize]
  · simp [h.count]
  · rw [h.content]; simp

/-- The size limit of a node at a height. -/
def Rq.thrOf (rq : Rq σ) : Nat → Nat
  | 0 => rq.kvThr
  | _ + 1 => rq.kpThr

theorem mrPush_q (E : Env) {rq : Rq σ} {K X} (ok : RqOk rq K X) (q : Prop) (l : Nat) (mr : MR)
    (c : List KV) (ps vs : List (Item × List KV)) (it : Item) (kvs : List KV) (f : File) (w : f.WF)
    (h : MRInv E X f l mr c ps vs) (hit : ItemAt E X f l it kvs)
    (hq : q → ps = [] ∧ rq.compacting = false ∧
      (vs.length + 1 ≤ 3 ∨ mr.nodeLen + it.kvSize ≤ rq.thrOf l)) :
    Sp (mrPush E rq it mr) f
      (fun mr' g => Ext f g ∧ mr'.modified = mr.modified ∧
        ∃ ps' vs', MRInv E X g l mr' (c ++ kvs) ps' vs' ∧
          (q → ps' = [] ∧ vs'.length = vs.length + 1)) (FailT f) := by
  by_cases hq0 : q
  · obtain ⟨h1, h2, h3⟩ := hq hq0
    have : mrPush E rq it mr = pure { mr with values := mr.values ++ [it],
                                              nodeLen := mr.nodeLen + it.kvSize,
                                              count := mr.count + 1 } := by
      unfold mrPush maybeFlush
      rw [if_neg (by rw [h2]; simp)]
      simp only
      by_cases hc : mr.modified = true ∧ mr.count + 1 > 3
      · rw [if_pos hc]
        have h4 : mr.nodeLen + it.kvSize ≤ rq.thrOf l := by
          rcases h3 with h3 | h3
          · rw [h.count] at hc; omega
          · exact h3
        have hk := h.kind
        cases l with
        | zero =>
          simp only [Rq.thrOf] at h4
          rw [if_neg (by omega), if_neg]
          rw [hk]; simp [kindOf]
        | succ l =>
          simp only [Rq.thrOf] at h4
          rw [if_neg, if_neg (by omega)]
          rw [hk]; simp [kindOf]
      · rw [if_neg hc]
    rw [this]
    exact ⟨Ext.refl _, rfl, ps, _, h.push hit, fun _ => ⟨h1, by simp⟩⟩
  · apply (mrPush_spec E ok l mr c ps vs it kvs f w h hit).mono
    · rintro mr' g ⟨he, hm, ps', vs', hi, _⟩
      exact ⟨he, hm, ps', vs', hi, fun h => absurd h hq0⟩
    · exact fun _ _ h => h

/-! ### Leaves -/

theorem leaf_content {E X f} {vs : List (Item × List KV)} (h : ∀ x ∈ vs, ItemAt E X f 0 x.1 x.2) :
    itemsSize (vs.map (·.1)) = kvBytes (vs.flatMap (·.2)) ∧
      vs.length = (vs.flatMap (·.2)).length := by
  induction vs with
  | nil => exact ⟨rfl, rfl⟩
  | cons x vs ih =>
    obtain ⟨h1, h2⟩ := ih fun y hy => h y (by simp [hy])
    have hx := (h x (by simp)).2.1
    rw [List.map_cons, itemsSize_cons, List.flatMap_cons, kvBytes_append, h1, List.length_append,
      List.length_cons, h2, hx]
    refine ⟨?_, ?_⟩
    · simp [kvBytes, Item.kvSize]
    · simp; omega

theorem purgeIf_on {D : KV → PurgeAct} {b : Bool} {kvs : List KV} (h : (purgeIf D b kvs).2 = true) : b = true := by
  cases b with
  | false => simp [purgeIf] at h
  | true => rfl

theorem PurgeTally.any (rq : Rq σ) (X : Idx) : PurgeTally rq X (fun _ _ _ => True) :=
  ⟨fun _ => trivial, fun _ _ _ _ _ _ _ => trivial, fun _ _ _ _ _ _ _ _ _ => trivial,
    fun _ _ _ _ _ _ _ _ _ _ _ => trivial⟩

theorem purgeKvLoop_spec (E : Env) {rq : Rq σ} {K X} (ok : RqOk rq K X) {D} (po : PurgeOk rq X D)
    {S} (pt : PurgeTally rq X S) (q : Prop) (hcomp : q → rq.compacting = false) (kvs : List KV) (hv : ∀ kv ∈ kvs, X.V kv)
    (st : St σ) (loc : MR) (c : List KV) (f : File) (w : f.WF)
    (h : MRQ E X q f 0 loc c c.length)
    (hq : q → c.length + kvs.length ≤ 3 ∨ kvBytes c + kvBytes kvs ≤ rq.kvThr) :
    Sp (purgeKvLoop E rq (kvs.map fun kv => some (kv.1, kv.2)) st loc) f
      (fun r g => Ext f g ∧ (r.1.purging = (purgeIf D st.purging kvs).2 ∧
          (r.1.purging = true → S st.user r.1.user kvs)) ∧
        MRQ E X q g 0 r.2 (c ++ (purgeIf D st.purging kvs).1)
          (c.length + (purgeIf D st.purging kvs).1.length) ∧
        (r.2.modified = false → loc.modified = false ∧ (purgeIf D st.purging kvs).1 = kvs) ∧
        (r.2.modified = true → loc.modified = true ∨
          (purgeIf D st.purging kvs).1.length < kvs.length))
      (FailT f) := by
  induction kvs generalizing st loc c f with
  | nil =>
    rw [purgeIf_nil]
    exact ⟨Ext.refl _, ⟨rfl, fun _ => pt.nil _⟩, by simpa using h, fun h => ⟨h, rfl⟩, Or.inl⟩
  | cons kv kvs ih =>
    obtain ⟨k, v⟩ := kv
    have hkv := hv (k, v) (by simp)
    have ih' := ih fun x hx => hv x (by simp [hx])
    rw [List.map_cons]
    unfold purgeKvLoop
    -- the case of an entry that is kept
    have push : ∀ st' : St σ, purgeIf D st.purging ((k, v) :: kvs) =
          ((k, v) :: (purgeIf D st'.purging kvs).1, (purgeIf D st'.purging kvs).2) →
        (st'.purging = true → S st.user st'.user [(k, v)]) →
        Sp (mrPushItem E rq k v loc >>= fun res => purgeKvLoop E rq
          (kvs.map fun kv => some (kv.1, kv.2)) st' res) f
          (fun r g => Ext f g ∧ (r.1.purging = (purgeIf D st.purging ((k, v) :: kvs)).2 ∧
              (r.1.purging = true → S st.user r.1.user ((k, v) :: kvs))) ∧
            MRQ E X q g 0 r.2 (c ++ (purgeIf D st.purging ((k, v) :: kvs)).1)
              (c.length + (purgeIf D st.purging ((k, v) :: kvs)).1.length) ∧
            (r.2.modified = false → loc.modified = false ∧
              (purgeIf D st.purging ((k, v) :: kvs)).1 = (k, v) :: kvs) ∧
            (r.2.modified = true → loc.modified = true ∨
              (purgeIf D st.purging ((k, v) :: kvs)).1.length < ((k, v) :: kvs).length))
          (FailT f) := by
      intro st' hst hS
      rw [hst]
      obtain ⟨ps, vs, hi, hiq⟩ := h
      have hit : ItemAt E X f 0 { key := k, data := v, pointer := none } [(k, v)] :=
        ⟨rfl, rfl, hkv, (ok.entry _ hkv).2.1, (ok.entry _ hkv).2.2⟩
      unfold mrPushItem
      apply Sp.bind' (mrPush_q E ok q 0 loc c ps vs _ _ f w hi hit (by
        intro hq0
        obtain ⟨h1, h2⟩ := hiq hq0
        refine ⟨h1, hcomp hq0, ?_⟩
        have hcon := hi.content
        rw [h1] at hcon
        simp only [List.flatMap_nil, List.nil_append] at hcon
        obtain ⟨h4, h5⟩ := leaf_content hi.vs_ok
        rw [← hcon] at h4 h5
        rcases hq hq0 with h3 | h3
        · left; rw [List.length_cons] at h3; omega
        · right
          rw [kvBytes_cons] at h3
          rw [hi.len, h4]
          simp only [Item.kvSize, Rq.thrOf]
          simp only at h3
          omega))
      · rintro loc1 g ⟨he, hm, ps1, vs1, hi1, hq1⟩
        apply (ih' st' loc1 (c ++ [(k, v)]) g (he.wf' w) ⟨ps1, vs1, hi1, fun hq0 => by
            obtain ⟨h1, h2⟩ := hq1 hq0
            have := (hiq hq0).2
            refine ⟨h1, ?_⟩
            simp; omega⟩ (by
          intro hq0
          rw [kvBytes_append, List.length_append]
          rcases hq hq0 with h3 | h3
          · left; simp at h3 ⊢; omega
          · right; rw [kvBytes_cons] at h3
            rw [kvBytes_cons]; simp only [kvBytes, List.map_nil, List.sum_nil] at h3 ⊢; omega)).mono
        · rintro ⟨st2, loc2⟩ g2 ⟨he2, h1, h2, h3, h4⟩
          refine ⟨he.trans he2, ⟨h1.1, fun h0 => ?_⟩, ?_, ?_, ?_⟩
          · exact pt.append _ _ _ [(k, v)] kvs (hS (purgeIf_on (h1.1 ▸ h0))) (h1.2 h0)
          · simp only [List.append_assoc, List.singleton_append, List.length_append,
              List.length_cons, List.length_nil] at h2 ⊢
            exact h2.le (by omega)
          · intro h0
            obtain ⟨h5, h6⟩ := h3 h0
            exact ⟨hm ▸ h5, by simp only; rw [h6]⟩
          · intro h0
            rcases h4 h0 with h5 | h5
            · left; rw [← hm]; exact h5
            · right; simp only [List.length_cons]; omega
        · exact fun _ _ h => FailT.trans he h
      · exact fun _ _ h => h
    obtain ⟨u, b⟩ := st
    cases b with
    | false =>
      simp only [maybePurgeKv_off, bind_assoc, pure_bind]
      exact push ⟨u, false⟩ (by simp [purgeIf]) (fun h => by simp at h)
    | true =>
      obtain ⟨cb, hcb, hdec⟩ := po.kv
      obtain ⟨u', hu'⟩ := hdec u k v hkv
      have hnp := po.part _ hkv
      have hmp : maybePurgeKv E rq k v ⟨u, true⟩ loc =
          (match D (k, v) with
            | .item => pure (⟨u', true⟩, { loc with modified := true })
            | .stop => do let r ← mrPushItem E rq k v loc; pure (⟨u', false⟩, r)
            | .keep => do let r ← mrPushItem E rq k v loc; pure (⟨u', true⟩, r)
            | .part => pure (⟨u', true⟩, loc)) := by
        unfold maybePurgeKv
        simp only [hcb, hu', ofExcept, pure_bind]
        cases D (k, v) <;> rfl
      rw [hmp]
      cases hD : D (k, v) with
      | part => exact absurd hD hnp
      | stop =>
        simp only [bind_assoc, pure_bind]
        exact push ⟨u', false⟩ (by simp [purgeIf, purgeList, hD]) (fun h => by simp at h)
      | keep =>
        simp only [bind_assoc, pure_bind]
        exact push ⟨u', true⟩ (by simp [purgeIf, purgeList, hD]) (fun _ => pt.kv cb hcb u k v u' _ hkv hu')
      | item =>
        simp only [pure_bind]
        have heq : purgeIf D true ((k, v) :: kvs) = purgeIf D true kvs := by
          simp [purgeIf, purgeList, hD]
        rw [heq]
        apply (ih' ⟨u', true⟩ { loc with modified := true } c f w (h.setModified true) (by
          intro hq0
          rcases hq hq0 with h3 | h3
          · left; simp at h3; omega
          · right; rw [kvBytes_cons] at h3; omega)).mono
        · rintro ⟨st2, loc2⟩ g2 ⟨he2, h1, h2, h3, h4⟩
          refine ⟨he2, ⟨h1.1, fun h0 => ?_⟩, h2, ?_, ?_⟩
          · exact pt.append _ _ _ [(k, v)] kvs (pt.kv cb hcb u k v u' _ hkv hu') (h1.2 h0)
          · intro h0; exact absurd (h3 h0).1 (by simp)
          · intro _
            right
            have := purgeIf_length D true kvs
            simp only [List.length_cons]; omega
        · exact fun _ _ h => h

/-! ### Interior nodes -/

/-- Interior records are not larger than `M`. -/
def RecMax (E : Env) (X : Idx) (M : Nat) : Prop :=
  ∀ f l it kvs, ItemAt E X f (l + 1) it kvs → it.kvSize ≤ M

theorem recMax_of {E : Env} {X : Idx} {kmax rmax : Nat} (hk : ∀ kv, X.V kv → kv.1.length ≤ kmax)
    (hr : ∀ kvs r, X.R kvs r → r.length ≤ rmax) : RecMax E X (kmax + rmax + 19) := by
  intro f l it kvs h
  obtain ⟨v, hv⟩ := lastKey_mem h.lastKey
  have h1 := hk _ (h.valid _ hv)
  obtain ⟨p, rfl, _, cs, _, _, _, _, hR, _⟩ := h
  have := hr _ _ hR
  have h2 := encodePointer_length p
  simp only [Item.kvSize, ptrItem] at h1 ⊢
  omega

/-- There is room for `n` interior records. -/
def RoomFor (rq : Rq σ) (M n : Nat) : Prop := n ≤ 3 ∨ n * M ≤ rq.kpThr

theorem RoomFor.le {rq : Rq σ} {M n m : Nat} (h : RoomFor rq M n) (hm : m ≤ n) : RoomFor rq M m := by
  rcases h with h | h
  · left; omega
  · right; exact Nat.le_trans (Nat.mul_le_mul_right M hm) h

theorem itemsSize_le {E X f l M} (hM : RecMax E X M) {vs : List (Item × List KV)}
    (h : ∀ x ∈ vs, ItemAt E X f (l + 1) x.1 x.2) : itemsSize (vs.map (·.1)) ≤ vs.length * M := by
  induction vs with
  | nil => simp [itemsSize]
  | cons x vs ih =>
    have h1 := ih fun y hy => h y (by simp [hy])
    have h2 := hM _ _ _ _ (h x (by simp))
    rw [List.map_cons, itemsSize_cons, List.length_cons, Nat.succ_mul]
    omega

theorem mrPush_kp (E : Env) {rq : Rq σ} {K X} (ok : RqOk rq K X) {q : Prop} {M : Nat}
    (hcomp : q → rq.compacting = false) (hM : q → RecMax E X M) (l : Nat) (it : Item)
    (kvs : List KV) (dst : MR) (c : List KV) (n : Nat) (f : File) (w : f.WF)
    (h : MRQ E X q f (l + 1) dst c n) (hit : ItemAt E X f (l + 1) it kvs)
    (hq : q → RoomFor rq M (n + 1)) :
    Sp (mrPush E rq it dst) f
      (fun r g => Ext f g ∧ r.modified = dst.modified ∧ MRQ E X q g (l + 1) r (c ++ kvs) (n + 1))
      (FailT f) := by
  obtain ⟨ps, vs, hi, hiq⟩ := h
  apply (mrPush_q E ok q (l + 1) dst c ps vs it kvs f w hi hit (by
    intro hq0
    obtain ⟨h1, h2⟩ := hiq hq0
    refine ⟨h1, hcomp hq0, ?_⟩
    rcases hq hq0 with h3 | h3
    · left; omega
    · right
      have h4 := itemsSize_le (hM hq0) hi.vs_ok
      have h5 := hM hq0 _ _ _ _ hit
      have h6 : vs.length * M ≤ n * M := Nat.mul_le_mul_right M h2
      rw [Nat.succ_mul] at h3
      rw [hi.len]
      show _ ≤ rq.kpThr
      omega)).mono
  · rintro r g ⟨he, hm, ps', vs', hi', hq'⟩
    exact ⟨he, hm, ps', vs', hi', fun hq0 => ⟨(hq' hq0).1, by
      have := (hq' hq0).2
      have := (hiq hq0).2
      omega⟩⟩
  · exact fun _ _ h => h

theorem mrPushList_kp (E : Env) {rq : Rq σ} {K X} (ok : RqOk rq K X) {q : Prop} {M : Nat}
    (hcomp : q → rq.compacting = false) (hM : q → RecMax E X M) (l : Nat)
    (xs : List (Item × List KV)) (dst : MR) (c : List KV) (n : Nat) (f : File) (w : f.WF)
    (h : MRQ E X q f (l + 1) dst c n) (hx : ∀ x ∈ xs, ItemAt E X f (l + 1) x.1 x.2)
    (hq : q → RoomFor rq M (n + xs.length)) :
    Sp (mrPushList E rq (xs.map (·.1)) dst) f
      (fun r g => Ext f g ∧ r.modified = dst.modified ∧
        MRQ E X q g (l + 1) r (c ++ xs.flatMap (·.2)) (n + xs.length))
      (FailT f) := by
  induction xs generalizing dst c n f with
  | nil => exact ⟨Ext.refl _, rfl, by simpa using h⟩
  | cons x xs ih =>
    unfold mrPushList
    apply Sp.bind' (mrPush_kp E ok hcomp hM l x.1 x.2 dst c n f w h (hx x (by simp))
      (fun hq0 => (hq hq0).le (by simp)))
    · rintro r g ⟨he, hm, hi⟩
      apply (ih r (c ++ x.2) (n + 1) g (he.wf' w) hi
        (fun y hy => (hx y (by simp [hy])).keep (he.keep w))
        (fun hq0 => (hq hq0).le (by simp; omega))).mono
      · rintro r2 g2 ⟨he2, hm2, hi2⟩
        refine ⟨he.trans he2, hm2.trans hm, ?_⟩
        rw [List.flatMap_cons, ← List.append_assoc]
        exact hi2.le (by simp; omega)
      · exact fun _ _ h => FailT.trans he h
    · exact fun _ _ h => h

theorem flushMr_q (E : Env) {rq : Rq σ} {K X} (ok : RqOk rq K X) {q : Prop} (l : Nat) (mr : MR)
    (c : List KV) (n : Nat) (f : File) (w : f.WF) (h : MRQ E X q f l mr c n)
    (hmod : mr.modified = true) :
    Sp (flushMr E rq mr) f
      (fun mr' g => Ext f g ∧ ∃ ps', MRInv E X g l mr' c ps' [] ∧ (q → ps'.length ≤ 1))
      (FailT f) := by
  obtain ⟨ps, vs, hi, hiq⟩ := h
  cases hv : vs with
  | nil =>
    rw [hv] at hi
    have hvals := hi.values
    have : flushMr E rq mr = pure mr := by
      unfold flushMr flushMrPartial; rw [hvals]; rfl
    rw [this]
    exact ⟨Ext.refl _, ps, hi, fun hq0 => by rw [(hiq hq0).1]; simp⟩
  | cons v0 vs0 =>
    have hlen : 0 < mr.nodeLen := by
      rw [hi.len, hv, List.map_cons, itemsSize_cons]; unfold Item.kvSize; omega
    unfold flushMr
    apply (flushMrPartial_spec E ok l mr c ps vs mr.nodeLen f w hi (Or.inl hlen)).mono
    · rintro mr' g ⟨he, hm, ps', vs', hi', h1, h2, h3, h4, h5, h6⟩
      have hvs' := h2 (by rw [← hi.len]; exact Nat.le_refl _) hmod
      subst hvs'
      refine ⟨he, ps', hi', fun hq0 => ?_⟩
      rw [h4 hmod (by rw [hv]; simp), (hiq hq0).1]
      simp
    · exact fun _ _ h => h

/-- What `purge_node` does to a subtree while purging is on: either there was nothing to purge
and it did nothing, or what is left has been added to the parent. -/
def PurgesTo (E : Env) (rq : Rq σ) (X : Idx) (D : KV → PurgeAct)
    (S : σ → σ → List KV → Prop) (q : Prop) (M l : Nat) (pn : NodePointer → St σ → MR → Couchstore.M (St σ × MR)) : Prop :=
  ∀ p kvs u dst c n f, f.WF → TreeIf E X q rq.kvThr rq.kpThr M f l p kvs →
    MRQ E X q f (l + 1) dst c n → (q → RoomFor rq M (n + 1)) →
    Sp (pn p ⟨u, true⟩ dst) f
      (fun r g => Ext f g ∧ (r.1.purging = (purgeList D kvs).2 ∧ (r.1.purging = true → S u r.1.user kvs)) ∧
        (((purgeList D kvs).1 = kvs ∧ r.2 = dst) ∨
          ((purgeList D kvs).1.length < kvs.length ∧ r.2.modified = true ∧
            MRQ E X q g (l + 1) r.2 (c ++ (purgeList D kvs).1) (n + 1))))
      (FailT f)

theorem purgeKpLoop_spec (E : Env) {rq : Rq σ} {K X} (ok : RqOk rq K X) {D}
    (po : PurgeOk rq X D) {S} (pt : PurgeTally rq X S) {q : Prop} {M : Nat} (hcomp : q → rq.compacting = false)
    (hM : q → RecMax E X M) (l : Nat) (pn) (hpn : PurgesTo E rq X D S q M l pn)
    (cs : List (Item × List KV)) (st : St σ) (loc : MR) (c : List KV) (n : Nat) (f : File)
    (w : f.WF)
    (hcs : ∀ x ∈ cs, ItemAt E X f (l + 1) x.1 x.2 ∧
      ∀ p', x.1 = ptrItem p' → TreeIf E X q rq.kvThr rq.kpThr M f l (truncPtr p') x.2)
    (h : MRQ E X q f (l + 1) loc c n) (hq : q → RoomFor rq M (n + cs.length)) :
    Sp (purgeKpLoop E rq pn (recsOf cs) st loc) f
      (fun r g => Ext f g ∧ (r.1.purging = (purgeIf D st.purging (cs.flatMap (·.2))).2 ∧
          (r.1.purging = true → S st.user r.1.user (cs.flatMap (·.2)))) ∧
        MRQ E X q g (l + 1) r.2 (c ++ (purgeIf D st.purging (cs.flatMap (·.2))).1) (n + cs.length) ∧
        (r.2.modified = false → loc.modified = false ∧
          (purgeIf D st.purging (cs.flatMap (·.2))).1 = cs.flatMap (·.2)) ∧
        (r.2.modified = true → loc.modified = true ∨
          (purgeIf D st.purging (cs.flatMap (·.2))).1.length < (cs.flatMap (·.2)).length))
      (FailT f) := by
  induction cs generalizing st loc c n f with
  | nil =>
    rw [List.flatMap_nil, purgeIf_nil]
    exact ⟨Ext.refl _, ⟨rfl, fun _ => pt.nil _⟩, by simpa using h, fun h => ⟨h, rfl⟩, Or.inl⟩
  | cons x cs ih =>
    obtain ⟨hit, htr⟩ := hcs x (by simp)
    obtain ⟨p, hp, hrd, hk, ht, hk', ht'⟩ := hit.ptr
    have htree := htr p hp
    show Sp (purgeKpLoop E rq pn (some (x.1.key, x.1.data) :: recsOf cs) st loc) f _ _
    unfold purgeKpLoop
    simp only
    rw [hrd]
    simp only
    rw [List.flatMap_cons, purgeIf_append]
    -- one child
    have step : Sp (maybePurgeKp E rq pn (truncPtr p) st loc) f
        (fun r g => Ext f g ∧ (r.1.purging = (purgeIf D st.purging x.2).2 ∧
            (r.1.purging = true → S st.user r.1.user x.2)) ∧
          MRQ E X q g (l + 1) r.2 (c ++ (purgeIf D st.purging x.2).1) (n + 1) ∧
          (r.2.modified = false → loc.modified = false ∧ (purgeIf D st.purging x.2).1 = x.2) ∧
          (r.2.modified = true → loc.modified = true ∨
            (purgeIf D st.purging x.2).1.length < x.2.length))
        (FailT f) := by
      have push : ∀ st' : St σ, purgeIf D st.purging x.2 = (x.2, st'.purging) →
          (st'.purging = true → S st.user st'.user x.2) →
          Sp (mrPushPointer E rq (truncPtr p) loc >>= fun res => pure (st', res)) f
            (fun r g => Ext f g ∧ (r.1.purging = (purgeIf D st.purging x.2).2 ∧
                (r.1.purging = true → S st.user r.1.user x.2)) ∧
              MRQ E X q g (l + 1) r.2 (c ++ (purgeIf D st.purging x.2).1) (n + 1) ∧
              (r.2.modified = false → loc.modified = false ∧ (purgeIf D st.purging x.2).1 = x.2) ∧
              (r.2.modified = true → loc.modified = true ∨
                (purgeIf D st.purging x.2).1.length < x.2.length))
            (FailT f) := by
        intro st' hst hS
        rw [hst]
        unfold mrPushPointer
        apply Sp.bind' (mrPush_kp E ok hcomp hM l _ x.2 loc c n f w h (ht'.item hk')
          (fun hq0 => (hq hq0).le (by simp)))
        · rintro r g ⟨he, hm, hi⟩
          exact ⟨he, ⟨rfl, hS⟩, hi, fun h0 => ⟨hm ▸ h0, rfl⟩, fun h0 => Or.inl (hm ▸ h0)⟩
        · exact fun _ _ h => h
      obtain ⟨u, b⟩ := st
      cases b with
      | false =>
        rw [maybePurgeKp_off]
        exact push ⟨u, false⟩ rfl (fun h => by simp at h)
      | true =>
        obtain ⟨cb, hcb, hdec⟩ := po.kp
        have hR : X.R x.2 (truncPtr p).reduceValue := by
          obtain ⟨_, _, _, _, _, hR, _⟩ := ht'
          exact hR
        obtain ⟨u', a, hu', hag⟩ := hdec u (truncPtr p) x.2 hit.ne_nil hit.valid hR
        have hS := pt.kp cb hcb u (truncPtr p) x.2 u' a hit.ne_nil hit.valid hR hu'
        have hmp : maybePurgeKp E rq pn (truncPtr p) ⟨u, true⟩ loc =
            (match a with
              | .item => pure (⟨u', true⟩, { loc with modified := true })
              | .part => pn (truncPtr p) ⟨u', true⟩ loc
              | .stop => do let r ← mrPushPointer E rq (truncPtr p) loc; pure (⟨u', false⟩, r)
              | .keep => do let r ← mrPushPointer E rq (truncPtr p) loc; pure (⟨u', true⟩, r)) := by
          unfold maybePurgeKp
          simp only [hcb, hu', ofExcept, pure_bind]
          cases a <;> rfl
        rw [hmp]
        cases a with
        | keep => exact push ⟨u', true⟩ hag (fun _ => hS)
        | stop => exact push ⟨u', false⟩ hag (fun h => by simp at h)
        | item =>
          have hag' : purgeIf D true x.2 = ([], true) := hag
          simp only
          rw [hag']
          refine ⟨Ext.refl _, ⟨rfl, fun _ => hS⟩, ?_, fun h0 => by simp at h0, fun _ => Or.inr ?_⟩
          · simp only [List.append_nil]
            exact (h.setModified true).le (by omega)
          · have := List.length_pos_iff.mpr hit.ne_nil
            simpa using this
        | part =>
          simp only
          have hag' : (purgeList D x.2).1 ≠ x.2 := hag
          apply (hpn (truncPtr p) x.2 u' loc c n f w htree h (fun hq0 => (hq hq0).le (by simp))).mono
          · rintro ⟨st2, loc2⟩ g ⟨he, h1, h2⟩
            rcases h2 with ⟨h2, _⟩ | ⟨h2, h3, h4⟩
            · exact absurd h2 hag'
            · exact ⟨he, ⟨h1.1, fun h0 => pt.append _ _ _ [] x.2 hS (h1.2 h0)⟩, h4, fun h0 => by simp only at h0 h3; rw [h3] at h0; simp at h0,
                fun _ => Or.inr h2⟩
          · exact fun _ _ h => h
    apply Sp.bind' step
    · rintro ⟨st1, loc1⟩ g ⟨he, h1, h2, h3, h4⟩
      simp only at h1 h2 h3 h4
      have k := he.keep w
      apply (ih st1 loc1 _ (n + 1) g (he.wf' w)
        (fun y hy => ⟨(hcs y (by simp [hy])).1.keep k,
          fun p' hp' => ((hcs y (by simp [hy])).2 p' hp').keep k⟩) h2
        (fun hq0 => (hq hq0).le (by simp; omega))).mono
      · rintro ⟨st2, loc2⟩ g2 ⟨he2, i1, i2, i3, i4⟩
        simp only at i1 i2 i3 i4
        have iS := i1.2
        have ion : st2.purging = true → st1.purging = true := fun h0 => purgeIf_on (i1.1 ▸ h0)
        replace i1 := i1.1
        rw [h1.1] at i1 i2 i3 i4
        refine ⟨he.trans he2, ⟨i1, fun h0 => pt.append _ _ _ _ _ (h1.2 (ion h0)) (iS h0)⟩, ?_, ?_, ?_⟩
        · simp only [List.append_assoc] at i2 ⊢
          exact i2.le (by simp; omega)
        · intro h0
          obtain ⟨j1, j2⟩ := i3 h0
          obtain ⟨j3, j4⟩ := h3 j1
          exact ⟨j3, by simp only; rw [j2, j4]⟩
        · intro h0
          simp only [List.length_append]
          have l1 := purgeIf_length D st.purging x.2
          have l2 := purgeIf_length D (purgeIf D st.purging x.2).2 (cs.flatMap (·.2))
          rcases i4 h0 with j1 | j1
          · rcases h4 j1 with j2 | j2
            · exact Or.inl j2
            · right; omega
          · right; omega
      · exact fun _ _ h => FailT.trans he h
    · exact fun _ _ h => h

theorem purgeNode_spec (E : Env) (L : E.Laws) {rq : Rq σ} {K X} (ok : RqOk rq K X) {D}
    (po : PurgeOk rq X D) {S} (pt : PurgeTally rq X S) {q : Prop} {M : Nat} (hcomp : q → rq.compacting = false)
    (hM : q → RecMax E X M) (fuel l : Nat) (hl : l < fuel) :
    PurgesTo E rq X D S q M l (purgeNode E rq fuel) := by
  induction fuel generalizing l with
  | zero => omega
  | succ fuel ih =>
    intro p kvs u dst c n f w ht hdst hq
    unfold purgeNode
    rw [if_neg (by simp)]
    -- the end: writing the node
    have fin : ∀ (m : Couchstore.M (St σ × MR)) (g : File) (n1 : Nat), Ext f g → Sp m g
        (fun r g' => Ext g g' ∧ (r.1.purging = (purgeList D kvs).2 ∧ (r.1.purging = true → S u r.1.user kvs)) ∧
          MRQ E X q g' l r.2 ([] ++ (purgeList D kvs).1) n1 ∧
          (r.2.modified = false → False ∨ (purgeList D kvs).1 = kvs) ∧
          (r.2.modified = true → (purgeList D kvs).1.length < kvs.length)) (FailT g) →
        Sp (do
            let (st, loc) ← m
            if loc.modified then do
              let loc ← flushMr E rq loc
              let (_, dst) ← mrMovePointers E rq loc { dst with modified := true }
              pure (st, dst)
            else pure (st, dst)) g
          (fun r g => Ext f g ∧ (r.1.purging = (purgeList D kvs).2 ∧ (r.1.purging = true → S u r.1.user kvs)) ∧
            (((purgeList D kvs).1 = kvs ∧ r.2 = dst) ∨
              ((purgeList D kvs).1.length < kvs.length ∧ r.2.modified = true ∧
                MRQ E X q g (l + 1) r.2 (c ++ (purgeList D kvs).1) (n + 1))))
          (FailT f) := by
      intro m g n1 he0 hm
      apply Sp.bind' hm
      · rintro ⟨st1, loc⟩ g1 ⟨he, h1, h2, h3, h4⟩
        simp only at h1 h2 h3 h4
        simp only
        have w1 := (he0.trans he).wf' w
        by_cases hmod : loc.modified = true
        · rw [if_pos hmod]
          apply Sp.bind' (flushMr_q E ok l loc _ n1 g1 w1 h2 hmod)
          · rintro loc2 g2 ⟨he2, ps, hi, hps⟩
            have w2 := he2.wf' w1
            have hall := (he0.trans he).trans he2
            have hcon : (purgeList D kvs).1 = ps.flatMap (·.2) := by
              have := hi.content
              simpa using this
            unfold mrMovePointers
            rw [hi.pointers]
            simp only [bind_assoc, pure_bind]
            apply Sp.bind' (mrPushList_kp E ok hcomp hM l ps { dst with modified := true } c n g2 w2
              ((hdst.setModified true).keep (hall.keep w)) hi.ps_ok
              (fun hq0 => (hq hq0).le (by have := hps hq0; omega)))
            · rintro dst' g3 ⟨he3, hm3, hi3⟩
              refine ⟨hall.trans he3, h1, Or.inr ⟨h4 hmod, hm3, ?_⟩⟩
              rw [hcon]
              obtain ⟨ps3, vs3, hi3, hq3⟩ := hi3
              exact ⟨ps3, vs3, hi3, fun hq0 => ⟨(hq3 hq0).1, by
                have := (hq3 hq0).2
                have := hps hq0
                omega⟩⟩
            · exact fun _ _ h => FailT.trans hall h
          · exact fun _ _ h => FailT.trans (he0.trans he) h
        · rw [if_neg hmod]
          refine ⟨he0.trans he, h1, Or.inl ⟨?_, rfl⟩⟩
          exact (h3 (by simpa using hmod)).resolve_left id
      · exact fun _ _ h => FailT.trans he0 h
    cases l with
    | zero =>
      obtain ⟨ht, hroom⟩ := ht
      have hval := ht.valid
      have ht2 := ht
      obtain ⟨cs, hne, hcs, hkvs, hz, _⟩ := ht2
      apply Sp.bind' (readNode_spec E L p.pointer (kindOf 0).byte (cs.map (·.1)) f w.crc hz (by
        intro i hi
        obtain ⟨c, hc, rfl⟩ := List.mem_map.mp hi
        exact (hcs c hc).fits (fun kv hkv => (ok.entry kv hkv).2.1)))
      · rintro ⟨t, recs⟩ g ⟨heq, hrf⟩
        injection heq with h1 h2
        subst h1; subst h2
        have he0 : Ext f g := hrf.ext
        have w1 := he0.wf' w
        simp only
        rw [if_pos kindOf_byte_zero, leaf_items hcs, ← hkvs]
        apply fin _ g (0 + (purgeList D kvs).1.length) he0
        apply (purgeKvLoop_spec E ok po pt q hcomp kvs hval ⟨u, true⟩ (MR.new .kv) [] g w1
          ⟨[], [], MRInv.new E X g 0 false, fun _ => ⟨rfl, by simp⟩⟩
          (fun hq0 => by
            rcases hroom hq0 with h | h
            · left; simpa using h
            · right; simpa [kvBytes] using h)).mono
        · rintro ⟨st1, loc⟩ g1 ⟨he, i1, i2, i3, i4⟩
          refine ⟨he, i1, i2, fun h0 => Or.inr (i3 h0).2, fun h0 => ?_⟩
          exact (i4 h0).resolve_left (by simp [MR.new])
        · exact fun _ _ h => h
      · exact fun _ _ h => ⟨h.1.ext, Or.inl h.2⟩
    | succ l =>
      obtain ⟨cs, hne, hkvs, hz, hcs, hroom⟩ := ht
      apply Sp.bind' (readNode_spec E L p.pointer (kindOf (l + 1)).byte (cs.map (·.1)) f w.crc hz (by
        intro i hi
        obtain ⟨c, hc, rfl⟩ := List.mem_map.mp hi
        exact (hcs c hc).1.fits (fun kv hkv => (ok.entry kv hkv).2.1)))
      · rintro ⟨t, recs⟩ g ⟨heq, hrf⟩
        injection heq with h1 h2
        subst h1; subst h2
        have he0 : Ext f g := hrf.ext
        have w1 := he0.wf' w
        simp only
        rw [kindOf_byte_succ, if_neg (by decide), if_pos rfl]
        have hrec : (cs.map (·.1)).map (fun i => some (i.key, i.data)) = recsOf cs := by
          rw [List.map_map]; rfl
        rw [hrec]
        apply fin _ g (0 + cs.length) he0
        subst hkvs
        apply (purgeKpLoop_spec E ok po pt hcomp hM l _ (ih l (by omega)) cs ⟨u, true⟩ (MR.new .kp) []
          0 g w1 (fun x hx => ⟨(hcs x hx).1.keep hrf.keep,
            fun p' hp' => ((hcs x hx).2 p' hp').keep hrf.keep⟩)
          ⟨[], [], MRInv.new E X g (l + 1) false, fun _ => ⟨rfl, by simp⟩⟩
          (fun hq0 => by rw [Nat.zero_add]; exact hroom hq0)).mono
        · rintro ⟨st1, loc⟩ g1 ⟨he, i1, i2, i3, i4⟩
          refine ⟨he, i1, i2, fun h0 => Or.inr (i3 h0).2, fun h0 => ?_⟩
          exact (i4 h0).resolve_left (by simp [MR.new])
        · exact fun _ _ h => h
      · exact fun _ _ h => ⟨h.1.ext, Or.inl h.2⟩

/-- What the last record of the root's result stands for. -/
theorem lastPointer_suffix {E X f l mr c ps vs} (h : MRInv E X f (l + 1) mr c ps vs) :
    ∃ c', c' <:+ c ∧ RootAt E X f (lastPointer mr) c' := by
  rcases List.eq_nil_or_concat vs with hv | ⟨vs0, x, hv⟩
  · have : lastPointer mr = none := by unfold lastPointer; rw [h.values, hv]; rfl
    rw [this]
    exact ⟨[], List.nil_suffix, rfl⟩
  · subst hv
    obtain ⟨p, h1, h2, h3⟩ := h.vs_ok x (by simp)
    have : lastPointer mr = some p := by
      unfold lastPointer; rw [h.values]; simp [h1, ptrItem]
    rw [this]
    refine ⟨x.2, ?_, l, h3⟩
    rw [h.content]
    exact ⟨ps.flatMap (·.2) ++ vs0.flatMap (·.2), by simp⟩

/-- The guided purge of a whole index. -/
theorem guidedPurge_spec (E : Env) (L : E.Laws) {rq : Rq σ} {K X} (ok : RqOk rq K X) {D}
    (po : PurgeOk rq X D) {S} (pt : PurgeTally rq X S) (q : Prop) (M : Nat) (hcomp : q → rq.compacting = false)
    (hM : q → RecMax E X M) (root : Option NodePointer) (kvs : List KV) (u : σ) (f : File)
    (w : f.WF) (hr : RootAt E X f root kvs)
    (hq : q → ∀ p l, root = some p → TreeAt E X f l p kvs →
      roomy E f rq.kvThr rq.kpThr M l p = true) :
    Sp (guidedPurge E rq root u) f
      (fun r g => Ext f g ∧ (r.1.purging = (purgeList D kvs).2 ∧ (r.1.purging = true → S u r.1.user kvs)) ∧
        ((purgeList D kvs).1 = kvs → r.2 = root) ∧
        ∃ c', c' <:+ (purgeList D kvs).1 ∧ RootAt E X g r.2 c' ∧
          (q → c' = (purgeList D kvs).1))
      (FailT f) := by
  unfold guidedPurge
  apply Sp.get_bind
  cases root with
  | none =>
    have : kvs = [] := hr
    subst this
    exact ⟨Ext.refl _, ⟨rfl, fun _ => pt.nil _⟩, fun _ => rfl, [], List.nil_suffix, rfl, fun _ => rfl⟩
  | some p =>
    obtain ⟨l, ht⟩ := hr
    have hfuel : l < f.disk.length + 1 := by
      have h1 := ht.height
      have h2 := ht.pointer_lt
      have h3 := w.pos_le
      omega
    have htree : TreeIf E X q rq.kvThr rq.kpThr M f l p kvs :=
      ht.treeIf L w (fun kv hkv => (ok.entry kv hkv).2.1) (fun hq0 => hq hq0 p l rfl ht)
    simp only
    apply Sp.bind' (purgeNode_spec E L ok po pt hcomp hM _ l hfuel p kvs u (MR.new .kp) [] 0 f w htree
      ⟨[], [], MRInv.new E X f (l + 1) false, fun _ => ⟨rfl, by simp⟩⟩
      (fun _ => Or.inl (by omega)))
    · rintro ⟨st1, res⟩ g ⟨he, h1, h2⟩
      simp only at h1 h2
      simp only
      rcases h2 with ⟨h2, h3⟩ | ⟨h2, h3, h4⟩
      · rw [h3, if_neg (by simp [MR.new])]
        refine ⟨he, h1, fun _ => rfl, kvs, ?_, ⟨l, ht.keep (he.keep w)⟩, fun _ => h2.symm⟩
        rw [h2]; exact List.suffix_rfl
      · rw [if_pos h3]
        obtain ⟨ps, vs, hi, hiq⟩ := h4
        rw [List.nil_append] at hi
        refine ⟨he, h1, fun h0 => ?_, ?_⟩
        · rw [h0] at h2; exact absurd h2 (by omega)
        · by_cases hq0 : q
          · obtain ⟨j1, j2⟩ := hiq hq0
            have := lastPointer_spec hi (by
              rw [hi.count, hi.pointers, j1]
              simp; omega)
            exact ⟨_, List.suffix_rfl, this.1, fun _ => rfl⟩
          · obtain ⟨c', hc', hR⟩ := lastPointer_suffix hi
            exact ⟨c', hc', hR, fun h => absurd h hq0⟩
    · exact fun _ _ h => h

theorem treeHeight_spec {E : Env} (L : E.Laws) {X : Idx} {f : File} (w : f.WF)
    (hV : ∀ kv, X.V kv → kv.1.length < 4096) :
    ∀ {fuel l p kvs}, TreeAt E X f l p kvs → l < fuel → treeHeight E f fuel p = some l
  | 0, _, _, _, _, hf => absurd hf (by omega)
  | fuel + 1, l, p, kvs, h, hf => by
    obtain ⟨cs, h1, h2, rfl, hz, _⟩ := h
    have hn := nodeAt_spec L w hz (by
      intro i hi
      obtain ⟨c, hc, rfl⟩ := List.mem_map.mp hi
      exact (h2 c hc).fits hV)
    unfold treeHeight
    rw [hn]
    cases l with
    | zero => rfl
    | succ l =>
      cases cs with
      | nil => exact absurd rfl h1
      | cons c cs =>
        obtain ⟨p2, hp2, hrd, _, _, _, ht⟩ := (h2 c (by simp)).ptr
        simp only [List.map_cons, kindOf_byte_succ]
        rw [hrd]
        simp only
        rw [treeHeight_spec L w hV ht (by omega)]
        rfl

/-- The entries of a tree are what the integrity check returns. -/
theorem RootAt.entries {E : Env} (L : E.Laws) {X : Idx} {f : File} (w : f.WF)
    (hV : ∀ kv, X.V kv → kv.1.length < 4096) {p : NodePointer} {kvs : List KV}
    (h : RootAt E X f (some p) kvs) :
    ∃ l, treeHeight E f (p.pointer + 1) p = some l ∧
      checkTree E f (fun _ _ => true) l p = some kvs := by
  obtain ⟨l, ht⟩ := h
  exact ⟨l, treeHeight_spec L w hV ht (by have := ht.height; omega),
    checkTree_spec L w _ (fun _ _ _ => rfl) hV ht⟩

end Couchstore
