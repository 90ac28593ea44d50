import Verif.Lemmas.Purge
import Verif.Spec.Update

/-! Helper lemmas: updates of an index while purging is on. -/

namespace Couchstore

variable {σ : Type}

/-- A request without callbacks for fetching and saving. -/
structure PlainRq (rq : Rq σ) : Prop where
  fetch : rq.fetchCb = none
  save : rq.saveCb = none

theorem PlainActs.tail {a as} (h : PlainActs (a :: as)) : PlainActs as := fun b hb => h b (by simp [hb])

theorem specFold_plain {rq : Rq σ} (P : PlainRq rq) {as : List Action} (h : PlainActs as) (u : σ) (kvs : List KV) :
    specFold rq as u kvs = .ok (u, applyPlain rq.cmp as kvs) := by
  induction as generalizing kvs with
  | nil => rfl
  | cons a as ih =>
    rw [specFold_cons, applyPlain]
    rcases h a (by simp) with ha | ha
    · simp only [specStep, ha, if_pos]
      exact ih h.tail _
    · have hne : ¬ (ActType.insert = ActType.remove) := by simp
      simp only [specStep, ha, specInsert, P.save, if_neg hne]
      exact ih h.tail _

/-- A request that only compares. -/
def plainRq (cmp : Bytes → Bytes → Ordering) : Rq Unit := ⟨cmp, none, none, false, 0, 0, none, none, none, none⟩

theorem plainRq_plain (cmp) : PlainRq (plainRq cmp) := ⟨rfl, rfl⟩

theorem applyPlain_pre {cmp K} (C : CmpLaws cmp K) {as : List Action} (hp : PlainActs as) {pre kvs : List KV}
    (ha : ∀ a ∈ as, K a.key) (hK : ∀ kv ∈ pre, K kv.1) (h : ∀ a ∈ as, ∀ kv ∈ pre, cmp kv.1 a.key = .lt) :
    applyPlain cmp as (pre ++ kvs) = pre ++ applyPlain cmp as kvs := by
  have := specFold_pre (rq := plainRq cmp) C (u := ()) (kvs := kvs) ha hK h
  rw [specFold_plain (plainRq_plain cmp) hp, specFold_plain (plainRq_plain cmp) hp] at this
  simpa [preR, plainRq] using this

theorem applyPlain_suf {cmp K} (C : CmpLaws cmp K) {as : List Action} (hp : PlainActs as) {suf kvs : List KV}
    (ha : ∀ a ∈ as, K a.key) (hK : ∀ kv ∈ suf, K kv.1) (h : ∀ a ∈ as, ∀ kv ∈ suf, cmp a.key kv.1 = .lt) :
    applyPlain cmp as (kvs ++ suf) = applyPlain cmp as kvs ++ suf := by
  have := specFold_suf (rq := plainRq cmp) C (u := ()) (kvs := kvs) ha hK h
  rw [specFold_plain (plainRq_plain cmp) hp, specFold_plain (plainRq_plain cmp) hp] at this
  simpa [sufR, plainRq] using this

theorem applyPlain_append (cmp) (as bs : List Action) (kvs : List KV) :
    applyPlain cmp (as ++ bs) kvs = applyPlain cmp bs (applyPlain cmp as kvs) := by
  induction as generalizing kvs with
  | nil => rfl
  | cons a as ih => exact ih _

theorem applyPlain_keys (cmp) {as : List Action} (hp : PlainActs as) {kvs : List KV} :
    ∀ kv ∈ applyPlain cmp as kvs, (∃ a ∈ as, a.inserts ∧ kv = (a.key, a.data)) ∨ kv ∈ kvs := by
  induction as generalizing kvs with
  | nil => exact fun kv h => Or.inr h
  | cons a as ih =>
    intro kv h
    rcases ih hp.tail kv h with ⟨b, hb, h1⟩ | h
    · exact Or.inl ⟨b, by simp [hb], h1⟩
    · rcases hp a (by simp) with ha | ha
      · rw [if_pos ha] at h
        exact Or.inr (List.mem_filter.mp h).1
      · rw [if_neg (by rw [ha]; simp)] at h
        rcases kvInsert_keys _ h with h | h
        · exact Or.inl ⟨a, by simp, Or.inl ha, h⟩
        · exact Or.inr h

theorem keptBy_append (D) (a b : List KV) : keptBy D (a ++ b) = keptBy D a ++ keptBy D b := List.filter_append ..

theorem keptBy_sublist (D) (a : List KV) : (keptBy D a).Sublist a := List.filter_sublist

theorem untouched_append (as : List Action) (a b : List KV) : untouched as (a ++ b) = untouched as a ++ untouched as b :=
  List.filter_append ..

theorem untouched_nil (kvs : List KV) : untouched [] kvs = kvs := List.filter_eq_self.mpr (by simp)

/-- Entries that are below all the keys of the batch. -/
theorem untouched_all {as : List Action} {kvs : List KV} (h : ∀ a ∈ as, ∀ kv ∈ kvs, a.key ≠ kv.1) :
    untouched as kvs = kvs := by
  refine List.filter_eq_self.mpr fun kv hkv => ?_
  simp only [Bool.not_eq_true', List.any_eq_false, beq_iff_eq]
  exact fun a ha => h a ha kv hkv

theorem untouched_cons_of_ne {a : Action} {as : List Action} {kvs : List KV} (h : ∀ kv ∈ kvs, a.key ≠ kv.1) :
    untouched (a :: as) kvs = untouched as kvs := by
  refine List.filter_congr fun kv hkv => ?_
  simp only [List.any_cons]
  have : (a.key == kv.1) = false := by simpa using h kv hkv
  rw [this, Bool.false_or]

theorem untouched_prefix {as bs : List Action} {kvs : List KV} (h : ∀ b ∈ bs, ∀ kv ∈ kvs, b.key ≠ kv.1) :
    untouched (as ++ bs) kvs = untouched as kvs := by
  refine List.filter_congr fun kv hkv => ?_
  rw [List.any_append]
  have : (bs.any fun a => a.key == kv.1) = false := by
    simp only [List.any_eq_false, beq_iff_eq]
    exact fun b hb => h b hb kv hkv
  rw [this, Bool.or_false]

theorem untouched_suffix {as bs : List Action} {kvs : List KV} (h : ∀ b ∈ as, ∀ kv ∈ kvs, b.key ≠ kv.1) :
    untouched (as ++ bs) kvs = untouched bs kvs := by
  refine List.filter_congr fun kv hkv => ?_
  rw [List.any_append]
  have : (as.any fun a => a.key == kv.1) = false := by
    simp only [List.any_eq_false, beq_iff_eq]
    exact fun b hb => h b hb kv hkv
  rw [this, Bool.false_or]

theorem CmpLaws.ne {cmp K} (C : CmpLaws cmp K) {a b : Bytes} (ha : K a) (h : cmp a b = .lt) : a ≠ b := by
  rintro rfl
  rw [C.refl ha] at h
  exact absurd h (by simp)

/-! ### Purging one record -/

/-- The callbacks purge as `D` says, never stop, and keep the tally `S`. -/
structure PurgeOn (rq : Rq σ) (X : Idx) (D : KV → PurgeAct) (S : σ → σ → List KV → Prop) : Prop where
  plain : PlainRq rq
  ok : PurgeOk rq X D
  stop : ∀ kv, X.V kv → D kv ≠ .stop
  tally : PurgeTally rq X S

theorem purgeIf_kept {D : KV → PurgeAct} {kvs : List KV} (h : ∀ kv ∈ kvs, D kv ≠ .stop) :
    purgeIf D true kvs = (keptBy D kvs, true) := by
  have h1 := purgeList_filter D kvs h
  have h2 : (purgeList D kvs).2 = true := by
    clear h1
    induction kvs with
    | nil => rfl
    | cons kv kvs ih =>
      have ih' := ih fun x hx => h x (by simp [hx])
      have h0 := h kv (by simp)
      simp only [purgeList]
      cases hD : D kv with
      | item => exact ih'
      | stop => exact absurd hD h0
      | keep => exact ih'
      | part => exact ih'
  exact Prod.ext h1 h2

theorem MRC.q {E X f l mr c n} (h : MRC E X f l mr c) : MRQ E X False f l mr c n := by
  obtain ⟨ps, vs, h⟩ := h; exact ⟨ps, vs, h, fun h => h.elim⟩

theorem MRQ.c {E X q f l mr c n} (h : MRQ E X q f l mr c n) : MRC E X f l mr c := by
  obtain ⟨ps, vs, h, -⟩ := h; exact ⟨ps, vs, h⟩

theorem purgeOneKv_spec (E : Env) {rq : Rq σ} {K X} (ok : RqOk rq K X) {D S} (po : PurgeOn rq X D S) (k v : Bytes) (u : σ)
    (loc : MR) (c : List KV) (f : File) (w : f.WF) (h : MRC E X f 0 loc c) (hv : X.V (k, v)) :
    Sp (maybePurgeKv E rq k v ⟨u, true⟩ loc) f
      (fun r g => Ext f g ∧ ∃ u', r.1 = ⟨u', true⟩ ∧ S u u' [(k, v)] ∧ MRC E X g 0 r.2 (c ++ keptBy D [(k, v)]) ∧
        (r.2.modified = false → loc.modified = false ∧ keptBy D [(k, v)] = [(k, v)])) (FailT f) := by
  have h0 := purgeKvLoop_spec E ok po.ok po.tally False (fun h => h.elim) [(k, v)] (by simpa using hv) ⟨u, true⟩ loc c f w h.q
    (fun h => h.elim)
  have e : purgeKvLoop E rq ([(k, v)].map fun kv => some (kv.1, kv.2)) ⟨u, true⟩ loc =
      maybePurgeKv E rq k v ⟨u, true⟩ loc := by
    simp only [List.map_cons, List.map_nil, purgeKvLoop]
    exact bind_pure _
  rw [e] at h0
  refine h0.mono ?_ fun _ _ h => h
  rintro ⟨⟨u', b⟩, loc'⟩ g ⟨he, ⟨h1, h2⟩, h3, h4, -⟩
  simp only [purgeIf_kept (D := D) (kvs := [(k, v)]) (by simpa using po.stop _ hv)] at h1 h2 h3 h4
  subst h1
  exact ⟨he, u', rfl, h2 rfl, h3.c, h4⟩

/-- What `purge_node` does below an interior node. -/
theorem purgeOneKp_spec (E : Env) (L : E.Laws) {rq : Rq σ} {K X} (ok : RqOk rq K X) {D S} (po : PurgeOn rq X D S) (l : Nat)
    (pn) (hpn : PurgesTo E rq X D S False 0 l pn) (cs : List (Item × List KV)) (u : σ) (loc : MR) (c : List KV) (f : File)
    (w : f.WF) (h : MRC E X f (l + 1) loc c) (hcs : ∀ x ∈ cs, ItemAt E X f (l + 1) x.1 x.2) :
    Sp (purgeKpLoop E rq pn (recsOf cs) ⟨u, true⟩ loc) f
      (fun r g => Ext f g ∧ ∃ u', r.1 = ⟨u', true⟩ ∧ S u u' (cs.flatMap (·.2)) ∧
        MRC E X g (l + 1) r.2 (c ++ keptBy D (cs.flatMap (·.2))) ∧
        (r.2.modified = false → loc.modified = false ∧ keptBy D (cs.flatMap (·.2)) = cs.flatMap (·.2))) (FailT f) := by
  have h0 := purgeKpLoop_spec E ok po.ok po.tally (q := False) (M := 0) (fun h => h.elim) (fun h => h.elim) l pn hpn cs
    ⟨u, true⟩ loc c 0 f w (fun x hx => ⟨hcs x hx, fun p' hp' => ?_⟩) h.q (fun h => h.elim)
  · refine h0.mono ?_ fun _ _ h => h
    rintro ⟨⟨u', b⟩, loc'⟩ g ⟨he, ⟨h1, h2⟩, h3, h4, -⟩
    have hst : ∀ kv ∈ cs.flatMap (·.2), D kv ≠ .stop := by
      intro kv hkv
      obtain ⟨x, hx, hkv⟩ := List.mem_flatMap.mp hkv
      exact po.stop kv ((hcs x hx).valid kv hkv)
    simp only [purgeIf_kept hst] at h1 h2 h3 h4
    subst h1
    exact ⟨he, u', rfl, h2 rfl, h3.c, h4⟩
  · obtain ⟨p2, hp2, -, -, -, -, ht⟩ := (hcs x hx).ptr
    have : p' = p2 := ptrItem_inj (hp'.symm.trans hp2)
    subst this
    exact TreeAt.treeIf L w (fun kv hkv => (ok.entry kv hkv).2.1) ht fun h => h.elim

theorem purgeOne_eq (E : Env) (rq : Rq σ) (pn) (x : Item × List KV) (p : NodePointer) (st : St σ) (loc : MR)
    (hr : readPointer x.1.key x.1.data = some p) :
    purgeKpLoop E rq pn (recsOf [x]) st loc = maybePurgeKp E rq pn p st loc := by
  show purgeKpLoop E rq pn [some (x.1.key, x.1.data)] st loc = _
  simp only [purgeKpLoop, hr]
  exact bind_pure _

/-! ### Leaves -/

/-- What an action adds for a key that is not there. -/
def Action.adds (a : Action) : List KV := if a.type = .remove then [] else [(a.key, a.data)]

theorem notFoundP_spec (E : Env) {rq : Rq σ} {K X} (ok : RqOk rq K X) (P : PlainRq rq) (a : Action)
    (hp : a.type = .remove ∨ a.type = .insert) (st : St σ) (loc : MR) (c : List KV) (f : File) (w : f.WF)
    (h : MRC E X f 0 loc c) (ha : K a.key ∧ (a.inserts → X.V (a.key, a.data))) :
    Sp (notFound E rq a st loc) f
      (fun r g => Ext f g ∧ r.1 = st ∧ MRC E X g 0 r.2 (c ++ a.adds) ∧ r.2.modified = true) (FailT f) := by
  unfold notFound
  rcases hp with hp | hp
  · simp only [hp]
    refine ⟨Ext.refl _, rfl, ?_, rfl⟩
    simpa [Action.adds, hp] using h.setModified true
  · simp only [hp]
    unfold doInsert
    apply Sp.bind' (mrPushItem_spec E ok a.key a.data _ c f w (h.setModified true) (ha.2 (Or.inl hp)))
    · rintro r g ⟨he, hm, hi⟩
      simp only [doSave, P.save, pure_bind]
      refine ⟨he, rfl, ?_, hm⟩
      simpa [Action.adds, hp] using hi
    · exact fun _ _ h => h

theorem applyPlain_low {cmp K} (C : CmpLaws cmp K) {a : Action} {as : List Action} (hp : PlainActs (a :: as))
    (ha : ∀ b ∈ a :: as, K b.key) (hb : ∀ b ∈ as, a.inserts → cmp a.key b.key = .lt) {kvs : List KV}
    (hK : ∀ kv ∈ kvs, K kv.1) (hlt : ∀ kv ∈ kvs, cmp a.key kv.1 = .lt) :
    applyPlain cmp (a :: as) kvs = a.adds ++ applyPlain cmp as kvs := by
  have h1 : applyPlain cmp [a] ([] ++ kvs) = applyPlain cmp [a] [] ++ kvs := by
    refine applyPlain_suf C (fun b hb => hp b ?_) (fun b hb => ?_) hK (fun b hb kv hkv => ?_)
    · rw [List.mem_singleton.mp hb]; simp
    · rw [List.mem_singleton.mp hb]; exact ha a (by simp)
    · rw [List.mem_singleton.mp hb]; exact hlt kv hkv
  have h2 : applyPlain cmp [a] [] = a.adds := by
    unfold Action.adds applyPlain applyPlain
    split <;> rfl
  rw [show a :: as = [a] ++ as from rfl, applyPlain_append]
  rw [List.nil_append, h2] at h1
  rw [h1]
  refine applyPlain_pre C hp.tail (fun b hb => ha b (by simp [hb])) (fun kv hkv => ?_) (fun b hb' kv hkv => ?_)
  · unfold Action.adds at hkv
    split at hkv
    · simp at hkv
    · rw [List.mem_singleton.mp hkv]; exact ha a (by simp)
  · unfold Action.adds at hkv
    split at hkv
    · simp at hkv
    · rename_i hr
      rw [List.mem_singleton.mp hkv]
      exact hb b hb' (Or.inl ((hp a (by simp)).resolve_left hr))

theorem kvInnerP_spec (E : Env) {rq : Rq σ} {K X} (ok : RqOk rq K X) {D S} (po : PurgeOn rq X D S) (k v : Bytes)
    (items : List KV) (hs : SortedKV rq.cmp ((k, v) :: items)) (hV : ∀ kv ∈ (k, v) :: items, X.V kv)
    (as : List Action) (u : σ) (loc : MR) (c : List KV) (f : File) (w : f.WF)
    (h : MRC E X f 0 loc c) (hb : BatchOk rq as) (ha : ActsOk K X as) (hp : PlainActs as) :
    Sp (kvInner E rq k v as ⟨u, true⟩ loc) f
      (fun r g => Ext f g ∧ ∃ u' pre un,
        applyPlain rq.cmp as (keptBy D ((k, v) :: items)) =
          pre ++ applyPlain rq.cmp r.1 (keptBy D (if r.2.1 then items else (k, v) :: items)) ∧
        untouched as ((k, v) :: items) = un ++ untouched r.1 (if r.2.1 then items else (k, v) :: items) ∧ S u u' un ∧
        r.2.2.1 = ⟨u', true⟩ ∧ MRC E X g 0 r.2.2.2 (c ++ pre) ∧ (r.2.1 = false → r.1 = []) ∧
        BatchOk rq r.1 ∧ ActsOk K X r.1 ∧ PlainActs r.1 ∧
        (r.2.2.2.modified = false → loc.modified = false ∧
          pre ++ (if r.2.1 then items else (k, v) :: items) = (k, v) :: items))
      (FailT f) := by
  have hKi : ∀ kv ∈ (k, v) :: items, K kv.1 := fun kv hkv => (ok.entry kv (hV kv hkv)).1
  have hk : K k := hKi (k, v) (by simp)
  have C := ok.cmp
  induction as generalizing u loc c f with
  | nil =>
    refine ⟨Ext.refl _, u, [], [], rfl, rfl, po.tally.nil u, rfl, by simpa using h, by simp, hb, ha, hp, ?_⟩
    intro h0; exact ⟨h0, rfl⟩
  | cons a as ih =>
    have haK : ∀ b ∈ a :: as, K b.key := fun b hb => (ha b hb).1
    have haa := haK a (by simp)
    unfold kvInner
    split
    · -- below the action
      rename_i hc
      have hlt := BatchOk.head_lt C hb haK hk hc
      apply Sp.bind' (purgeOneKv_spec E ok po k v u loc c f w h (hV _ (by simp)))
      · rintro ⟨st, loc'⟩ g ⟨he, u', hst, hS, hi, hm⟩
        simp only at hst hm hi
        subst hst
        refine ⟨he, u', keptBy D [(k, v)], [(k, v)], ?_, ?_, hS, rfl, hi, by simp, hb, ha, hp, ?_⟩
        · rw [show (k, v) :: items = [(k, v)] ++ items from rfl, keptBy_append]
          refine applyPlain_pre C hp haK (fun kv hkv => ?_) (fun b hb' kv hkv => ?_)
          · have := (keptBy_sublist D [(k, v)]).subset hkv
            rw [List.mem_singleton.mp this]; exact hk
          · have := (keptBy_sublist D [(k, v)]).subset hkv
            rw [List.mem_singleton.mp this]; exact hlt b hb'
        · rw [show (k, v) :: items = [(k, v)] ++ items from rfl, untouched_append]
          congr 1
          refine untouched_all fun b hb' kv hkv => ?_
          rw [List.mem_singleton.mp hkv]
          exact (C.ne hk (hlt b hb')).symm
        · intro h0
          obtain ⟨h1, h2⟩ := hm h0
          exact ⟨h1, by rw [h2]; rfl⟩
      · exact fun _ _ h => h
    · -- above the action
      rename_i hc
      have hlt : ∀ kv ∈ (k, v) :: items, rq.cmp a.key kv.1 = .lt := by
        have h1 := C.gt_lt hk haa hc
        intro kv hkv
        rcases List.mem_cons.mp hkv with rfl | hkv
        · exact h1
        · exact C.trans _ k _ haa hk (hKi kv (by simp [hkv])) h1 (hs.head_lt kv hkv)
      have hsub := (keptBy_sublist D ((k, v) :: items)).subset
      rw [applyPlain_low C hp haK (fun b hb' hi => hb.after_insert hi b hb') (fun kv hkv => hKi kv (hsub hkv))
        (fun kv hkv => hlt kv (hsub hkv)), untouched_cons_of_ne (fun kv hkv => C.ne haa (hlt kv hkv))]
      apply Sp.bind' (notFoundP_spec E ok po.plain a (hp a (by simp)) ⟨u, true⟩ loc c f w h (ha a (by simp)))
      · rintro ⟨st, loc'⟩ g ⟨he, hst, hi, hmod⟩
        simp only at hst hi hmod
        subst hst
        simp only
        apply (ih u loc' (c ++ a.adds) g (he.wf' w) hi hb.tail ha.tail hp.tail).mono
        · rintro ⟨as', adv, st', loc''⟩ g' ⟨he', u', pre, un, h1, h2, h3, h4, h5, h6, h7, h8, h9, h10⟩
          refine ⟨he.trans he', u', a.adds ++ pre, un, ?_, h2, h3, h4, by simpa using h5, h6, h7, h8, h9, ?_⟩
          · rw [h1, List.append_assoc]
          · intro h0
            have := (h10 h0).1
            rw [hmod] at this
            exact absurd this (by simp)
        · exact fun _ _ h => FailT.trans he h
      · exact fun _ _ h => h
    · -- equal
      rename_i hc
      have hkey : k = a.key := (C.eq_iff k a.key hk haa).mp hc
      have hlt : ∀ kv ∈ items, rq.cmp a.key kv.1 = .lt := by
        intro kv hkv
        rw [← hkey]
        exact hs.head_lt kv hkv
      have hsub := (keptBy_sublist D items).subset
      have hKt : ∀ kv ∈ items, K kv.1 := fun kv hkv => hKi kv (by simp [hkv])
      have hbi : ∀ b ∈ as, a.inserts → rq.cmp a.key b.key = .lt := fun b hb' hi => hb.after_insert hi b hb'
      have hun : untouched (a :: as) ((k, v) :: items) = untouched as items := by
        have e1 : untouched (a :: as) ((k, v) :: items) = untouched (a :: as) items := by
          unfold untouched
          rw [List.filter_cons_of_neg]
          simp [hkey]
        rw [e1, untouched_cons_of_ne fun kv hkv => C.ne haa (hlt kv hkv)]
      have hap : applyPlain rq.cmp (a :: as) (keptBy D ((k, v) :: items)) =
          a.adds ++ applyPlain rq.cmp as (keptBy D items) := by
        rw [← applyPlain_low C hp haK hbi (fun kv hkv => hKt kv (hsub hkv)) (fun kv hkv => hlt kv (hsub hkv))]
        have hne : ∀ kv ∈ keptBy D items, kv.1 ≠ a.key := fun kv hkv => (C.ne haa (hlt kv (hsub hkv))).symm
        by_cases hD : D (k, v) = .item
        · have : keptBy D ((k, v) :: items) = keptBy D items := by
            unfold keptBy; rw [List.filter_cons_of_neg]; simp [hD]
          rw [this]
        · have : keptBy D ((k, v) :: items) = (k, v) :: keptBy D items := by
            unfold keptBy; rw [List.filter_cons_of_pos]; simp [hD]
          rw [this]
          show applyPlain rq.cmp as _ = applyPlain rq.cmp as _
          congr 1
          rcases hp a (by simp) with ht | ht
          · rw [if_pos ht, if_pos ht]
            unfold kvErase
            rw [List.filter_cons_of_neg]
            simp [hkey]
          · rw [if_neg (by rw [ht]; simp), if_neg (by rw [ht]; simp), kvInsert, hc]
            cases hkb : keptBy D items with
            | nil => rfl
            | cons y ys =>
              have hy := hlt y (hsub (by rw [hkb]; simp))
              obtain ⟨k', v'⟩ := y
              have hyK : K k' := hKt (k', v') (hsub (by rw [hkb]; simp))
              have : rq.cmp k' a.key = .gt := C.lt_gt haa hyK hy
              simp only [kvInsert, this]
      rcases hp a (by simp) with ht | ht
      · simp only [ht]
        refine ⟨Ext.refl _, u, a.adds, [], hap, hun, po.tally.nil u, rfl, ?_, by simp, hb.tail, ha.tail, hp.tail, by simp⟩
        have : a.adds = [] := by unfold Action.adds; rw [if_pos ht]
        rw [this, List.append_nil]
        exact h.setModified true
      · simp only [ht]
        unfold doInsert
        rw [bind_assoc]
        apply Sp.bind' (mrPushItem_spec E ok a.key a.data _ c f w (h.setModified true) ((ha a (by simp)).2 (Or.inl ht)))
        · rintro r g ⟨he, hm, hi⟩
          simp only [doSave, po.plain.save, pure_bind]
          refine ⟨he, u, a.adds, [], hap, hun, po.tally.nil u, rfl, ?_, by simp, hb.tail, ha.tail, hp.tail, ?_⟩
          · have : a.adds = [(a.key, a.data)] := by unfold Action.adds; rw [if_neg (by rw [ht]; simp)]
            rw [this]; exact hi
          · intro h0
            have h1 : r.modified = false := h0
            rw [hm] at h1; exact absurd h1 (by simp)
        · exact fun _ _ h => h

end Couchstore
