import Verif.Lemmas.Update

/-! Helper lemmas: whole updates of an index while purging is on. -/

namespace Couchstore

variable {σ : Type}

theorem applyPlain_adds {cmp K} (C : CmpLaws cmp K) {a : Action} {as : List Action} (hp : PlainActs (a :: as))
    (ha : ∀ b ∈ a :: as, K b.key) (hb : ∀ b ∈ as, a.inserts → cmp a.key b.key = .lt) :
    applyPlain cmp (a :: as) [] = a.adds ++ applyPlain cmp as [] :=
  applyPlain_low C hp ha hb (by simp) (by simp)

theorem kvTailP_spec (E : Env) {rq : Rq σ} {K X} (ok : RqOk rq K X) (P : PlainRq rq)
    (as : List Action) (st : St σ) (loc : MR) (c : List KV) (f : File) (w : f.WF)
    (h : MRC E X f 0 loc c) (hb : BatchOk rq as) (ha : ActsOk K X as) (hp : PlainActs as) :
    Sp (kvTail E rq as st loc) f
      (fun r g => Ext f g ∧ r.1 = st ∧ MRC E X g 0 r.2 (c ++ applyPlain rq.cmp as []) ∧
        (r.2.modified = false → loc.modified = false ∧ applyPlain rq.cmp as [] = []))
      (FailT f) := by
  induction as generalizing loc c f with
  | nil => exact ⟨Ext.refl _, rfl, by simpa [applyPlain] using h, fun h0 => ⟨h0, rfl⟩⟩
  | cons a as ih =>
    unfold kvTail
    rw [applyPlain_adds ok.cmp hp (fun b hb => (ha b hb).1) (fun b hb' hi => hb.after_insert hi b hb')]
    apply Sp.bind' (notFoundP_spec E ok P a (hp a (by simp)) st loc c f w h (ha a (by simp)))
    · rintro ⟨st1, loc1⟩ g ⟨he, hst, hi, hmod⟩
      simp only at hst hi hmod
      subst hst
      apply (ih loc1 _ g (he.wf' w) hi hb.tail ha.tail hp.tail).mono
      · rintro ⟨st2, loc2⟩ g2 ⟨he2, h1, h2, h3⟩
        refine ⟨he.trans he2, h1, by simpa using h2, fun h0 => ?_⟩
        have := (h3 h0).1
        rw [hmod] at this
        exact absurd this (by simp)
      · exact fun _ _ h => FailT.trans he h
    · exact fun _ _ h => h

/-- What an update does to the entries `kvs` below a node. -/
def UpdatesTo (E : Env) (rq : Rq σ) (X : Idx) (D : KV → PurgeAct) (S : σ → σ → List KV → Prop) (l : Nat) (as : List Action)
    (kvs : List KV) (u : σ) (loc : MR) (c : List KV) (f : File) (m : M (St σ × MR)) : Prop :=
  Sp m f
    (fun r g => Ext f g ∧ ∃ u', r.1 = ⟨u', true⟩ ∧ S u u' (untouched as kvs) ∧
      MRC E X g l r.2 (c ++ applyPlain rq.cmp as (keptBy D kvs)) ∧
      (r.2.modified = false → loc.modified = false ∧ applyPlain rq.cmp as (keptBy D kvs) = kvs)) (FailT f)

theorem kvLoopP_spec (E : Env) {rq : Rq σ} {K X} (ok : RqOk rq K X) {D S} (po : PurgeOn rq X D S)
    (items : List KV) (as : List Action) (u : σ) (loc : MR) (c : List KV) (f : File) (w : f.WF)
    (hs : SortedKV rq.cmp items) (hV : ∀ kv ∈ items, X.V kv)
    (h : MRC E X f 0 loc c) (hb : BatchOk rq as) (ha : ActsOk K X as) (hp : PlainActs as) :
    UpdatesTo E rq X D S 0 as items u loc c f
      (kvLoop E rq (items.map fun kv => some (kv.1, kv.2)) as ⟨u, true⟩ loc) := by
  induction items generalizing as u loc c f with
  | nil =>
    refine (kvTailP_spec E ok po.plain as ⟨u, true⟩ loc c f w h hb ha hp).mono ?_ fun _ _ h => h
    rintro r g ⟨he, h1, h2, h3⟩
    exact ⟨he, u, h1, po.tally.nil u, h2, h3⟩
  | cons kv items ih =>
    obtain ⟨k, v⟩ := kv
    rw [List.map_cons]
    unfold kvLoop
    simp only
    apply Sp.bind' (kvInnerP_spec E ok po k v items hs hV as u loc c f w h hb ha hp)
    · rintro ⟨as1, adv, st1, loc1⟩ g1 ⟨he1, u1, pre, un, h1, h2, h3, h4, h5, h6, h7, h8, h9, h10⟩
      simp only at h1 h2 h3 h4 h5 h6 h7 h8 h9 h10
      subst h4
      have hVt : ∀ kv ∈ items, X.V kv := fun kv hkv => hV kv (by simp [hkv])
      have w1 := he1.wf' w
      cases adv with
      | true =>
        simp only [if_true] at h1 h2 h10
        simp only [Bool.true_eq_false, and_false, if_false, pure_bind]
        apply (ih as1 u1 loc1 (c ++ pre) g1 w1 hs.tail hVt h5 h7 h8 h9).mono
        · rintro ⟨st2, loc2⟩ g2 ⟨he2, u2, h11, h12, h13, h14⟩
          refine ⟨he1.trans he2, u2, h11, ?_, ?_, ?_⟩
          · rw [h2]; exact po.tally.append _ _ _ _ _ h3 h12
          · rw [h1]; simpa using h13
          · intro h0
            obtain ⟨h15, h16⟩ := h14 h0
            obtain ⟨h17, h18⟩ := h10 h15
            exact ⟨h17, by rw [h1, h16, h18]⟩
        · exact fun _ _ h => FailT.trans he1 h
      | false =>
        have h0 := h6 rfl
        subst h0
        simp only [if_false, Bool.false_eq_true] at h1 h2 h10
        simp only [and_self, if_true]
        apply Sp.bind' (purgeOneKv_spec E ok po k v u1 loc1 (c ++ pre) g1 w1 h5 (hV _ (by simp)))
        · rintro ⟨st2, loc2⟩ g2 ⟨he2, u2, hst, hS, hi, hm⟩
          simp only at hst hm hi
          subst hst
          simp only
          apply (ih [] u2 loc2 _ g2 (he2.wf' w1) hs.tail hVt hi h7 h8 h9).mono
          · rintro ⟨st3, loc3⟩ g3 ⟨he3, u3, h11, h12, h13, h14⟩
            simp only [applyPlain, untouched_nil] at h11 h12 h13 h14 h1 h2
            have hsp : keptBy D ((k, v) :: items) = keptBy D [(k, v)] ++ keptBy D items := keptBy_append D [(k, v)] items
            refine ⟨he1.trans (he2.trans he3), u3, h11, ?_, ?_, ?_⟩
            · rw [h2]
              exact po.tally.append _ _ _ _ _ h3 (po.tally.append _ _ _ [(k, v)] items hS h12)
            · rw [h1, hsp]; simpa using h13
            · intro h0
              obtain ⟨h15, h16⟩ := h14 h0
              obtain ⟨h17, h18⟩ := hm h15
              obtain ⟨h19, h20⟩ := h10 h17
              refine ⟨h19, ?_⟩
              rw [h1, hsp, h18, h16]
              exact h20
          · exact fun _ _ h => FailT.trans he1 (FailT.trans he2 h)
        · exact fun _ _ h => FailT.trans he1 h
    · exact fun _ _ h => h

/-- The recursive call of `modify_node` does what the batch means on the subtree. -/
def DescOkP (E : Env) (rq : Rq σ) (K : Bytes → Prop) (X : Idx) (D : KV → PurgeAct) (S : σ → σ → List KV → Prop) (l : Nat)
    (descend : NodePointer → List Action → St σ → MR → M (St σ × MR)) : Prop :=
  ∀ p kvs as u dst c f, f.WF → lastKey kvs = some p.key → TreeAt E X f l p kvs →
    SortedKV rq.cmp kvs → as ≠ [] → BatchOk rq as → ActsOk K X as → PlainActs as → MRC E X f (l + 1) dst c →
    UpdatesTo E rq X D S (l + 1) as kvs u dst c f (descend p as ⟨u, true⟩ dst)

theorem kpLoopP_spec (E : Env) (L : E.Laws) {rq : Rq σ} {K X} (ok : RqOk rq K X) {D S} (po : PurgeOn rq X D S) (l : Nat)
    (descend) (hd : DescOkP E rq K X D S l descend) (purge) (hpn : PurgesTo E rq X D S False 0 l purge)
    (cs : List (Item × List KV)) (hcs0 : cs ≠ []) (as : List Action) (u : σ) (loc : MR) (c : List KV)
    (f : File) (w : f.WF) (hcs : ∀ x ∈ cs, ItemAt E X f (l + 1) x.1 x.2)
    (hs : SortedKV rq.cmp (cs.flatMap (·.2)))
    (h : MRC E X f (l + 1) loc c) (hb : BatchOk rq as) (ha : ActsOk K X as) (hpl : PlainActs as) :
    UpdatesTo E rq X D S (l + 1) as (cs.flatMap (·.2)) u loc c f
      (kpLoop E rq descend purge (recsOf cs) as ⟨u, true⟩ loc) := by
  have C := ok.cmp
  induction cs generalizing as u loc c f with
  | nil => exact absurd rfl hcs0
  | cons x cs ih =>
    obtain ⟨p, hp, hr, hk, ht, hk', ht'⟩ := (hcs x (by simp)).ptr
    cases as with
    | nil =>
      show UpdatesTo E rq X D S (l + 1) [] _ u loc c f
        (kpLoop E rq descend purge (some (x.1.key, x.1.data) :: recsOf cs) [] ⟨u, true⟩ loc)
      unfold kpLoop
      refine (purgeOneKp_spec E L ok po l purge hpn (x :: cs) u loc c f w h hcs).mono ?_ fun _ _ h => h
      rintro ⟨st, loc'⟩ g ⟨he, u', h1, h2, h3, h4⟩
      exact ⟨he, u', h1, by rw [untouched_nil]; exact h2, h3, h4⟩
    | cons a as =>
      show UpdatesTo E rq X D S (l + 1) (a :: as) _ u loc c f
        (kpLoop E rq descend purge (some (x.1.key, x.1.data) :: recsOf cs) (a :: as) ⟨u, true⟩ loc)
      unfold kpLoop
      rw [hr]
      simp only
      rw [List.flatMap_cons] at hs ⊢
      have hsx : SortedKV rq.cmp x.2 := (List.pairwise_append.mp hs).1
      have hsr : SortedKV rq.cmp (cs.flatMap (·.2)) := (List.pairwise_append.mp hs).2.1
      have hcross := (List.pairwise_append.mp hs).2.2
      have hVx : ∀ kv ∈ x.2, K kv.1 := fun kv hkv =>
        (ok.entry kv ((hcs x (by simp)).valid kv hkv)).1
      have hVr : ∀ kv ∈ cs.flatMap (·.2), K kv.1 := by
        intro kv hkv
        obtain ⟨y, hy, hkv⟩ := List.mem_flatMap.mp hkv
        exact (ok.entry kv ((hcs y (by simp [hy])).valid kv hkv)).1
      have hsubx := (keptBy_sublist D x.2).subset
      have hsubr := (keptBy_sublist D (cs.flatMap (·.2))).subset
      have hxk : x.1.key = p.key := by rw [hp]; rfl
      obtain ⟨vlast, hlast⟩ := lastKey_mem hk
      have hpK : K p.key := hVx _ hlast
      have hle := hsx.le_last C hVx hk
      have haK : ∀ b ∈ a :: as, K b.key := fun b hb => (ha b hb).1
      by_cases hnil : recsOf cs = []
      · rw [if_pos hnil]
        have hcsn : cs = [] := by simpa [recsOf] using hnil
        subst hcsn
        simp only [List.flatMap_nil, List.append_nil]
        exact hd (truncPtr p) x.2 (a :: as) u loc c f w hk' ht' hsx (by simp) hb ha hpl h
      · rw [if_neg hnil]
        have hcsn : cs ≠ [] := by intro h0; subst h0; exact hnil rfl
        rw [hxk]
        by_cases hc : rq.cmp p.key a.key = .lt
        · rw [if_pos hc]
          have hltx : ∀ b ∈ a :: as, ∀ kv ∈ x.2, rq.cmp kv.1 b.key = .lt := by
            intro b hb' kv hkv
            have h1 := BatchOk.head_lt C hb haK hpK hc b hb'
            exact C.le_trans_lt (hVx kv hkv) hpK (haK b hb') (hle kv hkv) h1
          have hspec : applyPlain rq.cmp (a :: as) (keptBy D (x.2 ++ cs.flatMap (·.2))) =
              keptBy D x.2 ++ applyPlain rq.cmp (a :: as) (keptBy D (cs.flatMap (·.2))) := by
            rw [keptBy_append]
            exact applyPlain_pre C hpl haK (fun kv hkv => hVx kv (hsubx hkv)) fun b hb' kv hkv => hltx b hb' kv (hsubx hkv)
          have hun : untouched (a :: as) (x.2 ++ cs.flatMap (·.2)) = x.2 ++ untouched (a :: as) (cs.flatMap (·.2)) := by
            rw [untouched_append, untouched_all (kvs := x.2) fun b hb' kv hkv =>
              (C.ne (hVx kv hkv) (hltx b hb' kv hkv)).symm]
          unfold UpdatesTo
          rw [hspec, hun]
          have h0 := purgeOneKp_spec E L ok po l purge hpn [x] u loc c f w h (fun y hy => hcs y (by
            rw [List.mem_singleton.mp hy]; simp))
          rw [purgeOne_eq E rq purge x _ _ _ hr] at h0
          simp only [List.flatMap_cons, List.flatMap_nil, List.append_nil] at h0
          apply Sp.bind' h0
          · rintro ⟨st, loc1⟩ g ⟨he, u1, hst, hS, hi, hm⟩
            simp only at hst hm hi
            subst hst
            apply (ih hcsn (a :: as) u1 loc1 _ g (he.wf' w)
              (fun y hy => (hcs y (by simp [hy])).keep (he.keep w)) hsr hi hb ha hpl).mono
            · rintro ⟨st2, loc2⟩ g2 ⟨he2, u2, h1, h2, h3, h4⟩
              refine ⟨he.trans he2, u2, h1, po.tally.append _ _ _ _ _ hS h2, by simpa using h3, fun h0 => ?_⟩
              obtain ⟨h5, h6⟩ := h4 h0
              obtain ⟨h7, h8⟩ := hm h5
              exact ⟨h7, by rw [h6, h8]⟩
            · exact fun _ _ h => FailT.trans he h
          · exact fun _ _ h => h
        · rw [if_neg hc]
          generalize hA1 : (a :: as).takeWhile (fun b => rq.cmp b.key p.key != .gt) = A1
          generalize hA2 : (a :: as).dropWhile (fun b => rq.cmp b.key p.key != .gt) = A2
          have hA : a :: as = A1 ++ A2 := by
            rw [← hA1, ← hA2, List.takeWhile_append_dropWhile]
          have hb1 : BatchOk rq A1 := (List.pairwise_append.mp (hA ▸ hb)).1
          have hb2 : BatchOk rq A2 := (List.pairwise_append.mp (hA ▸ hb)).2.1
          have ha1 : ActsOk K X A1 := fun b hb => ha b (by rw [hA]; simp [hb])
          have ha2 : ActsOk K X A2 := fun b hb => ha b (by rw [hA]; simp [hb])
          have hp1 : PlainActs A1 := fun b hb => hpl b (by rw [hA]; simp [hb])
          have hp2 : PlainActs A2 := fun b hb => hpl b (by rw [hA]; simp [hb])
          have hA1ne : A1 ≠ [] := by
            have haK' := haK a (by simp)
            have : rq.cmp a.key p.key ≠ .gt := fun h0 => hc (C.gt_lt haK' hpK h0)
            rw [← hA1, List.takeWhile_cons, if_pos (by simpa using this)]
            simp
          have hA1le : ∀ b ∈ A1, rq.cmp b.key p.key ≠ .gt := by
            intro b hb h0
            rw [← hA1] at hb
            have := mem_takeWhile_pred hb
            rw [h0] at this; simp at this
          have hA2gt : ∀ b ∈ A2, rq.cmp p.key b.key = .lt := by
            cases hA2' : A2 with
            | nil => simp
            | cons d ds =>
              rw [hA2'] at hA2 hb2 ha2
              have h1 := dropWhile_head_pred hA2
              have hdK := (ha2 d (by simp)).1
              have h2 : rq.cmp d.key p.key = .gt := by simpa using h1
              exact BatchOk.head_lt C hb2 (fun b hb => (ha2 b hb).1) hpK (C.gt_lt hdK hpK h2)
          have hlt1 : ∀ b ∈ A1, ∀ kv ∈ cs.flatMap (·.2), rq.cmp b.key kv.1 = .lt := fun b hb' kv hkv =>
            C.le_trans_lt (ha1 b hb').1 hpK (hVr kv hkv) (hA1le b hb') (hcross _ hlast kv hkv)
          have hlt2 : ∀ b ∈ A2, ∀ kv ∈ x.2, rq.cmp kv.1 b.key = .lt := fun b hb' kv hkv =>
            C.le_trans_lt (hVx kv hkv) hpK (ha2 b hb').1 (hle kv hkv) (hA2gt b hb')
          have hspec : applyPlain rq.cmp (A1 ++ A2) (keptBy D (x.2 ++ cs.flatMap (·.2))) =
              applyPlain rq.cmp A1 (keptBy D x.2) ++ applyPlain rq.cmp A2 (keptBy D (cs.flatMap (·.2))) := by
            rw [keptBy_append, applyPlain_append,
              applyPlain_suf C hp1 (fun b hb => (ha1 b hb).1) (fun kv hkv => hVr kv (hsubr hkv))
                (fun b hb' kv hkv => hlt1 b hb' kv (hsubr hkv))]
            have hout : ∀ kv ∈ applyPlain rq.cmp A1 (keptBy D x.2), K kv.1 ∧ rq.cmp kv.1 p.key ≠ .gt := by
              intro kv hkv
              rcases applyPlain_keys rq.cmp hp1 kv hkv with ⟨b, hb, _, rfl⟩ | h0
              · exact ⟨(ha1 b hb).1, hA1le b hb⟩
              · exact ⟨hVx kv (hsubx h0), hle kv (hsubx h0)⟩
            exact applyPlain_pre C hp2 (fun b hb => (ha2 b hb).1) (fun kv hkv => (hout kv hkv).1)
              fun b hb' kv hkv => C.le_trans_lt (hout kv hkv).1 hpK (ha2 b hb').1 (hout kv hkv).2 (hA2gt b hb')
          have hun : untouched (A1 ++ A2) (x.2 ++ cs.flatMap (·.2)) =
              untouched A1 x.2 ++ untouched A2 (cs.flatMap (·.2)) := by
            rw [untouched_append, untouched_prefix (kvs := x.2) fun b hb' kv hkv =>
                (C.ne (hVx kv hkv) (hlt2 b hb' kv hkv)).symm,
              untouched_suffix (kvs := cs.flatMap (·.2)) fun b hb' kv hkv => C.ne (ha1 b hb').1 (hlt1 b hb' kv hkv)]
          unfold UpdatesTo
          rw [hA, hspec, hun]
          apply Sp.bind' (hd (truncPtr p) x.2 A1 u loc c f w hk' ht' hsx hA1ne hb1 ha1 hp1 h)
          · rintro ⟨st, loc1⟩ g ⟨he, u1, h2, hS, h3, h4⟩
            simp only at h2 h3 h4
            subst h2
            apply (ih hcsn A2 u1 loc1 _ g (he.wf' w)
              (fun y hy => (hcs y (by simp [hy])).keep (he.keep w)) hsr h3 hb2 ha2 hp2).mono
            · rintro ⟨st2, loc2⟩ g2 ⟨he2, u2, h6, h7, h8, h9⟩
              refine ⟨he.trans he2, u2, h6, po.tally.append _ _ _ _ _ hS h7, by simpa using h8, fun h0 => ?_⟩
              obtain ⟨h10, h11⟩ := h9 h0
              obtain ⟨h12, h13⟩ := h4 h10
              exact ⟨h12, by rw [h11, h13]⟩
            · exact fun _ _ h => FailT.trans he h
          · exact fun _ _ h => h

/-! ### Whole nodes -/

/-- What is left to be written of a node. -/
def BodyTo (E : Env) (rq : Rq σ) (X : Idx) (D : KV → PurgeAct) (S : σ → σ → List KV → Prop) (l : Nat) (as : List Action)
    (kvs : List KV) (u : σ) (f : File) (m : M (St σ × MR)) : Prop :=
  Sp m f
    (fun r g => Ext f g ∧ ∃ u' ps vs, r.1 = ⟨u', true⟩ ∧ S u u' (untouched as kvs) ∧
      MRInv E X g l r.2 (applyPlain rq.cmp as (keptBy D kvs)) ps vs ∧
      (r.2.modified = false → applyPlain rq.cmp as (keptBy D kvs) = kvs) ∧ (r.2.modified = true → vs = [])) (FailT f)

theorem modifyBodyP_finish (E : Env) {rq : Rq σ} {K X} (ok : RqOk rq K X) {D S} (l : Nat) (as : List Action) (kvs : List KV)
    (u : σ) (loc : MR) (f g : File) (he0 : Ext f g) (w : g.WF) (m : M (St σ × MR))
    (h : UpdatesTo E rq X D S l as kvs u loc [] g m) :
    Sp (do let (st, loc) ← m; let loc ← flushMr E rq loc; pure (st, loc)) g
      (fun r g => Ext f g ∧ ∃ u' ps vs, r.1 = ⟨u', true⟩ ∧ S u u' (untouched as kvs) ∧
        MRInv E X g l r.2 (applyPlain rq.cmp as (keptBy D kvs)) ps vs ∧
        (r.2.modified = false → applyPlain rq.cmp as (keptBy D kvs) = kvs) ∧ (r.2.modified = true → vs = [])) (FailT f) := by
  apply Sp.bind' h
  · rintro ⟨st, loc⟩ g1 ⟨he, u', h1, h2, ⟨ps, vs, h3⟩, h4⟩
    simp only at h1 h3 h4
    subst h1
    simp only
    apply Sp.bind' (flushMr_spec E ok l loc _ ps vs g1 (he.wf' w) h3)
    · rintro loc' g' ⟨he', hm, ps', vs', hi, h5, _⟩
      refine ⟨he0.trans (he.trans he'), u', ps', vs', rfl, h2, hi, ?_, ?_⟩
      · intro h0; exact (h4 (hm ▸ h0)).2
      · intro h0; exact h5 (hm ▸ h0)
    · exact fun _ _ h => FailT.trans (he0.trans he) h
  · exact fun _ _ h => FailT.trans he0 h

theorem modifyBodyP_some (E : Env) (L : E.Laws) {rq : Rq σ} {K X} (ok : RqOk rq K X) {D S} (po : PurgeOn rq X D S) (l : Nat)
    (descend) (purge) (hd : ∀ l', l = l' + 1 → DescOkP E rq K X D S l' descend ∧ PurgesTo E rq X D S False 0 l' purge)
    (p : NodePointer) (kvs : List KV) (as : List Action) (u : σ) (f : File) (w : f.WF)
    (ht : TreeAt E X f l p kvs) (hs : SortedKV rq.cmp kvs) (hb : BatchOk rq as)
    (ha : ActsOk K X as) (hp : PlainActs as) :
    BodyTo E rq X D S l as kvs u f (modifyBody E rq descend purge (some p) as ⟨u, true⟩) := by
  have ht' := ht
  obtain ⟨cs, hne, hcs, rfl, hz, _⟩ := ht'
  unfold modifyBody
  simp only
  apply Sp.bind' (readNode_spec E L p.pointer (kindOf l).byte (cs.map (·.1)) f w.crc hz (by
    intro i hi
    obtain ⟨c, hc, rfl⟩ := List.mem_map.mp hi
    exact (hcs c hc).fits (fun kv hkv => (ok.entry kv hkv).2.1)))
  · rintro ⟨t, recs⟩ g ⟨heq, hrf⟩
    injection heq with h1 h2
    subst h1; subst h2
    have he0 : Ext f g := hrf.ext
    have w1 := he0.wf' w
    simp only
    cases l with
    | zero =>
      rw [if_pos kindOf_byte_zero, leaf_items hcs]
      exact modifyBodyP_finish E ok 0 as _ u (MR.new .kv) f g he0 w1 _ (kvLoopP_spec E ok po _ as u (MR.new .kv) [] g w1 hs
        ht.valid ⟨[], [], MRInv.new E X g 0 false⟩ hb ha hp)
    | succ l =>
      rw [kindOf_byte_succ, if_neg (by decide), if_pos rfl]
      have : (cs.map (·.1)).map (fun i => some (i.key, i.data)) = recsOf cs := by
        rw [List.map_map]; rfl
      rw [this]
      exact modifyBodyP_finish E ok (l + 1) as _ u (MR.new .kp) f g he0 w1 _ (kpLoopP_spec E L ok po l descend (hd l rfl).1
        purge (hd l rfl).2 cs hne as u (MR.new .kp) [] g w1 (fun x hx => (hcs x hx).keep hrf.keep) hs
        ⟨[], [], MRInv.new E X g (l + 1) false⟩ hb ha hp)
  · exact fun _ _ h => ⟨h.1.ext, Or.inl h.2⟩

theorem modifyBodyP_none (E : Env) {rq : Rq σ} {K X} (ok : RqOk rq K X) {D S} (po : PurgeOn rq X D S)
    (descend) (purge) (as : List Action) (u : σ) (f : File) (w : f.WF) (hb : BatchOk rq as)
    (ha : ActsOk K X as) (hp : PlainActs as) :
    BodyTo E rq X D S 0 as [] u f (modifyBody E rq descend purge none as ⟨u, true⟩) :=
  modifyBodyP_finish E ok 0 as _ u (MR.new .kv) f f (Ext.refl f) w _ (kvLoopP_spec E ok po [] as u (MR.new .kv) [] f w
    List.Pairwise.nil (by simp) ⟨[], [], MRInv.new E X f 0 false⟩ hb ha hp)

theorem modifyNodeP_desc (E : Env) (L : E.Laws) {rq : Rq σ} {K X} (ok : RqOk rq K X) {D S} (po : PurgeOn rq X D S)
    (fuel l : Nat) (hl : l < fuel) : DescOkP E rq K X D S l (fun p => modifyNode E rq fuel (some p)) := by
  induction fuel generalizing l with
  | zero => omega
  | succ fuel ih =>
    intro p kvs as u dst c f w hk ht hs has hb ha hp hdst
    cases as with
    | nil => exact absurd rfl has
    | cons a as =>
      show Sp (modifyNode E rq (fuel + 1) (some p) (a :: as) ⟨u, true⟩ dst) f _ _
      unfold modifyNode
      apply Sp.bind' (modifyBodyP_some E L ok po l _ _ (fun l' hl' => ⟨ih l' (by omega),
        purgeNode_spec E L ok po.ok po.tally (fun h => h.elim) (fun h => h.elim) fuel l' (by omega)⟩) p kvs (a :: as)
        u f w ht hs hb ha hp)
      · rintro ⟨st, loc⟩ g ⟨he, u', ps, vs, h2, hS, h3, h4, h5⟩
        simp only at h2 h3 h4 h5
        subst h2
        have w1 := he.wf' w
        have hk1 := he.keep w
        simp only
        cases hm : loc.modified with
        | false =>
          simp only
          have := h4 hm
          rw [this]
          apply Sp.bind' (mrPushPointer_spec E ok l p kvs dst c g w1 (hdst.keep hk1) hk
            (ht.keep hk1))
          · rintro dst' g' ⟨he', hm', hi⟩
            exact ⟨he.trans he', u', rfl, hS, hi, fun h0 => ⟨hm' ▸ h0, rfl⟩⟩
          · exact fun _ _ h => FailT.trans he h
        | true =>
          simp only
          have := h5 hm
          subst this
          obtain ⟨psd, vsd, hdst⟩ := hdst
          apply Sp.bind' (mrMovePointers_spec E ok l loc _ _ c ps psd vsd g w1 h3
            ((hdst.setModified true).keep hk1))
          · rintro ⟨src', dst'⟩ g' ⟨he', _, hm', ps', vs', hi, _⟩
            simp only at hm' hi
            refine ⟨he.trans he', u', rfl, hS, ⟨ps', vs', hi⟩, ?_⟩
            intro h0
            simp only at h0
            rw [hm'] at h0; simp at h0
          · exact fun _ _ h => FailT.trans he h
      · exact fun _ _ h => h

/-- An update while purging is on: what is to be purged goes, unless the batch names it, and then the batch is applied. -/
theorem modifyBtreeP_spec (E : Env) (L : E.Laws) {rq : Rq σ} {K X} (ok : RqOk rq K X) {D S} (po : PurgeOn rq X D S)
    (root : Option NodePointer) (kvs : List KV) (as : List Action) (has : as ≠ []) (u : σ) (f : File) (w : f.WF)
    (hr : RootAt E X f root kvs) (hs : SortedKV rq.cmp kvs) (hb : BatchOk rq as)
    (ha : ActsOk K X as) (hp : PlainActs as) :
    Sp (modifyBtree E rq root as ⟨u, true⟩) f
      (fun r g => Ext f g ∧ ∃ u', r.1 = ⟨u', true⟩ ∧ S u u' (untouched as kvs) ∧
        RootAt E X g r.2 (applyPlain rq.cmp as (keptBy D kvs)))
      (FailT f) := by
  unfold modifyBtree
  apply Sp.get_bind
  dsimp only
  have fin : ∀ (l : Nat) (res : MR) (out : List KV) (u' : σ) (g : File), Ext f g →
      res.modified = true → MRC E X g (l + 1) res out → S u u' (untouched as kvs) →
      Sp (if res.modified = true then
            if res.count > 1 ∨ res.pointers ≠ [] then do
              let r ← finishRoot E rq res
              pure ((⟨u', true⟩ : St σ), r)
            else pure (⟨u', true⟩, lastPointer res)
          else pure (⟨u', true⟩, root)) g
      (fun r g => Ext f g ∧ ∃ u', r.1 = ⟨u', true⟩ ∧ S u u' (untouched as kvs) ∧ RootAt E X g r.2 out)
      (FailT f) := by
    intro l res out u' g he hm hres hS
    obtain ⟨ps, vs, hres⟩ := hres
    have w1 := he.wf' w
    rw [if_pos hm]
    by_cases hc : res.count > 1 ∨ res.pointers ≠ []
    · rw [if_pos hc]
      apply Sp.bind' (finishRoot_spec E ok l res out ps vs g w1 (hres.ne_nil hc) hres hm)
      · rintro r g' ⟨he', p, l', rfl, h1, h2⟩
        exact ⟨he.trans he', u', rfl, hS, l', h1⟩
      · exact fun _ _ h => FailT.trans he h
    · rw [if_neg hc]
      exact ⟨he, u', rfl, hS, (lastPointer_spec hres hc).1⟩
  cases as with
  | nil => exact absurd rfl has
  | cons a as =>
    cases root with
    | none =>
      have : kvs = [] := hr
      subst this
      unfold modifyNode
      apply Sp.bind
      apply Sp.bind' (modifyBodyP_none E ok po _ _ (a :: as) u f w hb ha hp)
      · rintro ⟨st, loc⟩ g ⟨he, u', ps, vs, h2, hS, h3, h4, h5⟩
        simp only at h2 h3 h4 h5
        subst h2
        have w1 := he.wf' w
        have hout : applyPlain rq.cmp (a :: as) (keptBy D []) = ps.flatMap (·.2) := by
          have hcon := h3.content
          cases hm : loc.modified with
          | false =>
            have := h4 hm
            rw [this] at hcon ⊢
            have hcon' := hcon.symm
            simp only [List.append_eq_nil_iff] at hcon'
            exact hcon'.1.symm
          | true => rw [h5 hm] at hcon; simpa using hcon
        simp only
        have main : Sp (do
            let (_, dst) ← mrMovePointers E rq loc { MR.new .kp with modified := true }
            pure ((⟨u', true⟩ : St σ), dst)) g
            (fun x g' => Ext f g' ∧ x.1 = ⟨u', true⟩ ∧ x.2.modified = true ∧
              MRC E X g' 1 x.2 (applyPlain rq.cmp (a :: as) (keptBy D [])))
            (FailT f) := by
          apply Sp.bind' (mrMovePointers_gen E ok 0 loc { MR.new .kp with modified := true } [] ps
            [] [] g w1 h3.pointers h3.ps_ok (MRInv.new E X g 1 true))
          · rintro ⟨src', dst'⟩ g' ⟨he', _, hm', ps', vs', hi, _⟩
            exact ⟨he.trans he', rfl, hm', ps', vs', by rw [hout]; exact hi⟩
          · exact fun _ _ h => FailT.trans he h
        have main' : Sp (match loc.modified, (none : Option NodePointer) with
            | false, some p => do
              let dst ← mrPushPointer E rq p (MR.new .kp)
              pure ((⟨u', true⟩ : St σ), dst)
            | _, _ => do
              let (_, dst) ← mrMovePointers E rq loc { MR.new .kp with modified := true }
              pure ((⟨u', true⟩ : St σ), dst)) g
            (fun x g' => Ext f g' ∧ x.1 = ⟨u', true⟩ ∧ x.2.modified = true ∧
              MRC E X g' 1 x.2 (applyPlain rq.cmp (a :: as) (keptBy D [])))
            (FailT f) := by
          cases loc.modified <;> exact main
        apply main'.mono
        · rintro ⟨st', dst'⟩ g' ⟨he', hst, hm', hi⟩
          simp only at hst
          subst hst
          exact fin 0 dst' _ u' g' he' hm' hi hS
        · exact fun _ _ h => h
      · exact fun _ _ h => h
    | some p =>
      obtain ⟨l, ht⟩ := hr
      have hl : l < f.disk.length + 1 := by
        have h1 := ht.height
        have h2 := ht.pointer_lt
        have h3 := w.pos_le
        omega
      unfold modifyNode
      apply Sp.bind
      apply Sp.bind' (modifyBodyP_some E L ok po l _ _ (fun l' hl' => ⟨modifyNodeP_desc E L ok po _ l' (by omega),
        purgeNode_spec E L ok po.ok po.tally (fun h => h.elim) (fun h => h.elim) _ l' (by omega)⟩)
        p kvs (a :: as) u f w ht hs hb ha hp)
      · rintro ⟨st, loc⟩ g ⟨he, u', ps, vs, h2, hS, h3, h4, h5⟩
        simp only at h2 h3 h4 h5
        subst h2
        have w1 := he.wf' w
        have hk1 := he.keep w
        simp only
        cases hm : loc.modified with
        | false =>
          have := h4 hm
          rw [this]
          simp only
          unfold mrPushPointer
          rw [mrPush_unmod _ _ _ _ rfl]
          exact ⟨he, u', rfl, hS, l, ht.keep hk1⟩
        | true =>
          simp only
          have := h5 hm
          subst this
          apply Sp.bind' (mrMovePointers_spec E ok l loc { MR.new .kp with modified := true } _ [] ps
            [] [] g w1 h3 (MRInv.new E X g (l + 1) true))
          · rintro ⟨src', dst'⟩ g' ⟨he', _, hm', ps', vs', hi, _⟩
            simp only at hm' hi
            exact fin l dst' _ u' g' (he.trans he') hm' ⟨ps', vs', hi⟩ hS
          · exact fun _ _ h => FailT.trans he h
      · exact fun _ _ h => h

end Couchstore
