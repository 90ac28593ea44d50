import Verif.Lemmas.Modify

/-! Helper lemmas: interior nodes, whole updates. -/

namespace Couchstore

variable {σ : Type}

theorem ItemAt.trunc {E X f l p kvs} (h : ItemAt E X f (l + 1) (ptrItem p) kvs) :
    ItemAt E X f (l + 1) (ptrItem (truncPtr p)) kvs := by
  obtain ⟨q, h1, h2, h3⟩ := h
  have : p = q := by
    have := congrArg Item.pointer h1
    simpa [ptrItem] using this
  subst this
  exact ⟨truncPtr p, rfl, h2, h3.trunc⟩

theorem ItemAt.ptr {E X f l it kvs} (h : ItemAt E X f (l + 1) it kvs) :
    ∃ p, it = ptrItem p ∧ readPointer it.key it.data = some (truncPtr p) ∧
      Couchstore.lastKey kvs = some p.key ∧ TreeAt E X f l p kvs ∧
      Couchstore.lastKey kvs = some (truncPtr p).key ∧ TreeAt E X f l (truncPtr p) kvs := by
  obtain ⟨p, rfl, h2, h3⟩ := h
  have hn := h3
  obtain ⟨cs, _, _, _, h4, _, h6, _⟩ := hn
  refine ⟨p, rfl, ?_, h2, h3, h2, h3.trunc⟩
  have := h4.2.1
  exact readPointer_encode p (by omega) h6

theorem TreeAt.item {E X f l p kvs} (h : TreeAt E X f l p kvs) (hk : lastKey kvs = some p.key) :
    ItemAt E X f (l + 1) (ptrItem p) kvs := ⟨p, rfl, hk, h⟩

/-- The records of a node as they are read back. -/
def recsOf (cs : List (Item × List KV)) : List (Option (Bytes × Bytes)) :=
  cs.map fun c => some (c.1.key, c.1.data)

theorem mrPushPointer_spec (E : Env) {rq : Rq σ} {K X} (ok : RqOk rq K X) (l : Nat) (p : NodePointer)
    (kvs : List KV) (loc : MR) (c : List KV) (f : File) (w : f.WF) (h : MRC E X f (l + 1) loc c)
    (hk : lastKey kvs = some p.key) (hv : TreeAt E X f l p kvs) :
    Sp (mrPushPointer E rq p loc) f
      (fun r g => Ext f g ∧ r.modified = loc.modified ∧ MRC E X g (l + 1) r (c ++ kvs)) (FailT f) := by
  obtain ⟨ps, vs, h⟩ := h
  unfold mrPushPointer
  apply (mrPush_spec E ok (l + 1) loc c ps vs _ kvs f w h (hv.item hk)).mono
  · rintro r g ⟨he, hm, ps', vs', hi, _⟩
    exact ⟨he, hm, ps', vs', hi⟩
  · exact fun _ _ h => h

theorem maybePurgeKp_spec (E : Env) {rq : Rq σ} {K X} (ok : RqOk rq K X) (l : Nat) (p : NodePointer)
    (kvs : List KV) (pn) (u : σ) (loc : MR) (c : List KV) (f : File) (w : f.WF)
    (h : MRC E X f (l + 1) loc c) (hk : lastKey kvs = some p.key) (hv : TreeAt E X f l p kvs) :
    Sp (maybePurgeKp E rq pn p ⟨u, false⟩ loc) f
      (fun r g => Ext f g ∧ r.1 = ⟨u, false⟩ ∧ r.2.modified = loc.modified ∧
        MRC E X g (l + 1) r.2 (c ++ kvs)) (FailT f) := by
  rw [maybePurgeKp_off]
  apply Sp.bind' (mrPushPointer_spec E ok l p kvs loc c f w h hk hv)
  · rintro r g ⟨he, hm, hi⟩
    exact ⟨he, rfl, hm, hi⟩
  · exact fun _ _ h => h

theorem purgeKpLoop_off (E : Env) {rq : Rq σ} {K X} (ok : RqOk rq K X) (l : Nat) (pn)
    (cs : List (Item × List KV)) (u : σ) (loc : MR) (c : List KV) (f : File) (w : f.WF)
    (h : MRC E X f (l + 1) loc c) (hcs : ∀ x ∈ cs, ItemAt E X f (l + 1) x.1 x.2) :
    Sp (purgeKpLoop E rq pn (recsOf cs) ⟨u, false⟩ loc) f
      (fun r g => Ext f g ∧ r.1 = ⟨u, false⟩ ∧ r.2.modified = loc.modified ∧
        MRC E X g (l + 1) r.2 (c ++ cs.flatMap (·.2))) (FailT f) := by
  induction cs generalizing loc c f with
  | nil => exact ⟨Ext.refl _, rfl, rfl, by simpa using h⟩
  | cons x cs ih =>
    obtain ⟨p, hp, hr, hk, ht, hk', ht'⟩ := (hcs x (by simp)).ptr
    show Sp (purgeKpLoop E rq pn (some (x.1.key, x.1.data) :: recsOf cs) ⟨u, false⟩ loc) f _ _
    unfold purgeKpLoop
    simp only
    rw [hr]
    simp only
    apply Sp.bind' (maybePurgeKp_spec E ok l (truncPtr p) x.2 pn u loc c f w h hk' ht')
    · rintro ⟨st, loc1⟩ g ⟨he, hst, hm, hi⟩
      simp only at hst hm hi
      subst hst
      apply (ih loc1 (c ++ x.2) g (he.wf' w) hi
        (fun y hy => (hcs y (by simp [hy])).keep (he.keep w))).mono
      · rintro ⟨st2, loc2⟩ g2 ⟨he2, h1, h2, h3⟩
        exact ⟨he.trans he2, h1, h2.trans hm, by simpa using h3⟩
      · exact fun _ _ h => FailT.trans he h
    · exact fun _ _ h => h

/-- The recursive call of `modify_node` does what the batch means on the subtree. -/
def DescOk (E : Env) (rq : Rq σ) (K : Bytes → Prop) (X : Idx) (l : Nat)
    (descend : NodePointer → List Action → St σ → MR → M (St σ × MR)) : Prop :=
  ∀ p kvs as u dst c f, f.WF → lastKey kvs = some p.key → TreeAt E X f l p kvs →
    SortedKV rq.cmp kvs → as ≠ [] → BatchOk rq as → ActsOk K X as → MRC E X f (l + 1) dst c →
    Sp (descend p as ⟨u, false⟩ dst) f
      (fun r g => Ext f g ∧ ∃ u' out, specFold rq as u kvs = .ok (u', out) ∧
        r.1 = ⟨u', false⟩ ∧ MRC E X g (l + 1) r.2 (c ++ out) ∧
        (r.2.modified = false → dst.modified = false ∧ out = kvs))
      (FailS f (specFold rq as u kvs))

theorem mem_takeWhile_pred {α : Type} {p : α → Bool} : ∀ {l : List α} {x}, x ∈ l.takeWhile p → p x = true
  | [], x, h => by simp at h
  | a :: l, x, h => by
    rw [List.takeWhile_cons] at h
    split at h
    · rcases List.mem_cons.mp h with rfl | h
      · assumption
      · exact mem_takeWhile_pred h
    · simp at h

theorem dropWhile_head_pred {α : Type} {p : α → Bool} : ∀ {l : List α} {x xs},
    l.dropWhile p = x :: xs → p x = false
  | [], x, xs, h => by simp at h
  | a :: l, x, xs, h => by
    rw [List.dropWhile_cons] at h
    split at h
    · exact dropWhile_head_pred h
    · rename_i hp; injection h with h1 h2; subst h1; simpa using hp

/-- In an ascending list all keys are at most the last. -/
theorem SortedKV.le_last {cmp K} (C : CmpLaws cmp K) {kvs : List KV} {k : Bytes}
    (hs : SortedKV cmp kvs) (hK : ∀ kv ∈ kvs, K kv.1) (hl : lastKey kvs = some k) :
    ∀ kv ∈ kvs, cmp kv.1 k ≠ .gt := by
  intro kv hkv
  have hne : kvs ≠ [] := by intro h0; subst h0; simp at hkv
  have hkl : (kvs.getLast hne).1 = k := by
    unfold lastKey at hl
    rw [List.getLast?_eq_some_getLast hne] at hl
    simpa using hl
  have hsplit := List.dropLast_concat_getLast hne
  rw [← hsplit] at hkv hs
  rcases List.mem_append.mp hkv with h | h
  · have := (List.pairwise_append.mp hs).2.2 kv h (kvs.getLast hne) (by simp)
    rw [hkl] at this
    rw [this]; simp
  · simp at h
    rw [h, hkl, C.refl (by rw [← hkl]; exact hK _ (List.getLast_mem hne))]
    simp

theorem kpLoop_spec (E : Env) {rq : Rq σ} {K X} (ok : RqOk rq K X) (l : Nat) (descend)
    (purge) (hd : DescOk E rq K X l descend)
    (cs : List (Item × List KV)) (hcs0 : cs ≠ []) (as : List Action) (u : σ) (loc : MR) (c : List KV)
    (f : File) (w : f.WF) (hcs : ∀ x ∈ cs, ItemAt E X f (l + 1) x.1 x.2)
    (hs : SortedKV rq.cmp (cs.flatMap (·.2)))
    (h : MRC E X f (l + 1) loc c) (hb : BatchOk rq as) (ha : ActsOk K X as) :
    Sp (kpLoop E rq descend purge (recsOf cs) as ⟨u, false⟩ loc) f
      (fun r g => Ext f g ∧ ∃ u' out, specFold rq as u (cs.flatMap (·.2)) = .ok (u', out) ∧
        r.1 = ⟨u', false⟩ ∧ MRC E X g (l + 1) r.2 (c ++ out) ∧
        (r.2.modified = false → loc.modified = false ∧ out = cs.flatMap (·.2)))
      (FailS f (specFold rq as u (cs.flatMap (·.2)))) := by
  have C := ok.cmp
  induction cs generalizing as u loc c f with
  | nil => exact absurd rfl hcs0
  | cons x cs ih =>
    obtain ⟨p, hp, hr, hk, ht, hk', ht'⟩ := (hcs x (by simp)).ptr
    cases as with
    | nil =>
      show Sp (kpLoop E rq descend purge (some (x.1.key, x.1.data) :: recsOf cs) [] ⟨u, false⟩ loc) f _ _
      unfold kpLoop
      apply (purgeKpLoop_off E ok l purge (x :: cs) u loc c f w h hcs).mono
      · rintro ⟨st, loc'⟩ g ⟨he, h1, h2, h3⟩
        exact ⟨he, u, (x :: cs).flatMap (·.2), rfl, h1, h3, fun h0 => ⟨h2 ▸ h0, rfl⟩⟩
      · exact fun _ _ h => h.failS _
    | cons a as =>
      show Sp (kpLoop E rq descend purge (some (x.1.key, x.1.data) :: recsOf cs) (a :: as) ⟨u, false⟩ loc) f _ _
      unfold kpLoop
      rw [hr]
      simp only
      rw [List.flatMap_cons] at hs ⊢
      have hsx : SortedKV rq.cmp x.2 := (List.pairwise_append.mp hs).1
      have hsr : SortedKV rq.cmp (cs.flatMap (·.2)) := (List.pairwise_append.mp hs).2.1
      have hcross := (List.pairwise_append.mp hs).2.2
      have hVx : ∀ kv ∈ x.2, K kv.1 := fun kv hkv =>
        (ok.entry kv ((hcs x (by simp)).valid kv hkv)).1
      have hVr : ∀ kv ∈ cs.flatMap (·.2), K kv.1 := by
        intro kv hkv
        obtain ⟨y, hy, hkv⟩ := List.mem_flatMap.mp hkv
        exact (ok.entry kv ((hcs y (by simp [hy])).valid kv hkv)).1
      have hxk : x.1.key = p.key := by rw [hp]; rfl
      obtain ⟨vlast, hlast⟩ := lastKey_mem hk
      have hpK : K p.key := hVx _ hlast
      have hle := hsx.le_last C hVx hk
      have haK : ∀ b ∈ a :: as, K b.key := fun b hb => (ha b hb).1
      by_cases hnil : recsOf cs = []
      · rw [if_pos hnil]
        have hcsn : cs = [] := by simpa [recsOf] using hnil
        subst hcsn
        simp only [List.flatMap_nil, List.append_nil]
        exact hd (truncPtr p) x.2 (a :: as) u loc c f w hk' ht' hsx (by simp) hb ha h
      · rw [if_neg hnil]
        have hcsn : cs ≠ [] := by intro h0; subst h0; exact hnil rfl
        rw [hxk]
        by_cases hc : rq.cmp p.key a.key = .lt
        · rw [if_pos hc]
          have hspec : specFold rq (a :: as) u (x.2 ++ cs.flatMap (·.2)) =
              preR x.2 (specFold rq (a :: as) u (cs.flatMap (·.2))) := by
            apply specFold_pre C haK hVx
            intro b hb' kv hkv
            have h1 := BatchOk.head_lt C hb haK hpK hc b hb'
            exact C.le_trans_lt (hVx kv hkv) hpK (haK b hb') (hle kv hkv) h1
          rw [hspec]
          apply Sp.bind' (maybePurgeKp_spec E ok l (truncPtr p) x.2 purge u loc c f w h hk' ht')
          · rintro ⟨st, loc1⟩ g ⟨he, hst, hm, hi⟩
            simp only at hst hm hi
            subst hst
            apply (ih hcsn (a :: as) u loc1 (c ++ x.2) g (he.wf' w)
              (fun y hy => (hcs y (by simp [hy])).keep (he.keep w)) hsr hi hb ha).mono
            · rintro ⟨st2, loc2⟩ g2 ⟨he2, u2, out, h1, h2, h3, h4⟩
              refine ⟨he.trans he2, u2, x.2 ++ out, by rw [h1]; rfl, h2, by simpa using h3, ?_⟩
              intro h0
              obtain ⟨h5, h6⟩ := h4 h0
              exact ⟨hm ▸ h5, by rw [h6]⟩
            · intro e g' hf
              exact hf.trans he (fun h => by rw [preR_error]; exact h)
          · exact fun _ _ h => h.failS _
        · rw [if_neg hc]
          generalize hA1 : (a :: as).takeWhile (fun b => rq.cmp b.key p.key != .gt) = A1
          generalize hA2 : (a :: as).dropWhile (fun b => rq.cmp b.key p.key != .gt) = A2
          have hA : a :: as = A1 ++ A2 := by
            rw [← hA1, ← hA2, List.takeWhile_append_dropWhile]
          have hb1 : BatchOk rq A1 := (List.pairwise_append.mp (hA ▸ hb)).1
          have hb2 : BatchOk rq A2 := (List.pairwise_append.mp (hA ▸ hb)).2.1
          have ha1 : ActsOk K X A1 := fun b hb => ha b (by rw [hA]; simp [hb])
          have ha2 : ActsOk K X A2 := fun b hb => ha b (by rw [hA]; simp [hb])
          have hA1ne : A1 ≠ [] := by
            have haK' := haK a (by simp)
            have : rq.cmp a.key p.key ≠ .gt := fun h0 => hc (C.gt_lt haK' hpK h0)
            rw [← hA1, List.takeWhile_cons, if_pos (by simpa using this)]
            simp
          have hA1le : ∀ b ∈ A1, rq.cmp b.key p.key ≠ .gt := by
            intro b hb h0
            rw [← hA1] at hb
            have := mem_takeWhile_pred hb
            rw [h0] at this; simp at this
          have hA2gt : ∀ b ∈ A2, rq.cmp p.key b.key = .lt := by
            cases hA2' : A2 with
            | nil => simp
            | cons d ds =>
              rw [hA2'] at hA2 hb2 ha2
              have h1 := dropWhile_head_pred hA2
              have hdK := (ha2 d (by simp)).1
              have h2 : rq.cmp d.key p.key = .gt := by simpa using h1
              exact BatchOk.head_lt C hb2 (fun b hb => (ha2 b hb).1) hpK (C.gt_lt hdK hpK h2)
          have hsuf : specFold rq A1 u (x.2 ++ cs.flatMap (·.2)) =
              sufR (cs.flatMap (·.2)) (specFold rq A1 u x.2) := by
            apply specFold_suf C (fun b hb => (ha1 b hb).1) hVr
            intro b hb' kv hkv
            exact C.le_trans_lt (ha1 b hb').1 hpK (hVr kv hkv) (hA1le b hb')
              (hcross _ hlast kv hkv)
          rw [hA, specFold_append, hsuf]
          apply Sp.bind' (hd (truncPtr p) x.2 A1 u loc c f w hk' ht' hsx hA1ne hb1 ha1 h)
          · rintro ⟨st, loc1⟩ g ⟨he, u1, out1, h1, h2, h3, h4⟩
            simp only at h2 h3 h4
            subst h2
            rw [h1]
            simp only [sufR]
            have hpre : specFold rq A2 u1 (out1 ++ cs.flatMap (·.2)) =
                preR out1 (specFold rq A2 u1 (cs.flatMap (·.2))) := by
              have hout : ∀ kv ∈ out1, K kv.1 ∧ rq.cmp kv.1 p.key ≠ .gt := by
                intro kv hkv
                rcases specFold_keys ok h1 kv hkv with ⟨b, hb, _, rfl⟩ | h0
                · exact ⟨(ha1 b hb).1, hA1le b hb⟩
                · exact ⟨hVx kv h0, hle kv h0⟩
              apply specFold_pre C (fun b hb => (ha2 b hb).1) (fun kv hkv => (hout kv hkv).1)
              intro b hb' kv hkv
              exact C.le_trans_lt (hout kv hkv).1 hpK (ha2 b hb').1 (hout kv hkv).2 (hA2gt b hb')
            rw [hpre]
            apply (ih hcsn A2 u1 loc1 (c ++ out1) g (he.wf' w)
              (fun y hy => (hcs y (by simp [hy])).keep (he.keep w)) hsr h3 hb2 ha2).mono
            · rintro ⟨st2, loc2⟩ g2 ⟨he2, u2, out, h5, h6, h7, h8⟩
              refine ⟨he.trans he2, u2, out1 ++ out, by rw [h5]; rfl, h6, by simpa using h7, ?_⟩
              intro h0
              obtain ⟨h9, h10⟩ := h8 h0
              obtain ⟨h11, h12⟩ := h4 h9
              exact ⟨h11, by rw [h10, h12]⟩
            · intro e g' hf
              exact hf.trans he (fun h => by rw [preR_error]; exact h)
          · intro e g' hf
            exact hf.trans (Ext.refl _) (fun h => by rw [h]; rfl)

/-! ### Whole nodes -/

theorem flushMr_spec (E : Env) {rq : Rq σ} {K X} (ok : RqOk rq K X) (l : Nat) (mr : MR)
    (c : List KV) (ps vs : List (Item × List KV)) (f : File) (w : f.WF)
    (h : MRInv E X f l mr c ps vs) :
    Sp (flushMr E rq mr) f
      (fun mr' g => Ext f g ∧ mr'.modified = mr.modified ∧
        ∃ ps' vs', MRInv E X g l mr' c ps' vs' ∧ (mr.modified = true → vs' = []) ∧
          (mr.modified = true → l ≠ 0 → vs.length ≠ 1 → 2 * ps'.length ≤ 2 * ps.length + vs.length) ∧
          (mr.modified = true → vs.length = 1 → ps'.length = ps.length + 1) ∧
          (mr.modified = true → vs ≠ [] → ps' ≠ []))
      (FailT f) := by
  unfold flushMr
  cases hv : vs with
  | nil =>
    rw [hv] at h
    have hvals := h.values
    have : flushMrPartial E rq mr mr.nodeLen = pure mr := by
      unfold flushMrPartial; rw [hvals]; rfl
    rw [this]
    exact ⟨Ext.refl _, rfl, ps, [], h, fun _ => rfl, fun _ _ _ => by simp, by simp, by simp⟩
  | cons v0 vs0 =>
    rw [hv] at h
    have hlen : 0 < mr.nodeLen := by
      rw [h.len, List.map_cons, itemsSize_cons]; unfold Item.kvSize; omega
    apply (flushMrPartial_spec E ok l mr c ps (v0 :: vs0) mr.nodeLen f w h (Or.inl hlen)).mono
    · rintro mr' g ⟨he, hm, ps', vs', hi, h1, h2, h3, h4, h5, h6⟩
      have hvs' : mr.modified = true → vs' = [] := fun hmod => h2 (by rw [← h.len]; exact Nat.le_refl _) hmod
      refine ⟨he, hm, ps', vs', hi, hvs', ?_, ?_, ?_⟩
      · intro hmod hl hn
        have := h3 hl (by
          have : (v0 :: vs0).length ≠ 0 := by simp
          omega)
        omega
      · intro hmod _; exact h4 hmod (by simp)
      · intro hmod _ h0
        have := h4 hmod (by simp)
        rw [h0] at this; simp at this
    · exact fun _ _ h => h

theorem kindOf_byte_zero : (kindOf 0).byte = 1 := rfl
theorem kindOf_byte_succ (l : Nat) : (kindOf (l + 1)).byte = 0 := rfl

theorem modifyBody_finish (E : Env) {rq : Rq σ} {K X} (ok : RqOk rq K X) (l : Nat) (f : File)
    (w : f.WF) (m : M (St σ × MR)) (spec : Except Err (σ × List KV)) (kvs : List KV) (mod0 : Prop)
    (h : Sp m f
      (fun r g => Ext f g ∧ ∃ u' out, spec = .ok (u', out) ∧
        r.1 = ⟨u', false⟩ ∧ MRC E X g l r.2 ([] ++ out) ∧
        (r.2.modified = false → mod0 ∧ out = kvs)) (FailS f spec)) :
    Sp (do let (st, loc) ← m; let loc ← flushMr E rq loc; pure (st, loc)) f
      (fun r g => Ext f g ∧ ∃ u' out ps vs, spec = .ok (u', out) ∧
        r.1 = ⟨u', false⟩ ∧ MRInv E X g l r.2 out ps vs ∧
        (r.2.modified = false → out = kvs) ∧ (r.2.modified = true → vs = []))
      (FailS f spec) := by
  apply Sp.bind' h
  · rintro ⟨st, loc⟩ g ⟨he, u', out, h1, h2, ⟨ps, vs, h3⟩, h4⟩
    simp only at h2 h3 h4
    subst h2
    simp only
    apply Sp.bind' (flushMr_spec E ok l loc _ ps vs g (he.wf' w) h3)
    · rintro loc' g' ⟨he', hm, ps', vs', hi, h5, _⟩
      refine ⟨he.trans he', u', out, ps', vs', h1, rfl, hi, ?_, ?_⟩
      · intro h0; exact (h4 (hm ▸ h0)).2
      · intro h0; exact h5 (hm ▸ h0)
    · intro e g' hf
      exact (hf.failS (.ok ())).trans he (fun h => by simp at h)
  · exact fun _ _ h => h

theorem leaf_items {E X f} {cs : List (Item × List KV)} (hcs : ∀ c ∈ cs, ItemAt E X f 0 c.1 c.2) :
    (cs.map (·.1)).map (fun i => some (i.key, i.data)) =
      (cs.flatMap (·.2)).map fun kv => some (kv.1, kv.2) := by
  induction cs with
  | nil => rfl
  | cons x xs ih =>
    rw [List.flatMap_cons, List.map_append, ← ih (fun c hc => hcs c (by simp [hc])),
      (hcs x (by simp)).2.1]
    rfl

theorem modifyBody_some (E : Env) (L : E.Laws) {rq : Rq σ} {K X} (ok : RqOk rq K X) (l : Nat)
    (descend) (purge) (hd : ∀ l', l = l' + 1 → DescOk E rq K X l' descend)
    (p : NodePointer) (kvs : List KV) (as : List Action) (u : σ) (f : File) (w : f.WF)
    (ht : TreeAt E X f l p kvs) (hs : SortedKV rq.cmp kvs) (hb : BatchOk rq as)
    (ha : ActsOk K X as) :
    Sp (modifyBody E rq descend purge (some p) as ⟨u, false⟩) f
      (fun r g => Ext f g ∧ ∃ u' out ps vs, specFold rq as u kvs = .ok (u', out) ∧
        r.1 = ⟨u', false⟩ ∧ MRInv E X g l r.2 out ps vs ∧
        (r.2.modified = false → out = kvs) ∧ (r.2.modified = true → vs = []))
      (FailS f (specFold rq as u kvs)) := by
  have ht' := ht
  obtain ⟨cs, hne, hcs, rfl, hz, _⟩ := ht'
  unfold modifyBody
  simp only
  apply Sp.bind' (readNode_spec E L p.pointer (kindOf l).byte (cs.map (·.1)) f w.crc hz (by
    intro i hi
    obtain ⟨c, hc, rfl⟩ := List.mem_map.mp hi
    exact (hcs c hc).fits (fun kv hkv => (ok.entry kv hkv).2.1)))
  · rintro ⟨t, recs⟩ g ⟨heq, hrf⟩
    injection heq with h1 h2
    subst h1; subst h2
    have he0 : Ext f g := hrf.ext
    have w1 := he0.wf' w
    simp only
    have fin : ∀ (m : M (St σ × MR)), Sp m g
        (fun r g' => Ext g g' ∧ ∃ u' out, specFold rq as u (cs.flatMap (·.2)) = .ok (u', out) ∧
          r.1 = ⟨u', false⟩ ∧ MRC E X g' l r.2 ([] ++ out) ∧
          (r.2.modified = false → (MR.new .kv).modified = false ∧ out = cs.flatMap (·.2)))
        (FailS g (specFold rq as u (cs.flatMap (·.2)))) →
        Sp (do let (st, loc) ← m; let loc ← flushMr E rq loc; pure (st, loc)) g
          (fun r g => Ext f g ∧ ∃ u' out ps vs, specFold rq as u (cs.flatMap (·.2)) = .ok (u', out) ∧
            r.1 = ⟨u', false⟩ ∧ MRInv E X g l r.2 out ps vs ∧
            (r.2.modified = false → out = cs.flatMap (·.2)) ∧ (r.2.modified = true → vs = []))
          (FailS f (specFold rq as u (cs.flatMap (·.2)))) := by
      intro m main
      apply (modifyBody_finish E ok l g w1 _ _ _ _ main).mono
      · rintro r g' ⟨he, rest⟩
        exact ⟨he0.trans he, rest⟩
      · intro e g' hf
        exact hf.trans he0 id
    cases l with
    | zero =>
      rw [if_pos kindOf_byte_zero, leaf_items hcs]
      exact fin _ (kvLoop_spec E ok _ as u (MR.new .kv) [] g w1 hs ht.valid
        ⟨[], [], MRInv.new E X g 0 false⟩ hb ha)
    | succ l =>
      rw [kindOf_byte_succ, if_neg (by decide), if_pos rfl]
      have : (cs.map (·.1)).map (fun i => some (i.key, i.data)) = recsOf cs := by
        rw [List.map_map]; rfl
      rw [this]
      exact fin _ (kpLoop_spec E ok l descend purge (hd l rfl) cs hne as u (MR.new .kp) [] g w1
        (fun x hx => (hcs x hx).keep hrf.keep) hs ⟨[], [], MRInv.new E X g (l + 1) false⟩ hb ha)
  · exact fun _ _ h => h.failS _

theorem modifyBody_none (E : Env) {rq : Rq σ} {K X} (ok : RqOk rq K X)
    (descend) (purge) (as : List Action) (u : σ) (f : File) (w : f.WF) (hb : BatchOk rq as)
    (ha : ActsOk K X as) :
    Sp (modifyBody E rq descend purge none as ⟨u, false⟩) f
      (fun r g => Ext f g ∧ ∃ u' out ps vs, specFold rq as u [] = .ok (u', out) ∧
        r.1 = ⟨u', false⟩ ∧ MRInv E X g 0 r.2 out ps vs ∧
        (r.2.modified = false → out = []) ∧ (r.2.modified = true → vs = []))
      (FailS f (specFold rq as u [])) := by
  have main : Sp (kvLoop E rq [] as ⟨u, false⟩ (MR.new .kv)) f
        (fun r g' => Ext f g' ∧ ∃ u' out, specFold rq as u [] = .ok (u', out) ∧
          r.1 = ⟨u', false⟩ ∧ MRC E X g' 0 r.2 ([] ++ out) ∧
          (r.2.modified = false → True ∧ out = []))
        (FailS f (specFold rq as u [])) := by
    apply (kvLoop_spec E ok [] as u (MR.new .kv) [] f w List.Pairwise.nil (by simp)
      ⟨[], [], MRInv.new E X f 0 false⟩ hb ha).mono
    · rintro r g' ⟨he, u', out, h1, h2, h3, h4⟩
      exact ⟨he, u', out, h1, h2, h3, fun h0 => ⟨trivial, (h4 h0).2⟩⟩
    · exact fun _ _ h => h
  exact modifyBody_finish E ok 0 f w _ _ _ True main

/-- Moving the finished pointers of a node to its parent. -/
theorem mrMovePointers_gen (E : Env) {rq : Rq σ} {K X} (ok : RqOk rq K X) (l : Nat)
    (src dst : MR) (cd : List KV) (ps psd vsd : List (Item × List KV)) (f : File) (w : f.WF)
    (hp : src.pointers = ps.map (·.1)) (hps : ∀ x ∈ ps, ItemAt E X f (l + 1) x.1 x.2)
    (hdst : MRInv E X f (l + 1) dst cd psd vsd) :
    Sp (mrMovePointers E rq src dst) f
      (fun r g => Ext f g ∧ r.1 = { src with pointers := [] } ∧ r.2.modified = dst.modified ∧
        ∃ ps' vs', MRInv E X g (l + 1) r.2 (cd ++ ps.flatMap (·.2)) ps' vs' ∧
          2 * ps'.length + vs'.length ≤ 2 * psd.length + vsd.length + ps.length ∧
          (ps' = [] → psd = [] ∧ vs' = vsd ++ ps))
      (FailT f) := by
  unfold mrMovePointers
  rw [hp]
  apply Sp.bind' (mrPushList_spec E ok (l + 1) ps dst cd psd vsd f w hdst hps)
  · rintro dst' g ⟨he, hm, ps', vs', hi, h1, h2⟩
    exact ⟨he, rfl, hm, ps', vs', hi, h1 (by omega), h2⟩
  · exact fun _ _ h => h

theorem mrMovePointers_spec (E : Env) {rq : Rq σ} {K X} (ok : RqOk rq K X) (l : Nat)
    (src dst : MR) (cs cd : List KV) (ps psd vsd : List (Item × List KV)) (f : File) (w : f.WF)
    (hsrc : MRInv E X f l src cs ps []) (hdst : MRInv E X f (l + 1) dst cd psd vsd) :
    Sp (mrMovePointers E rq src dst) f
      (fun r g => Ext f g ∧ r.1 = { src with pointers := [] } ∧ r.2.modified = dst.modified ∧
        ∃ ps' vs', MRInv E X g (l + 1) r.2 (cd ++ cs) ps' vs' ∧
          2 * ps'.length + vs'.length ≤ 2 * psd.length + vsd.length + ps.length ∧
          (ps' = [] → psd = [] ∧ vs' = vsd ++ ps))
      (FailT f) := by
  have : cs = ps.flatMap (·.2) := by rw [hsrc.content]; simp
  rw [this]
  exact mrMovePointers_gen E ok l src dst cd ps psd vsd f w hsrc.pointers hsrc.ps_ok hdst

theorem modifyNode_desc (E : Env) (L : E.Laws) {rq : Rq σ} {K X} (ok : RqOk rq K X) (fuel l : Nat)
    (hl : l < fuel) : DescOk E rq K X l (fun p => modifyNode E rq fuel (some p)) := by
  induction fuel generalizing l with
  | zero => omega
  | succ fuel ih =>
    intro p kvs as u dst c f w hk ht hs has hb ha hdst
    cases as with
    | nil => exact absurd rfl has
    | cons a as =>
      show Sp (modifyNode E rq (fuel + 1) (some p) (a :: as) ⟨u, false⟩ dst) f _ _
      unfold modifyNode
      apply Sp.bind' (modifyBody_some E L ok l _ _ (fun l' hl' => ih l' (by omega)) p kvs (a :: as)
        u f w ht hs hb ha)
      · rintro ⟨st, loc⟩ g ⟨he, u', out, ps, vs, h1, h2, h3, h4, h5⟩
        simp only at h2 h3 h4 h5
        subst h2
        rw [h1]
        have w1 := he.wf' w
        have hk1 := he.keep w
        simp only
        cases hm : loc.modified with
        | false =>
          simp only
          have := h4 hm
          subst this
          apply Sp.bind' (mrPushPointer_spec E ok l p out dst c g w1 (hdst.keep hk1) hk
            (ht.keep hk1))
          · rintro dst' g' ⟨he', hm', hi⟩
            exact ⟨he.trans he', u', out, rfl, rfl, hi, fun h0 => ⟨hm' ▸ h0, rfl⟩⟩
          · intro e g' hf
            exact (hf.failS (.ok ())).trans he (fun h => by simp at h)
        | true =>
          simp only
          have := h5 hm
          subst this
          obtain ⟨psd, vsd, hdst⟩ := hdst
          apply Sp.bind' (mrMovePointers_spec E ok l loc _ out c ps psd vsd g w1 h3
            ((hdst.setModified true).keep hk1))
          · rintro ⟨src', dst'⟩ g' ⟨he', _, hm', ps', vs', hi, _⟩
            simp only at hm' hi
            refine ⟨he.trans he', u', out, rfl, rfl, ⟨ps', vs', hi⟩, ?_⟩
            intro h0
            simp only at h0
            rw [hm'] at h0; simp at h0
          · intro e g' hf
            exact (hf.failS (.ok ())).trans he (fun h => by simp at h)
      · exact fun _ _ h => h

/-! ### The root -/

theorem TreeAt.height {E X f} : ∀ {l p kvs}, TreeAt E X f l p kvs → l ≤ p.pointer
  | 0, _, _, _ => Nat.zero_le _
  | l + 1, p, kvs, h => by
    obtain ⟨cs, hne, hcs, _, _, _, _, h7, _⟩ := h
    cases cs with
    | nil => exact absurd rfl hne
    | cons x xs =>
      obtain ⟨q, h1, _, h3⟩ := hcs x (by simp)
      have h4 : TreeAt E X f l q x.2 := h3
      have := h4.height
      have := h7 x (by simp) q (by rw [h1]; rfl)
      omega

theorem TreeAt.pointer_lt {E X f l p kvs} (h : TreeAt E X f l p kvs) : p.pointer < f.pos := by
  obtain ⟨_, _, _, _, h4, _⟩ := h
  exact h4.lt

theorem finishRootLoop_spec (E : Env) {rq : Rq σ} {K X} (ok : RqOk rq K X) (fuel l : Nat)
    (root coll : MR) (c : List KV) (ps : List (Item × List KV)) (f : File) (w : f.WF)
    (hfuel : ps.length ≤ fuel) (hc : c ≠ [])
    (hr : MRInv E X f (l + 1) root c ps []) (hrm : root.modified = true)
    (hcoll : MRInv E X f (l + 2) coll [] [] []) (hcm : coll.modified = true) :
    Sp (finishRootLoop E rq fuel root coll) f
      (fun r g => Ext f g ∧ ∃ p l', r = some p ∧ TreeAt E X g l' p c ∧ lastKey c = some p.key)
      (FailT f) := by
  induction fuel generalizing l root coll ps f with
  | zero =>
    exfalso
    have : ps = [] := List.eq_nil_of_length_eq_zero (by omega)
    subst this
    exact hc (by rw [hr.content]; rfl)
  | succ fuel ih =>
    unfold finishRootLoop
    split
    · rename_i it hp
      rw [hr.pointers] at hp
      obtain ⟨x, hx⟩ : ∃ x, ps = [x] := by
        cases ps with
        | nil => simp at hp
        | cons x xs =>
          cases xs with
          | nil => exact ⟨x, rfl⟩
          | cons y ys => simp at hp
      subst hx
      simp at hp
      subst hp
      obtain ⟨p, h1, h2, h3⟩ := hr.ps_ok x (by simp)
      have hcx : c = x.2 := by rw [hr.content]; simp
      refine ⟨Ext.refl _, p, l + 1, by rw [h1]; rfl, ?_, ?_⟩
      · rw [hcx]; exact h3
      · rw [hcx]; exact h2
    · rename_i hp
      have hn : 2 ≤ ps.length := by
        rw [hr.pointers] at hp
        cases ps with
        | nil => exact absurd (by rw [hr.content]; rfl) hc
        | cons x xs =>
          cases xs with
          | nil => exact absurd rfl (hp x.1)
          | cons y ys => simp
      simp only
      apply Sp.bind' (mrMovePointers_spec E ok (l + 1) root coll c [] ps [] [] f w hr hcoll)
      · rintro ⟨root', coll'⟩ g ⟨he, h1, h2, ps1, vs1, hi, hcnt, h3⟩
        simp only at h1 h2 hi
        subst h1
        simp only at hcnt ⊢
        have w1 := he.wf' w
        have hm1 : coll'.modified = true := h2.trans hcm
        apply Sp.bind' (flushMr_spec E ok (l + 2) coll' _ ps1 vs1 g w1 hi)
        · rintro coll2 g2 ⟨he2, hm2, ps2, vs2, hi2, h4, h5, h6, h7⟩
          have := h4 hm1
          subst this
          have w2 := he2.wf' w1
          have hlt : ps2.length < ps.length := by
            by_cases hv : vs1.length = 1
            · have a1 := h6 hm1 hv
              have a2 : ps1.length ≠ 0 := by
                intro h0
                have := h3 (List.eq_nil_of_length_eq_zero h0)
                rw [this.2] at hv
                simp at hv; omega
              simp at hcnt
              omega
            · have a1 := h5 hm1 (by omega) hv
              simp at hcnt
              omega
          have hi2' : MRInv E X g2 (l + 1 + 1) coll2 c ps2 [] := by simpa using hi2
          have hroot2 : MRInv E X g2 (l + 1 + 2) { root with pointers := [] } [] [] [] := by
            have hv := hr.values
            have hl := hr.len
            have hcn := hr.count
            exact ⟨hr.kind, rfl, hv, by simp, by simp, hl, hcn, rfl⟩
          apply (ih (l + 1) coll2 { root with pointers := [] } ps2 g2 w2 (by omega) hi2'
            (hm2.trans hm1) hroot2 hrm).mono
          · rintro r g3 ⟨he3, rest⟩
            exact ⟨he.trans (he2.trans he3), rest⟩
          · exact fun _ _ h => FailT.trans he (FailT.trans he2 h)
        · exact fun _ _ h => FailT.trans he h
      · exact fun _ _ h => h

theorem finishRoot_spec (E : Env) {rq : Rq σ} {K X} (ok : RqOk rq K X) (l : Nat)
    (root : MR) (c : List KV) (ps vs : List (Item × List KV)) (f : File) (w : f.WF)
    (hc : c ≠ []) (hr : MRInv E X f (l + 1) root c ps vs) (hrm : root.modified = true) :
    Sp (finishRoot E rq root) f
      (fun r g => Ext f g ∧ ∃ p l', r = some p ∧ TreeAt E X g l' p c ∧ lastKey c = some p.key)
      (FailT f) := by
  unfold finishRoot
  apply Sp.bind' (flushMr_spec E ok (l + 1) root c ps vs f w hr)
  · rintro root' g ⟨he, hm, ps', vs', hi, h1, _⟩
    have := h1 hrm
    subst this
    have w1 := he.wf' w
    apply (finishRootLoop_spec E ok _ l root' _ c ps' g w1 (by
      rw [hi.pointers]; simp) hc hi (hm.trans hrm)
      (MRInv.new E X g (l + 2) true) rfl).mono
    · rintro r g' ⟨he', rest⟩
      exact ⟨he.trans he', rest⟩
    · exact fun _ _ h => FailT.trans he h
  · exact fun _ _ h => h

theorem MRInv.ne_nil {E X f l mr c ps vs} (h : MRInv E X f l mr c ps vs)
    (hne : mr.count > 1 ∨ mr.pointers ≠ []) : c ≠ [] := by
  rw [h.content]
  rcases hne with hne | hne
  · rw [h.count] at hne
    have : vs.flatMap (·.2) ≠ [] := flatMap_ne_nil (by intro h0; subst h0; simp at hne)
      (fun x hx => (h.vs_ok x hx).ne_nil)
    simp [this]
  · rw [h.pointers] at hne
    have : ps.flatMap (·.2) ≠ [] := flatMap_ne_nil (by intro h0; subst h0; simp at hne)
      (fun x hx => (h.ps_ok x hx).ne_nil)
    simp [this]

/-- A root with at most one pointer. -/
theorem lastPointer_spec {E X f l mr c ps vs} (h : MRInv E X f (l + 1) mr c ps vs)
    (hne : ¬ (mr.count > 1 ∨ mr.pointers ≠ [])) :
    RootAt E X f (lastPointer mr) c ∧ ∀ p, lastPointer mr = some p → lastKey c = some p.key := by
  have hps : ps = [] := by
    by_cases h0 : ps = []
    · exact h0
    · exact absurd (Or.inr (by rw [h.pointers]; simpa using h0)) hne
  subst hps
  have hv : vs.length ≤ 1 := by
    rw [← h.count]; omega
  have hcon := h.content
  have hvals := h.values
  cases vs with
  | nil =>
    have : lastPointer mr = none := by unfold lastPointer; rw [hvals]; rfl
    rw [this]
    exact ⟨show c = [] by simpa using hcon, by simp⟩
  | cons x xs =>
    have : xs = [] := List.eq_nil_of_length_eq_zero (by rw [List.length_cons] at hv; omega)
    subst this
    obtain ⟨p, h1, h2, h3⟩ := h.vs_ok x (by simp)
    have hcx : c = x.2 := by simpa using hcon
    have : lastPointer mr = some p := by unfold lastPointer; rw [hvals]; simp [h1, ptrItem]
    rw [this]
    refine ⟨⟨l, by rw [hcx]; exact h3⟩, ?_⟩
    intro q hq
    injection hq with hq
    subst hq
    rw [hcx]; exact h2

theorem mrPush_unmod (E : Env) (rq : Rq σ) (i : Item) (dst : MR) (h : dst.modified = false) :
    mrPush E rq i dst = pure { dst with values := dst.values ++ [i],
                                        nodeLen := dst.nodeLen + i.kvSize,
                                        count := dst.count + 1 } := by
  unfold mrPush maybeFlush
  simp [h]

theorem modifyBtree_spec (E : Env) (L : E.Laws) {rq : Rq σ} {K X} (ok : RqOk rq K X)
    (root : Option NodePointer) (kvs : List KV) (as : List Action) (u : σ) (f : File) (w : f.WF)
    (hr : RootAt E X f root kvs) (hs : SortedKV rq.cmp kvs) (hb : BatchOk rq as)
    (ha : ActsOk K X as) :
    Sp (modifyBtree E rq root as ⟨u, false⟩) f
      (fun r g => Ext f g ∧ ∃ u' out, specFold rq as u kvs = .ok (u', out) ∧
        r.1 = ⟨u', false⟩ ∧ RootAt E X g r.2 out ∧
        (r.2 = root ∨ ∀ p, r.2 = some p → lastKey out = some p.key))
      (FailS f (specFold rq as u kvs)) := by
  unfold modifyBtree
  apply Sp.get_bind
  dsimp only
  -- the last step
  have fin : ∀ (l : Nat) (res : MR) (out : List KV) (u' : σ) (g : File), Ext f g →
      res.modified = true → MRC E X g (l + 1) res out → specFold rq as u kvs = .ok (u', out) →
      Sp (if res.modified = true then
            if res.count > 1 ∨ res.pointers ≠ [] then do
              let r ← finishRoot E rq res
              pure ((⟨u', false⟩ : St σ), r)
            else pure (⟨u', false⟩, lastPointer res)
          else pure (⟨u', false⟩, root)) g
      (fun r g => Ext f g ∧ ∃ u' out, specFold rq as u kvs = .ok (u', out) ∧
        r.1 = ⟨u', false⟩ ∧ RootAt E X g r.2 out ∧
        (r.2 = root ∨ ∀ p, r.2 = some p → lastKey out = some p.key))
      (FailS f (specFold rq as u kvs)) := by
    intro l res out u' g he hm hres hspec
    obtain ⟨ps, vs, hres⟩ := hres
    have w1 := he.wf' w
    rw [if_pos hm]
    by_cases hc : res.count > 1 ∨ res.pointers ≠ []
    · rw [if_pos hc]
      apply Sp.bind' (finishRoot_spec E ok l res out ps vs g w1 (hres.ne_nil hc) hres hm)
      · rintro r g' ⟨he', p, l', rfl, h1, h2⟩
        refine ⟨he.trans he', u', out, hspec, rfl, ⟨l', h1⟩, Or.inr ?_⟩
        intro q hq
        injection hq with hq
        subst hq
        exact h2
      · intro e g' hf
        exact (hf.failS (.ok ())).trans he (fun h => by simp at h)
    · rw [if_neg hc]
      obtain ⟨h1, h2⟩ := lastPointer_spec hres hc
      exact ⟨he, u', out, hspec, rfl, h1, Or.inr h2⟩
  cases as with
  | nil =>
    have : modifyNode E rq (f.disk.length + 1) root [] ⟨u, false⟩ (MR.new .kp) =
        pure (⟨u, false⟩, MR.new .kp) := by unfold modifyNode; rfl
    rw [this]
    exact ⟨Ext.refl _, u, kvs, rfl, rfl, hr, Or.inl rfl⟩
  | cons a as =>
    cases root with
    | none =>
      have : kvs = [] := hr
      subst this
      unfold modifyNode
      apply Sp.bind
      apply Sp.bind' (modifyBody_none E ok _ _ (a :: as) u f w hb ha)
      · rintro ⟨st, loc⟩ g ⟨he, u', out, ps, vs, h1, h2, h3, h4, h5⟩
        simp only at h2 h3 h4 h5
        subst h2
        have w1 := he.wf' w
        have hout : out = ps.flatMap (·.2) := by
          have hcon := h3.content
          cases hm : loc.modified with
          | false =>
            have := h4 hm
            rw [this] at hcon ⊢
            have hcon' := hcon.symm
            simp only [List.append_eq_nil_iff] at hcon'
            exact hcon'.1.symm
          | true => rw [h5 hm] at hcon; simpa using hcon
        simp only
        have main : Sp (do
            let (_, dst) ← mrMovePointers E rq loc { MR.new .kp with modified := true }
            pure ((⟨u', false⟩ : St σ), dst)) g
            (fun x g' => Ext f g' ∧ x.1 = ⟨u', false⟩ ∧ x.2.modified = true ∧ MRC E X g' 1 x.2 out)
            (FailS f (specFold rq (a :: as) u [])) := by
          apply Sp.bind' (mrMovePointers_gen E ok 0 loc { MR.new .kp with modified := true } [] ps
            [] [] g w1 h3.pointers h3.ps_ok (MRInv.new E X g 1 true))
          · rintro ⟨src', dst'⟩ g' ⟨he', _, hm', ps', vs', hi, _⟩
            exact ⟨he.trans he', rfl, hm', ps', vs', by rw [hout]; exact hi⟩
          · intro e g' hf
            exact (hf.failS (.ok ())).trans he (fun h => by simp at h)
        have main' : Sp (match loc.modified, (none : Option NodePointer) with
            | false, some p => do
              let dst ← mrPushPointer E rq p (MR.new .kp)
              pure ((⟨u', false⟩ : St σ), dst)
            | _, _ => do
              let (_, dst) ← mrMovePointers E rq loc { MR.new .kp with modified := true }
              pure ((⟨u', false⟩ : St σ), dst)) g
            (fun x g' => Ext f g' ∧ x.1 = ⟨u', false⟩ ∧ x.2.modified = true ∧ MRC E X g' 1 x.2 out)
            (FailS f (specFold rq (a :: as) u [])) := by
          cases loc.modified <;> exact main
        apply main'.mono
        · rintro ⟨st', dst'⟩ g' ⟨he', hst, hm', hi⟩
          simp only at hst
          subst hst
          exact fin 0 dst' out u' g' he' hm' hi h1
        · exact fun _ _ h => h
      · exact fun _ _ h => h
    | some p =>
      obtain ⟨l, ht⟩ := hr
      have hl : l < f.disk.length + 1 := by
        have h1 := ht.height
        have h2 := ht.pointer_lt
        have h3 := w.pos_le
        omega
      unfold modifyNode
      apply Sp.bind
      apply Sp.bind' (modifyBody_some E L ok l _ _
        (fun l' hl' => modifyNode_desc E L ok _ l' (by omega)) p kvs (a :: as) u f w ht hs hb ha)
      · rintro ⟨st, loc⟩ g ⟨he, u', out, ps, vs, h1, h2, h3, h4, h5⟩
        simp only at h2 h3 h4 h5
        subst h2
        have w1 := he.wf' w
        have hk1 := he.keep w
        simp only
        cases hm : loc.modified with
        | false =>
          have := h4 hm
          subst this
          simp only
          unfold mrPushPointer
          rw [mrPush_unmod _ _ _ _ rfl]
          exact ⟨he, u', out, h1, rfl, ⟨l, ht.keep hk1⟩, Or.inl rfl⟩
        | true =>
          simp only
          have := h5 hm
          subst this
          apply Sp.bind' (mrMovePointers_spec E ok l loc { MR.new .kp with modified := true } out [] ps
            [] [] g w1 h3 (MRInv.new E X g (l + 1) true))
          · rintro ⟨src', dst'⟩ g' ⟨he', _, hm', ps', vs', hi, _⟩
            simp only at hm' hi
            exact fin l dst' out u' g' (he.trans he') hm' ⟨ps', vs', hi⟩ h1
          · intro e g' hf
            exact (hf.failS (.ok ())).trans he (fun h => by simp at h)
      · exact fun _ _ h => h

/-! ### Building a tree from scratch -/

theorem completeNewBtree_spec (E : Env) {rq : Rq σ} {K X} (ok : RqOk rq K X)
    (mr : MR) (c : List KV) (f : File) (w : f.WF)
    (h : MRC E X f 0 mr c) (hm : mr.modified = true) :
    Sp (completeNewBtree E rq mr) f
      (fun r g => Ext f g ∧ RootAt E X g r c) (FailT f) := by
  unfold completeNewBtree
  obtain ⟨ps, vs, h⟩ := h
  apply Sp.bind' (flushMr_spec E ok 0 mr c ps vs f w h)
  · rintro mr' g ⟨he, hm', ps', vs', hi, h1, _⟩
    have := h1 hm
    subst this
    have w1 := he.wf' w
    apply Sp.bind' (mrMovePointers_spec E ok 0 mr' { MR.new .kp with modified := true } c [] ps'
      [] [] g w1 hi (MRInv.new E X g 1 true))
    · rintro ⟨src', dst'⟩ g' ⟨he', _, hm'', ps2, vs2, hi2, _⟩
      simp only at hm'' hi2
      simp only
      by_cases hc : dst'.count > 1 ∨ dst'.pointers ≠ []
      · rw [if_pos hc]
        have hi2' : MRInv E X g' (0 + 1) dst' c ps2 vs2 := hi2
        apply (finishRoot_spec E ok 0 dst' c ps2 vs2 g' (he'.wf' w1) (hi2'.ne_nil hc) hi2' hm'').mono
        · rintro r g2 ⟨he2, p, l', rfl, h3, _⟩
          exact ⟨he.trans (he'.trans he2), l', h3⟩
        · exact fun _ _ h => FailT.trans he (FailT.trans he' h)
      · rw [if_neg hc]
        exact ⟨he.trans he', (lastPointer_spec hi2 hc).1⟩
    · exact fun _ _ h => FailT.trans he h
  · exact fun _ _ h => h

end Couchstore
