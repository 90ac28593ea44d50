import Verif.Lemmas.Update2
import Verif.Lemmas.IndexHeader
import Verif.Spec.ViewUpdate

/-! Lemmas about updates of a view group. -/

namespace Couchstore
variable {σ : Type}

/-! ### Reading the records -/

theorem readRecord_cons (r : ViewRec) (rest : Bytes) (eof : Bool)
    (h : 0 < r.key.length ∧ r.key.length < 2 ^ 16 ∧ r.val.length < 2 ^ 30) :
    readRecord ⟨encodeRec r ++ rest, eof⟩ = .record r rest := by
  obtain ⟨h1, h2, h3⟩ := h
  have hl : (leEnc32 (3 + r.key.length + r.val.length)).length = 4 := by
    rw [leEnc32, List.length_reverse, enc32, length_beEnc]
  have hd : beDec (leEnc32 (3 + r.key.length + r.val.length)).reverse = 3 + r.key.length + r.val.length := by
    rw [leEnc32, List.reverse_reverse]
    exact beDec_beEnc 4 _ (by omega)
  have hk : beDec (enc16 r.key.length) = r.key.length := beDec_beEnc 2 _ (by omega)
  have hkl : (enc16 r.key.length).length = 2 := length_beEnc _ _
  obtain ⟨k1, k2, hk2⟩ : ∃ k1 k2, enc16 r.key.length = [k1, k2] := by
    match enc16 r.key.length, hkl with
    | [k1, k2], _ => exact ⟨k1, k2, rfl⟩
  have e : encodeRec r ++ rest = leEnc32 (3 + r.key.length + r.val.length) ++
      (r.op :: k1 :: k2 :: (r.key ++ (r.val ++ rest))) := by
    unfold encodeRec
    rw [hk2]; simp
  rw [hk2] at hk
  unfold readRecord
  rw [if_neg (by simp only [e, List.length_append, hl]; omega)]
  simp only [e, List.take_left' hl, List.drop_left' hl, hd, hk]
  have hv : (3 + r.key.length + r.val.length + 2 ^ 32 - 3 - r.key.length) % 2 ^ 32 = r.val.length := by omega
  rw [hv, if_neg (by simp only [List.length_append]; omega), if_neg (by omega), if_neg (by omega)]
  simp [List.drop_append]

/-- The action of a record. -/
def ViewRec.act (r : ViewRec) : Action := ⟨if r.op = 1 then .remove else .insert, r.key, r.val, 0⟩

theorem actionOf_plain {op : UInt8} (h : op = 1 ∨ op = 2) : actionOf op = some (if op = 1 then .remove else .insert) := by
  rcases h with rfl | rfl <;> decide

/-! ### One batch, with or without purging -/

theorem modifyEither_spec (E : Env) (L : E.Laws) {rq : Rq σ} {K X} (ok : RqOk rq K X) {D S} (po : PurgeOn rq X D S)
    (purging : Bool) (hoff : purging = false → (∀ kv, D kv ≠ .item) ∧ ∀ u kvs, (∀ kv ∈ kvs, X.V kv) → S u u kvs)
    (root : Option NodePointer) (kvs : List KV) (as : List Action) (has : as ≠ []) (u : σ) (f : File) (w : f.WF)
    (hr : RootAt E X f root kvs) (hs : SortedKV rq.cmp kvs) (hb : BatchOk rq as)
    (ha : ActsOk K X as) (hp : PlainActs as) :
    Sp (modifyBtree E rq root as ⟨u, purging⟩) f
      (fun r g => Ext f g ∧ ∃ u', r.1 = ⟨u', purging⟩ ∧ S u u' (untouched as kvs) ∧
        RootAt E X g r.2 (applyPlain rq.cmp as (keptBy D kvs)))
      (FailT f) := by
  cases purging with
  | true => exact modifyBtreeP_spec E L ok po root kvs as has u f w hr hs hb ha hp
  | false =>
    obtain ⟨h1, h2⟩ := hoff rfl
    refine (modifyBtree_spec E L ok root kvs as u f w hr hs hb ha).mono ?_ ?_
    · rintro r g ⟨e1, u', out, e2, e3, e4, -⟩
      rw [specFold_plain po.plain hp] at e2
      cases e2
      refine ⟨e1, u, e3, h2 u _ fun kv hkv => hr.valid kv (List.mem_of_mem_filter hkv), ?_⟩
      rwa [show keptBy D kvs = kvs from List.filter_eq_self.mpr fun kv _ => by simpa using h1 kv]
    · rintro e g ⟨e1, e2⟩
      rw [specFold_plain po.plain hp] at e2
      refine ⟨e1, ?_⟩
      rcases e2 with e2 | e2 | e2
      · exact Or.inl e2
      · exact Or.inr e2
      · cases e2

/-! ### All the batches -/

/-- Batches applied one after the other, the entries to be purged being dropped with each. -/
inductive Batches (cmp : Bytes → Bytes → Ordering) (D : KV → PurgeAct) (S : σ → σ → List KV → Prop) :
    σ → List KV → List (List Action) → σ → List KV → Prop where
  | nil (u kvs) : Batches cmp D S u kvs [] u kvs
  | cons {u kvs b bs v u' out} : b ≠ [] → S u v (untouched b kvs) →
      Batches cmp D S v (applyPlain cmp b (keptBy D kvs)) bs u' out → Batches cmp D S u kvs (b :: bs) u' out

theorem applyPlain_sorted {cmp K} (C : CmpLaws cmp K) {as : List Action} (ha : ∀ a ∈ as, K a.key) {kvs : List KV}
    (hK : ∀ kv ∈ kvs, K kv.1) (h : SortedKV cmp kvs) :
    SortedKV cmp (applyPlain cmp as kvs) ∧ ∀ kv ∈ applyPlain cmp as kvs, K kv.1 := by
  induction as generalizing kvs with
  | nil => exact ⟨h, hK⟩
  | cons a as ih =>
    unfold applyPlain
    refine ih (fun b hb => ha b (by simp [hb])) ?_ ?_
    · split
      · exact fun kv hkv => hK kv (List.mem_of_mem_filter hkv)
      · intro kv hkv
        rcases kvInsert_keys _ hkv with rfl | hkv
        · exact ha a (by simp)
        · exact hK kv hkv
    · split
      · exact kvErase_sorted h
      · exact kvInsert_sorted C (ha a (by simp)) hK h

theorem countOps_cons (r : ViewRec) (recs : List ViewRec) (c : OpCount) :
    OpCount.mk (c.inserted + (countOps (r :: recs)).inserted) (c.removed + (countOps (r :: recs)).removed) =
      ⟨(c.note r.op).inserted + (countOps recs).inserted, (c.note r.op).removed + (countOps recs).removed⟩ := by
  unfold countOps OpCount.note
  by_cases h2 : r.op = 2
  · have : ¬ r.op = 1 := by rw [h2]; decide
    simp [h2]; omega
  · by_cases h1 : r.op = 1
    · simp [h1]; omega
    · simp [h1, h2]

theorem updateLoop_spec (E : Env) (L : E.Laws) {rq : Rq σ} {K X} (ok : RqOk rq K X) {D S} (po : PurgeOn rq X D S)
    (purging : Bool) (hoff : purging = false → (∀ kv, D kv ≠ .item) ∧ ∀ u kvs, (∀ kv ∈ kvs, X.V kv) → S u u kvs)
    (batchSize maxActs : Nat) :
    ∀ (n : Nat) (recs : List ViewRec), recs.length < n → (∀ r ∈ recs, r.op = 1 ∨ r.op = 2) →
    (∀ r ∈ recs, 0 < r.key.length ∧ r.key.length < 2 ^ 16 ∧ r.val.length < 2 ^ 30) →
    ∀ (acts : List Action) (size : Nat) (c : OpCount) (u : σ) (root : Option NodePointer) (kvs : List KV) (f : File), f.WF →
    RootAt E X f root kvs → SortedKV rq.cmp kvs → BatchOk rq (acts ++ recs.map ViewRec.act) →
    ActsOk K X (acts ++ recs.map ViewRec.act) → PlainActs acts →
    Sp (updateLoop E rq batchSize maxActs true n (recs.flatMap encodeRec) acts size c ⟨u, purging⟩ root) f
      (fun r g => Ext f g ∧ r.2.1 = ⟨c.inserted + (countOps recs).inserted, c.removed + (countOps recs).removed⟩ ∧
        (acts = [] → recs = [] → r.2.2 = root) ∧
        ∃ u' out bs, r.1 = ⟨u', purging⟩ ∧ bs.flatten = acts ++ recs.map ViewRec.act ∧
          Batches rq.cmp D S u kvs bs u' out ∧ RootAt E X g r.2.2 out ∧ SortedKV rq.cmp out)
      (FailT f) := by
  intro n
  induction n with
  | zero => intro recs h; omega
  | succ n ih =>
    intro recs hn hop hsz acts size c u root kvs f w hr hs hb ha hp
    have hsorted : ∀ (as : List Action), (∀ a ∈ as, K a.key) →
        SortedKV rq.cmp (applyPlain rq.cmp as (keptBy D kvs)) := fun as has =>
      (applyPlain_sorted ok.cmp has (fun kv hkv => (ok.entry kv (hr.valid kv (List.mem_of_mem_filter hkv))).1)
        (List.Pairwise.filter _ hs)).1
    unfold updateLoop
    cases recs with
    | nil =>
      have e : readRecord ⟨List.flatMap encodeRec [], true⟩ = .last := by decide
      simp only [e]
      simp only [List.map_nil, List.append_nil] at hb ha ⊢
      by_cases hne : acts = []
      · subst hne
        rw [if_pos (by simp)]
        refine Sp.pure ?_
        exact ⟨Ext.refl f, by simp [countOps], fun _ _ => rfl, u, kvs, [], rfl, rfl, .nil u kvs, hr, hs⟩
      · rw [if_neg (by simpa using hne)]
        apply Sp.bind' (modifyEither_spec E L ok po purging hoff root kvs acts hne u f w hr hs hb ha hp)
        · rintro ⟨st, root'⟩ g ⟨h1, u', h2, h3, h4⟩
          refine Sp.pure ?_
          exact ⟨h1, by simp [countOps], fun h => absurd h hne, u', _, [acts], h2, by simp,
            .cons hne h3 (.nil _ _), h4, hsorted acts fun a h => (ha a h).1⟩
        · exact fun _ _ h => h
    | cons r recs =>
      have e : readRecord ⟨List.flatMap encodeRec (r :: recs), true⟩ = .record r (recs.flatMap encodeRec) := by
        rw [List.flatMap_cons]
        exact readRecord_cons r _ true (hsz r (by simp))
      have e2 := actionOf_plain (hop r (by simp))
      simp only [e, e2]
      have hact : (⟨if r.op = 1 then .remove else .insert, r.key, r.val, 0⟩ : Action) = r.act := rfl
      simp only [hact]
      have happ : acts ++ (r :: recs).map ViewRec.act = (acts ++ [r.act]) ++ recs.map ViewRec.act := by simp
      rw [happ] at hb ha ⊢
      have hp' : PlainActs (acts ++ [r.act]) := by
        intro a h
        rcases List.mem_append.mp h with h | h
        · exact hp a h
        · rw [List.mem_singleton.mp h]
          unfold ViewRec.act
          by_cases h1 : r.op = 1 <;> simp [h1]
      have hlen : recs.length < n := by simpa using hn
      split
      · have ha1 : ActsOk K X (acts ++ [r.act]) := fun a h => ha a (List.mem_append_left _ h)
        apply Sp.bind' (modifyEither_spec E L ok po purging hoff root kvs (acts ++ [r.act]) (by simp) u f w hr hs
          (List.pairwise_append.mp hb).1 ha1 hp')
        · rintro ⟨st, root'⟩ g ⟨h1, u', h2, h3, h4⟩
          simp only at h2
          subst h2
          refine (ih recs hlen (fun x hx => hop x (by simp [hx])) (fun x hx => hsz x (by simp [hx])) [] 0 (c.note r.op) u' root'
            _ g (h1.wf' w) h4 (hsorted _ fun a h => (ha1 a h).1) (by rw [List.nil_append]; exact (List.pairwise_append.mp hb).2.1)
            (fun a h => ha a (List.mem_append_right _ (by simpa using h))) (fun a h => by cases h)).mono ?_
            fun _ _ h => FailT.trans h1 h
          rintro ⟨st, c', root''⟩ g' ⟨k1, k2, -, u'', out, bs, k3, k4, k5, k6, k7⟩
          refine ⟨h1.trans k1, by rw [countOps_cons]; exact k2, fun _ h => (nomatch h), u'', out, (acts ++ [r.act]) :: bs, k3, ?_,
            .cons (by simp) h3 k5, k6, k7⟩
          rw [List.flatten_cons, k4]; simp
        · exact fun _ _ h => h
      · refine (ih recs hlen (fun x hx => hop x (by simp [hx])) (fun x hx => hsz x (by simp [hx])) (acts ++ [r.act]) _
          (c.note r.op) u root kvs f w hr hs hb ha hp').mono ?_ fun _ _ h => h
        rintro ⟨st, c', root''⟩ g' ⟨k1, k2, -, u'', out, bs, k3, k4, k5, k6, k7⟩
        exact ⟨k1, by rw [countOps_cons]; exact k2, fun _ h => (nomatch h), u'', out, bs, k3, k4, k5, k6, k7⟩

end Couchstore
