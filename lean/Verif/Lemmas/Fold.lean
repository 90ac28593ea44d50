import Verif.Spec.Tree
import Verif.Lemmas.Order

/-! Helper lemmas about the abstract meaning of a batch. -/

namespace Couchstore

variable {σ : Type}

/-- Put entries before those of a result. -/
def preR (pre : List KV) : Except Err (σ × List KV) → Except Err (σ × List KV)
  | .ok (u, kvs) => .ok (u, pre ++ kvs)
  | .error e => .error e

/-- Put entries after those of a result. -/
def sufR (suf : List KV) : Except Err (σ × List KV) → Except Err (σ × List KV)
  | .ok (u, kvs) => .ok (u, kvs ++ suf)
  | .error e => .error e

theorem preR_nil (r : Except Err (σ × List KV)) : preR [] r = r := by
  cases r with
  | ok x => rfl
  | error e => rfl

theorem preR_preR (a b : List KV) (r : Except Err (σ × List KV)) :
    preR a (preR b r) = preR (a ++ b) r := by
  cases r with
  | ok x => simp [preR]
  | error e => rfl

theorem preR_ok {pre : List KV} {r : Except Err (σ × List KV)} {u out}
    (h : preR pre r = .ok (u, out)) : ∃ out', r = .ok (u, out') ∧ out = pre ++ out' := by
  cases r with
  | ok x => simp [preR] at h; exact ⟨x.2, by rw [← h.1], h.2.symm⟩
  | error e => simp [preR] at h

theorem preR_error {pre : List KV} {r : Except Err (σ × List KV)} {e} :
    preR pre r = .error e ↔ r = .error e := by
  cases r with
  | ok x => simp [preR]
  | error e => simp [preR]

section cmp
variable {cmp : Bytes → Bytes → Ordering} {K : Bytes → Prop} (C : CmpLaws cmp K)
include C

theorem CmpLaws.lt_ne {a b : Bytes} (ha : K a) (hb : K b) (h : cmp a b = .lt) : a ≠ b := by
  intro he
  have := (C.eq_iff a b ha hb).mpr he
  rw [this] at h; simp at h

theorem CmpLaws.gt_lt {a b : Bytes} (ha : K a) (hb : K b) (h : cmp a b = .gt) : cmp b a = .lt := by
  rw [C.swap a b ha hb, h]; rfl

theorem CmpLaws.lt_gt {a b : Bytes} (ha : K a) (hb : K b) (h : cmp a b = .lt) : cmp b a = .gt := by
  rw [C.swap a b ha hb, h]; rfl

theorem CmpLaws.le_trans_lt {a b c : Bytes} (ha : K a) (hb : K b) (hc : K c) (h : cmp a b ≠ .gt)
    (h' : cmp b c = .lt) : cmp a c = .lt := by
  cases hab : cmp a b with
  | lt => exact C.trans a b c ha hb hc hab h'
  | eq => rw [(C.eq_iff a b ha hb).mp hab]; exact h'
  | gt => exact absurd hab h

theorem CmpLaws.lt_trans_le {a b c : Bytes} (ha : K a) (hb : K b) (hc : K c) (h : cmp a b = .lt)
    (h' : cmp b c ≠ .gt) : cmp a c = .lt := by
  cases hbc : cmp b c with
  | lt => exact C.trans a b c ha hb hc h hbc
  | eq => rw [← (C.eq_iff b c hb hc).mp hbc]; exact h
  | gt => exact absurd hbc h'

theorem CmpLaws.refl {a : Bytes} (ha : K a) : cmp a a = .eq := (C.eq_iff a a ha ha).mpr rfl

theorem CmpLaws.lt_irrefl {a b : Bytes} (ha : K a) (hb : K b) (h : cmp a b = .lt)
    (h' : cmp b a = .lt) : False := by
  rw [C.lt_gt ha hb h] at h'; simp at h'

end cmp

theorem kvFind_none {k : Bytes} {kvs : List KV} (h : ∀ kv ∈ kvs, kv.1 ≠ k) : kvFind k kvs = none := by
  induction kvs with
  | nil => rfl
  | cons x xs ih =>
    obtain ⟨k', v⟩ := x
    unfold kvFind
    rw [if_neg (h (k', v) (by simp)), ih (fun y hy => h y (by simp [hy]))]

theorem kvFind_append_right {k : Bytes} {a b : List KV} (h : ∀ kv ∈ a, kv.1 ≠ k) :
    kvFind k (a ++ b) = kvFind k b := by
  induction a with
  | nil => rfl
  | cons x xs ih =>
    obtain ⟨k', v⟩ := x
    show kvFind k ((k', v) :: (xs ++ b)) = _
    rw [kvFind, if_neg (h (k', v) (by simp)), ih (fun y hy => h y (by simp [hy]))]

theorem kvFind_append_left {k : Bytes} {a b : List KV} (h : ∀ kv ∈ b, kv.1 ≠ k) :
    kvFind k (a ++ b) = kvFind k a := by
  induction a with
  | nil => exact kvFind_none h
  | cons x xs ih =>
    obtain ⟨k', v⟩ := x
    show kvFind k ((k', v) :: (xs ++ b)) = _
    rw [kvFind, kvFind, ih]

theorem kvErase_none {k : Bytes} {kvs : List KV} (h : ∀ kv ∈ kvs, kv.1 ≠ k) : kvErase k kvs = kvs := by
  unfold kvErase
  rw [List.filter_eq_self]
  intro kv hkv
  simpa using h kv hkv

theorem kvErase_append (k : Bytes) (a b : List KV) : kvErase k (a ++ b) = kvErase k a ++ kvErase k b := by
  simp [kvErase]

theorem kvInsert_append_right {cmp k v} {a b : List KV} (h : ∀ kv ∈ a, cmp kv.1 k = .lt) :
    kvInsert cmp k v (a ++ b) = a ++ kvInsert cmp k v b := by
  induction a with
  | nil => rfl
  | cons x xs ih =>
    obtain ⟨k', v'⟩ := x
    show kvInsert cmp k v ((k', v') :: (xs ++ b)) = _
    rw [kvInsert, h (k', v') (by simp)]
    simp only
    rw [ih (fun y hy => h y (by simp [hy]))]
    rfl

theorem kvInsert_append_left {cmp k v} {a b : List KV} (h : ∀ kv ∈ b, cmp kv.1 k = .gt) :
    kvInsert cmp k v (a ++ b) = kvInsert cmp k v a ++ b := by
  induction a with
  | nil =>
    cases b with
    | nil => rfl
    | cons x xs =>
      obtain ⟨k', v'⟩ := x
      have hc : cmp k' k = .gt := h (k', v') (by simp)
      simp [kvInsert, hc]
  | cons x xs ih =>
    obtain ⟨k', v'⟩ := x
    show kvInsert cmp k v ((k', v') :: (xs ++ b)) = _
    rw [kvInsert, kvInsert]
    cases hc : cmp k' k with
    | lt => simp [ih]
    | eq => simp
    | gt => simp

theorem kvInsert_keys {cmp k v} {kvs : List KV} : ∀ kv ∈ kvInsert cmp k v kvs, kv = (k, v) ∨ kv ∈ kvs := by
  induction kvs with
  | nil => intro kv h; simp [kvInsert] at h; exact Or.inl h
  | cons x xs ih =>
    obtain ⟨k', v'⟩ := x
    intro kv h
    unfold kvInsert at h
    split at h
    · rcases List.mem_cons.mp h with h | h
      · exact Or.inr (by simp [h])
      · rcases ih kv h with h | h
        · exact Or.inl h
        · exact Or.inr (by simp [h])
    · rcases List.mem_cons.mp h with h | h
      · exact Or.inl h
      · exact Or.inr (by simp [h])
    · rcases List.mem_cons.mp h with h | h
      · exact Or.inl h
      · exact Or.inr h

/-- Every entry of a result was there before or was inserted by an action that inserts. -/
theorem specInsert_keys {rq : Rq σ} {a : Action} {u kvs u' out}
    (h : specInsert rq a u kvs = .ok (u', out)) : ∀ kv ∈ out, kv = (a.key, a.data) ∨ kv ∈ kvs := by
  unfold specInsert at h
  split at h
  · injection h with h; injection h with h1 h2; subst h2; exact kvInsert_keys
  · split at h
    · injection h with h; injection h with h1 h2; subst h2; exact kvInsert_keys
    · simp at h

theorem specStep_keys {rq : Rq σ} {K X} (ok : RqOk rq K X) {a : Action} {u kvs u' out}
    (h : specStep rq a u kvs = .ok (u', out)) :
    ∀ kv ∈ out, (a.inserts ∧ kv = (a.key, a.data)) ∨ kv ∈ kvs := by
  unfold specStep at h
  split at h
  · injection h with h; injection h with h1 h2; subst h2
    intro kv hkv; unfold kvErase at hkv
    exact Or.inr (List.mem_filter.mp hkv).1
  · rename_i ht
    intro kv hkv
    exact (specInsert_keys h kv hkv).imp (fun h => ⟨Or.inl ht, h⟩) id
  · rename_i h1 h2
    have hfi : a.type ≠ .fetch → a.inserts := by
      intro hf
      right
      cases ht : a.type <;> simp_all
    split at h
    · split at h
      · injection h with h; injection h with h1 h2; subst h2; exact fun kv hkv => Or.inr hkv
      · rename_i hf
        exact fun kv hkv => (specInsert_keys h kv hkv).imp (fun h => ⟨hfi hf, h⟩) id
    · rename_i cb hcb
      split at h
      · rename_i u1 t hcb'
        split at h
        · injection h with h; injection h with h1 h2; subst h2; exact fun kv hkv => Or.inr hkv
        · rename_i ht
          refine fun kv hkv => (specInsert_keys h kv hkv).imp (fun h => ⟨hfi ?_, h⟩) id
          intro hf
          exact ht (ok.fetch cb hcb u a _ _ _ hf hcb')
      · simp at h

theorem specFold_keys {rq : Rq σ} {K X} (ok : RqOk rq K X) {as : List Action} {u kvs u' out}
    (h : specFold rq as u kvs = .ok (u', out)) :
    ∀ kv ∈ out, (∃ a ∈ as, a.inserts ∧ kv = (a.key, a.data)) ∨ kv ∈ kvs := by
  induction as generalizing u kvs with
  | nil =>
    unfold specFold at h
    injection h with h; injection h with h1 h2; subst h2; exact fun kv hkv => Or.inr hkv
  | cons a as ih =>
    unfold specFold at h
    split at h
    · rename_i u1 kvs1 hs
      intro kv hkv
      rcases ih h kv hkv with ⟨b, hb, h1⟩ | h1
      · exact Or.inl ⟨b, by simp [hb], h1⟩
      · rcases specStep_keys ok hs kv h1 with h2 | h2
        · exact Or.inl ⟨a, by simp, h2⟩
        · exact Or.inr h2
    · simp at h

/-! ### Entries out of reach of the actions -/

theorem specInsert_pre {rq : Rq σ} {a : Action} {u pre kvs}
    (hf : kvFind a.key (pre ++ kvs) = kvFind a.key kvs)
    (hi : kvInsert rq.cmp a.key a.data (pre ++ kvs) = pre ++ kvInsert rq.cmp a.key a.data kvs) :
    specInsert rq a u (pre ++ kvs) = preR pre (specInsert rq a u kvs) := by
  unfold specInsert
  rw [hf, hi]
  cases rq.saveCb with
  | none => rfl
  | some cb =>
    simp only
    cases cb u a.key (kvFind a.key kvs) a.data a.userReq with
    | ok u' => rfl
    | error e => rfl

theorem specInsert_suf {rq : Rq σ} {a : Action} {u suf kvs}
    (hf : kvFind a.key (kvs ++ suf) = kvFind a.key kvs)
    (hi : kvInsert rq.cmp a.key a.data (kvs ++ suf) = kvInsert rq.cmp a.key a.data kvs ++ suf) :
    specInsert rq a u (kvs ++ suf) = sufR suf (specInsert rq a u kvs) := by
  unfold specInsert
  rw [hf, hi]
  cases rq.saveCb with
  | none => rfl
  | some cb =>
    simp only
    cases cb u a.key (kvFind a.key kvs) a.data a.userReq with
    | ok u' => rfl
    | error e => rfl

theorem specStep_pre {rq : Rq σ} {K} (C : CmpLaws rq.cmp K) {a : Action} {u pre kvs} (ha : K a.key)
    (hK : ∀ kv ∈ pre, K kv.1) (h : ∀ kv ∈ pre, rq.cmp kv.1 a.key = .lt) :
    specStep rq a u (pre ++ kvs) = preR pre (specStep rq a u kvs) := by
  have hne : ∀ kv ∈ pre, kv.1 ≠ a.key := fun kv hkv => C.lt_ne (hK kv hkv) ha (h kv hkv)
  have hf := kvFind_append_right (b := kvs) hne
  have hins : ∀ u, specInsert rq a u (pre ++ kvs) = preR pre (specInsert rq a u kvs) := fun u =>
    specInsert_pre hf (kvInsert_append_right h)
  unfold specStep
  split
  · rw [kvErase_append, kvErase_none hne]; rfl
  · exact hins u
  · split
    · split
      · rfl
      · exact hins u
    · rename_i cb _
      rw [hf]
      cases cb u a (kvFind a.key kvs) with
      | ok r =>
        obtain ⟨u', t⟩ := r
        simp only
        split
        · rfl
        · exact hins u'
      | error e => rfl

theorem specStep_suf {rq : Rq σ} {K} (C : CmpLaws rq.cmp K) {a : Action} {u suf kvs} (ha : K a.key)
    (hK : ∀ kv ∈ suf, K kv.1) (h : ∀ kv ∈ suf, rq.cmp a.key kv.1 = .lt) :
    specStep rq a u (kvs ++ suf) = sufR suf (specStep rq a u kvs) := by
  have hne : ∀ kv ∈ suf, kv.1 ≠ a.key := fun kv hkv => (C.lt_ne ha (hK kv hkv) (h kv hkv)).symm
  have hf := kvFind_append_left (a := kvs) hne
  have hins : ∀ u, specInsert rq a u (kvs ++ suf) = sufR suf (specInsert rq a u kvs) := fun u =>
    specInsert_suf hf (kvInsert_append_left (fun kv hkv => C.lt_gt ha (hK kv hkv) (h kv hkv)))
  unfold specStep
  split
  · rw [kvErase_append, kvErase_none hne]; rfl
  · exact hins u
  · split
    · split
      · rfl
      · exact hins u
    · rename_i cb _
      rw [hf]
      cases cb u a (kvFind a.key kvs) with
      | ok r =>
        obtain ⟨u', t⟩ := r
        simp only
        split
        · rfl
        · exact hins u'
      | error e => rfl

theorem specFold_pre {rq : Rq σ} {K} (C : CmpLaws rq.cmp K) {as : List Action} {u pre kvs}
    (ha : ∀ a ∈ as, K a.key) (hK : ∀ kv ∈ pre, K kv.1)
    (h : ∀ a ∈ as, ∀ kv ∈ pre, rq.cmp kv.1 a.key = .lt) :
    specFold rq as u (pre ++ kvs) = preR pre (specFold rq as u kvs) := by
  induction as generalizing u kvs with
  | nil => rfl
  | cons a as ih =>
    unfold specFold
    rw [specStep_pre C (ha a (by simp)) hK (h a (by simp))]
    cases specStep rq a u kvs with
    | ok r =>
      obtain ⟨u', kvs'⟩ := r
      exact ih (fun b hb => ha b (by simp [hb])) (fun b hb => h b (by simp [hb]))
    | error e => rfl

theorem specFold_suf {rq : Rq σ} {K} (C : CmpLaws rq.cmp K) {as : List Action} {u suf kvs}
    (ha : ∀ a ∈ as, K a.key) (hK : ∀ kv ∈ suf, K kv.1)
    (h : ∀ a ∈ as, ∀ kv ∈ suf, rq.cmp a.key kv.1 = .lt) :
    specFold rq as u (kvs ++ suf) = sufR suf (specFold rq as u kvs) := by
  induction as generalizing u kvs with
  | nil => rfl
  | cons a as ih =>
    unfold specFold
    rw [specStep_suf C (ha a (by simp)) hK (h a (by simp))]
    cases specStep rq a u kvs with
    | ok r =>
      obtain ⟨u', kvs'⟩ := r
      exact ih (fun b hb => ha b (by simp [hb])) (fun b hb => h b (by simp [hb]))
    | error e => rfl

theorem specFold_append {rq : Rq σ} (as bs : List Action) (u : σ) (kvs : List KV) :
    specFold rq (as ++ bs) u kvs =
      match specFold rq as u kvs with
      | .ok (u', kvs') => specFold rq bs u' kvs'
      | .error e => .error e := by
  induction as generalizing u kvs with
  | nil => rfl
  | cons a as ih =>
    show specFold rq (a :: (as ++ bs)) u kvs = _
    rw [specFold, specFold]
    cases specStep rq a u kvs with
    | ok r => exact ih r.1 r.2
    | error e => rfl

/-! ### Sortedness -/

theorem kvInsert_sorted {cmp K} (C : CmpLaws cmp K) {k v} {kvs : List KV} (hk : K k)
    (hK : ∀ kv ∈ kvs, K kv.1) (h : SortedKV cmp kvs) : SortedKV cmp (kvInsert cmp k v kvs) := by
  induction kvs with
  | nil => simp [kvInsert, SortedKV]
  | cons x xs ih =>
    obtain ⟨k', v'⟩ := x
    unfold SortedKV at *
    rw [List.pairwise_cons] at h
    have hk' : K k' := hK (k', v') (by simp)
    unfold kvInsert
    split
    · rename_i hc
      rw [List.pairwise_cons]
      refine ⟨?_, ih (fun y hy => hK y (by simp [hy])) h.2⟩
      intro y hy
      rcases kvInsert_keys y hy with rfl | hy
      · exact hc
      · exact h.1 y hy
    · rename_i hc
      have := (C.eq_iff k' k hk' hk).mp hc
      subst this
      rw [List.pairwise_cons]
      exact ⟨fun y hy => h.1 y hy, h.2⟩
    · rename_i hc
      have hlt := C.gt_lt hk' hk hc
      rw [List.pairwise_cons, List.pairwise_cons]
      refine ⟨?_, h.1, h.2⟩
      intro y hy
      rcases List.mem_cons.mp hy with rfl | hy
      · exact hlt
      · exact C.trans k k' y.1 hk hk' (hK y (by simp [hy])) hlt (h.1 y hy)

theorem kvErase_sorted {cmp k} {kvs : List KV} (h : SortedKV cmp kvs) : SortedKV cmp (kvErase k kvs) :=
  List.Pairwise.filter _ h

theorem specInsert_sorted {rq : Rq σ} {K} (C : CmpLaws rq.cmp K) {a : Action} {u kvs u' out}
    (ha : K a.key) (hK : ∀ kv ∈ kvs, K kv.1) (hs : SortedKV rq.cmp kvs)
    (h : specInsert rq a u kvs = .ok (u', out)) : SortedKV rq.cmp out := by
  unfold specInsert at h
  split at h
  · injection h with h; injection h with h1 h2; subst h2; exact kvInsert_sorted C ha hK hs
  · split at h
    · injection h with h; injection h with h1 h2; subst h2; exact kvInsert_sorted C ha hK hs
    · simp at h

theorem specStep_sorted {rq : Rq σ} {K} (C : CmpLaws rq.cmp K) {a : Action} {u kvs u' out}
    (ha : K a.key) (hK : ∀ kv ∈ kvs, K kv.1) (hs : SortedKV rq.cmp kvs)
    (h : specStep rq a u kvs = .ok (u', out)) : SortedKV rq.cmp out := by
  unfold specStep at h
  split at h
  · injection h with h; injection h with h1 h2; subst h2; exact kvErase_sorted hs
  · exact specInsert_sorted C ha hK hs h
  · split at h
    · split at h
      · injection h with h; injection h with h1 h2; subst h2; exact hs
      · exact specInsert_sorted C ha hK hs h
    · split at h
      · split at h
        · injection h with h; injection h with h1 h2; subst h2; exact hs
        · exact specInsert_sorted C ha hK hs h
      · simp at h

theorem specFold_sorted {rq : Rq σ} {K X} (ok : RqOk rq K X) {as : List Action} {u kvs u' out}
    (ha : ∀ a ∈ as, K a.key) (hK : ∀ kv ∈ kvs, K kv.1) (hs : SortedKV rq.cmp kvs)
    (h : specFold rq as u kvs = .ok (u', out)) : SortedKV rq.cmp out := by
  induction as generalizing u kvs with
  | nil =>
    unfold specFold at h
    injection h with h; injection h with h1 h2; subst h2; exact hs
  | cons a as ih =>
    unfold specFold at h
    split at h
    · rename_i u1 kvs1 hst
      refine ih (fun b hb => ha b (by simp [hb])) ?_
        (specStep_sorted ok.cmp (ha a (by simp)) hK hs hst) h
      intro kv hkv
      rcases specStep_keys ok hst kv hkv with ⟨_, rfl⟩ | h1
      · exact ha a (by simp)
      · exact hK kv h1
    · simp at h

end Couchstore
