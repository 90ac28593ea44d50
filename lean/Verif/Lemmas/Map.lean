import Verif.Spec.Map
import Verif.Lemmas.Fold

/-! Helper lemmas: association lists refine maps. -/

namespace Couchstore

variable {σ : Type}

theorem kvFind_insert {cmp K} (C : CmpLaws cmp K) {k v : Bytes} {kvs : List KV} (hk : K k)
    (hK : ∀ kv ∈ kvs, K kv.1) (hs : SortedKV cmp kvs) (k' : Bytes) :
    kvFind k' (kvInsert cmp k v kvs) = if k' = k then some v else kvFind k' kvs := by
  induction kvs with
  | nil =>
    simp only [kvInsert, kvFind]
    by_cases h : k = k'
    · simp [h]
    · simp [h, Ne.symm h]
  | cons x xs ih =>
    obtain ⟨k1, v1⟩ := x
    have hk1 : K k1 := hK (k1, v1) (by simp)
    have hlt := (List.pairwise_cons.mp hs).1
    have ih := ih (fun y hy => hK y (by simp [hy])) (List.pairwise_cons.mp hs).2
    unfold kvInsert
    split
    · rename_i hc
      rw [kvFind, kvFind, ih]
      by_cases h : k1 = k'
      · subst h
        have : k1 ≠ k := C.lt_ne hk1 hk hc
        simp [this]
      · simp [h]
    · rename_i hc
      have := (C.eq_iff k1 k hk1 hk).mp hc
      subst this
      rw [kvFind, kvFind]
      by_cases h : k1 = k'
      · simp [h]
      · simp [h, Ne.symm h]
    · rename_i hc
      rw [kvFind]
      by_cases h : k = k'
      · simp [h]
      · simp [h, Ne.symm h]

theorem kvFind_erase (k : Bytes) (kvs : List KV) (k' : Bytes) :
    kvFind k' (kvErase k kvs) = if k' = k then none else kvFind k' kvs := by
  induction kvs with
  | nil => simp [kvErase, kvFind]
  | cons x xs ih =>
    obtain ⟨k1, v1⟩ := x
    unfold kvErase at *
    by_cases h : k1 = k
    · rw [List.filter_cons_of_neg (by simpa using h), ih]
      by_cases h2 : k' = k
      · simp [h2]
      · rw [if_neg h2, if_neg h2, kvFind, if_neg (by rw [h]; exact Ne.symm h2)]
    · rw [List.filter_cons_of_pos (by simpa using h), kvFind, kvFind, ih]
      by_cases h2 : k1 = k'
      · subst h2; simp [h]
      · simp [h2]

/-- The map of an association list. -/
def toMap (kvs : List KV) : KMap := fun k => kvFind k kvs

theorem toMap_insert {cmp K} (C : CmpLaws cmp K) {k v : Bytes} {kvs : List KV} (hk : K k)
    (hK : ∀ kv ∈ kvs, K kv.1) (hs : SortedKV cmp kvs) :
    toMap (kvInsert cmp k v kvs) = (toMap kvs).set k (some v) :=
  funext fun k' => kvFind_insert C hk hK hs k'

theorem toMap_erase (k : Bytes) (kvs : List KV) : toMap (kvErase k kvs) = (toMap kvs).set k none :=
  funext fun k' => kvFind_erase k kvs k'

/-- Results with association lists as results with maps. -/
def mapR : Except Err (σ × List KV) → Except Err (σ × KMap)
  | .ok (u, kvs) => .ok (u, toMap kvs)
  | .error e => .error e

theorem mapInsert_eq {rq : Rq σ} {K} (C : CmpLaws rq.cmp K) {a : Action} {u} {kvs : List KV}
    (ha : K a.key) (hK : ∀ kv ∈ kvs, K kv.1) (hs : SortedKV rq.cmp kvs) :
    mapInsert rq a u (toMap kvs) = mapR (specInsert rq a u kvs) := by
  unfold mapInsert specInsert
  rw [← toMap_insert C ha hK hs]
  cases rq.saveCb with
  | none => rfl
  | some cb =>
    have hf : toMap kvs a.key = kvFind a.key kvs := rfl
    simp only [hf]
    cases cb u a.key (kvFind a.key kvs) a.data a.userReq <;> rfl

theorem mapStep_eq {rq : Rq σ} {K} (C : CmpLaws rq.cmp K) {a : Action} {u} {kvs : List KV}
    (ha : K a.key) (hK : ∀ kv ∈ kvs, K kv.1) (hs : SortedKV rq.cmp kvs) :
    mapStep rq a u (toMap kvs) = mapR (specStep rq a u kvs) := by
  unfold mapStep specStep
  have hins := fun u => mapInsert_eq (u := u) C ha hK hs
  have hf : toMap kvs a.key = kvFind a.key kvs := rfl
  cases a.type with
  | remove => simp only [mapR]; rw [toMap_erase]
  | insert => exact hins u
  | fetch =>
    simp only
    cases rq.fetchCb with
    | none => rfl
    | some cb =>
      simp only [hf]
      cases cb u a (kvFind a.key kvs) with
      | ok r =>
        obtain ⟨u', t⟩ := r
        simp only
        split
        · rfl
        · exact hins u'
      | error e => rfl
  | fetchInsert =>
    simp only
    cases rq.fetchCb with
    | none => simpa using hins u
    | some cb =>
      simp only [hf]
      cases cb u a (kvFind a.key kvs) with
      | ok r =>
        obtain ⟨u', t⟩ := r
        simp only
        split
        · rfl
        · exact hins u'
      | error e => rfl

theorem mapFold_eq {rq : Rq σ} {K X} (ok : RqOk rq K X) {as : List Action} {u} {kvs : List KV}
    (ha : ∀ a ∈ as, K a.key) (hK : ∀ kv ∈ kvs, K kv.1) (hs : SortedKV rq.cmp kvs) :
    mapFold rq as u (toMap kvs) = mapR (specFold rq as u kvs) := by
  induction as generalizing u kvs with
  | nil => rfl
  | cons a as ih =>
    unfold mapFold specFold
    rw [mapStep_eq ok.cmp (ha a (by simp)) hK hs]
    cases h : specStep rq a u kvs with
    | error e => rfl
    | ok r =>
      obtain ⟨u', kvs'⟩ := r
      simp only [mapR]
      refine ih (fun b hb => ha b (by simp [hb])) ?_
        (specStep_sorted ok.cmp (ha a (by simp)) hK hs h)
      intro kv hkv
      rcases specStep_keys ok h kv hkv with ⟨_, rfl⟩ | h1
      · exact ha a (by simp)
      · exact hK kv h1

theorem kvFind_of_mem {cmp K} (C : CmpLaws cmp K) {kvs : List KV} (hK : ∀ kv ∈ kvs, K kv.1)
    (hs : SortedKV cmp kvs) {k v} (h : (k, v) ∈ kvs) : kvFind k kvs = some v := by
  induction kvs with
  | nil => simp at h
  | cons x xs ih =>
    obtain ⟨k1, v1⟩ := x
    rcases List.mem_cons.mp h with h | h
    · injection h with h1 h2; subst h1; subst h2; simp [kvFind]
    · have hlt := (List.pairwise_cons.mp hs).1 (k, v) h
      have hne := C.lt_ne (hK (k1, v1) (by simp)) (hK (k, v) (by simp [h])) hlt
      rw [kvFind, if_neg hne]
      exact ih (fun y hy => hK y (by simp [hy])) (List.pairwise_cons.mp hs).2 h

theorem mem_of_kvFind {kvs : List KV} {k v} (h : kvFind k kvs = some v) : (k, v) ∈ kvs := by
  induction kvs with
  | nil => simp [kvFind] at h
  | cons x xs ih =>
    obtain ⟨k1, v1⟩ := x
    rw [kvFind] at h
    split at h
    · rename_i hk; injection h with h; subst hk; subst h; simp
    · exact List.mem_cons_of_mem _ (ih h)

end Couchstore
