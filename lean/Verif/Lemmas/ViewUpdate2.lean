import Verif.Lemmas.ViewUpdate

/-! What the batches of an update do to the entries. -/

namespace Couchstore
variable {σ : Type}

/-- The last action for a key. -/
def lastAct (as : List Action) (k : Bytes) : Option Action := as.reverse.find? fun a => a.key == k

/-- `Applied` for actions. -/
def AppliedA (as : List Action) (old : List KV) (kv : KV) : Prop :=
  match lastAct as kv.1 with
  | some a => a.type = .insert ∧ a.data = kv.2
  | none => kv ∈ old

theorem lastAct_append (as bs : List Action) (k : Bytes) : lastAct (as ++ bs) k = (lastAct bs k).or (lastAct as k) := by
  unfold lastAct
  rw [List.reverse_append, List.find?_append]

theorem lastAct_cons (a : Action) (as : List Action) (k : Bytes) :
    lastAct (a :: as) k = (lastAct as k).or (if a.key = k then some a else none) := by
  rw [show a :: as = [a] ++ as from rfl, lastAct_append]
  congr 1
  by_cases h : a.key = k <;> simp [lastAct, h]

theorem lastAct_map (recs : List ViewRec) (k : Bytes) : lastAct (recs.map ViewRec.act) k = (lastRec recs k).map ViewRec.act := by
  unfold lastAct lastRec
  rw [← List.map_reverse, List.find?_map]
  rfl

theorem lastRec_mem {recs : List ViewRec} {k : Bytes} {r : ViewRec} (h : lastRec recs k = some r) : r ∈ recs ∧ r.key = k := by
  unfold lastRec at h
  exact ⟨List.mem_reverse.mp (List.mem_of_find?_eq_some h), by simpa using List.find?_some h⟩

theorem lastRec_none {recs : List ViewRec} {k : Bytes} : lastRec recs k = none ↔ ∀ r ∈ recs, r.key ≠ k := by
  unfold lastRec
  rw [List.find?_eq_none]
  simp

theorem appliedA_map {recs : List ViewRec} (hop : ∀ r ∈ recs, r.op = 1 ∨ r.op = 2) (old : List KV) (kv : KV) :
    AppliedA (recs.map ViewRec.act) old kv ↔ Applied recs old kv := by
  unfold AppliedA Applied
  rw [lastAct_map]
  cases h : lastRec recs kv.1 with
  | none => rfl
  | some r =>
    simp only [Option.map_some, ViewRec.act]
    rcases hop r (lastRec_mem h).1 with h1 | h1 <;> simp [h1]

theorem appliedA_append (as bs : List Action) (old : List KV) (kv : KV) :
    AppliedA (as ++ bs) old kv ↔ match lastAct bs kv.1 with
      | some a => a.type = .insert ∧ a.data = kv.2
      | none => AppliedA as old kv := by
  unfold AppliedA
  rw [lastAct_append]
  cases lastAct bs kv.1 <;> rfl

theorem mem_kvErase {k : Bytes} {kvs : List KV} {kv : KV} : kv ∈ kvErase k kvs ↔ kv ∈ kvs ∧ kv.1 ≠ k := by
  simp [kvErase]

theorem mem_kvInsert {cmp K} (C : CmpLaws cmp K) {k v : Bytes} {kvs : List KV} (hk : K k) (hK : ∀ kv ∈ kvs, K kv.1)
    (h : SortedKV cmp kvs) {kv : KV} : kv ∈ kvInsert cmp k v kvs ↔ kv = (k, v) ∨ (kv ∈ kvs ∧ kv.1 ≠ k) := by
  induction kvs with
  | nil => simp [kvInsert]
  | cons x xs ih =>
    have hx := hK x (by simp)
    have hlt := h.head_lt
    have ih := ih (fun y hy => hK y (by simp [hy])) h.tail
    obtain ⟨k', v'⟩ := x
    unfold kvInsert
    cases hc : cmp k' k with
    | lt =>
      have hne : k' ≠ k := C.ne hx hc
      simp only [List.mem_cons, ih]
      constructor
      · rintro (rfl | rfl | h)
        · exact Or.inr ⟨Or.inl rfl, hne⟩
        · exact Or.inl rfl
        · exact Or.inr ⟨Or.inr h.1, h.2⟩
      · rintro (rfl | ⟨rfl | h, h2⟩)
        · exact Or.inr (Or.inl rfl)
        · exact Or.inl rfl
        · exact Or.inr (Or.inr ⟨h, h2⟩)
    | eq =>
      have he : k' = k := (C.eq_iff _ _ hx hk).mp hc
      subst he
      have hxs : ∀ y ∈ xs, y.1 ≠ k' := fun y hy e => C.ne hx (hlt y hy) e.symm
      simp only [List.mem_cons]
      constructor
      · rintro (rfl | h)
        · exact Or.inl rfl
        · exact Or.inr ⟨Or.inr h, hxs kv h⟩
      · rintro (rfl | ⟨rfl | h, h2⟩)
        · exact Or.inl rfl
        · exact absurd rfl h2
        · exact Or.inr h
    | gt =>
      have hlt' : cmp k k' = .lt := by rw [C.swap _ _ hx hk, hc]; rfl
      have hall : ∀ y ∈ (k', v') :: xs, y.1 ≠ k := by
        intro y hy e
        rcases List.mem_cons.mp hy with rfl | hy
        · exact C.ne hk hlt' e.symm
        · exact C.ne hk (C.trans _ _ _ hk hx (hK y (by simp [hy])) hlt' (hlt y hy)) e.symm
      rw [List.mem_cons]
      constructor
      · rintro (h | h)
        · exact Or.inl h
        · exact Or.inr ⟨h, hall kv h⟩
      · rintro (h | h)
        · exact Or.inl h
        · exact Or.inr h.1

theorem mem_applyPlain {cmp K} (C : CmpLaws cmp K) {as : List Action} (hp : PlainActs as) (ha : ∀ a ∈ as, K a.key)
    {kvs : List KV} (hK : ∀ kv ∈ kvs, K kv.1) (h : SortedKV cmp kvs) (kv : KV) :
    kv ∈ applyPlain cmp as kvs ↔ AppliedA as kvs kv := by
  induction as generalizing kvs with
  | nil => rfl
  | cons a as ih =>
    unfold applyPlain
    have hs : SortedKV cmp (applyPlain cmp [a] kvs) ∧ ∀ kv ∈ applyPlain cmp [a] kvs, K kv.1 :=
      applyPlain_sorted C (fun b hb => by rw [List.mem_singleton.mp hb]; exact ha a (by simp)) hK h
    have hs' : applyPlain cmp [a] kvs = if a.type = .remove then kvErase a.key kvs else kvInsert cmp a.key a.data kvs := rfl
    rw [hs'] at hs
    rw [ih hp.tail (fun b hb => ha b (by simp [hb])) hs.2 hs.1]
    unfold AppliedA
    rw [lastAct_cons]
    cases hl : lastAct as kv.1 with
    | some b => rfl
    | none =>
      rw [Option.none_or]
      simp only
      rcases hp a (by simp) with ht | ht
      · rw [if_pos ht, mem_kvErase]
        by_cases hk : a.key = kv.1
        · simp [hk, ht]
        · simp only [if_neg hk]
          exact ⟨fun h => h.1, fun h => ⟨h, fun e => hk e.symm⟩⟩
      · rw [if_neg (by rw [ht]; simp), mem_kvInsert C (ha a (by simp)) hK h]
        by_cases hk : a.key = kv.1
        · simp only [if_pos hk, ht]
          constructor
          · rintro (rfl | ⟨_, h⟩)
            · simp
            · exact absurd hk.symm h
          · rintro ⟨-, h⟩
            exact Or.inl (Prod.ext hk.symm h.symm)
        · simp only [if_neg hk]
          constructor
          · rintro (rfl | h)
            · exact absurd rfl hk
            · exact h.1
          · exact fun h => Or.inr ⟨h, fun e => hk e.symm⟩

theorem mem_keptBy {D : KV → PurgeAct} {kvs : List KV} {kv : KV} : kv ∈ keptBy D kvs ↔ kv ∈ kvs ∧ D kv ≠ .item := by
  simp [keptBy]

/-- What is there after all the batches. -/
theorem Batches.mem {cmp K} (C : CmpLaws cmp K) {D S} {u : σ} {kvs bs u' out} (h : Batches cmp D S u kvs bs u' out)
    (hp : PlainActs bs.flatten) (ha : ∀ a ∈ bs.flatten, K a.key) (hK : ∀ kv ∈ kvs, K kv.1) (hs : SortedKV cmp kvs) (kv : KV) :
    (D kv ≠ .item → (kv ∈ out ↔ AppliedA bs.flatten kvs kv)) ∧
    (D kv = .item → bs ≠ [] → kv ∈ out → AppliedA bs.flatten [] kv) := by
  induction h with
  | nil u kvs => exact ⟨fun _ => Iff.rfl, fun _ h => absurd rfl h⟩
  | @cons u kvs b bs v u' out hb hS hrest ih =>
    rw [List.flatten_cons] at hp ha ⊢
    have hp1 : PlainActs b := fun a h => hp a (List.mem_append_left _ h)
    have ha1 : ∀ a ∈ b, K a.key := fun a h => ha a (List.mem_append_left _ h)
    have hK1 : ∀ kv ∈ keptBy D kvs, K kv.1 := fun kv h => hK kv (mem_keptBy.mp h).1
    have hs1 : SortedKV cmp (keptBy D kvs) := List.Pairwise.filter _ hs
    have hA := applyPlain_sorted C ha1 hK1 hs1
    have hm := mem_applyPlain C hp1 ha1 hK1 hs1 kv
    have ih := ih (fun a h => hp a (List.mem_append_right _ h)) (fun a h => ha a (List.mem_append_right _ h)) hA.2 hA.1
    refine ⟨fun hD => ?_, fun hD _ hkv => ?_⟩
    · rw [ih.1 hD, appliedA_append]
      unfold AppliedA at hm ⊢
      cases lastAct bs.flatten kv.1 with
      | some a => rfl
      | none =>
        simp only [hm]
        cases lastAct b kv.1 with
        | some a => rfl
        | none => simp only [mem_keptBy]; exact ⟨fun h => h.1, fun h => ⟨h, hD⟩⟩
    · rw [appliedA_append]
      cases bs with
      | nil =>
        cases hrest
        rw [hm] at hkv
        simp only [List.flatten_nil, show ∀ k, lastAct [] k = none from fun _ => rfl]
        unfold AppliedA at hkv ⊢
        cases hl : lastAct b kv.1 with
        | some a => rw [hl] at hkv; exact hkv
        | none => rw [hl] at hkv; exact absurd hD (mem_keptBy.mp hkv).2
      | cons b' bs =>
        have := ih.2 hD (by simp) hkv
        unfold AppliedA at this
        cases hl : lastAct (b' :: bs).flatten kv.1 with
        | some a => rw [hl] at this; exact this
        | none => rw [hl] at this; cases this

/-! ### Counting -/

/-- The sum of the weights of the entries that are to be purged. -/
def goneWeight (D : KV → PurgeAct) (wt : KV → Nat) (kvs : List KV) : Nat := ((kvs.filter fun kv => D kv = .item).map wt).sum

/-- The state counts the weights of purged entries. -/
def WTally (D : KV → PurgeAct) (wt : KV → Nat) (u v : Nat) (kvs : List KV) : Prop :=
  (kvs.map wt).sum < 2 ^ 40 → u + goneWeight D wt kvs < 2 ^ 64 → v = u + goneWeight D wt kvs

theorem sum_sublist {l l' : List Nat} (h : l.Sublist l') : l.sum ≤ l'.sum := by
  induction h with
  | slnil => exact Nat.le_refl _
  | cons a _ ih => rw [List.sum_cons]; omega
  | cons_cons a _ ih => rw [List.sum_cons, List.sum_cons]; omega

theorem kvInsert_weight (cmp) (wt : KV → Nat) (k v : Bytes) (kvs : List KV) :
    ((kvInsert cmp k v kvs).map wt).sum ≤ (kvs.map wt).sum + wt (k, v) := by
  induction kvs with
  | nil => simp [kvInsert]
  | cons x xs ih =>
    obtain ⟨k', v'⟩ := x
    unfold kvInsert
    cases cmp k' k <;> simp only [List.map_cons, List.sum_cons] at ih ⊢ <;> omega

/-- The weight of the entries that actions insert. -/
def addedWeight (wt : KV → Nat) (as : List Action) : Nat :=
  ((as.filter fun a => a.type = .insert).map fun a => wt (a.key, a.data)).sum

theorem addedWeight_append (wt : KV → Nat) (as bs : List Action) :
    addedWeight wt (as ++ bs) = addedWeight wt as + addedWeight wt bs := by
  simp [addedWeight]

theorem applyPlain_weight (cmp) (wt : KV → Nat) {as : List Action} (hp : PlainActs as) (kvs : List KV) :
    ((applyPlain cmp as kvs).map wt).sum ≤ (kvs.map wt).sum + addedWeight wt as := by
  induction as generalizing kvs with
  | nil => simp [applyPlain]
  | cons a as ih =>
    unfold applyPlain
    refine Nat.le_trans (ih hp.tail _) ?_
    rw [show a :: as = [a] ++ as from rfl, addedWeight_append]
    rcases hp a (by simp) with h | h
    · rw [if_pos h]
      have := sum_sublist ((List.filter_sublist (l := kvs) (p := fun kv => kv.1 ≠ a.key)).map wt)
      unfold kvErase
      omega
    · rw [if_neg (by rw [h]; simp)]
      have := kvInsert_weight cmp wt a.key a.data kvs
      have : addedWeight wt [a] = wt (a.key, a.data) := by simp [addedWeight, h]
      omega

/-- With no insertions of entries that are to be purged, all that is purged is purged with the first batch. -/
theorem Batches.count {cmp} {D : KV → PurgeAct} {wt : KV → Nat} {u : Nat} {kvs bs u' out}
    (h : Batches cmp D (WTally D wt) u kvs bs u' out) (hp : PlainActs bs.flatten)
    (hins : ∀ a ∈ bs.flatten, a.type = .insert → D (a.key, a.data) ≠ .item)
    (hw : (kvs.map wt).sum + addedWeight wt bs.flatten < 2 ^ 40) (hu : u + goneWeight D wt kvs < 2 ^ 64) (hne : bs ≠ []) :
    u + goneWeight D wt (untouched bs.flatten kvs) ≤ u' ∧ u' ≤ u + goneWeight D wt kvs := by
  have none : ∀ {u : Nat} {kvs bs u' out}, Batches cmp D (WTally D wt) u kvs bs u' out → PlainActs bs.flatten →
      (∀ a ∈ bs.flatten, a.type = .insert → D (a.key, a.data) ≠ .item) → (∀ kv ∈ kvs, D kv ≠ .item) →
      (kvs.map wt).sum + addedWeight wt bs.flatten < 2 ^ 40 → u < 2 ^ 64 → u' = u := by
    intro u kvs bs u' out h
    induction h with
    | nil => exact fun _ _ _ _ _ => rfl
    | @cons u kvs b bs v u' out hb hS hrest ih =>
      intro hp hins hD hw hu
      rw [List.flatten_cons] at hp hins hw
      rw [addedWeight_append] at hw
      have hp1 : PlainActs b := fun a h => hp a (List.mem_append_left _ h)
      have h0 : goneWeight D wt (untouched b kvs) = 0 := by
        unfold goneWeight
        rw [List.filter_eq_nil_iff.mpr]
        · rfl
        · intro kv hkv
          simpa using hD kv (List.mem_of_mem_filter hkv)
      have h1 := sum_sublist ((List.filter_sublist (l := kvs) (p := fun kv => !b.any fun a => a.key == kv.1)).map wt)
      have hv := hS (by unfold untouched; omega) (by omega)
      have h2 := applyPlain_weight cmp wt hp1 (keptBy D kvs)
      have h3 : ((keptBy D kvs).map wt).sum ≤ (kvs.map wt).sum := sum_sublist (List.filter_sublist.map wt)
      have := ih (fun a h => hp a (List.mem_append_right _ h)) (fun a h => hins a (List.mem_append_right _ h)) (by
        intro kv hkv
        rcases applyPlain_keys cmp hp1 kv hkv with ⟨a, ha, hi, rfl⟩ | hkv
        · refine hins a (List.mem_append_left _ ha) ?_
          rcases hi with hi | hi
          · exact hi
          · rcases hp1 a ha with h | h <;> rw [h] at hi <;> cases hi
        · exact (mem_keptBy.mp hkv).2) (by omega) (by omega)
      omega
  cases h with
  | nil => exact absurd rfl hne
  | @cons _ _ b bs v _ _ hb hS hrest =>
    rw [List.flatten_cons] at hp hins hw ⊢
    rw [addedWeight_append] at hw
    have hp1 : PlainActs b := fun a h => hp a (List.mem_append_left _ h)
    have h1 := sum_sublist ((List.filter_sublist (l := kvs) (p := fun kv => !b.any fun a => a.key == kv.1)).map wt)
    have h2 := applyPlain_weight cmp wt hp1 (keptBy D kvs)
    have h3 : ((keptBy D kvs).map wt).sum ≤ (kvs.map wt).sum := sum_sublist (List.filter_sublist.map wt)
    have h4 : goneWeight D wt (untouched b kvs) ≤ goneWeight D wt kvs :=
      sum_sublist ((List.filter_sublist.filter _).map wt)
    have h5 : goneWeight D wt (untouched (b ++ bs.flatten) kvs) ≤ goneWeight D wt (untouched b kvs) := by
      refine sum_sublist (List.Sublist.map wt (List.Sublist.filter _ ?_))
      unfold untouched
      refine List.monotone_filter_right _ fun kv h => ?_
      simp only [List.any_append, Bool.not_or, Bool.and_eq_true] at h
      exact h.1
    have hv := hS (by unfold untouched; omega) (by omega)
    have := none hrest (fun a h => hp a (List.mem_append_right _ h)) (fun a h => hins a (List.mem_append_right _ h)) (by
        intro kv hkv
        rcases applyPlain_keys cmp hp1 kv hkv with ⟨a, ha, hi, rfl⟩ | hkv
        · refine hins a (List.mem_append_left _ ha) ?_
          rcases hi with hi | hi
          · exact hi
          · rcases hp1 a ha with h | h <;> rw [h] at hi <;> cases hi
        · exact (mem_keptBy.mp hkv).2) (by omega) (by omega)
    omega

end Couchstore
