import Verif.Spec.Look
import Verif.Lemmas.Modify2

/-! Helper lemmas: lookups in a stored tree. -/

namespace Couchstore

variable {σ : Type}

/-- What is required of a lookup request. -/
structure LookOk (rq : LookRq σ) (K : Bytes → Prop) : Prop where
  cmp : CmpLaws (lookupCompare rq.cmp) K
  tol : rq.tolerate = true → ∀ u k v, (rq.fetch u k v).2 = none
  node : rq.node = none

theorem visit_append (fetch : σ → Bytes → Option Bytes → σ × Option Err)
    (a b : List (Bytes × Option Bytes)) (u : σ) :
    visit fetch (a ++ b) u =
      match visit fetch a u with
      | (u', some e) => (u', some e)
      | (u', none) => visit fetch b u' := by
  induction a generalizing u with
  | nil => rfl
  | cons x xs ih =>
    obtain ⟨k, v⟩ := x
    simp only [List.cons_append, visit]
    rcases fetch u k v with ⟨u', _ | e⟩
    · exact ih u'
    · rfl

/-- The callback has been invoked for all events up to its first error, or, if raw operations
may fail, for a prefix of them without error. -/
def Delivered (rq : LookRq σ) (f : File) (evs : List (Bytes × Option Bytes)) (u u' : σ)
    (e : Option Err) : Prop :=
  visit rq.fetch evs u = (u', e) ∨
    (f.faults ≠ [] ∧ e ≠ none ∧ ∃ n, visit rq.fetch (evs.take n) u = (u', none))

theorem Delivered.none_eq {rq : LookRq σ} {f evs u u'} (h : Delivered rq f evs u u' none) :
    visit rq.fetch evs u = (u', none) := by
  rcases h with h | ⟨_, h, _⟩
  · exact h
  · exact absurd rfl h

theorem Delivered.stop {rq : LookRq σ} {f a u u' e} (b) (h : Delivered rq f a u u' (some e)) :
    Delivered rq f (a ++ b) u u' (some e) := by
  rcases h with h | ⟨h1, h2, n, h3⟩
  · left; rw [visit_append, h]
  · right
    refine ⟨h1, h2, min n a.length, ?_⟩
    rw [List.take_append_of_le_length (Nat.min_le_right _ _)]
    rw [← h3]
    congr 1
    rcases Nat.le_total n a.length with h | h
    · rw [Nat.min_eq_left h]
    · rw [Nat.min_eq_right h, List.take_of_length_le h, List.take_of_length_le (Nat.le_refl _)]

theorem Delivered.seq {rq : LookRq σ} {f g a b u u1 u' e} (h1 : visit rq.fetch a u = (u1, none))
    (hf : g.faults ≠ [] → f.faults ≠ []) (h : Delivered rq g b u1 u' e) :
    Delivered rq f (a ++ b) u u' e := by
  rcases h with h | ⟨h2, h3, n, h4⟩
  · left; rw [visit_append, h1]; exact h
  · right
    refine ⟨hf h2, h3, a.length + n, ?_⟩
    rw [List.take_length_add_append, visit_append, h1]; exact h4

theorem tolerateOr_ok {rq : LookRq σ} {K} (ok : LookOk rq K) {u k v u' e}
    (h : rq.fetch u k v = (u', e)) :
    tolerateOr rq.tolerate e none = match e with | some x => .error x | none => .ok none := by
  cases ht : rq.tolerate with
  | false => cases e <;> rfl
  | true =>
    have := ok.tol ht u k v
    rw [h] at this
    simp only at this
    subst this
    rfl

theorem kvFind_cons (k ck v : Bytes) (kvs : List KV) :
    kvFind k ((ck, v) :: kvs) = if ck = k then some v else kvFind k kvs := rfl

theorem findEvents_congr {kvs kvs' : List KV} {ks : List Bytes}
    (h : ∀ k ∈ ks, kvFind k kvs = kvFind k kvs') : findEvents kvs ks = findEvents kvs' ks :=
  List.map_congr_left fun k hk => by rw [h k hk]

theorem restLook_eq {rq : LookRq σ} (ks : List Bytes) (u : σ) :
    restLook rq ks ⟨u, false, false⟩ none =
      (⟨(visit rq.fetch (findEvents [] ks) u).1, false, false⟩,
        (visit rq.fetch (findEvents [] ks) u).2) := by
  induction ks generalizing u with
  | nil => rfl
  | cons k ks ih =>
    unfold restLook
    rw [if_neg (by simp)]
    show _ = (LSt.mk (visit rq.fetch ((k, none) :: findEvents [] ks) u).1 false false,
      (visit rq.fetch ((k, none) :: findEvents [] ks) u).2)
    unfold visit
    rcases rq.fetch u k none with ⟨u', _ | e⟩
    · exact ih u'
    · rfl

/-! ### Lookup of keys -/

theorem kvLook_find {rq : LookRq σ} {K} (ok : LookOk rq K) (kvs : List KV)
    (hs : SortedKV (lookupCompare rq.cmp) kvs) (hK : ∀ kv ∈ kvs, K kv.1) (ks : List Bytes)
    (hks : ks.Pairwise fun a b => lookupCompare rq.cmp a b = .lt) (hkK : ∀ k ∈ ks, K k) (u : σ) :
    endLook rq (kvLook rq (kvs.map fun kv => some (kv.1, kv.2)) ks ⟨u, false, false⟩ none) =
      (⟨(visit rq.fetch (findEvents kvs ks) u).1, false, false⟩,
        (visit rq.fetch (findEvents kvs ks) u).2) := by
  have C := ok.cmp
  induction kvs generalizing ks u with
  | nil =>
    cases ks with
    | nil => rfl
    | cons k ks => exact restLook_eq (k :: ks) u
  | cons kv kvs ih =>
    obtain ⟨ck, v⟩ := kv
    have hck : K ck := hK (ck, v) (by simp)
    have hs' := (List.pairwise_cons.mp hs).2
    have hlt := (List.pairwise_cons.mp hs).1
    have hK' : ∀ kv ∈ kvs, K kv.1 := fun kv h => hK kv (by simp [h])
    have hgen : ∀ ks : List Bytes, (ks.Pairwise fun a b => lookupCompare rq.cmp a b = .lt) →
        (∀ k ∈ ks, K k) → ∀ u,
        endLook rq (match kvRec rq ck v ks ⟨u, false, false⟩ none with
          | .halt st e => .halt st e
          | .go st ks ec => kvLook rq (kvs.map fun kv => some (kv.1, kv.2)) ks st ec) =
        (⟨(visit rq.fetch (findEvents ((ck, v) :: kvs) ks) u).1, false, false⟩,
          (visit rq.fetch (findEvents ((ck, v) :: kvs) ks) u).2) := by
      intro ks
      induction ks with
      | nil => intro _ _ u; simp only [kvRec]; unfold kvLook; rfl
      | cons k ks ihk =>
        intro hp hkK u
        have hk : K k := hkK k (by simp)
        have hp' := (List.pairwise_cons.mp hp).2
        have hkK' : ∀ k ∈ ks, K k := fun x hx => hkK x (by simp [hx])
        unfold kvRec
        simp only [Bool.false_eq_true, false_and, and_false, if_false, or_false]
        cases hc : lookupCompare rq.cmp ck k with
        | lt =>
          simp only [ne_eq, not_true_eq_false, if_false]
          rw [ih hs' hK' (k :: ks) hp hkK u]
          rw [findEvents_congr (kvs := kvs) (kvs' := (ck, v) :: kvs)]
          intro k' hk'
          have : ck ≠ k' := by
            apply C.lt_ne hck (hkK k' hk')
            rcases List.mem_cons.mp hk' with rfl | h
            · exact hc
            · exact C.trans _ _ _ hck hk (hkK k' hk') hc ((List.pairwise_cons.mp hp).1 k' h)
          rw [kvFind_cons, if_neg this]
        | eq =>
          have hkk : ck = k := (C.eq_iff _ _ hck hk).mp hc
          subst hkk
          simp only [ne_eq, reduceCtorEq, not_false_eq_true, if_true]
          have hev : findEvents ((ck, v) :: kvs) (ck :: ks) =
              (ck, some v) :: findEvents kvs ks := by
            show (ck, kvFind ck ((ck, v) :: kvs)) :: findEvents ((ck, v) :: kvs) ks = _
            rw [kvFind_cons, if_pos rfl]
            congr 1
            apply findEvents_congr
            intro k' hk'
            have : ck ≠ k' := C.lt_ne hck (hkK' k' hk') ((List.pairwise_cons.mp hp).1 k' hk')
            rw [kvFind_cons, if_neg this]
          rw [hev]
          unfold visit
          rcases hf : rq.fetch u ck (some v) with ⟨u', _ | e⟩
          · rw [tolerateOr_ok ok hf]
            exact ih hs' hK' ks hp' hkK' u'
          · rw [tolerateOr_ok ok hf]
            rfl
        | gt =>
          simp only [ne_eq, reduceCtorEq, not_false_eq_true, if_true, if_false]
          have hn : kvFind k ((ck, v) :: kvs) = none := by
            apply kvFind_none
            intro kv hkv
            have hlt1 : lookupCompare rq.cmp k ck = .lt := C.gt_lt hck hk hc
            rcases List.mem_cons.mp hkv with rfl | h
            · exact (C.lt_ne hk hck hlt1).symm
            · exact (C.lt_ne hk (hK' kv h) (C.trans _ _ _ hk hck (hK' kv h) hlt1 (hlt kv h))).symm
          have hev : findEvents ((ck, v) :: kvs) (k :: ks) =
              (k, none) :: findEvents ((ck, v) :: kvs) ks := by
            show (k, kvFind k ((ck, v) :: kvs)) :: findEvents ((ck, v) :: kvs) ks = _
            rw [hn]
          rw [hev]
          unfold visit
          rcases hf : rq.fetch u k none with ⟨u', _ | e⟩
          · rw [tolerateOr_ok ok hf]
            exact ihk hp' hkK' u'
          · rw [tolerateOr_ok ok hf]
            rfl
    cases ks with
    | nil => rfl
    | cons k ks =>
      have := hgen (k :: ks) hks hkK u
      rw [← this]
      rfl

/-- What is known of the recursive call. -/
def FindDesc (rq : LookRq σ) (K : Bytes → Prop)
    (descend : Nat → List Bytes → LSt σ → M (LSt σ × Option Err)) (f : File)
    (pos : Nat) (kvs : List KV) : Prop :=
  ∀ g, RFrame f g → ∀ ks u, (ks.Pairwise fun a b => lookupCompare rq.cmp a b = .lt) →
    (∀ k ∈ ks, K k) →
    Sp (descend pos ks ⟨u, false, false⟩) g
      (fun r h => RFrame g h ∧ ∃ u', r.1 = ⟨u', false, false⟩ ∧
        Delivered rq g (findEvents kvs ks) u u' r.2) (fun _ _ => False)

theorem visit_noerr {fetch : σ → Bytes → Option Bytes → σ × Option Err}
    (h : ∀ u k v, (fetch u k v).2 = none) (evs : List (Bytes × Option Bytes)) (u : σ) :
    (visit fetch evs u).2 = none := by
  induction evs generalizing u with
  | nil => rfl
  | cons x xs ih =>
    obtain ⟨k, v⟩ := x
    unfold visit
    have := h u k v
    rcases hf : fetch u k v with ⟨u', _ | e⟩
    · exact ih u'
    · rw [hf] at this; simp at this

theorem tolerateOr_desc {rq : LookRq σ} {K} (ok : LookOk rq K) {f : File} {evs u u' e}
    (ht : rq.tolerate = true → f.faults = []) (h : Delivered rq f evs u u' e) :
    tolerateOr rq.tolerate e none = match e with | some x => .error x | none => .ok none := by
  cases htol : rq.tolerate with
  | false => cases e <;> rfl
  | true =>
    have h0 := visit_noerr (ok.tol htol) evs u
    rcases h with h | ⟨h, _⟩
    · rw [h] at h0
      simp only at h0
      subst h0; rfl
    · exact absurd (ht htol) h

theorem nodeCall_none {rq : LookRq σ} {K} (ok : LookOk rq K) (arg) (st : LSt σ) (ec) :
    nodeCall rq arg st ec = .ok (st, ec) := by
  unfold nodeCall; rw [ok.node]

theorem takeWhile_pairwise {α : Type} {R : α → α → Prop} {l : List α} (p : α → Bool)
    (h : l.Pairwise R) : (l.takeWhile p).Pairwise R := h.sublist (List.takeWhile_sublist p)

theorem dropWhile_pairwise {α : Type} {R : α → α → Prop} {l : List α} (p : α → Bool)
    (h : l.Pairwise R) : (l.dropWhile p).Pairwise R := h.sublist (List.dropWhile_sublist p)

theorem dropWhile_all {cmp : Bytes → Bytes → Ordering} {K} (C : CmpLaws cmp K) {ck : Bytes}
    (hck : K ck) {ks : List Bytes} (hs : ks.Pairwise fun a b => cmp a b = .lt)
    (hK : ∀ k ∈ ks, K k) :
    ∀ k ∈ ks.dropWhile (fun k => cmp ck k ≠ .lt), cmp ck k = .lt := by
  induction ks with
  | nil => simp
  | cons k ks ih =>
    have hk := hK k (by simp)
    obtain ⟨h1, h2⟩ := List.pairwise_cons.mp hs
    intro k' hk'
    by_cases hc : cmp ck k = .lt
    · rw [List.dropWhile_cons_of_neg (by simp [hc])] at hk'
      rcases List.mem_cons.mp hk' with rfl | h
      · exact hc
      · exact C.trans _ _ _ hck hk (hK k' (by simp [h])) hc (h1 k' h)
    · rw [List.dropWhile_cons_of_pos (by simpa using hc)] at hk'
      exact ih h2 (fun x hx => hK x (by simp [hx])) k' hk'

theorem kpLook_find {E : Env} {X : Idx} {rq : LookRq σ} {K} (ok : LookOk rq K) (l : Nat)
    (descend : Nat → List Bytes → LSt σ → M (LSt σ × Option Err)) (f0 : File)
    (cs : List (Item × List KV)) (hcs : ∀ c ∈ cs, ItemAt E X f0 (l + 1) c.1 c.2)
    (hs : SortedKV (lookupCompare rq.cmp) (cs.flatMap (·.2)))
    (hK : ∀ kv ∈ cs.flatMap (·.2), K kv.1)
    (hd : ∀ c ∈ cs, ∀ p, TreeAt E X f0 l p c.2 → FindDesc rq K descend f0 p.pointer c.2)
    (ks : List Bytes) (hks : ks.Pairwise fun a b => lookupCompare rq.cmp a b = .lt)
    (hkK : ∀ k ∈ ks, K k) (u : σ) (f : File) (hf : RFrame f0 f)
    (htf : rq.tolerate = true → f.faults = []) :
    Sp (kpLook rq descend (recsOf cs) ks ⟨u, false, false⟩ none) f
      (fun fl g => RFrame f g ∧ ∃ u' e, endLook rq fl = (⟨u', false, false⟩, e) ∧
        Delivered rq f (findEvents (cs.flatMap (·.2)) ks) u u' e) (fun _ _ => False) := by
  have C := ok.cmp
  induction cs generalizing ks u f with
  | nil =>
    have : kpLook rq descend (recsOf []) ks ⟨u, false, false⟩ none
        = pure (.go ⟨u, false, false⟩ ks none) := by cases ks <;> rfl
    rw [this]
    exact ⟨RFrame.refl _, _, _, restLook_eq ks u, Or.inl rfl⟩
  | cons x cs ih =>
    cases ks with
    | nil => exact ⟨RFrame.refl _, u, none, rfl, Or.inl rfl⟩
    | cons k ks =>
      rw [List.flatMap_cons] at hs hK
      obtain ⟨hs1, hs2, hs3⟩ := List.pairwise_append.mp hs
      have hK1 : ∀ kv ∈ x.2, K kv.1 := fun kv h => hK kv (by simp [h])
      have hK2 : ∀ kv ∈ cs.flatMap (·.2), K kv.1 := fun kv h => hK kv (List.mem_append_right _ h)
      obtain ⟨p, hp, hrp, hlk, htree, -, -⟩ := (hcs x (by simp)).ptr
      have hxk : x.1.key = p.key := by rw [hp]; rfl
      obtain ⟨vl, hvl⟩ := lastKey_mem hlk
      have hck : K p.key := hK1 _ hvl
      have hle := SortedKV.le_last C hs1 hK1 hlk
      have hk : K k := hkK k (by simp)
      have ih' := ih (fun c hc => hcs c (by simp [hc])) hs2 hK2 (fun c hc => hd c (by simp [hc]))
      show Sp (kpLook rq descend (some (x.1.key, x.1.data) :: recsOf cs) (k :: ks) _ none) f _ _
      unfold kpLook
      rw [hxk]
      -- keys above the separator are not below it
      have hright : ∀ k', K k' → lookupCompare rq.cmp p.key k' = .lt →
          kvFind k' (x.2 ++ cs.flatMap (·.2)) = kvFind k' (cs.flatMap (·.2)) := by
        intro k' hk' hlt
        apply kvFind_append_right
        intro kv hkv
        exact C.lt_ne (hK1 kv hkv) hk' (C.le_trans_lt (hK1 kv hkv) hck hk' (hle kv hkv) hlt)
      have hleft : ∀ k', K k' → lookupCompare rq.cmp p.key k' ≠ .lt →
          kvFind k' (x.2 ++ cs.flatMap (·.2)) = kvFind k' x.2 := by
        intro k' hk' hge
        apply kvFind_append_left
        intro kv hkv heq
        subst heq
        exact hge (hs3 _ hvl kv hkv)
      by_cases hc : lookupCompare rq.cmp p.key k = .lt
      · rw [if_neg (by simp [hc])]
        apply (ih' (k :: ks) hks hkK u f hf htf).mono
        · rintro fl g ⟨h1, u', e, h2, h3⟩
          refine ⟨h1, u', e, h2, ?_⟩
          rw [List.flatMap_cons]
          rw [findEvents_congr (kvs' := cs.flatMap (·.2))]
          · exact h3
          · intro k' hk'
            apply hright k' (hkK k' hk')
            rcases List.mem_cons.mp hk' with rfl | h
            · exact hc
            · exact C.trans _ _ _ hck hk (hkK k' hk') hc ((List.pairwise_cons.mp hks).1 k' h)
        · exact fun _ _ h => h
      · rw [if_pos hc]
        simp only [Bool.false_eq_true, if_false]
        rw [← hxk, hrp]
        simp only
        rw [nodeCall_none ok]
        simp only
        rw [hxk]
        generalize htk : (k :: ks.takeWhile fun k' => lookupCompare rq.cmp p.key k' ≠ .lt) = taken
        generalize hrs : (ks.dropWhile fun k' => lookupCompare rq.cmp p.key k' ≠ .lt) = rest
        have hsplit : k :: ks = taken ++ rest := by
          rw [← htk, ← hrs, List.cons_append, List.takeWhile_append_dropWhile]
        rw [hsplit] at hks hkK
        obtain ⟨hp1, hp2, _⟩ := List.pairwise_append.mp hks
        have hkK1 : ∀ k ∈ taken, K k := fun k h => hkK k (by simp [h])
        have hkK2 : ∀ k ∈ rest, K k := fun k h => hkK k (by simp [h])
        have htake : ∀ k' ∈ taken, lookupCompare rq.cmp p.key k' ≠ .lt := by
          rw [← htk]
          intro k' hk'
          rcases List.mem_cons.mp hk' with rfl | h
          · exact hc
          · have := (List.all_eq_true.mp List.all_takeWhile) k' h
            simpa using this
        have hrest : ∀ k' ∈ rest, lookupCompare rq.cmp p.key k' = .lt := by
          rw [← hrs]
          apply dropWhile_all C hck
          · rw [← hsplit] at hks; exact (List.pairwise_cons.mp hks).2
          · rw [← hsplit] at hkK; exact fun x hx => hkK x (by simp [hx])
        have hev : findEvents ((x :: cs).flatMap (·.2)) (k :: ks) =
            findEvents x.2 taken ++ findEvents (cs.flatMap (·.2)) rest := by
          rw [hsplit, List.flatMap_cons]
          show (taken ++ rest).map _ = _
          rw [List.map_append]
          congr 1
          · exact List.map_congr_left fun k' hk' => by rw [hleft k' (hkK1 k' hk') (htake k' hk')]
          · exact List.map_congr_left fun k' hk' => by rw [hright k' (hkK2 k' hk') (hrest k' hk')]
        rw [hev]
        apply Sp.bind' (hd x (by simp) p htree f hf taken u hp1 hkK1)
        · rintro ⟨st, e⟩ g ⟨hr, u1, hst, hdel⟩
          simp only at hst hdel
          subst hst
          simp only
          rw [tolerateOr_desc ok htf hdel]
          cases e with
          | some e => exact ⟨hr, u1, some e, rfl, hdel.stop _⟩
          | none =>
            simp only [Bool.false_eq_true, if_false]
            rw [nodeCall_none ok]
            apply (ih' rest hp2 hkK2 u1 g (hf.trans hr) (fun h => by
              have := hr.1
              rw [htf h] at this
              exact List.suffix_nil.mp this)).mono
            · rintro fl h ⟨h1, u', e, h2, h3⟩
              exact ⟨hr.trans h1, u', e, h2, Delivered.seq hdel.none_eq hr.faults_ne h3⟩
            · exact fun _ _ h => h
        · exact fun _ _ h => h

theorem attempt_spec {α : Type} {m : M α} {f : File} {Q R} (h : Sp m f Q R) :
    Sp (attempt m) f (fun r g => match r with | .ok a => Q a g | .error e => R e g)
      (fun _ _ => False) := by
  unfold Sp attempt at *
  cases hm : m f with
  | ok a g => rw [hm] at h; exact h
  | error e g => rw [hm] at h; exact h

theorem lookInner_find (E : Env) (L : E.Laws) {X : Idx} {rq : LookRq σ} {K} (ok : LookOk rq K)
    (hV : ∀ kv, X.V kv → K kv.1 ∧ kv.1.length < 4096)
    (fuel l : Nat) (hl : l < fuel) (p : NodePointer) (kvs : List KV) (f : File) (w : f.WF)
    (h : TreeAt E X f l p kvs) (hs : SortedKV (lookupCompare rq.cmp) kvs)
    (htf : rq.tolerate = true → f.faults = []) :
    FindDesc rq K (lookInner E rq fuel) f p.pointer kvs := by
  induction fuel generalizing l p kvs f with
  | zero => omega
  | succ fuel ih =>
    intro g hg ks u hks hkK
    have htg : rq.tolerate = true → g.faults = [] := fun h => by
      have := hg.1
      rw [htf h] at this
      exact List.suffix_nil.mp this
    have wg := hg.wf w
    have hK : ∀ kv ∈ kvs, K kv.1 := fun kv hkv => (hV kv (h.valid kv hkv)).1
    cases ks with
    | nil => exact ⟨RFrame.refl _, u, rfl, Or.inl rfl⟩
    | cons k ks =>
      unfold lookInner
      obtain ⟨cs, hne, hcs, rfl, hz, _⟩ := h.keep hg.keep
      apply Sp.bind' (attempt_spec (readNode_spec E L p.pointer (kindOf l).byte (cs.map (·.1)) g
        wg.crc hz (by
          intro i hi
          obtain ⟨c, hc, rfl⟩ := List.mem_map.mp hi
          exact (hcs c hc).fits (fun kv hkv => (hV kv hkv).2))))
      · rintro (e | ⟨t, recs⟩) g1 hr
        · exact ⟨hr.1, u, rfl, Or.inr ⟨hr.2, by simp, 0, rfl⟩⟩
        · simp only at hr
          obtain ⟨hr0, hr1⟩ := hr
          injection hr0 with ht hrecs
          subst ht
          have htg1 : rq.tolerate = true → g1.faults = [] := fun h => by
            have := hr1.1
            rw [htg h] at this
            exact List.suffix_nil.mp this
          cases l with
          | zero =>
            rw [hrecs, leaf_items hcs]
            simp only
            rw [if_neg (by decide), if_pos (by decide)]
            rw [kvLook_find ok _ hs hK (k :: ks) hks hkK u]
            exact ⟨hr1, _, rfl, Or.inl rfl⟩
          | succ l =>
            simp only
            rw [if_pos (show (kindOf (l + 1)).byte = 0 from rfl), hrecs, List.map_map]
            apply Sp.bind' (kpLook_find (E := E) (X := X) ok l _ g1 cs
              (fun c hc => (hcs c hc).keep hr1.keep) hs hK
              (fun c hc p' htree => ih l (by omega) p' c.2 g1 (hr1.wf wg) htree (by
                obtain ⟨a, b, hab⟩ := List.append_of_mem hc
                rw [hab, List.flatMap_append, List.flatMap_cons] at hs
                exact (List.pairwise_append.mp (List.pairwise_append.mp hs).2.1).1) htg1)
              (k :: ks) hks hkK u g1 (RFrame.refl _) htg1)
            · rintro fl g2 ⟨h1, u', e, h2, h3⟩
              rw [h2]
              exact ⟨hr1.trans h1, u', rfl, Delivered.seq (a := []) rfl hr1.faults_ne h3⟩
            · exact fun _ _ h => h
      · exact fun _ _ h => h

/-! ### Range scans -/

/-- The state after scanning the range `lo` to `hi` of the entries `kvs`: the events have been
delivered and, unless there was an error, the scan is either still on or over, the latter only
if an entry is past the upper bound. -/
def FoldOut (rq : LookRq σ) (f : File) (lo : Bytes) (hi : Option Bytes) (kvs : List KV) (b : Bool)
    (u : σ) (r : LSt σ × Option Err) : Prop :=
  Delivered rq f (rangeEvents (lookupCompare rq.cmp) lo hi kvs) u r.1.user r.2 ∧
    (r.2 = none → (r.1.fold = true ∧ (b = true → r.1.inFold = true)) ∨
      (r.1.fold = false ∧ r.1.inFold = false ∧
        ∃ h, hi = some h ∧ ∃ kv ∈ kvs, lookupCompare rq.cmp kv.1 h = .gt))

theorem rangeEvents_append (lc) (lo : Bytes) (hi : Option Bytes) (a b : List KV) :
    rangeEvents lc lo hi (a ++ b) = rangeEvents lc lo hi a ++ rangeEvents lc lo hi b := by
  simp [rangeEvents]

theorem rangeEvents_nil {lc} {lo : Bytes} {hi : Option Bytes} {kvs : List KV}
    (h : ∀ kv ∈ kvs, inRange lc lo hi kv.1 = false) : rangeEvents lc lo hi kvs = [] := by
  unfold rangeEvents
  rw [List.filter_eq_nil_iff.mpr (fun kv hkv => by simp [h kv hkv])]
  rfl

theorem inRange_below {lc} {lo : Bytes} {hi : Option Bytes} {k : Bytes} (h : lc k lo = .lt) :
    inRange lc lo hi k = false := by simp [inRange, h]

theorem inRange_above {lc} {lo h : Bytes} {k : Bytes} (hk : lc k h = .gt) :
    inRange lc lo (some h) k = false := by simp [inRange, hk]

/-- Keys as passed by the callers. -/
def boundKeys (lo : Bytes) (hi : Option Bytes) : List Bytes := lo :: hi.toList

theorem pastEnd_eq (cmp) (ck : Bytes) (hi : Option Bytes) :
    pastEnd cmp ck hi.toList = true ↔ ∃ h, hi = some h ∧ lookupCompare cmp ck h = .gt := by
  cases hi with
  | none => simp [pastEnd]
  | some h => simp [pastEnd]

theorem kvLook_fold {rq : LookRq σ} {K} (ok : LookOk rq K) (f : File) (kvs : List KV)
    (hs : SortedKV (lookupCompare rq.cmp) kvs) (hK : ∀ kv ∈ kvs, K kv.1) (lo : Bytes)
    (hi : Option Bytes) (hlo : K lo) (hhi : ∀ h, hi = some h → K h) (b : Bool) (u : σ) :
    FoldOut rq f lo hi kvs b u
      (endLook rq (kvLook rq (kvs.map fun kv => some (kv.1, kv.2)) (boundKeys lo hi)
        ⟨u, true, b⟩ none)) := by
  have C := ok.cmp
  induction kvs generalizing b u with
  | nil =>
    show FoldOut rq f lo hi [] b u (⟨u, true, b⟩, none)
    exact ⟨Or.inl rfl, fun _ => Or.inl ⟨rfl, id⟩⟩
  | cons kv kvs ih =>
    obtain ⟨ck, v⟩ := kv
    have hck : K ck := hK (ck, v) (by simp)
    obtain ⟨hlt, hs'⟩ := List.pairwise_cons.mp hs
    have hK' : ∀ kv ∈ kvs, K kv.1 := fun kv h => hK kv (by simp [h])
    show FoldOut rq f lo hi ((ck, v) :: kvs) b u
      (endLook rq (match kvRec rq ck v (lo :: hi.toList) ⟨u, true, b⟩ none with
          | .halt st e => .halt st e
          | .go st ks ec => kvLook rq (kvs.map fun kv => some (kv.1, kv.2)) ks st ec))
    unfold kvRec
    have hst : (if lookupCompare rq.cmp ck lo ≠ .lt ∧ True ∧ ¬ b = true then LSt.mk u true true
        else LSt.mk u true b) = ⟨u, true, b || decide (lookupCompare rq.cmp ck lo ≠ .lt)⟩ := by
      by_cases hc : lookupCompare rq.cmp ck lo = .lt
      · simp [hc]
      · cases b <;> simp [hc]
    simp only []
    rw [hst]
    by_cases hpe : (b || decide (lookupCompare rq.cmp ck lo ≠ .lt)) = true ∧
        pastEnd rq.cmp ck hi.toList = true
    · rw [if_pos hpe]
      obtain ⟨h, rfl, hgt⟩ := (pastEnd_eq rq.cmp ck hi).mp hpe.2
      have hh := hhi h rfl
      have : ∀ kv ∈ (ck, v) :: kvs, lookupCompare rq.cmp kv.1 h = .gt := by
        intro kv hkv
        rcases List.mem_cons.mp hkv with rfl | hkv
        · exact hgt
        · exact C.lt_gt hh (hK' kv hkv) (C.trans _ _ _ hh hck (hK' kv hkv) (C.gt_lt hck hh hgt)
            (hlt kv hkv))
      have he : endLook rq (kvLook rq (kvs.map fun kv => some (kv.1, kv.2)) []
          ⟨u, false, false⟩ none) = (⟨u, false, false⟩, none) := by
        unfold kvLook; rfl
      simp only [he]
      refine ⟨?_, fun _ => Or.inr ⟨rfl, rfl, h, rfl, (ck, v), by simp, hgt⟩⟩
      left
      rw [rangeEvents_nil (fun kv hkv => inRange_above (this kv hkv))]
      rfl
    · rw [if_neg hpe]
      by_cases hc : lookupCompare rq.cmp ck lo = .lt
      · rw [if_neg (by simp [hc])]
        simp only [hc, ne_eq, not_true_eq_false, decide_false, Bool.or_false]
        have := ih hs' hK' b u
        refine ⟨?_, fun h0 => ?_⟩
        · show Delivered rq f (rangeEvents _ lo hi ([(ck, v)] ++ kvs)) _ _ _
          rw [rangeEvents_append, rangeEvents_nil (kvs := [(ck, v)]) (fun kv hkv => by
            simp at hkv; subst hkv; exact inRange_below hc)]
          exact this.1
        · rcases this.2 h0 with h1 | ⟨h1, h2, h, h3, kv, h4, h5⟩
          · exact Or.inl h1
          · exact Or.inr ⟨h1, h2, h, h3, kv, by simp [h4], h5⟩
      · have hb : (b || decide (lookupCompare rq.cmp ck lo ≠ .lt)) = true := by simp [hc]
        rw [if_pos hc]
        simp only [hb, or_true, if_true]
        have hin : inRange (lookupCompare rq.cmp) lo hi ck = true := by
          unfold inRange
          cases hi with
          | none => simp [hc]
          | some h =>
            simp only [ne_eq, hc, not_false_eq_true, decide_true, Bool.true_and,
              decide_eq_true_eq]
            intro hgt
            exact hpe ⟨hb, (pastEnd_eq rq.cmp ck (some h)).mpr ⟨h, rfl, hgt⟩⟩
        have hev : rangeEvents (lookupCompare rq.cmp) lo hi ((ck, v) :: kvs) =
            [(ck, some v)] ++ rangeEvents (lookupCompare rq.cmp) lo hi kvs := by
          unfold rangeEvents
          rw [List.filter_cons_of_pos (by simpa using hin)]
          rfl
        unfold FoldOut
        rw [hev]
        rcases hf : rq.fetch u ck (some v) with ⟨u', _ | e⟩
        · rw [tolerateOr_ok ok hf]
          have := ih hs' hK' true u'
          simp only at this ⊢
          refine ⟨?_, fun h0 => ?_⟩
          · apply Delivered.seq (g := f) (u1 := u') _ id this.1
            unfold visit
            rw [hf]
            rfl
          · rcases this.2 h0 with ⟨h1, h2⟩ | ⟨h1, h2, h, h3, kv, h4, h5⟩
            · exact Or.inl ⟨h1, fun _ => h2 rfl⟩
            · exact Or.inr ⟨h1, h2, h, h3, kv, by simp [h4], h5⟩
        · rw [tolerateOr_ok ok hf]
          refine ⟨?_, fun h0 => by simp [endLook] at h0⟩
          left
          rw [visit_append]
          show (match visit rq.fetch [(ck, some v)] u with
            | (u', some e) => (u', some e)
            | (u', none) => visit rq.fetch _ u') = _
          have : visit rq.fetch [(ck, some v)] u = (u', some e) := by
            unfold visit; rw [hf]
          rw [this]
          rfl

/-- What is known of the recursive call. -/
def FoldDesc (rq : LookRq σ) (K : Bytes → Prop)
    (descend : Nat → List Bytes → LSt σ → M (LSt σ × Option Err)) (f : File)
    (pos : Nat) (kvs : List KV) : Prop :=
  ∀ g, RFrame f g → ∀ lo hi b u, K lo → (∀ h, hi = some h → K h) →
    Sp (descend pos (boundKeys lo hi) ⟨u, true, b⟩) g
      (fun r h => RFrame g h ∧ FoldOut rq g lo hi kvs b u r) (fun _ _ => False)

theorem kpLook_fold {E : Env} {X : Idx} {rq : LookRq σ} {K} (ok : LookOk rq K) (l : Nat)
    (descend : Nat → List Bytes → LSt σ → M (LSt σ × Option Err)) (f0 : File)
    (cs : List (Item × List KV)) (hcs : ∀ c ∈ cs, ItemAt E X f0 (l + 1) c.1 c.2)
    (hs : SortedKV (lookupCompare rq.cmp) (cs.flatMap (·.2)))
    (hK : ∀ kv ∈ cs.flatMap (·.2), K kv.1)
    (hd : ∀ c ∈ cs, ∀ p, TreeAt E X f0 l p c.2 → FoldDesc rq K descend f0 p.pointer c.2)
    (lo : Bytes) (hi : Option Bytes) (hlo : K lo) (hhi : ∀ h, hi = some h → K h)
    (b : Bool) (u : σ) (f : File) (hf : RFrame f0 f)
    (htf : rq.tolerate = true → f.faults = []) :
    Sp (kpLook rq descend (recsOf cs) (boundKeys lo hi) ⟨u, true, b⟩ none) f
      (fun fl g => RFrame f g ∧ FoldOut rq f lo hi (cs.flatMap (·.2)) b u (endLook rq fl))
      (fun _ _ => False) := by
  have C := ok.cmp
  induction cs generalizing b u f with
  | nil => exact ⟨RFrame.refl _, Or.inl rfl, fun _ => Or.inl ⟨rfl, id⟩⟩
  | cons x cs ih =>
    rw [List.flatMap_cons] at hs hK
    obtain ⟨hs1, hs2, hs3⟩ := List.pairwise_append.mp hs
    have hK1 : ∀ kv ∈ x.2, K kv.1 := fun kv h => hK kv (by simp [h])
    have hK2 : ∀ kv ∈ cs.flatMap (·.2), K kv.1 := fun kv h => hK kv (List.mem_append_right _ h)
    obtain ⟨p, hp, hrp, hlk, htree, -, -⟩ := (hcs x (by simp)).ptr
    have hxk : x.1.key = p.key := by rw [hp]; rfl
    obtain ⟨vl, hvl⟩ := lastKey_mem hlk
    have hck : K p.key := hK1 _ hvl
    have hle := SortedKV.le_last C hs1 hK1 hlk
    have ih' := ih (fun c hc => hcs c (by simp [hc])) hs2 hK2 (fun c hc => hd c (by simp [hc]))
    show Sp (kpLook rq descend (some (x.1.key, x.1.data) :: recsOf cs) (lo :: hi.toList) _ none) f _ _
    unfold kpLook
    rw [hxk]
    by_cases hc : lookupCompare rq.cmp p.key lo = .lt
    · rw [if_neg (by simp [hc])]
      apply (ih' b u f hf htf).mono
      · rintro fl g ⟨h1, h2, h3⟩
        refine ⟨h1, ?_, fun h0 => ?_⟩
        · rw [List.flatMap_cons, rangeEvents_append, rangeEvents_nil (kvs := x.2) (fun kv hkv =>
            inRange_below (C.le_trans_lt (hK1 kv hkv) hck hlo (hle kv hkv) hc))]
          exact h2
        · rcases h3 h0 with h4 | ⟨h4, h5, h, h6, kv, h7, h8⟩
          · exact Or.inl h4
          · refine Or.inr ⟨h4, h5, h, h6, kv, ?_, h8⟩
            rw [List.flatMap_cons]; exact List.mem_append_right _ h7
      · exact fun _ _ h => h
    · rw [if_pos hc]
      simp only [if_true]
      rw [← hxk, hrp]
      simp only
      rw [nodeCall_none ok]
      simp only
      rw [hxk]
      -- the bounds handed down
      obtain ⟨hi', hi1, hi2, hi3, hi4⟩ : ∃ hi' : Option Bytes,
          (lo :: hi.toList.takeWhile fun k' => lookupCompare rq.cmp p.key k' ≠ .lt) =
            boundKeys lo hi' ∧
          (∀ h, hi' = some h → K h) ∧
          rangeEvents (lookupCompare rq.cmp) lo hi x.2 = rangeEvents (lookupCompare rq.cmp) lo hi' x.2 ∧
          (∀ h, hi' = some h → hi = some h ∧
            (hi.toList.dropWhile fun k' => lookupCompare rq.cmp p.key k' ≠ .lt) = []) := by
        cases hi with
        | none => exact ⟨none, rfl, by simp, rfl, by simp⟩
        | some h =>
          have hh := hhi h rfl
          by_cases hch : lookupCompare rq.cmp p.key h = .lt
          · refine ⟨none, by simp [hch, boundKeys], by simp, ?_, by simp⟩
            unfold rangeEvents
            congr 1
            apply List.filter_congr
            intro kv hkv
            have := C.le_trans_lt (hK1 kv hkv) hck hh (hle kv hkv) hch
            simp [inRange, this]
          · exact ⟨some h, by simp [hch, boundKeys], hhi, rfl, by
              intro h' hh'
              refine ⟨hh', ?_⟩
              simp [hch]⟩
      rw [hi1]
      generalize hrs : (hi.toList.dropWhile fun k' => lookupCompare rq.cmp p.key k' ≠ .lt) = rest
      rw [hrs] at hi4
      apply Sp.bind' (hd x (by simp) p htree f hf lo hi' true u hlo hi2)
      · rintro ⟨st, e⟩ g ⟨hr, hdel, hfl⟩
        rw [← hi3] at hdel
        simp only at hdel hfl ⊢
        rw [tolerateOr_desc ok htf hdel]
        cases e with
        | some e =>
          refine ⟨hr, ?_, fun h0 => by simp [endLook] at h0⟩
          rw [List.flatMap_cons, rangeEvents_append]
          exact hdel.stop _
        | none =>
          simp only
          rw [nodeCall_none ok]
          rcases hfl rfl with ⟨h1, h2⟩ | ⟨h1, h2, h, h3, kv, h4, h5⟩
          · replace h2 := h2 trivial
            obtain ⟨u1, fo, fi⟩ := st
            simp only at h1 h2 hdel ⊢
            subst h1; subst h2
            simp only [if_true]
            apply (ih' true u1 g (hf.trans hr) (fun h => by
              have := hr.1
              rw [htf h] at this
              exact List.suffix_nil.mp this)).mono
            · rintro fl h ⟨h1, h2, h3⟩
              refine ⟨hr.trans h1, ?_, fun h0 => ?_⟩
              · rw [List.flatMap_cons, rangeEvents_append]
                exact Delivered.seq hdel.none_eq hr.faults_ne h2
              · rcases h3 h0 with ⟨h4, h5⟩ | ⟨h4, h5, h, h6, kv, h7, h8⟩
                · exact Or.inl ⟨h4, fun _ => h5 rfl⟩
                · refine Or.inr ⟨h4, h5, h, h6, kv, ?_, h8⟩
                  rw [List.flatMap_cons]; exact List.mem_append_right _ h7
            · exact fun _ _ h => h
          · obtain ⟨hhi', hrest⟩ := hi4 h h3
            obtain ⟨u1, fo, fi⟩ := st
            simp only at h1 h2 hdel ⊢
            subst h1; subst h2
            rw [hrest]
            have : kpLook rq descend (recsOf cs) (if False then lo :: hi.toList else [])
                ⟨u1, false, false⟩ none = pure (.go ⟨u1, false, false⟩ [] none) := by
              rw [if_neg id]
              cases cs with
              | nil => rfl
              | cons y ys => rfl
            simp only [Bool.false_eq_true]
            rw [this]
            refine ⟨hr, ?_, fun _ => Or.inr ⟨rfl, rfl, h, hhi', kv, ?_, h5⟩⟩
            · rw [List.flatMap_cons, rangeEvents_append]
              rw [rangeEvents_nil (kvs := cs.flatMap (·.2)), List.append_nil]
              · exact hdel
              · intro kv' hkv'
                subst hhi'
                have hh := hhi h rfl
                apply inRange_above
                exact C.lt_gt hh (hK2 kv' hkv') (C.trans _ _ _ hh (hK1 kv h4) (hK2 kv' hkv')
                  (C.gt_lt (hK1 kv h4) hh h5) (hs3 kv h4 kv' hkv'))
            · rw [List.flatMap_cons]; exact List.mem_append_left _ h4
      · exact fun _ _ h => h

theorem lookInner_fold (E : Env) (L : E.Laws) {X : Idx} {rq : LookRq σ} {K} (ok : LookOk rq K)
    (hV : ∀ kv, X.V kv → K kv.1 ∧ kv.1.length < 4096)
    (fuel l : Nat) (hl : l < fuel) (p : NodePointer) (kvs : List KV) (f : File) (w : f.WF)
    (h : TreeAt E X f l p kvs) (hs : SortedKV (lookupCompare rq.cmp) kvs)
    (htf : rq.tolerate = true → f.faults = []) :
    FoldDesc rq K (lookInner E rq fuel) f p.pointer kvs := by
  induction fuel generalizing l p kvs f with
  | zero => omega
  | succ fuel ih =>
    intro g hg lo hi b u hlo hhi
    have htg : rq.tolerate = true → g.faults = [] := fun h => by
      have := hg.1
      rw [htf h] at this
      exact List.suffix_nil.mp this
    have wg := hg.wf w
    have hK : ∀ kv ∈ kvs, K kv.1 := fun kv hkv => (hV kv (h.valid kv hkv)).1
    unfold boundKeys lookInner
    obtain ⟨cs, hne, hcs, rfl, hz, _⟩ := h.keep hg.keep
    apply Sp.bind' (attempt_spec (readNode_spec E L p.pointer (kindOf l).byte (cs.map (·.1)) g
      wg.crc hz (by
        intro i hi
        obtain ⟨c, hc, rfl⟩ := List.mem_map.mp hi
        exact (hcs c hc).fits (fun kv hkv => (hV kv hkv).2))))
    · rintro (e | ⟨t, recs⟩) g1 hr
      · exact ⟨hr.1, Or.inr ⟨hr.2, by simp, 0, rfl⟩, fun h0 => by simp at h0⟩
      · simp only at hr
        obtain ⟨hr0, hr1⟩ := hr
        injection hr0 with ht hrecs
        subst ht
        have htg1 : rq.tolerate = true → g1.faults = [] := fun h => by
          have := hr1.1
          rw [htg h] at this
          exact List.suffix_nil.mp this
        cases l with
        | zero =>
          rw [hrecs, leaf_items hcs]
          simp only
          rw [if_neg (by decide), if_pos (by decide)]
          exact ⟨hr1, kvLook_fold ok g _ hs hK lo hi hlo hhi b u⟩
        | succ l =>
          simp only
          rw [if_pos (show (kindOf (l + 1)).byte = 0 from rfl), hrecs, List.map_map]
          apply Sp.bind' (kpLook_fold (E := E) (X := X) ok l _ g1 cs
            (fun c hc => (hcs c hc).keep hr1.keep) hs hK
            (fun c hc p' htree => ih l (by omega) p' c.2 g1 (hr1.wf wg) htree (by
              obtain ⟨a, b, hab⟩ := List.append_of_mem hc
              rw [hab, List.flatMap_append, List.flatMap_cons] at hs
              exact (List.pairwise_append.mp (List.pairwise_append.mp hs).2.1).1) htg1)
            lo hi hlo hhi b u g1 (RFrame.refl _) htg1)
          · rintro fl g2 ⟨h1, h2, h3⟩
            exact ⟨hr1.trans h1, Delivered.seq (a := []) rfl hr1.faults_ne h2, h3⟩
          · exact fun _ _ h => h
    · exact fun _ _ h => h

/-! ### Whole lookups -/

theorem btreeLookup_find (E : Env) (L : E.Laws) {X : Idx} {rq : LookRq σ} {K} (ok : LookOk rq K)
    (hV : ∀ kv, X.V kv → K kv.1 ∧ kv.1.length < 4096)
    (p : NodePointer) (kvs : List KV) (f : File) (w : f.WF)
    (h : RootAt E X f (some p) kvs) (hs : SortedKV (lookupCompare rq.cmp) kvs)
    (htf : rq.tolerate = true → f.faults = [])
    (ks : List Bytes) (hks : ks.Pairwise fun a b => lookupCompare rq.cmp a b = .lt)
    (hkK : ∀ k ∈ ks, K k) (u : σ) :
    Sp (btreeLookup E rq false p.pointer ks u) f
      (fun r g => RFrame f g ∧ Delivered rq f (findEvents kvs ks) u r.1 r.2) (fun _ _ => False) := by
  obtain ⟨l, ht⟩ := h
  unfold btreeLookup
  apply Sp.get_bind
  have := ht.height
  have := ht.pointer_lt
  have := w.pos_le
  apply Sp.bind' (lookInner_find E L ok hV _ l (by omega) p kvs f w ht hs htf f (RFrame.refl _) ks u
    hks hkK)
  · rintro ⟨st, e⟩ g ⟨h1, u', h2, h3⟩
    simp only at h2
    subst h2
    exact ⟨h1, h3⟩
  · exact fun _ _ h => h

theorem btreeLookup_fold (E : Env) (L : E.Laws) {X : Idx} {rq : LookRq σ} {K} (ok : LookOk rq K)
    (hV : ∀ kv, X.V kv → K kv.1 ∧ kv.1.length < 4096)
    (p : NodePointer) (kvs : List KV) (f : File) (w : f.WF)
    (h : RootAt E X f (some p) kvs) (hs : SortedKV (lookupCompare rq.cmp) kvs)
    (htf : rq.tolerate = true → f.faults = [])
    (lo : Bytes) (hi : Option Bytes) (hlo : K lo) (hhi : ∀ h, hi = some h → K h) (u : σ) :
    Sp (btreeLookup E rq true p.pointer (boundKeys lo hi) u) f
      (fun r g => RFrame f g ∧
        Delivered rq f (rangeEvents (lookupCompare rq.cmp) lo hi kvs) u r.1 r.2)
      (fun _ _ => False) := by
  obtain ⟨l, ht⟩ := h
  unfold btreeLookup
  apply Sp.get_bind
  have := ht.height
  have := ht.pointer_lt
  have := w.pos_le
  apply Sp.bind' (lookInner_fold E L ok hV _ l (by omega) p kvs f w ht hs htf f (RFrame.refl _) lo hi
    false u hlo hhi)
  · rintro ⟨st, e⟩ g ⟨h1, h2⟩
    exact ⟨h1, h2.1⟩
  · exact fun _ _ h => h

/-! ### The order used by lookups -/

theorem lookupCompare_nonempty {cmp : Bytes → Bytes → Ordering} {a b : Bytes} (ha : a ≠ [])
    (hb : b ≠ []) : lookupCompare cmp a b = cmp a b := by
  have h1 : a.length ≠ 0 := by simpa using ha
  have h2 : b.length ≠ 0 := by simpa using hb
  unfold lookupCompare
  rw [if_neg (by simp [h1]), if_neg h1, if_neg h2]

/-- Document ids: the byte-wise order already puts the empty key first. -/
theorem lookupCompare_ebin : lookupCompare ebinCmp = ebinCmp := by
  funext a b
  cases a with
  | nil =>
    cases b with
    | nil => rfl
    | cons y ys => rw [ebinCmp_nil_cons]; rfl
  | cons x xs =>
    cases b with
    | nil => rw [ebinCmp_cons_nil]; rfl
    | cons y ys => exact lookupCompare_nonempty (by simp) (by simp)

theorem lookupCompare_laws {cmp : Bytes → Bytes → Ordering} {K : Bytes → Prop} (C : CmpLaws cmp K)
    (hne : ∀ k, K k → k ≠ []) : CmpLaws (lookupCompare cmp) (fun k => K k ∨ k = []) where
  eq_iff a b ha hb := by
    rcases ha with ha | rfl <;> rcases hb with hb | rfl
    · rw [lookupCompare_nonempty (hne a ha) (hne b hb)]; exact C.eq_iff a b ha hb
    · have := hne a ha
      simp [lookupCompare, this]
    · have := hne b hb
      simp [lookupCompare, this, this.symm]
    · simp [lookupCompare]
  swap a b ha hb := by
    rcases ha with ha | rfl <;> rcases hb with hb | rfl
    · rw [lookupCompare_nonempty (hne a ha) (hne b hb), lookupCompare_nonempty (hne b hb) (hne a ha)]
      exact C.swap a b ha hb
    · have := hne a ha
      simp [lookupCompare, this]
    · have := hne b hb
      simp [lookupCompare, this]
    · simp [lookupCompare]
  trans a b c ha hb hc h1 h2 := by
    rcases hc with hc | rfl
    · rcases ha with ha | rfl
      · rcases hb with hb | rfl
        · rw [lookupCompare_nonempty (hne a ha) (hne b hb)] at h1
          rw [lookupCompare_nonempty (hne b hb) (hne c hc)] at h2
          rw [lookupCompare_nonempty (hne a ha) (hne c hc)]
          exact C.trans a b c ha hb hc h1 h2
        · have := hne a ha
          simp [lookupCompare, this] at h1
      · have := hne c hc
        simp [lookupCompare, this]
    · by_cases hb0 : b = []
      · subst hb0; simp [lookupCompare] at h2
      · simp [lookupCompare, hb0] at h2

end Couchstore
