import Verif.Spec.Walk
import Verif.Lemmas.Scan

/-! Helper lemmas: walks over a stored tree. -/

namespace Couchstore

variable {σ : Type}

/-- Two lists related element by element. -/
inductive All2 {α β : Type} (P : α → β → Prop) : List α → List β → Prop
  | nil : All2 P [] []
  | cons {a b l m} : P a b → All2 P l m → All2 P (a :: l) (b :: m)

theorem All2.mono {α β : Type} {P Q : α → β → Prop} (h : ∀ a b, P a b → Q a b) {l : List α} {m : List β} (hl : All2 P l m) : All2 Q l m := by
  induction hl with
  | nil => exact .nil
  | cons h1 _ ih => exact .cons (h _ _ h1) ih

theorem All2.mem_right {α β : Type} {P : α → β → Prop} {l : List α} {m : List β} (hl : All2 P l m) {b : β} (hb : b ∈ m) :
    ∃ a ∈ l, P a b := by
  induction hl with
  | nil => cases hb
  | cons h1 _ ih =>
    rcases List.mem_cons.mp hb with rfl | hb
    · exact ⟨_, by simp, h1⟩
    · obtain ⟨a, ha, h⟩ := ih hb
      exact ⟨a, by simp [ha], h⟩

/-- What a lookup with a node callback calls. -/
inductive LookEv where
  | enter (size : Nat) (reduce : Bytes)
  | leave
  | entry (k v : Bytes)

/-- One call. -/
def evStep (rq : LookRq σ) (nd : σ → Option (Nat × Bytes) → σ × Option Err) (u : σ) : LookEv → σ × Option Err
  | .enter s r => nd u (some (s, r))
  | .leave => nd u none
  | .entry k v => rq.fetch u k (some v)

/-- The calls one after the other, up to the first error. -/
def runEvs (rq : LookRq σ) (nd : σ → Option (Nat × Bytes) → σ × Option Err) : List LookEv → σ → σ × Option Err
  | [], u => (u, none)
  | x :: l, u =>
    match evStep rq nd u x with
    | (u, some e) => (u, some e)
    | (u, none) => runEvs rq nd l u

theorem runEvs_append (rq : LookRq σ) (nd) (a b : List LookEv) (u : σ) :
    runEvs rq nd (a ++ b) u =
      match runEvs rq nd a u with
      | (u', some e) => (u', some e)
      | (u', none) => runEvs rq nd b u' := by
  induction a generalizing u with
  | nil => rfl
  | cons x xs ih =>
    simp only [List.cons_append, runEvs]
    rcases evStep rq nd u x with ⟨u', _ | e⟩
    · exact ih u'
    · rfl

theorem runEvs_noerr {rq : LookRq σ} {nd} (h : ∀ u x, (evStep rq nd u x).2 = none) (evs : List LookEv) (u : σ) :
    (runEvs rq nd evs u).2 = none := by
  induction evs generalizing u with
  | nil => rfl
  | cons x xs ih =>
    simp only [runEvs]
    have := h u x
    rcases hx : evStep rq nd u x with ⟨u', _ | e⟩
    · exact ih u'
    · rw [hx] at this; cases this

/-- As `Delivered`, with the calls for nodes. -/
def Ran (rq : LookRq σ) (nd : σ → Option (Nat × Bytes) → σ × Option Err) (f : File) (evs : List LookEv) (u u' : σ) (e : Option Err) : Prop :=
  runEvs rq nd evs u = (u', e) ∨ (f.faults ≠ [] ∧ e ≠ none ∧ ∃ n, runEvs rq nd (evs.take n) u = (u', none))

theorem Ran.none_eq {rq : LookRq σ} {nd f evs u u'} (h : Ran rq nd f evs u u' none) : runEvs rq nd evs u = (u', none) := by
  rcases h with h | ⟨_, h, _⟩
  · exact h
  · exact absurd rfl h

theorem Ran.stop {rq : LookRq σ} {nd f a u u' e} (b) (h : Ran rq nd f a u u' (some e)) : Ran rq nd f (a ++ b) u u' (some e) := by
  rcases h with h | ⟨h1, h2, n, h3⟩
  · left; rw [runEvs_append, h]
  · right
    refine ⟨h1, h2, min n a.length, ?_⟩
    rw [List.take_append_of_le_length (Nat.min_le_right _ _)]
    rw [← h3]
    congr 1
    rcases Nat.le_total n a.length with h | h
    · rw [Nat.min_eq_left h]
    · rw [Nat.min_eq_right h, List.take_of_length_le h, List.take_of_length_le (Nat.le_refl _)]

theorem Ran.seq {rq : LookRq σ} {nd f g a b u u1 u' e} (h1 : runEvs rq nd a u = (u1, none))
    (hf : g.faults ≠ [] → f.faults ≠ []) (h : Ran rq nd g b u1 u' e) : Ran rq nd f (a ++ b) u u' e := by
  rcases h with h | ⟨h2, h3, n, h4⟩
  · left; rw [runEvs_append, h1]; exact h
  · right
    refine ⟨hf h2, h3, a.length + n, ?_⟩
    rw [List.take_append, List.take_of_length_le (by omega), Nat.add_sub_cancel_left, runEvs_append, h1]
    exact h4

/-- What is required of a request with a node callback. -/
structure WalkOk (rq : LookRq σ) (nd : σ → Option (Nat × Bytes) → σ × Option Err) (K : Bytes → Prop) : Prop where
  cmp : CmpLaws (lookupCompare rq.cmp) K
  tolF : rq.tolerate = true → ∀ u k v, (rq.fetch u k v).2 = none
  tolN : rq.tolerate = true → ∀ u a, (nd u a).2 = none
  node : rq.node = some nd

theorem WalkOk.tol {rq : LookRq σ} {nd K} (ok : WalkOk rq nd K) (h : rq.tolerate = true) (u : σ) (x : LookEv) :
    (evStep rq nd u x).2 = none := by
  cases x
  · exact ok.tolN h _ _
  · exact ok.tolN h _ _
  · exact ok.tolF h _ _ _

theorem kvRec_node (rq : LookRq σ) (nd) (ck v : Bytes) (ks : List Bytes) (st : LSt σ) (ec : Option Err) :
    kvRec { rq with node := nd } ck v ks st ec = kvRec rq ck v ks st ec := by
  induction ks generalizing st ec with
  | nil => rfl
  | cons k ks ih =>
    unfold kvRec
    simp only [ih]

theorem kvLook_node (rq : LookRq σ) (nd) (recs : List (Option (Bytes × Bytes))) (ks : List Bytes) (st : LSt σ) (ec : Option Err) :
    kvLook { rq with node := nd } recs ks st ec = kvLook rq recs ks st ec := by
  induction recs generalizing ks st ec with
  | nil => cases ks <;> rfl
  | cons r recs ih =>
    cases ks with
    | nil => cases r <;> rfl
    | cons k ks =>
      cases r with
      | none => rfl
      | some r =>
        simp only [kvLook, kvRec_node, ih]

theorem restLook_node (rq : LookRq σ) (nd) (ks : List Bytes) (st : LSt σ) (ec : Option Err) :
    restLook { rq with node := nd } ks st ec = restLook rq ks st ec := by
  induction ks generalizing st ec with
  | nil => rfl
  | cons k ks ih => simp only [restLook, ih]

theorem endLook_node (rq : LookRq σ) (nd) (fl : Flow σ) : endLook { rq with node := nd } fl = endLook rq fl := by
  cases fl with
  | halt st e => rfl
  | go st ks ec => exact restLook_node rq nd ks st ec

theorem visit_run (rq : LookRq σ) (nd) (kvs : List KV) (u : σ) :
    visit rq.fetch (kvs.map fun kv => (kv.1, some kv.2)) u = runEvs rq nd (kvs.map fun kv => .entry kv.1 kv.2) u := by
  induction kvs generalizing u with
  | nil => rfl
  | cons kv kvs ih =>
    simp only [List.map_cons, visit, runEvs, evStep]
    rcases rq.fetch u kv.1 (some kv.2) with ⟨u', _ | e⟩
    · exact ih u'
    · rfl

/-- The calls below a node of a height, from the key `lo` on. -/
def ShapeOf (X : Idx) (lc : Bytes → Bytes → Ordering) (lo : Bytes) : (h size : Nat) → List KV → List LookEv → Prop
  | 0, _, kvs, evs => evs = (kvs.filter fun kv => lc kv.1 lo ≠ .lt).map fun kv => .entry kv.1 kv.2
  | h + 1, size, kvs, evs => ∃ below : List (NodePointer × List KV × List LookEv),
    below ≠ [] ∧ kvs = below.flatMap (·.2.1) ∧
    (∀ b ∈ below, b.2.1 ≠ [] ∧ X.R b.2.1 b.1.reduceValue ∧ ShapeOf X lc lo h b.1.subtreesize b.2.1 b.2.2) ∧
    (∃ own, 0 < own ∧ size % 2 ^ 48 = ((below.map (·.1.subtreesize)).sum + own) % 2 ^ 48) ∧
    evs = below.flatMap fun b => if b.2.1.any (fun kv => lc kv.1 lo ≠ .lt) then
      .enter b.1.subtreesize b.1.reduceValue :: (b.2.2 ++ [.leave]) else []

/-- What is known of the recursive call. -/
def WalkDesc (rq : LookRq σ) (nd : σ → Option (Nat × Bytes) → σ × Option Err) (lo : Bytes) (descend : Nat → List Bytes → LSt σ → M (LSt σ × Option Err)) (f : File)
    (pos : Nat) (evs : List LookEv) : Prop :=
  ∀ g, RFrame f g → ∀ b u, Sp (descend pos [lo] ⟨u, true, b⟩) g
    (fun r h => RFrame g h ∧ Ran rq nd g evs u r.1.user r.2 ∧ (r.2 = none → r.1.fold = true ∧ (b = true → r.1.inFold = true)))
    (fun _ _ => False)

theorem tolerateOr_walk {rq : LookRq σ} {nd K} (ok : WalkOk rq nd K) {f : File} {evs u u' e}
    (htf : rq.tolerate = true → f.faults = []) (h : Ran rq nd f evs u u' e) :
    tolerateOr rq.tolerate e none = match e with | some e => .error e | none => .ok none := by
  cases ht : rq.tolerate with
  | false => cases e <;> rfl
  | true =>
    cases e with
    | none => rfl
    | some e =>
      rcases h with h | ⟨h, _⟩
      · have := runEvs_noerr (ok.tol ht) evs u
        rw [h] at this; cases this
      · exact absurd (htf ht) h

/-- A child of a node, with what is known of it. -/
structure ChildOk (X : Idx) (rq : LookRq σ) (nd : σ → Option (Nat × Bytes) → σ × Option Err) (lo : Bytes) (descend : Nat → List Bytes → LSt σ → M (LSt σ × Option Err))
    (f : File) (l : Nat) (c : Item × List KV) (b : NodePointer × List KV × List LookEv) : Prop where
  kvs : b.2.1 = c.2
  sub : b.1.subtreesize % 2 ^ 48 = c.1.sub % 2 ^ 48
  read : readPointer c.1.key c.1.data = some b.1
  key : c.1.key = b.1.key
  last : lastKey c.2 = some b.1.key
  red : X.R c.2 b.1.reduceValue
  shape : ShapeOf X (lookupCompare rq.cmp) lo l b.1.subtreesize c.2 b.2.2
  desc : WalkDesc rq nd lo descend f b.1.pointer b.2.2

theorem kpLook_walk {X : Idx} {rq : LookRq σ} {nd K} (ok : WalkOk rq nd K) (l : Nat) (lo : Bytes) (hlo : K lo)
    (descend : Nat → List Bytes → LSt σ → M (LSt σ × Option Err)) (f0 : File)
    (cs : List (Item × List KV)) (bs : List (NodePointer × List KV × List LookEv))
    (hcs : All2 (ChildOk X rq nd lo descend f0 l) cs bs)
    (hs : SortedKV (lookupCompare rq.cmp) (cs.flatMap (·.2))) (hK : ∀ kv ∈ cs.flatMap (·.2), K kv.1)
    (b : Bool) (u : σ) (f : File) (hf : RFrame f0 f) (htf : rq.tolerate = true → f.faults = []) :
    Sp (kpLook rq descend (recsOf cs) [lo] ⟨u, true, b⟩ none) f
      (fun fl g => RFrame f g ∧ Ran rq nd f (bs.flatMap fun b => if b.2.1.any (fun kv => lookupCompare rq.cmp kv.1 lo ≠ .lt) then
        .enter b.1.subtreesize b.1.reduceValue :: (b.2.2 ++ [.leave]) else []) u (endLook rq fl).1.user (endLook rq fl).2 ∧
        ((endLook rq fl).2 = none → (endLook rq fl).1.fold = true ∧ (b = true → (endLook rq fl).1.inFold = true)))
      (fun _ _ => False) := by
  have C := ok.cmp
  induction hcs generalizing b u f with
  | nil => exact ⟨RFrame.refl _, Or.inl rfl, fun _ => ⟨rfl, id⟩⟩
  | @cons x y cs bs hx hcs ih =>
    rw [List.flatMap_cons] at hs hK
    obtain ⟨hs1, hs2, hs3⟩ := List.pairwise_append.mp hs
    have hK1 : ∀ kv ∈ x.2, K kv.1 := fun kv h => hK kv (by simp [h])
    have hK2 : ∀ kv ∈ cs.flatMap (·.2), K kv.1 := fun kv h => hK kv (List.mem_append_right _ h)
    obtain ⟨vl, hvl⟩ := lastKey_mem hx.last
    have hck : K y.1.key := hK1 _ hvl
    have hle := SortedKV.le_last C hs1 hK1 hx.last
    have ih' := ih hs2 hK2
    have hany : y.2.1.any (fun kv => lookupCompare rq.cmp kv.1 lo ≠ .lt) = decide (lookupCompare rq.cmp y.1.key lo ≠ .lt) := by
      rw [hx.kvs]
      by_cases hc : lookupCompare rq.cmp y.1.key lo = .lt
      · rw [decide_eq_false (by simp [hc]), List.any_eq_false]
        intro kv hkv
        have := C.le_trans_lt (hK1 kv hkv) hck hlo (hle kv hkv) hc
        simp [this]
      · rw [decide_eq_true hc, List.any_eq_true]
        exact ⟨_, hvl, by simpa using hc⟩
    rw [List.flatMap_cons, hany]
    show Sp (kpLook rq descend (some (x.1.key, x.1.data) :: recsOf cs) [lo] _ none) f _ _
    unfold kpLook
    rw [hx.key]
    by_cases hc : lookupCompare rq.cmp y.1.key lo = .lt
    · rw [if_neg (by simp [hc])]
      simp only [hc, ne_eq, not_true_eq_false, decide_false, Bool.false_eq_true, if_false, List.nil_append]
      exact ih' b u f hf htf
    · rw [if_pos hc]
      simp only [if_true, List.takeWhile_nil, List.dropWhile_nil]
      rw [← hx.key, hx.read]
      simp only [hx.key, ne_eq, hc, not_false_eq_true, decide_true, if_true]
      unfold nodeCall
      rw [ok.node]
      simp only
      rcases hen : nd u (some (y.1.subtreesize, y.1.reduceValue)) with ⟨u0, _ | e⟩
      · simp only
        have hrun0 : ∀ evs, runEvs rq nd (.enter y.1.subtreesize y.1.reduceValue :: evs) u = runEvs rq nd evs u0 := by
          intro evs
          simp only [runEvs, evStep, hen]
        apply Sp.bind' (hx.desc f hf true u0)
        · rintro ⟨st, e⟩ g ⟨hr, hdel, hfl⟩
          simp only at hdel hfl ⊢
          rw [tolerateOr_walk ok htf hdel]
          have hdel0 : ∀ tl, Ran rq nd f (y.2.2 ++ tl) u0 st.user e → Ran rq nd f
              (.enter y.1.subtreesize y.1.reduceValue :: (y.2.2 ++ tl)) u st.user e := by
            intro tl h
            exact Ran.seq (a := [.enter y.1.subtreesize y.1.reduceValue]) (by rw [hrun0]; rfl) id h
          cases e with
          | some e =>
            refine ⟨hr, ?_, fun h0 => by simp [endLook] at h0⟩
            rw [List.cons_append, List.append_assoc]
            exact hdel0 _ (hdel.stop _)
          | none =>
            simp only
            obtain ⟨h1, h2⟩ := hfl rfl
            replace h2 := h2 trivial
            obtain ⟨u1, fo, fi⟩ := st
            simp only at h1 h2 hdel ⊢
            subst h1; subst h2
            have hpre : runEvs rq nd (.enter y.1.subtreesize y.1.reduceValue :: y.2.2) u = (u1, none) := by
              rw [hrun0]; exact hdel.none_eq
            rcases hlv : nd u1 none with ⟨u2, _ | e⟩
            · simp only [if_true]
              have hall : runEvs rq nd (.enter y.1.subtreesize y.1.reduceValue :: (y.2.2 ++ [.leave])) u = (u2, none) := by
                rw [← List.cons_append, runEvs_append, hpre]
                simp only [runEvs, evStep, hlv]
              apply (ih' true u2 g (hf.trans hr) (fun h => by
                have := hr.1
                rw [htf h] at this
                exact List.suffix_nil.mp this)).mono
              · rintro fl h ⟨h1, h2, h3⟩
                exact ⟨hr.trans h1, Ran.seq hall hr.faults_ne h2, fun h0 => ⟨(h3 h0).1, fun _ => (h3 h0).2 rfl⟩⟩
              · exact fun _ _ h => h
            · refine ⟨hr, ?_, fun h0 => by simp [endLook] at h0⟩
              refine Ran.stop _ (Or.inl ?_)
              rw [← List.cons_append, runEvs_append, hpre]
              simp only [runEvs, evStep, hlv, endLook]
        · exact fun _ _ h => h
      · refine ⟨RFrame.refl _, ?_, fun h0 => by simp [endLook] at h0⟩
        left
        simp only [List.cons_append, runEvs, evStep, hen, endLook]

/-- Choose something for each element. -/
theorem exists_all2 {α β : Type} {P : α → β → Prop} : ∀ {l : List α}, (∀ a ∈ l, ∃ b, P a b) → ∃ m, All2 P l m
  | [], _ => ⟨[], .nil⟩
  | a :: l, h => by
    obtain ⟨b, hb⟩ := h a (by simp)
    obtain ⟨m, hm⟩ := exists_all2 (l := l) (P := P) fun x hx => h x (by simp [hx])
    exact ⟨b :: m, .cons hb hm⟩

/-- A request that does nothing. -/
def idleRq (cmp : Bytes → Bytes → Ordering) : LookRq Unit where
  cmp := cmp
  tolerate := false
  fetch u _ _ := (u, none)
  node := some fun u _ => (u, none)

theorem idleRq_ok {cmp K} (C : CmpLaws (lookupCompare cmp) K) : WalkOk (idleRq cmp) (fun u _ => (u, none)) K :=
  ⟨C, fun _ _ _ _ => rfl, fun _ _ _ => rfl, rfl⟩

/-- What is known of the walk over a subtree, for every request. -/
def WalkAll (E : Env) (cmp : Bytes → Bytes → Ordering) (K : Bytes → Prop) (f : File) (P : {σ : Type} → (rq : LookRq σ) →
    (nd : σ → Option (Nat × Bytes) → σ × Option Err) → (Nat → List Bytes → LSt σ → M (LSt σ × Option Err)) → Prop) (l : Nat) : Prop :=
  ∀ (σ : Type) (rq : LookRq σ) (nd : σ → Option (Nat × Bytes) → σ × Option Err), WalkOk rq nd K → rq.cmp = cmp →
    (rq.tolerate = true → f.faults = []) → ∀ fuel, l < fuel → P rq nd (lookInner E rq fuel)

theorem lookInner_walk (E : Env) (L : E.Laws) {X : Idx} {cmp : Bytes → Bytes → Ordering} {K} (C : CmpLaws (lookupCompare cmp) K)
    (hV : ∀ kv, X.V kv → K kv.1 ∧ kv.1.length < 4096) (lo : Bytes) (hlo : K lo)
    (l : Nat) (p : NodePointer) (kvs : List KV) (f : File) (w : f.WF)
    (h : TreeAt E X f l p kvs) (hs : SortedKV (lookupCompare cmp) kvs) :
    ∃ evs, ShapeOf X (lookupCompare cmp) lo l p.subtreesize kvs evs ∧
      WalkAll E cmp K f (fun rq nd desc => WalkDesc rq nd lo desc f p.pointer evs) l := by
  induction l generalizing p kvs with
  | zero =>
    have hK : ∀ kv ∈ kvs, K kv.1 := fun kv hkv => (hV kv (h.valid kv hkv)).1
    refine ⟨_, rfl, ?_⟩
    intro σ rq nd ok hcmp htf fuel hl g hg b u
    subst hcmp
    obtain ⟨fuel, rfl⟩ : ∃ n, fuel = n + 1 := ⟨fuel - 1, by omega⟩
    unfold lookInner
    obtain ⟨cs, hne, hcs, rfl, hz, _⟩ := h.keep hg.keep
    apply Sp.bind' (attempt_spec (readNode_spec E L p.pointer (kindOf 0).byte (cs.map (·.1)) g
      (hg.wf w).crc hz (by
        intro i hi
        obtain ⟨c, hc, rfl⟩ := List.mem_map.mp hi
        exact (hcs c hc).fits (fun kv hkv => (hV kv hkv).2))))
    · rintro (e | ⟨t, recs⟩) g1 hr
      · exact ⟨hr.1, Or.inr ⟨hr.2, by simp, 0, rfl⟩, fun h0 => by simp at h0⟩
      · simp only at hr
        obtain ⟨hr0, hr1⟩ := hr
        injection hr0 with ht hrecs
        subst ht
        rw [hrecs, leaf_items hcs]
        simp only
        rw [if_neg (by decide), if_pos (by decide)]
        have hfold := kvLook_fold (rq := { rq with node := none }) ⟨ok.cmp, ok.tolF, rfl⟩ g _ hs hK lo none hlo (fun _ h => (nomatch h)) b u
        rw [kvLook_node, endLook_node] at hfold
        obtain ⟨h1, h2⟩ := hfold
        refine ⟨hr1, ?_, ?_⟩
        · have he : ∀ n, visit rq.fetch ((rangeEvents (lookupCompare rq.cmp) lo none (cs.flatMap (·.2))).take n) u =
              runEvs rq nd (((((cs.flatMap (·.2)).filter fun kv => lookupCompare rq.cmp kv.1 lo ≠ .lt).map fun kv => .entry kv.1 kv.2)).take n) u := by
            intro n
            rw [← List.map_take, ← visit_run, List.map_take]
            simp only [rangeEvents, inRange, Bool.and_true]
          have he0 := he (cs.flatMap (·.2)).length
          rw [List.take_of_length_le (by rw [rangeEvents, List.length_map]; exact List.length_filter_le _ _),
            List.take_of_length_le (by rw [List.length_map]; exact List.length_filter_le _ _)] at he0
          rcases h1 with h1 | ⟨h1, h3, n, h4⟩
          · exact Or.inl (he0 ▸ h1)
          · exact Or.inr ⟨h1, h3, n, he n ▸ h4⟩
        · intro h0
          rcases h2 h0 with h2 | ⟨_, _, _, h2, _⟩
          · exact h2
          · cases h2
    · exact fun _ _ h => h
  | succ l ih =>
    have hK : ∀ kv ∈ kvs, K kv.1 := fun kv hkv => (hV kv (h.valid kv hkv)).1
    have h' := h
    obtain ⟨cs, hne, hcs, rfl, hz, hR, hrl, hbk, hsz⟩ := h'
    have hch : ∀ c ∈ cs, ∃ b : NodePointer × List KV × List LookEv,
        WalkAll E cmp K f (fun rq nd desc => ChildOk X rq nd lo desc f l c b) l := by
      intro c hc
      have hsc : SortedKV (lookupCompare cmp) c.2 := by
        obtain ⟨a, b, hab⟩ := List.append_of_mem hc
        rw [hab, List.flatMap_append, List.flatMap_cons] at hs
        exact (List.pairwise_append.mp (List.pairwise_append.mp hs).2.1).1
      obtain ⟨q, hq, hread, _, ht, hlast, ht'⟩ := (hcs c hc).ptr
      obtain ⟨evs, hsh, hd⟩ := ih (truncPtr q) c.2 ht' hsc
      have hR' := ht'
      obtain ⟨_, _, _, _, _, hR', _⟩ := hR'
      exact ⟨(truncPtr q, c.2, evs), fun σ rq nd ok hcmp htf fuel hf => ⟨rfl, by rw [hq]; simp [truncPtr, Item.sub, ptrItem], hread,
        by rw [hq]; rfl, hlast, hR', hcmp ▸ hsh, hd σ rq nd ok hcmp htf fuel hf⟩⟩
    obtain ⟨bs, hbs⟩ := exists_all2 hch
    have hall : WalkAll E cmp K f (fun rq nd desc => All2 (ChildOk X rq nd lo desc f l) cs bs) l :=
      fun σ rq nd ok hcmp htf fuel hf => hbs.mono fun _ _ h => h σ rq nd ok hcmp htf fuel hf
    have hidle := hall Unit (idleRq cmp) _ (idleRq_ok C) rfl (fun h => (nomatch h)) (l + 1) (by omega)
    have hkv : cs.flatMap (·.2) = bs.flatMap (·.2.1) := by
      have := hidle
      clear hidle hall hbs hch hne hcs hz hR hsz h hs hK hbk
      induction this with
      | nil => rfl
      | cons h1 _ ih => rw [List.flatMap_cons, List.flatMap_cons, h1.kvs, ih]
    refine ⟨_, ⟨bs, ?_, hkv, ?_, ?_, rfl⟩, ?_⟩
    · rintro rfl
      cases hidle
      exact hne rfl
    · intro b hb
      obtain ⟨c, hc, hcb⟩ := hidle.mem_right hb
      have := hcb.last
      refine ⟨?_, ?_, ?_⟩
      · intro h0
        rw [hcb.kvs] at h0
        rw [h0] at this; cases this
      · rw [hcb.kvs]; exact hcb.red
      · rw [hcb.kvs]; exact hcb.shape
    · refine ⟨(chunkBytes E f.cfg p.pointer (E.deflate ((kindOf (l + 1)).byte :: encodeItems (cs.map (·.1))))).length, ?_, hsz.trans ?_⟩
      rotate_left
      · have : ((cs.map (fun c => c.1.sub)).sum) % 2 ^ 48 = ((bs.map (·.1.subtreesize)).sum) % 2 ^ 48 := by
          have := hidle
          clear hidle hall hbs hch hne hcs hz hR hsz h hs hK hkv hbk
          induction this with
          | nil => rfl
          | cons h1 _ ih =>
            simp only [List.map_cons, List.sum_cons]
            have := h1.sub
            omega
        omega
      · exact Nat.lt_of_lt_of_le (by decide) (chunkBytes_length_pos _ _ _ _)
    · intro σ rq nd ok hcmp htf fuel hl g hg b u
      subst hcmp
      obtain ⟨fuel, rfl⟩ : ∃ n, fuel = n + 1 := ⟨fuel - 1, by omega⟩
      unfold lookInner
      have htg : rq.tolerate = true → g.faults = [] := fun h => by
        have := hg.1
        rw [htf h] at this
        exact List.suffix_nil.mp this
      have hzg : ZChunkAt E g p.pointer ((kindOf (l + 1)).byte :: encodeItems (cs.map (·.1))) := ChunkAt.keep hz hg.keep
      apply Sp.bind' (attempt_spec (readNode_spec E L p.pointer (kindOf (l + 1)).byte (cs.map (·.1)) g
        (hg.wf w).crc hzg (by
          intro i hi
          obtain ⟨c, hc, rfl⟩ := List.mem_map.mp hi
          exact (hcs c hc).fits (fun kv hkv => (hV kv hkv).2))))
      · rintro (e | ⟨t, recs⟩) g1 hr
        · exact ⟨hr.1, Or.inr ⟨hr.2, by simp, 0, rfl⟩, fun h0 => by simp at h0⟩
        · simp only at hr
          obtain ⟨hr0, hr1⟩ := hr
          injection hr0 with ht hrecs
          subst ht
          have htg1 : rq.tolerate = true → g1.faults = [] := fun h => by
            have := hr1.1
            rw [htg h] at this
            exact List.suffix_nil.mp this
          simp only
          rw [if_pos (show (kindOf (l + 1)).byte = 0 from rfl), hrecs, List.map_map]
          apply Sp.bind' (kpLook_walk (X := X) ok l lo hlo _ f cs bs (hall σ rq nd ok rfl htf fuel (by omega)) hs hK b u g1 (hg.trans hr1) htg1)
          · rintro fl g2 ⟨h1, h2, h3⟩
            exact ⟨hr1.trans h1, Ran.seq (a := []) rfl hr1.faults_ne h2, h3⟩
          · exact fun _ _ h => h
      · exact fun _ _ h => h

/-! ### What the callback of the caller sees -/

/-- The calls of the caller's callback, with their depths. -/
def evCalls (opts : ScanOpts) (read : Bytes → Bytes → Option DocInfo) : Nat → List LookEv → List (Nat × WalkItem)
  | _, [] => []
  | d, .enter s r :: l => (d, .node s r) :: evCalls opts read (d + 1) l
  | d, .leave :: l => evCalls opts read (d - 1) l
  | d, .entry k v :: l => (((read k v).filter opts.selects).toList.map fun x => (d, .doc x)) ++ evCalls opts read d l

/-- The depth after the calls. -/
def evDepth : Nat → List LookEv → Nat
  | d, [] => d
  | d, .enter _ _ :: l => evDepth (d + 1) l
  | d, .leave :: l => evDepth (d - 1) l
  | d, .entry _ _ :: l => evDepth d l

theorem evCalls_append (opts read) (d : Nat) (a b : List LookEv) :
    evCalls opts read d (a ++ b) = evCalls opts read d a ++ evCalls opts read (evDepth d a) b := by
  induction a generalizing d with
  | nil => rfl
  | cons x a ih => cases x <;> simp [evCalls, evDepth, ih]

theorem evDepth_append (d : Nat) (a b : List LookEv) : evDepth d (a ++ b) = evDepth (evDepth d a) b := by
  induction a generalizing d with
  | nil => rfl
  | cons x a ih => cases x <;> simp [evDepth, ih]

theorem callAll_append (cb : WalkCb σ) (a b : List (Nat × WalkItem)) (u : σ) :
    callAll cb (a ++ b) u =
      match callAll cb a u with
      | (u', some e) => (u', some e)
      | (u', none) => callAll cb b u' := by
  induction a generalizing u with
  | nil => rfl
  | cons x xs ih =>
    simp only [List.cons_append, callAll]
    rcases cb u x.1 x.2 with ⟨u', _ | e⟩
    · exact ih u'
    · rfl

/-- All entries can be read. -/
def EvReadable (read : Bytes → Bytes → Option DocInfo) (evs : List LookEv) : Prop :=
  ∀ k v, LookEv.entry k v ∈ evs → (read k v).isSome

theorem runEvs_calls (cmp) (opts : ScanOpts) (read) (cb : WalkCb σ) (evs : List LookEv) (hr : EvReadable read evs) (u : σ) (d : Nat) :
    (runEvs (walkRq cmp opts read cb) (walkNode cb) evs (u, d)).1.1 = (callAll cb (evCalls opts read d evs) u).1 ∧
    (runEvs (walkRq cmp opts read cb) (walkNode cb) evs (u, d)).2 = (callAll cb (evCalls opts read d evs) u).2 := by
  induction evs generalizing u d with
  | nil => exact ⟨rfl, rfl⟩
  | cons x evs ih =>
    have ih' := ih fun k v h => hr k v (by simp [h])
    cases x with
    | enter s r =>
      simp only [runEvs, evStep, walkNode, evCalls, callAll]
      rcases cb u d (.node s r) with ⟨u', _ | e⟩
      · exact ih' u' (d + 1)
      · exact ⟨rfl, rfl⟩
    | leave => exact ih' u (d - 1)
    | entry k v =>
      obtain ⟨x, hx⟩ := Option.isSome_iff_exists.mp (hr k v (by simp))
      simp only [runEvs, evStep, evCalls]
      have : (walkRq cmp opts read cb).fetch (u, d) k (some v) =
          (((callAll cb ((((read k v).filter opts.selects).toList.map fun x => (d, .doc x))) u).1, d),
            (callAll cb ((((read k v).filter opts.selects).toList.map fun x => (d, .doc x))) u).2) := by
        simp only [walkRq, walkFetch]
        rw [lookupCallback_docs _ _ _ _ _ _ (by intro y hy; cases hy; rw [hx]; rfl)]
        simp only [Option.bind_some, hx]
        cases h : opts.selects x with
        | false => simp [Option.filter, h, feed, callAll]
        | true =>
          simp only [Option.filter, h, if_true, Option.toList, List.map_cons, List.map_nil, feed, callAll]
          rcases cb u d (.doc x) with ⟨u', _ | e⟩ <;> rfl
      rw [this, callAll_append]
      rcases callAll cb ((((read k v).filter opts.selects).toList.map fun x => (d, .doc x))) u with ⟨u', _ | e⟩
      · exact ih' u' d
      · exact ⟨rfl, rfl⟩

/-- As `Fed`, for a walk. -/
def Walked (cb : WalkCb σ) (f : File) (calls : List (Nat × WalkItem)) (u : σ) (r : σ × Option Err) : Prop :=
  callAll cb calls u = r ∨ (f.faults ≠ [] ∧ r.2 ≠ none ∧ ∃ n, callAll cb (calls.take n) u = (r.1, none))

theorem Ran.walked {cmp opts read} {cb : WalkCb σ} {f : File} {evs : List LookEv} (hr : EvReadable read evs) {u : σ} {d : Nat}
    {s : σ × Nat} {e : Option Err} (h : Ran (walkRq cmp opts read cb) (walkNode cb) f evs (u, d) s e) :
    Walked cb f (evCalls opts read d evs) u (s.1, e) := by
  rcases h with h | ⟨h1, h2, n, h3⟩
  · left
    obtain ⟨c1, c2⟩ := runEvs_calls cmp opts read cb evs hr u d
    rw [h] at c1 c2
    exact Prod.ext c1.symm c2.symm
  · right
    obtain ⟨c1, c2⟩ := runEvs_calls cmp opts read cb (evs.take n) (fun k v h => hr k v (List.mem_of_mem_take h)) u d
    rw [h3] at c1 c2
    refine ⟨h1, h2, (evCalls opts read d (evs.take n)).length, ?_⟩
    have := evCalls_append opts read d (evs.take n) (evs.drop n)
    rw [List.take_append_drop] at this
    rw [this, List.take_left']
    · exact Prod.ext c1.symm c2.symm
    · rfl

section ShownBelow

variable {α : Type} {enc : α → KV} {show' : α → DocInfo} {read : Bytes → Bytes → Option DocInfo}

theorem flatMap_calls (opts : ScanOpts) (d : Nat) (xs : List α) (hread : ∀ x ∈ xs, read (enc x).1 (enc x).2 = some (show' x))
    (reached : α → Bool) :
    evCalls opts read d (((xs.filter reached).map enc).map fun kv => .entry kv.1 kv.2) =
      (xs.filter fun x => reached x && opts.selects (show' x)).map fun x => (d, WalkItem.doc (show' x)) := by
  induction xs with
  | nil => rfl
  | cons x xs ih =>
    have ih' := ih fun y hy => hread y (by simp [hy])
    have hx := hread x (by simp)
    cases h : reached x with
    | false => simpa [List.filter_cons, h] using ih'
    | true =>
      cases h2 : opts.selects (show' x) with
      | false =>
        simp only [List.filter_cons, h, if_true, List.map_cons, evCalls, hx, Option.filter, h2, Bool.and_false, Bool.false_eq_true, if_false]
        simpa using ih'
      | true =>
        simp only [List.filter_cons, h, if_true, List.map_cons, evCalls, hx, Option.filter, h2, Bool.and_true]
        rw [ih']
        rfl

theorem evDepth_entries (d : Nat) (kvs : List KV) : evDepth d (kvs.map fun kv => .entry kv.1 kv.2) = d := by
  induction kvs with
  | nil => rfl
  | cons x xs ih => exact ih

theorem shape_shown {X : Idx} {lc : Bytes → Bytes → Ordering} {lo : Bytes} {R : List α → Bytes → Prop} {reached : α → Bool}
    {P : α → Prop} (opts : ScanOpts)
    (hreach : ∀ x, P x → (decide (lc (enc x).1 lo ≠ .lt)) = reached x)
    (hread : ∀ x, P x → read (enc x).1 (enc x).2 = some (show' x))
    (hR : ∀ xs r, (∀ x ∈ xs, P x) → X.R (xs.map enc) r → R xs r)
    (h d size : Nat) (xs : List α) (hP : ∀ x ∈ xs, P x) (evs : List LookEv) (hs : ShapeOf X lc lo h size (xs.map enc) evs) :
    ShownBelow R reached (fun x => opts.selects (show' x)) show' h d size xs (evCalls opts read (d + 1) evs) ∧
      evDepth (d + 1) evs = d + 1 ∧ EvReadable read evs := by
  induction h generalizing d size xs evs with
  | zero =>
    unfold ShapeOf at hs
    subst hs
    have hf : ((xs.map enc).filter fun kv => lc kv.1 lo ≠ .lt) = (xs.filter reached).map enc := by
      rw [List.filter_map]
      congr 1
      apply List.filter_congr
      intro x hx
      exact hreach x (hP x hx)
    rw [hf]
    refine ⟨?_, evDepth_entries _ _, ?_⟩
    · exact flatMap_calls opts (d + 1) xs (fun x hx => hread x (hP x hx)) reached
    · intro k v hkv
      obtain ⟨kv, hkv, he⟩ := List.mem_map.mp hkv
      obtain ⟨x, hx, rfl⟩ := List.mem_map.mp hkv
      cases he
      rw [hread x (hP x (List.mem_filter.mp hx).1)]; rfl
  | succ h ih =>
    obtain ⟨bs, hne, hkv, hb, ⟨own, hown, hsz⟩, rfl⟩ := hs
    have key : ∃ cs : List (Nat × Bytes × List α × List (Nat × WalkItem)),
        xs = cs.flatMap (·.2.2.1) ∧
        All2 (fun b c => c.1 = b.1.subtreesize ∧ c.2.1 = b.1.reduceValue ∧ b.2.1 = c.2.2.1.map enc ∧
          c.2.2.2 = evCalls opts read (d + 2) b.2.2) bs cs := by
      clear hne hb hsz
      induction bs generalizing xs with
      | nil =>
        refine ⟨[], ?_, .nil⟩
        simpa using hkv
      | cons b bs ihb =>
        rw [List.flatMap_cons] at hkv
        obtain ⟨x1, x2, rfl, h1, h2⟩ := List.map_eq_append_iff.mp hkv
        obtain ⟨cs, hcs, hall⟩ := ihb x2 (fun x hx => hP x (by simp [hx])) h2
        exact ⟨(b.1.subtreesize, b.1.reduceValue, x1, evCalls opts read (d + 2) b.2.2) :: cs,
          by rw [List.flatMap_cons, ← hcs], .cons ⟨rfl, rfl, h1.symm, rfl⟩ hall⟩
    obtain ⟨cs, hcs, hall⟩ := key
    have hPc : ∀ c ∈ cs, ∀ x ∈ c.2.2.1, P x := fun c hc x hx => hP x (by rw [hcs]; exact List.mem_flatMap.mpr ⟨c, hc, hx⟩)
    have hchild : ∀ c ∈ cs, ∃ b ∈ bs, c.1 = b.1.subtreesize ∧ c.2.1 = b.1.reduceValue ∧ b.2.1 = c.2.2.1.map enc ∧
          c.2.2.2 = evCalls opts read (d + 2) b.2.2 := fun c hc => hall.mem_right hc
    have hsub : All2 (fun b c => (c.1 = b.1.subtreesize ∧ c.2.1 = b.1.reduceValue ∧
        (b.2.1.any fun kv => lc kv.1 lo ≠ .lt) = c.2.2.1.any reached ∧
        c.2.2.2 = evCalls opts read (d + 2) b.2.2) ∧ evDepth (d + 2) b.2.2 = d + 2 ∧ EvReadable read b.2.2) bs cs := by
      clear hchild hsz hne hcs hkv
      induction hall with
      | nil => exact .nil
      | cons h1 _ ihb =>
        refine .cons ⟨⟨h1.1, h1.2.1, ?_, h1.2.2.2⟩, ?_⟩ (ihb (fun b hb' => hb b (by simp [hb'])) fun c hc => hPc c (by simp [hc]))
        · rw [h1.2.2.1, List.any_map]
          rename_i b c _ _ _
          have hp := hPc c (by simp)
          apply Bool.eq_iff_iff.mpr
          simp only [List.any_eq_true, Function.comp]
          constructor
          · rintro ⟨x, hx, hx'⟩; exact ⟨x, hx, by rw [← hreach x (hp x hx)]; exact hx'⟩
          · rintro ⟨x, hx, hx'⟩; exact ⟨x, hx, by rw [hreach x (hp x hx)]; exact hx'⟩
        · rename_i b c _ _ _
          have h2 := (hb b (by simp)).2.2
          rw [h1.2.2.1] at h2
          exact (ih (d + 1) _ c.2.2.1 (hPc c (by simp)) b.2.2 h2).2
    refine ⟨⟨cs, ?_, hcs, ?_, ⟨own, hown, ?_⟩, ?_⟩, ?_, ?_⟩
    · rintro rfl
      cases hall
      exact hne rfl
    · intro c hc
      obtain ⟨b, hbm, e1, e2, e3, e4⟩ := hchild c hc
      obtain ⟨h1, h2, h3⟩ := hb b hbm
      refine ⟨?_, ?_, ?_⟩
      · intro h0
        rw [e3, h0] at h1
        exact h1 rfl
      · rw [e2]
        exact hR _ _ (hPc c hc) (e3 ▸ h2)
      · rw [e1, e4]
        exact (ih (d + 1) _ c.2.2.1 (hPc c hc) b.2.2 (e3 ▸ h3)).1
    · rw [hsz]
      have : bs.map (·.1.subtreesize) = cs.map (·.1) := by
        clear hsub hchild hsz hne hcs hkv hb hPc
        induction hall with
        | nil => rfl
        | cons h1 _ ihb => rw [List.map_cons, List.map_cons, ihb, h1.1]
      rw [this]
    · clear hall hchild hsz hne hcs hkv hb hPc
      induction hsub with
      | nil => rfl
      | cons h1 _ ihb =>
        obtain ⟨⟨e1, e2, e3, e4⟩, e5, e6⟩ := h1
        rw [List.flatMap_cons, List.flatMap_cons, evCalls_append, e3, e1, e2, e4, ← ihb]
        split
        · simp only [evCalls, evDepth, evDepth_append, e5, evCalls_append, List.append_nil]
          simp
        · rfl
    · clear hall hchild hsz hne hcs hkv hb hPc
      induction hsub with
      | nil => rfl
      | cons h1 _ ihb =>
        obtain ⟨⟨e1, e2, e3, e4⟩, e5, e6⟩ := h1
        rw [List.flatMap_cons, evDepth_append]
        have : ∀ (p : Prop) [Decidable p] (l : List LookEv), evDepth (d + 1) l = d + 1 →
            evDepth (d + 1) (if p then l else []) = d + 1 := by
          intro p _ l hl; split
          · exact hl
          · rfl
        rw [this _ _ (by simp [evDepth, evDepth_append, e5]), ihb]
    · intro k v hkv'
      obtain ⟨b, hb', hm⟩ := List.mem_flatMap.mp hkv'
      split at hm
      · simp only [List.mem_cons, List.mem_append, reduceCtorEq, false_or, List.not_mem_nil, or_false] at hm
        have : EvReadable read b.2.2 := by
          clear hall hchild hsz hne hcs hkv hb hPc hkv'
          induction hsub with
          | nil => cases hb'
          | cons h1 _ ihb =>
            rcases List.mem_cons.mp hb' with rfl | hb'
            · exact h1.2.2
            · exact ihb hb'
        exact this k v hm
      · cases hm

theorem walkRq_ok {cmp} {opts : ScanOpts} {cb : WalkCb σ} {K : Bytes → Prop}
    (h : CmpLaws (lookupCompare cmp) K) (hcb : opts.tolerate = true → ∀ u d x, (cb u d x).2 = none) :
    WalkOk (walkRq cmp opts read cb) (walkNode cb) K where
  cmp := h
  tolF ht u k v := by
    have hcb := hcb ht
    have ht : opts.tolerate = true := ht
    show (walkFetch opts read cb u k v).2 = none
    unfold walkFetch
    have hdel : ∀ d, (lookupCallback.deliver opts (fun (s : σ × Nat) d => (((cb s.1 s.2 (.doc d)).1, s.2), (cb s.1 s.2 (.doc d)).2)) u d).2 = none := by
      intro d
      unfold lookupCallback.deliver
      split
      · rfl
      · split
        · rfl
        · exact hcb _ _ _
    unfold lookupCallback
    cases v with
    | none => rfl
    | some x =>
      simp only [ht]
      cases read k x <;> exact hdel _
  tolN ht u a := by
    have hcb := hcb ht
    rcases a with _ | ⟨s, r⟩
    · rfl
    · exact hcb _ _ _
  node := rfl

/-- A walk over a tree. -/
theorem walkTree_spec (E : Env) (L : E.Laws) {X : Idx} {cmp : Bytes → Bytes → Ordering} {K : Bytes → Prop} {P : α → Prop} {R : List α → Bytes → Prop} {reached : α → Bool}
    (C : CmpLaws (lookupCompare cmp) K) (hV : ∀ kv, X.V kv → K kv.1 ∧ kv.1.length < 4096) (start : Bytes) (hst : K start)
    (db : Db) (w : db.file.WF) (hd : db.dropped = false) (root : Option NodePointer) (xs : List α)
    (hroot : RootAt E X db.file root (xs.map enc)) (hs : SortedKV (lookupCompare cmp) (xs.map enc)) (opts : ScanOpts)
    (hreach : ∀ x, P x → (decide (lookupCompare cmp (enc x).1 start ≠ .lt)) = reached x)
    (hread : ∀ x, P x → read (enc x).1 (enc x).2 = some (show' x))
    (hR : ∀ xs r, (∀ x ∈ xs, P x) → X.R (xs.map enc) r → R xs r) (hP : ∀ x ∈ xs, P x) :
    ∃ calls, ShownTree R reached (fun x => opts.selects (show' x)) show' (rootSize root) xs calls ∧
      ∀ (σ : Type) (cb : WalkCb σ) (u : σ), WalkTolerantOk opts cb db →
        Sp (walkTree E read root start opts cmp cb u) db (fun r d => RD db d ∧ Walked cb db.file calls u r) (fun _ _ => False) := by
  have hnone := hroot.none_iff
  cases root with
  | none =>
    refine ⟨[], Or.inl ⟨by simpa using hnone.mp rfl, rfl⟩, fun σ cb u ht => ?_⟩
    unfold walkTree
    apply Sp.get_bind
    rw [hd, if_neg (by simp)]
    exact ⟨RD.refl _, Or.inl rfl⟩
  | some p =>
    have hne : xs ≠ [] := by
      rintro rfl
      cases hnone.mpr rfl
    obtain ⟨l, ht⟩ := hroot
    have hRt : X.R (xs.map enc) p.reduceValue := by
      obtain ⟨_, _, _, _, _, hR, _⟩ := id ht; exact hR
    obtain ⟨evs, hsh, hall⟩ := lookInner_walk E L C hV start hst l p _ db.file w ht hs
    obtain ⟨hshown, -, hrd⟩ := shape_shown opts hreach hread hR l 0 p.subtreesize xs hP evs hsh
    refine ⟨_, Or.inr ⟨hne, l, p.reduceValue, _, hR _ _ hP hRt, hshown, rfl⟩, fun σ cb u htol => ?_⟩
    unfold walkTree
    apply Sp.get_bind
    rw [hd, if_neg (by simp)]
    dsimp only [rootSize]
    rcases hcb : cb u 0 (.node p.subtreesize p.reduceValue) with ⟨u', _ | e⟩
    · dsimp only
      have hrun := hall _ (walkRq cmp opts read cb) (walkNode cb) (walkRq_ok C fun h => (htol h).1) rfl (fun h => (htol h).2)
        (db.file.disk.length + 1) (by have := ht.height; have := ht.pointer_lt; have := w.pos_le; omega)
        db.file (RFrame.refl _) false (u', 1)
      refine Sp.bind' (liftF_spec (Q := fun r g => RFrame db.file g ∧ Ran (walkRq cmp opts read cb) (walkNode cb) db.file evs (u', 1) r.1 r.2)
        (R := fun _ _ => False) ?_) ?_ (fun _ _ h => h.2.elim)
      · unfold btreeLookup
        apply Sp.get_bind
        apply Sp.bind' hrun
        · rintro ⟨st, e⟩ g ⟨h1, h2, _⟩
          exact ⟨h1, h2⟩
        · exact fun _ _ h => h
      · rintro ⟨s, e⟩ d ⟨h1, h2, h3⟩
        refine ⟨⟨h1, h2⟩, ?_⟩
        have hw := Ran.walked hrd h3
        rcases hw with hw | ⟨hw1, hw2, n, hw3⟩
        · left
          simp only [callAll, hcb]
          exact hw
        · right
          refine ⟨hw1, hw2, n + 1, ?_⟩
          simp only [List.take_succ_cons, callAll, hcb]
          exact hw3
    · refine ⟨RD.refl _, Or.inl ?_⟩
      simp only [callAll, hcb]

end ShownBelow

end Couchstore
