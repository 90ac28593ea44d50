import Verif.Spec.Recover
import Verif.Lemmas.Compact

/-! Helper lemmas: traversing a damaged index. -/

namespace Couchstore

variable {υ σ : Type}

/-! ### Reading a file on which the raw operations do not fail -/

theorem RFrame.same {f g : File} (h : RFrame f g) (hf : f.faults = []) : g = f := by
  have := h.nil hf
  obtain ⟨disk, pos, cfg, faults, log⟩ := f
  rw [h.2, this]
  subst hf
  rfl

/-- The operation leaves the file as it is. -/
theorem rframe_result {α : Type} {m : M α} {f : File} (hf : f.faults = [])
    (h : Sp m f (fun _ g => RFrame f g) (fun _ g => RFrame f g)) :
    (∃ a, m f = .ok a f) ∨ ∃ e, m f = .error e f := by
  unfold Sp at h
  cases hm : m f with
  | ok a g => rw [hm] at h; exact Or.inl ⟨a, by rw [RFrame.same h hf]⟩
  | error e g => rw [hm] at h; exact Or.inr ⟨e, by rw [RFrame.same h hf]⟩

/-- A chunk of the intact file is read from the damaged one, or reading it fails. -/
theorem DamagedFile.chunk {E : Env} (L : E.Laws) {f0 f : File} (D : DamagedFile E f0 f) (hcrc : f0.cfg.crcMode ≠ .unknown)
    {p : Nat} {b : Bytes} (h : ChunkAt E f0 p b) : preadBin E p f = .ok b f ∨ ∃ e, preadBin E p f = .error e f := by
  rcases rframe_result D.faults (preadBin_rframe E p f) with ⟨a, ha⟩ | he
  · left
    have hk : Keep f0 { f0 with faults := [] } := ⟨fun _ _ _ => rfl, rfl, rfl, Nat.le_refl _⟩
    have hs := preadBin_spec E L p b { f0 with faults := [] } hcrc (h.keep hk)
    unfold Sp at hs
    cases hp : preadBin E p { f0 with faults := [] } with
    | ok r g =>
      rw [hp] at hs
      rw [ha, D.noticed p r a g f hp ha, hs.1]
    | error e g =>
      rw [hp] at hs
      exact absurd rfl hs.2
  · exact Or.inr he

theorem DamagedFile.node {E : Env} (L : E.Laws) {f0 f : File} (D : DamagedFile E f0 f) (hcrc : f0.cfg.crcMode ≠ .unknown)
    {p : Nat} {t : UInt8} {is : List Item} (h : ZChunkAt E f0 p (t :: encodeItems is))
    (hi : ∀ i ∈ is, i.key.length < 4096 ∧ i.data.length < 2 ^ 28) :
    attempt (readNode E p) f = .ok (.ok (t, is.map fun i => some (i.key, i.data))) f ∨
      ∃ e, attempt (readNode E p) f = .ok (.error e) f := by
  rcases D.chunk L hcrc h with hr | ⟨e, he⟩
  · left
    have hz : preadCompressed E p f = .ok (t :: encodeItems is) f := by
      unfold preadCompressed
      rw [bind_ok hr, L.inflate_deflate]
      rfl
    unfold attempt readNode
    rw [bind_ok hz]
    dsimp only [pure, EStateM.pure]
    rw [parseRecs_encode is _ (Nat.le_refl _) hi]
  · right
    refine ⟨e, ?_⟩
    have hz : preadCompressed E p f = .error e f := by
      unfold preadCompressed
      rw [bind_error he]
    unfold attempt readNode
    rw [bind_error hz]

/-! ### What a traversal meets -/

/-- The entries that are met. -/
def oks (evs : List (Except Err KV)) : List KV := evs.filterMap Except.toOption

/-- Call the callback for what a traversal meets: entries, and nodes that cannot be read. -/
def visitMet (tol : Bool) (fetch : σ → Bytes → Option Bytes → σ × Option Err) :
    List (Except Err KV) → σ → Option Err → σ × Option Err
  | [], u, ec => (u, ec)
  | .error e :: r, u, ec =>
    match tolerateOr tol (some e) ec with
    | .error x => (u, some x)
    | .ok ec => visitMet tol fetch r u ec
  | .ok kv :: r, u, ec =>
    match tolerateOr tol (fetch u kv.1 (some kv.2)).2 ec with
    | .error x => ((fetch u kv.1 (some kv.2)).1, some x)
    | .ok ec => visitMet tol fetch r (fetch u kv.1 (some kv.2)).1 ec

theorem visitMet_append (tol : Bool) (fetch : σ → Bytes → Option Bytes → σ × Option Err) (a b : List (Except Err KV))
    (u : σ) (ec : Option Err) (hec : tol = false → ec = none) :
    visitMet tol fetch (a ++ b) u ec =
      match tolerateOr tol (visitMet tol fetch a u none).2 ec with
      | .error x => ((visitMet tol fetch a u none).1, some x)
      | .ok ec' => visitMet tol fetch b (visitMet tol fetch a u none).1 ec' := by
  have key : ∀ (a : List (Except Err KV)) (u : σ) (ec : Option Err), (tol = false → ec = none) →
      visitMet tol fetch (a ++ b) u ec =
        match tolerateOr tol (visitMet tol fetch a u ec).2 none with
        | .error x => ((visitMet tol fetch a u ec).1, some x)
        | .ok ec' => visitMet tol fetch b (visitMet tol fetch a u ec).1 ec' := by
    intro a
    induction a with
    | nil =>
      intro u ec hec
      cases tol with
      | false => rw [hec rfl]; rfl
      | true => cases ec <;> rfl
    | cons x a ih =>
      intro u ec hec
      cases x with
      | error e =>
        cases tol with
        | false => rfl
        | true => exact ih u (some e) (fun h => nomatch h)
      | ok kv =>
        simp only [List.cons_append, visitMet]
        cases tol with
        | false =>
          cases hf : (fetch u kv.1 (some kv.2)).2 with
          | none => exact ih _ none (fun _ => rfl)
          | some e => rfl
        | true =>
          cases hf : (fetch u kv.1 (some kv.2)).2 with
          | none => exact ih _ ec (fun h => nomatch h)
          | some e => exact ih _ (some e) (fun h => nomatch h)
  have two : ∀ (a : List (Except Err KV)) (u : σ) (ec : Option Err), (tol = false → ec = none) →
      (visitMet tol fetch a u ec).1 = (visitMet tol fetch a u none).1 ∧
        (tolerateOr tol (visitMet tol fetch a u ec).2 none = tolerateOr tol (visitMet tol fetch a u none).2 ec) := by
    intro a u ec hec
    cases tol with
    | false => rw [hec rfl]; exact ⟨rfl, rfl⟩
    | true =>
      have : ∀ (a : List (Except Err KV)) (u : σ) (ec : Option Err),
          (visitMet true fetch a u ec).1 = (visitMet true fetch a u none).1 ∧
          (visitMet true fetch a u ec).2 = ((visitMet true fetch a u none).2 <|> ec) := by
        intro a
        induction a with
        | nil => intro u ec; exact ⟨rfl, rfl⟩
        | cons x a ih =>
          intro u ec
          cases x with
          | error e =>
            show (visitMet true fetch a u (some e)).1 = (visitMet true fetch a u (some e)).1 ∧
              (visitMet true fetch a u (some e)).2 = ((visitMet true fetch a u (some e)).2 <|> ec)
            refine ⟨rfl, ?_⟩
            rw [(ih u (some e)).2]
            cases (visitMet true fetch a u none).2 <;> rfl
          | ok kv =>
            simp only [visitMet]
            cases hf : (fetch u kv.1 (some kv.2)).2 with
            | none => exact ih _ ec
            | some e =>
              refine ⟨rfl, ?_⟩
              show (visitMet true fetch a _ (some e)).2 = ((visitMet true fetch a _ (some e)).2 <|> ec)
              rw [(ih _ (some e)).2]
              cases (visitMet true fetch a _ none).2 <;> rfl
      refine ⟨(this a u ec).1, ?_⟩
      rw [(this a u ec).2]
      cases (visitMet true fetch a u none).2 <;> cases ec <;> rfl
  rw [key a u ec hec, (two a u ec hec).1, (two a u ec hec).2]

/-- What is met is what there is, except what is lost with nodes that cannot be read. -/
structure Met (kvs : List KV) (evs : List (Except Err KV)) : Prop where
  sub : (oks evs).Sublist kvs
  full : (∀ e, .error e ∉ evs) → oks evs = kvs
  loss : ∀ e, .error e ∈ evs → (oks evs).length < kvs.length

theorem oks_append (a b : List (Except Err KV)) : oks (a ++ b) = oks a ++ oks b := List.filterMap_append

theorem Met.append {kvs kvs' : List KV} {a b : List (Except Err KV)} (h : Met kvs a) (h' : Met kvs' b) :
    Met (kvs ++ kvs') (a ++ b) := by
  refine ⟨?_, ?_, ?_⟩
  · rw [oks_append]; exact h.sub.append h'.sub
  · intro hn
    rw [oks_append, h.full (fun e he => hn e (by simp [he])), h'.full (fun e he => hn e (by simp [he]))]
  · intro e he
    have := h.sub.length_le
    have := h'.sub.length_le
    rw [oks_append, List.length_append, List.length_append]
    rcases List.mem_append.mp he with he | he
    · have := h.loss e he; omega
    · have := h'.loss e he; omega

theorem oks_ok (kvs : List KV) : oks (kvs.map .ok) = kvs := by
  unfold oks
  induction kvs with
  | nil => rfl
  | cons x xs ih => simp [Except.toOption, ih] at ih ⊢

theorem Met.ok (kvs : List KV) : Met kvs (kvs.map .ok) := by
  refine ⟨by rw [oks_ok], fun _ => oks_ok kvs, ?_⟩
  intro e he
  obtain ⟨x, _, hx⟩ := List.mem_map.mp he
  cases hx

theorem mem_oks {kv : KV} {evs : List (Except Err KV)} : kv ∈ oks evs ↔ .ok kv ∈ evs := by
  unfold oks
  rw [List.mem_filterMap]
  constructor
  · rintro ⟨a, h1, h2⟩
    cases a with
    | error e => cases h2
    | ok a => cases h2; exact h1
  · intro h
    exact ⟨_, h, rfl⟩

/-! ### Traversals and lookups of one node -/

/-- What is required of the request of a traversal or lookup. -/
structure MetRq (rq : LookRq σ) (cmp : Bytes → Bytes → Ordering) : Prop where
  cmp : rq.cmp = cmp
  node : rq.node = none

/-- What happens at a position: a traversal from a bound below all keys meets `evs`; the lookup of a key finds
it exactly if the traversal meets it. -/
structure MetAt (cmp : Bytes → Bytes → Ordering) (f : File) (kvs : List KV) (evs : List (Except Err KV))
    (look : ∀ {σ : Type}, LookRq σ → List Bytes → LSt σ → M (LSt σ × Option Err)) : Prop where
  met : Met kvs evs
  walk : ∀ {σ : Type} (rq : LookRq σ), MetRq rq cmp → ∀ lo, (∀ kv ∈ kvs, lookupCompare cmp kv.1 lo ≠ .lt) → ∀ u b,
    ∃ b', (b = true → b' = true) ∧ look rq [lo] ⟨u, true, b⟩ f =
      .ok (⟨(visitMet rq.tolerate rq.fetch evs u none).1, true, b'⟩, (visitMet rq.tolerate rq.fetch evs u none).2) f
  found : ∀ {σ : Type} (rq : LookRq σ), MetRq rq cmp → ∀ kv, .ok kv ∈ evs → ∀ u,
    look rq [kv.1] ⟨u, false, false⟩ f =
      .ok (⟨(rq.fetch u kv.1 (some kv.2)).1, false, false⟩, (rq.fetch u kv.1 (some kv.2)).2) f
  missed : ∀ {σ : Type} (rq : LookRq σ), MetRq rq cmp → ∀ kv ∈ kvs, .ok kv ∉ evs → ∀ u,
    ∃ e, look rq [kv.1] ⟨u, false, false⟩ f = .ok (⟨u, false, false⟩, some e) f

theorem kvRec_met {rq : LookRq σ} {ck v lo : Bytes} (h : lookupCompare rq.cmp ck lo ≠ .lt) (u : σ) (b : Bool)
    (ec : Option Err) :
    kvRec rq ck v [lo] ⟨u, true, b⟩ ec =
      match tolerateOr rq.tolerate (rq.fetch u ck (some v)).2 ec with
      | .error e => .halt ⟨(rq.fetch u ck (some v)).1, true, true⟩ e
      | .ok ec => .go ⟨(rq.fetch u ck (some v)).1, true, true⟩ [lo] ec := by
  unfold kvRec
  cases b <;> simp [h, pastEnd] <;> (cases tolerateOr rq.tolerate (rq.fetch u ck (some v)).2 ec <;> rfl)

/-- A leaf is traversed. -/
theorem kvLook_met {rq : LookRq σ} {cmp : Bytes → Bytes → Ordering} (hrq : MetRq rq cmp) (kvs : List KV) (lo : Bytes)
    (hlo : ∀ kv ∈ kvs, lookupCompare cmp kv.1 lo ≠ .lt) (u : σ) (b : Bool) (ec : Option Err)
    (hec : rq.tolerate = false → ec = none) :
    ∃ b', (b = true → b' = true) ∧
      endLook rq (kvLook rq (kvs.map fun kv => some (kv.1, kv.2)) [lo] ⟨u, true, b⟩ ec) =
        (⟨(visitMet rq.tolerate rq.fetch (kvs.map .ok) u ec).1, true, b'⟩,
          (visitMet rq.tolerate rq.fetch (kvs.map .ok) u ec).2) := by
  induction kvs generalizing u b ec with
  | nil => exact ⟨b, id, rfl⟩
  | cons kv kvs ih =>
    have h1 := hlo kv (by simp)
    rw [← hrq.cmp] at h1
    have ih := ih fun x hx => hlo x (by simp [hx])
    simp only [List.map_cons, kvLook, visitMet]
    rw [kvRec_met h1]
    cases ht : tolerateOr rq.tolerate (rq.fetch u kv.1 (some kv.2)).2 ec with
    | error e => exact ⟨true, fun _ => rfl, rfl⟩
    | ok ec' =>
      dsimp only
      have hec' : rq.tolerate = false → ec' = none := by
        intro h
        rw [h] at ht
        cases hf : (rq.fetch u kv.1 (some kv.2)).2 with
        | some x => rw [hf] at ht; cases ht
        | none => rw [hf] at ht; cases ht; rfl
      obtain ⟨b', i1, i2⟩ := ih (rq.fetch u kv.1 (some kv.2)).1 true ec' hec'
      exact ⟨b', fun _ => i1 rfl, i2⟩

/-- A key is looked up in a leaf that has it. -/
theorem kvLook_one {rq : LookRq σ} {cmp : Bytes → Bytes → Ordering} {K} (C : CmpLaws (lookupCompare cmp) K)
    (hrq : MetRq rq cmp) (kvs : List KV) (hs : SortedKV (lookupCompare cmp) kvs) (hK : ∀ kv ∈ kvs, K kv.1)
    (kv : KV) (hkv : kv ∈ kvs) (u : σ) :
    endLook rq (kvLook rq (kvs.map fun kv => some (kv.1, kv.2)) [kv.1] ⟨u, false, false⟩ none) =
      (⟨(rq.fetch u kv.1 (some kv.2)).1, false, false⟩, (rq.fetch u kv.1 (some kv.2)).2) := by
  induction kvs with
  | nil => cases hkv
  | cons x kvs ih =>
    obtain ⟨hlt, hs'⟩ := List.pairwise_cons.mp hs
    simp only [List.map_cons, kvLook]
    unfold kvRec
    simp only [Bool.false_eq_true, false_and, and_false, if_false, or_false]
    rcases List.mem_cons.mp hkv with rfl | hm
    · have he : lookupCompare rq.cmp kv.1 kv.1 = .eq := by rw [hrq.cmp]; exact (C.eq_iff _ _ (hK _ hkv) (hK _ hkv)).mpr rfl
      simp only [he, ne_eq, reduceCtorEq, not_false_eq_true, if_true]
      cases ht : (rq.fetch u kv.1 (some kv.2)).2 with
      | none =>
        have : tolerateOr rq.tolerate none none = .ok none := by cases rq.tolerate <;> rfl
        rw [this]
        dsimp only
        cases kvs <;> rfl
      | some e =>
        cases htol : rq.tolerate with
        | false => rfl
        | true => dsimp only [tolerateOr]; cases kvs <;> rfl
    · have hl : lookupCompare rq.cmp x.1 kv.1 = .lt := by rw [hrq.cmp]; exact hlt kv hm
      simp only [hl, ne_eq, not_true_eq_false, if_false]
      exact ih hs' (fun y hy => hK y (by simp [hy])) hm

/-! ### Interior nodes -/

/-- The pointers of an interior node, with the entries below them and what a traversal meets there. -/
abbrev Child := NodePointer × List KV × List (Except Err KV)

/-- What is known of a pointer. -/
structure ChildMet (E : Env) (cmp : Bytes → Bytes → Ordering) (f : File) (fuel : Nat) (d : Child) : Prop where
  read : ∃ q, readPointer (ptrItem d.1).key (ptrItem d.1).data = some q ∧ q.pointer = d.1.pointer
  last : lastKey d.2.1 = some d.1.key
  met : MetAt cmp f d.2.1 d.2.2 fun rq => lookInner E rq fuel d.1.pointer

theorem childRecs (ds : List Child) (d : Child) :
    ((d :: ds).map fun d => some ((ptrItem d.1).key, (ptrItem d.1).data)) =
      some (d.1.key, (ptrItem d.1).data) :: ds.map fun d => some ((ptrItem d.1).key, (ptrItem d.1).data) := rfl

theorem kpLook_met {E : Env} {rq : LookRq σ} {cmp : Bytes → Bytes → Ordering} (hrq : MetRq rq cmp) {f : File}
    {fuel : Nat} (ds : List Child) (hds : ∀ d ∈ ds, ChildMet E cmp f fuel d) (lo : Bytes)
    (hlo : ∀ kv ∈ ds.flatMap (·.2.1), lookupCompare cmp kv.1 lo ≠ .lt) (u : σ) (b : Bool) (ec : Option Err)
    (hec : rq.tolerate = false → ec = none) :
    ∃ b' fl, (b = true → b' = true) ∧
      kpLook rq (lookInner E rq fuel) (ds.map fun d => some ((ptrItem d.1).key, (ptrItem d.1).data)) [lo] ⟨u, true, b⟩ ec f =
        .ok fl f ∧
      endLook rq fl = (⟨(visitMet rq.tolerate rq.fetch (ds.flatMap (·.2.2)) u ec).1, true, b'⟩,
          (visitMet rq.tolerate rq.fetch (ds.flatMap (·.2.2)) u ec).2) := by
  induction ds generalizing u b ec with
  | nil => exact ⟨b, _, id, rfl, rfl⟩
  | cons d ds ih =>
    have D := hds d (by simp)
    obtain ⟨q, hq, hqp⟩ := D.read
    obtain ⟨vl, hvl⟩ := lastKey_mem D.last
    have h1 : lookupCompare rq.cmp d.1.key lo ≠ .lt := by
      rw [hrq.cmp]
      exact hlo (d.1.key, vl) (by simp [hvl])
    have ih := ih (fun x hx => hds x (by simp [hx])) (fun kv hkv => hlo kv (by
      rw [List.flatMap_cons]; exact List.mem_append_right _ hkv))
    rw [childRecs, List.flatMap_cons]
    unfold kpLook
    have hq' : readPointer d.1.key (ptrItem d.1).data = some q := hq
    rw [if_pos h1, hq']
    dsimp only
    have hn : ∀ arg (st : LSt σ) ec, nodeCall rq arg st ec = .ok (st, ec) := fun arg st ec => by
      unfold nodeCall; rw [hrq.node]
    rw [hn]
    dsimp only
    simp only [if_true]
    obtain ⟨b1, m1, m2⟩ := D.met.walk rq hrq lo (fun kv hkv => hlo kv (by
      rw [List.flatMap_cons]; exact List.mem_append_left _ hkv)) u true
    have hb1 : b1 = true := m1 rfl
    subst hb1
    rw [hqp]
    show ∃ b' fl, _ ∧ (lookInner E rq fuel d.1.pointer [lo] ⟨u, true, true⟩ >>= _) f = _ ∧ _
    rw [bind_ok m2, visitMet_append _ _ _ _ _ _ hec]
    dsimp only
    cases ht : tolerateOr rq.tolerate (visitMet rq.tolerate rq.fetch d.2.2 u none).2 ec with
    | error e => exact ⟨true, _, fun _ => rfl, rfl, rfl⟩
    | ok ec' =>
      dsimp only
      rw [hn]
      have hec' : rq.tolerate = false → ec' = none := by
        intro h
        rw [h] at ht
        cases hf : (visitMet false rq.fetch d.2.2 u none).2 with
        | some x => rw [hf] at ht; cases ht
        | none => rw [hf] at ht; cases ht; rfl
      obtain ⟨b', fl, i1, i2, i3⟩ := ih (visitMet rq.tolerate rq.fetch d.2.2 u none).1 true ec' hec'
      exact ⟨b', fl, fun _ => i1 rfl, i2, i3⟩

theorem kpLook_one {E : Env} {rq : LookRq σ} {cmp : Bytes → Bytes → Ordering} {K} (C : CmpLaws (lookupCompare cmp) K)
    (hrq : MetRq rq cmp) {f : File} {fuel : Nat} (ds : List Child) (hds : ∀ d ∈ ds, ChildMet E cmp f fuel d)
    (hs : SortedKV (lookupCompare cmp) (ds.flatMap (·.2.1))) (hK : ∀ kv ∈ ds.flatMap (·.2.1), K kv.1)
    (d : Child) (hd : d ∈ ds) (kv : KV) (hkv : kv ∈ d.2.1) (u u' : σ) (e : Option Err)
    (h : lookInner E rq fuel d.1.pointer [kv.1] ⟨u, false, false⟩ f = .ok (⟨u', false, false⟩, e) f) :
    ∃ fl, kpLook rq (lookInner E rq fuel) (ds.map fun d => some ((ptrItem d.1).key, (ptrItem d.1).data)) [kv.1]
        ⟨u, false, false⟩ none f = .ok fl f ∧ endLook rq fl = (⟨u', false, false⟩, e) := by
  induction ds with
  | nil => cases hd
  | cons x ds ih =>
    have D := hds x (by simp)
    obtain ⟨vl, hvl⟩ := lastKey_mem D.last
    rw [List.flatMap_cons] at hs hK
    obtain ⟨hs1, hs2, hs3⟩ := List.pairwise_append.mp hs
    have hK1 : ∀ kv ∈ x.2.1, K kv.1 := fun kv h => hK kv (by simp [h])
    have hn : ∀ arg (st : LSt σ) ec, nodeCall rq arg st ec = .ok (st, ec) := fun arg st ec => by
      unfold nodeCall; rw [hrq.node]
    rw [childRecs]
    unfold kpLook
    rcases List.mem_cons.mp hd with rfl | hm
    · obtain ⟨q, hq, hqp⟩ := D.read
      have h1 : lookupCompare rq.cmp d.1.key kv.1 ≠ .lt := by
        rw [hrq.cmp]
        have hle := SortedKV.le_last C hs1 hK1 D.last kv hkv
        exact fun hlt => hle (C.lt_gt (hK1 _ hvl) (hK1 _ hkv) hlt)
      have hq' : readPointer d.1.key (ptrItem d.1).data = some q := hq
      rw [if_pos h1, hq']
      dsimp only
      rw [hn]
      simp only [Bool.false_eq_true, if_false, List.takeWhile_nil, List.dropWhile_nil]
      rw [hqp, bind_ok h]
      dsimp only
      have hend : ∀ ec, kpLook rq (lookInner E rq fuel) (ds.map fun d => some ((ptrItem d.1).key, (ptrItem d.1).data)) []
          ⟨u', false, false⟩ ec = pure (.go ⟨u', false, false⟩ [] ec) := by
        intro ec; cases ds <;> rfl
      cases e with
      | none =>
        have : tolerateOr rq.tolerate none none = .ok none := by cases rq.tolerate <;> rfl
        rw [this]
        dsimp only
        rw [hn]
        simp only [Bool.false_eq_true, if_false]
        rw [hend]
        exact ⟨_, rfl, rfl⟩
      | some e =>
        cases htol : rq.tolerate with
        | false => exact ⟨_, rfl, rfl⟩
        | true =>
          dsimp only [tolerateOr]
          rw [hn]
          simp only [Bool.false_eq_true, if_false]
          rw [hend]
          exact ⟨_, rfl, rfl⟩
    · have hl : lookupCompare rq.cmp x.1.key kv.1 = .lt := by
        rw [hrq.cmp]
        exact hs3 (x.1.key, vl) hvl kv (List.mem_flatMap.mpr ⟨d, hm, hkv⟩)
      rw [if_neg (by simp [hl])]
      exact ih (fun y hy => hds y (by simp [hy])) hs2 (fun y hy => hK y (List.mem_append_right _ hy)) hm

/-! ### Whole trees -/

theorem Met.flat (ds : List Child) (h : ∀ d ∈ ds, Met d.2.1 d.2.2) : Met (ds.flatMap (·.2.1)) (ds.flatMap (·.2.2)) := by
  induction ds with
  | nil => exact Met.ok []
  | cons d ds ih =>
    rw [List.flatMap_cons, List.flatMap_cons]
    exact (h d (by simp)).append (ih fun x hx => h x (by simp [hx]))

/-- A tree of the intact file, traversed and searched in the damaged file. -/
theorem lookInner_met (E : Env) (L : E.Laws) {X : Idx} {cmp : Bytes → Bytes → Ordering} {K}
    (C : CmpLaws (lookupCompare cmp) K) (hV : ∀ kv, X.V kv → K kv.1 ∧ kv.1.length < 4096) {f0 f : File}
    (D : DamagedFile E f0 f) (w : f0.WF) (fuel l : Nat) (hl : l < fuel) (p : NodePointer) (kvs : List KV)
    (h : TreeAt E X f0 l p kvs) (hs : SortedKV (lookupCompare cmp) kvs) :
    ∃ evs, MetAt cmp f kvs evs fun rq => lookInner E rq fuel p.pointer := by
  induction fuel generalizing l p kvs with
  | zero => omega
  | succ fuel ih =>
    have hK : ∀ kv ∈ kvs, K kv.1 := fun kv hkv => (hV kv (h.valid kv hkv)).1
    obtain ⟨cs, hne, hcs, rfl, hz, _⟩ := h
    have hkne : cs.flatMap (·.2) ≠ [] := by
      obtain ⟨c, cs', rfl⟩ := List.exists_cons_of_ne_nil hne
      have h0 := hcs c (by simp)
      have : c.2 ≠ [] := by
        cases l with
        | zero => rw [h0.2.1]; simp
        | succ l =>
          obtain ⟨q, -, hq, -⟩ := h0
          rintro hn
          rw [hn] at hq
          cases hq
      intro hn
      rw [List.flatMap_cons] at hn
      exact this (List.append_eq_nil_iff.mp hn).1
    rcases D.node L w.crc hz (by
        intro i hi
        obtain ⟨c, hc, rfl⟩ := List.mem_map.mp hi
        exact (hcs c hc).fits (fun kv hkv => (hV kv hkv).2)) with hr | ⟨e, he⟩
    · cases l with
      | zero =>
        refine ⟨(cs.flatMap (·.2)).map .ok, Met.ok _, ?_, ?_, ?_⟩
        · intro σ rq hrq lo hlo u b
          obtain ⟨b', h1, h2⟩ := kvLook_met hrq (cs.flatMap (·.2)) lo hlo u b none (fun _ => rfl)
          refine ⟨b', h1, ?_⟩
          unfold lookInner
          rw [bind_ok hr, leaf_items hcs]
          dsimp only
          rw [if_neg (by decide), if_pos (by decide), h2]
          rfl
        · intro σ rq hrq kv hkv u
          have hkv : kv ∈ cs.flatMap (·.2) := by
            obtain ⟨x, hx, he⟩ := List.mem_map.mp hkv
            cases he
            exact hx
          unfold lookInner
          rw [bind_ok hr, leaf_items hcs]
          dsimp only
          rw [if_neg (by decide), if_pos (by decide), kvLook_one C hrq _ hs hK kv hkv u]
          rfl
        · intro σ rq hrq kv hkv hn
          exact absurd (List.mem_map.mpr ⟨kv, hkv, rfl⟩) hn
      | succ l =>
        have hch : ∀ cs' : List (Item × List KV), (∀ c ∈ cs', c ∈ cs) →
            ∃ ds : List Child, (∀ d ∈ ds, ChildMet E cmp f fuel d) ∧ ds.flatMap (·.2.1) = cs'.flatMap (·.2) ∧
              (ds.map fun d => some ((ptrItem d.1).key, (ptrItem d.1).data)) =
                (cs'.map (·.1)).map fun i => some (i.key, i.data) := by
          intro cs'
          induction cs' with
          | nil => exact fun _ => ⟨[], by simp, rfl, rfl⟩
          | cons c cs' ihc =>
            intro hsub
            obtain ⟨ds, d1, d2, d3⟩ := ihc fun x hx => hsub x (by simp [hx])
            have hc := hsub c (by simp)
            obtain ⟨q, hq, hrp, hlk, htree, -, -⟩ := (hcs c hc).ptr
            obtain ⟨evs, M⟩ := ih l (by omega) q c.2 htree (by
              obtain ⟨a, b, hab⟩ := List.append_of_mem hc
              rw [hab, List.flatMap_append, List.flatMap_cons] at hs
              exact (List.pairwise_append.mp (List.pairwise_append.mp hs).2.1).1)
            refine ⟨(q, c.2, evs) :: ds, ?_, ?_, ?_⟩
            · intro d hd
              rcases List.mem_cons.mp hd with rfl | hd
              · exact ⟨⟨truncPtr q, by rw [← hq]; exact hrp, rfl⟩, hlk, M⟩
              · exact d1 d hd
            · rw [List.flatMap_cons, List.flatMap_cons, d2]
            · rw [List.map_cons, List.map_cons, List.map_cons, d3, hq]
        obtain ⟨ds, d1, d2, d3⟩ := hch cs fun _ h => h
        rw [← d2] at hs hK ⊢
        have hone : ∀ {σ : Type} (rq : LookRq σ), MetRq rq cmp → ∀ d ∈ ds, ∀ kv ∈ d.2.1, ∀ (u u' : σ) (e : Option Err),
            lookInner E rq fuel d.1.pointer [kv.1] ⟨u, false, false⟩ f = .ok (⟨u', false, false⟩, e) f →
            lookInner E rq (fuel + 1) p.pointer [kv.1] ⟨u, false, false⟩ f = .ok (⟨u', false, false⟩, e) f := by
          intro σ rq hrq d hd kv hkv u u' e h1
          obtain ⟨fl, h2, h3⟩ := kpLook_one C hrq ds d1 hs hK d hd kv hkv u u' e h1
          unfold lookInner
          rw [bind_ok hr, ← d3]
          dsimp only
          rw [if_pos (show (kindOf (l + 1)).byte = 0 from rfl), bind_ok h2, h3]
          rfl
        have hmet : ∀ d ∈ ds, Met d.2.1 d.2.2 := fun d hd => (d1 d hd).met.met
        refine ⟨ds.flatMap (·.2.2), Met.flat ds hmet, ?_, ?_, ?_⟩
        · intro σ rq hrq lo hlo u b
          obtain ⟨b', fl, h1, h2, h3⟩ := kpLook_met hrq ds d1 lo hlo u b none (fun _ => rfl)
          refine ⟨b', h1, ?_⟩
          unfold lookInner
          rw [bind_ok hr, ← d3]
          dsimp only
          rw [if_pos (show (kindOf (l + 1)).byte = 0 from rfl), bind_ok h2, h3]
          rfl
        · intro σ rq hrq kv hkv u
          obtain ⟨d, hd, hk⟩ := List.mem_flatMap.mp hkv
          exact hone rq hrq d hd kv ((hmet d hd).sub.subset (mem_oks.mpr hk)) u _ _ ((d1 d hd).met.found rq hrq kv hk u)
        · intro σ rq hrq kv hkv hn u
          obtain ⟨d, hd, hk⟩ := List.mem_flatMap.mp hkv
          obtain ⟨e, he⟩ := (d1 d hd).met.missed rq hrq kv hk (fun hx => hn (List.mem_flatMap.mpr ⟨d, hd, hx⟩)) u
          exact ⟨e, hone rq hrq d hd kv hk u u _ he⟩
    · refine ⟨[.error e], ⟨List.nil_sublist _, fun h => absurd (List.mem_singleton.mpr rfl) (h e), ?_⟩, ?_, ?_, ?_⟩
      · intro _ _
        exact List.length_pos_iff.mpr hkne
      · intro σ rq hrq lo hlo u b
        refine ⟨b, id, ?_⟩
        unfold lookInner
        rw [bind_ok he]
        cases ht : rq.tolerate <;> rfl
      · intro σ rq hrq kv hkv
        simp at hkv
      · intro σ rq hrq kv hkv hn u
        refine ⟨e, ?_⟩
        unfold lookInner
        rw [bind_ok he]
        rfl

end Couchstore
