import Verif.Model.CouchCheck
import Verif.Lemmas.RecoverFill

/-! Helper lemmas: what the check program finds out about a damaged file. -/

namespace Couchstore

variable {σ α β : Type}

/-! ### A file that reads the same -/

/-- The operation gives the same in both files, and leaves them as they are. -/
def Agree (f0 f : File) (m : M α) : Prop :=
  (∃ a, m f0 = .ok a f0 ∧ m f = .ok a f) ∨ ∃ e, m f0 = .error e f0 ∧ m f = .error e f

theorem Agree.pure {f0 f : File} (a : α) : Agree f0 f (Pure.pure a : M α) := Or.inl ⟨a, rfl, rfl⟩

theorem Agree.throw {f0 f : File} (e : Err) : Agree f0 f (throw e : M α) := Or.inr ⟨e, rfl, rfl⟩

theorem Agree.bind {f0 f : File} {m : M α} {k : α → M β} (h : Agree f0 f m) (hk : ∀ a, Agree f0 f (k a)) :
    Agree f0 f (m >>= k) := by
  rcases h with ⟨a, h1, h2⟩ | ⟨e, h1, h2⟩
  · rcases hk a with ⟨b, h3, h4⟩ | ⟨e, h3, h4⟩
    · exact Or.inl ⟨b, by rw [bind_ok h1, h3], by rw [bind_ok h2, h4]⟩
    · exact Or.inr ⟨e, by rw [bind_ok h1, h3], by rw [bind_ok h2, h4]⟩
  · exact Or.inr ⟨e, bind_error h1, bind_error h2⟩

theorem Agree.attempt {f0 f : File} {m : M α} (h : Agree f0 f m) : Agree f0 f (attempt m) := by
  rcases h with ⟨a, h1, h2⟩ | ⟨e, h1, h2⟩
  · exact Or.inl ⟨.ok a, by unfold Couchstore.attempt; rw [h1], by unfold Couchstore.attempt; rw [h2]⟩
  · exact Or.inl ⟨.error e, by unfold Couchstore.attempt; rw [h1], by unfold Couchstore.attempt; rw [h2]⟩

/-- The nodes below a position, to a depth, are read from `f`, with the content they have in `f0`. -/
def Whole (E : Env) (f0 f : File) : Nat → Nat → Prop
  | 0, _ => True
  | n + 1, p => ∃ t recs, readNode E p f0 = .ok (t, recs) f0 ∧ readNode E p f = .ok (t, recs) f ∧
      (t = 0 → ∀ k v, some (k, v) ∈ recs → 14 ≤ v.length → Whole E f0 f n (beDec (slice v 0 6)))

theorem readPointer_pointer {k v : Bytes} {q : NodePointer} (h : readPointer k v = some q) :
    14 ≤ v.length ∧ q.pointer = beDec (slice v 0 6) := by
  unfold readPointer at h
  split at h
  · cases h
  · dsimp only at h
    split at h
    · cases h
    · cases h
      exact ⟨by omega, rfl⟩

theorem kpLook_agree {f0 f : File} {rq : LookRq σ} {descend : Nat → List Bytes → LSt σ → M (LSt σ × Option Err)}
    (recs : List (Option (Bytes × Bytes)))
    (hd : ∀ k v q, some (k, v) ∈ recs → readPointer k v = some q → ∀ ks st, Agree f0 f (descend q.pointer ks st))
    (ks : List Bytes) (st : LSt σ) (ec : Option Err) : Agree f0 f (kpLook rq descend recs ks st ec) := by
  induction recs generalizing ks st ec with
  | nil => unfold kpLook; exact Agree.pure _
  | cons r recs ih =>
    have ih := ih fun k v q hm => hd k v q (List.mem_cons_of_mem _ hm)
    cases ks with
    | nil => cases r <;> exact Agree.pure _
    | cons k ks =>
      cases r with
      | none => exact Agree.pure _
      | some kv =>
        obtain ⟨ck, v⟩ := kv
        unfold kpLook
        split
        · dsimp only
          cases hp : readPointer ck v with
          | none => exact Agree.pure _
          | some q =>
            dsimp only
            split
            · exact Agree.pure _
            · refine Agree.bind (hd ck v q List.mem_cons_self hp _ _) ?_
              rintro ⟨st', e⟩
              dsimp only
              split
              · exact Agree.pure _
              · split
                · exact Agree.pure _
                · exact ih _ _ _
        · exact ih _ _ _

theorem lookInner_agree {E : Env} {f0 f : File} {rq : LookRq σ} (fuel p : Nat) (h : Whole E f0 f fuel p) (ks : List Bytes)
    (st : LSt σ) : Agree f0 f (lookInner E rq fuel p ks st) := by
  induction fuel generalizing p ks st with
  | zero => cases ks <;> exact Agree.pure _
  | succ n ih =>
    cases ks with
    | nil => exact Agree.pure _
    | cons k ks =>
      obtain ⟨t, recs, h1, h2, h3⟩ := h
      unfold lookInner
      have ha : attempt (readNode E p) f0 = .ok (.ok (t, recs)) f0 := by unfold attempt; rw [h1]
      have hb : attempt (readNode E p) f = .ok (.ok (t, recs)) f := by unfold attempt; rw [h2]
      have hrest : Agree f0 f (if t = 0 then do
          let fl ← kpLook rq (lookInner E rq n) recs (k :: ks) st none
          pure (endLook rq fl)
        else if t = 1 then pure (endLook rq (kvLook rq recs (k :: ks) st none))
        else pure (endLook rq (.go st (k :: ks) none)) : M (LSt σ × Option Err)) := by
        split
        · rename_i ht
          exact Agree.bind (kpLook_agree recs (fun k v q hm hq ks st => ih q.pointer
            ((readPointer_pointer hq).2 ▸ h3 ht k v hm (readPointer_pointer hq).1) ks st) _ _ _)
            fun _ => Agree.pure _
        · split <;> exact Agree.pure _
      unfold Agree at hrest ⊢
      rw [bind_ok ha, bind_ok hb]
      exact hrest

theorem btreeLookup_agree {E : Env} {f0 f : File} (hl : f.disk.length = f0.disk.length) {rq : LookRq σ} {fold : Bool}
    {root : Nat} {keys : List Bytes} {u : σ} (h : Whole E f0 f (f0.disk.length + 1) root) :
    Agree f0 f (btreeLookup E rq fold root keys u) := by
  have := Agree.bind (k := fun r : LSt σ × Option Err => (pure (r.1.user, r.2) : M (σ × Option Err)))
    (lookInner_agree (rq := rq) _ _ h keys ⟨u, fold, false⟩) fun _ => Agree.pure _
  unfold Agree at this ⊢
  unfold btreeLookup
  show (∃ a, (lookInner E rq (f0.disk.length + 1) root keys ⟨u, fold, false⟩ >>= _) f0 = _ ∧
    (lookInner E rq (f.disk.length + 1) root keys ⟨u, fold, false⟩ >>= _) f = _) ∨
    ∃ e, (lookInner E rq (f0.disk.length + 1) root keys ⟨u, fold, false⟩ >>= _) f0 = _ ∧
    (lookInner E rq (f.disk.length + 1) root keys ⟨u, fold, false⟩ >>= _) f = _
  rw [hl]
  exact this

theorem evalSeqLoop_agree {f0 f : File} {left right : Bytes} {recurse : Bool → Nat → Nat → M Nat} (kp : Bool)
    (recs : List (Option (Bytes × Bytes)))
    (hd : kp = true → ∀ k v, some (k, v) ∈ recs → 19 ≤ v.length → ∀ b a, Agree f0 f (recurse b (beDec (slice v 0 6)) a))
    (past : Bool) (acc : Nat) : Agree f0 f (evalSeqLoop kp left right recurse recs past acc) := by
  induction recs generalizing past acc with
  | nil => exact Agree.pure _
  | cons r recs ih =>
    have ih := ih fun h k v hm => hd h k v (List.mem_cons_of_mem _ hm)
    cases r with
    | none => exact Agree.throw _
    | some kv =>
      obtain ⟨k, v⟩ := kv
      unfold evalSeqLoop
      split
      · exact ih _ _
      · split
        · rename_i hkp
          split
          · exact Agree.throw _
          · split
            · refine Agree.bind (hd hkp k v List.mem_cons_self (by omega) _ _) ?_
              intro a
              split
              · exact Agree.pure _
              · exact ih _ _
            · exact ih _ _
        · split
          · exact Agree.pure _
          · exact ih _ _

theorem evalSeqReduce_agree {E : Env} {f0 f : File} {left right : Bytes} (fuel p : Nat) (h : Whole E f0 f fuel p) (past : Bool)
    (acc : Nat) : Agree f0 f (evalSeqReduce E left right fuel past p acc) := by
  induction fuel generalizing p past acc with
  | zero => exact Agree.throw _
  | succ n ih =>
    obtain ⟨t, recs, h1, h2, h3⟩ := h
    have := evalSeqLoop_agree (f0 := f0) (f := f) (left := left) (right := right)
      (recurse := evalSeqReduce E left right n) (t == 0) recs
      (fun ht k v hm hv b a => ih _ (h3 (by simpa using ht) k v hm (by omega)) b a) past acc
    unfold Agree at this ⊢
    unfold evalSeqReduce
    rw [bind_ok h1, bind_ok h2]
    exact this

/-! ### What a complete walk finds out -/

theorem leaf_pass {rq : LookRq σ} (ht : rq.tolerate = false) {I : σ → Prop} (hI : ∀ u k v, I u → I (rq.fetch u k v).1)
    {good : KV → Prop}
    (hg : ∀ u kv, (rq.fetch u kv.1 (some kv.2)).2 = none ↔ good kv) (kvs : List KV) (lo : Bytes)
    (hlo : ∀ kv ∈ kvs, lookupCompare rq.cmp kv.1 lo ≠ .lt) (u : σ) (hu : I u) (b : Bool) :
    ∃ u' b' e, I u' ∧ (b = true → b' = true) ∧
      endLook rq (kvLook rq (kvs.map fun kv => some (kv.1, kv.2)) [lo] ⟨u, true, b⟩ none) = (⟨u', true, b'⟩, e) ∧
      (e = none ↔ ∀ kv ∈ kvs, good kv) := by
  induction kvs generalizing u b with
  | nil => exact ⟨u, b, none, hu, id, rfl, by simp⟩
  | cons kv kvs ih =>
    have h1 := hlo kv (by simp)
    have ih := ih fun x hx => hlo x (by simp [hx])
    simp only [List.map_cons, kvLook]
    rw [kvRec_met h1, ht]
    cases hf : (rq.fetch u kv.1 (some kv.2)).2 with
    | some e =>
      refine ⟨_, true, some e, hI u kv.1 (some kv.2) hu, fun _ => rfl, rfl, ?_⟩
      constructor
      · intro h; cases h
      · intro h
        have := (hg u kv).mpr (h kv (by simp))
        rw [hf] at this; exact this
    | none =>
      have hk := (hg u kv).mp hf
      obtain ⟨u', b', e, i0, i1, i2, i3⟩ := ih (rq.fetch u kv.1 (some kv.2)).1 (hI u _ _ hu) true
      refine ⟨u', b', e, i0, fun _ => i1 rfl, i2, ?_⟩
      rw [i3]
      simp [hk]

/-- What is known of a walk below a position. -/
def PassAt (E : Env) (rq : LookRq σ) (I : σ → Prop) (f : File) (fuel p : Nat) (lo : Bytes) (W : Prop) : Prop :=
  ∀ u b, I u → ∃ u' b' e, I u' ∧ (b = true → b' = true) ∧
    lookInner E rq fuel p [lo] ⟨u, true, b⟩ f = .ok (⟨u', true, b'⟩, e) f ∧ (e = none ↔ W)

theorem kpLook_pass {E : Env} {rq : LookRq σ} (ht : rq.tolerate = false) {I : σ → Prop}
    (hn : ∀ cb, rq.node = some cb → ∀ u a, (cb u a).2 = none ∧ (I u → I (cb u a).1)) {f : File} {fuel : Nat} {W : Item × List KV → Prop}
    (cs : List (Item × List KV)) (lo : Bytes)
    (hcs : ∀ c ∈ cs, lookupCompare rq.cmp c.1.key lo ≠ .lt ∧
      ∃ q, readPointer c.1.key c.1.data = some q ∧ PassAt E rq I f fuel q.pointer lo (W c)) (u : σ) (hu : I u) (b : Bool) :
    ∃ u' b' e fl, I u' ∧ (b = true → b' = true) ∧
      kpLook rq (lookInner E rq fuel) ((cs.map (·.1)).map fun i => some (i.key, i.data)) [lo] ⟨u, true, b⟩ none f = .ok fl f ∧
      endLook rq fl = (⟨u', true, b'⟩, e) ∧ (e = none ↔ ∀ c ∈ cs, W c) := by
  induction cs generalizing u b with
  | nil => exact ⟨u, b, none, _, hu, id, rfl, rfl, by simp⟩
  | cons c cs ih =>
    obtain ⟨h1, q, hq, hp⟩ := hcs c (by simp)
    have ih := ih fun x hx => hcs x (by simp [hx])
    have hcall : ∀ arg (u : σ) b, I u → ∃ u', I u' ∧ nodeCall rq arg ⟨u, true, b⟩ none = .ok (⟨u', true, b⟩, none) := by
      intro arg u b hu
      unfold nodeCall
      cases hc : rq.node with
      | none => exact ⟨u, hu, rfl⟩
      | some cb =>
        obtain ⟨this, hi⟩ := hn cb hc u arg
        have hi := hi hu
        dsimp only
        cases hr : cb u arg with
        | mk u1 e1 =>
          rw [hr] at this hi
          cases e1 with
          | some e => cases this
          | none => exact ⟨u1, hi, rfl⟩
    simp only [List.map_cons]
    unfold kpLook
    rw [if_pos h1, hq]
    dsimp only
    simp only [if_true]
    obtain ⟨u1, hu1, n1⟩ := hcall (some (q.subtreesize, q.reduceValue)) u true hu
    rw [n1]
    dsimp only
    obtain ⟨u2, b2, e, hu2, m1, m2, m3⟩ := hp u1 true hu1
    have hb2 := m1 rfl
    subst hb2
    show ∃ u' b' e fl, _ ∧ _ ∧ (lookInner E rq fuel q.pointer [lo] ⟨u1, true, true⟩ >>= _) f = _ ∧ _
    rw [bind_ok m2, ht]
    dsimp only
    cases e with
    | some e =>
      refine ⟨u2, true, some e, _, hu2, fun _ => rfl, rfl, rfl, ?_⟩
      constructor
      · intro h; cases h
      · intro h
        exact m3.mpr (h c (by simp))
    | none =>
      obtain ⟨u3, hu3, n3⟩ := hcall none u2 true hu2
      dsimp only [tolerateOr]
      rw [n3]
      dsimp only
      simp only [if_true]
      obtain ⟨u', b', e, fl, i0, i1, i2, i3, i4⟩ := ih u3 hu3 true
      refine ⟨u', b', e, fl, i0, fun _ => i1 rfl, i2, i3, ?_⟩
      rw [i4]
      simp [m3.mp rfl]

theorem readNode_calm (E : Env) (L : E.Laws) {f0 : File} (hcrc : f0.cfg.crcMode ≠ .unknown) {p : Nat} {t : UInt8}
    {is : List Item} (h : ZChunkAt E f0 p (t :: encodeItems is))
    (hi : ∀ i ∈ is, i.key.length < 4096 ∧ i.data.length < 2 ^ 28) :
    readNode E p f0.calm = .ok (t, is.map fun i => some (i.key, i.data)) f0.calm := by
  have hk : Keep f0 f0.calm := ⟨fun _ _ _ => rfl, rfl, rfl, Nat.le_refl _⟩
  have hs := readNode_spec E L p t is f0.calm hcrc (h.keep hk) hi
  unfold Sp at hs
  cases hp : readNode E p f0.calm with
  | ok r g =>
    rw [hp] at hs
    rw [hs.1, hs.2.same rfl]
  | error e g =>
    rw [hp] at hs
    exact absurd rfl hs.2

theorem attempt_ok {m : M α} {f : File} {r : Except Err α} (h : attempt m f = .ok r f) :
    (∀ a, r = .ok a → m f = .ok a f) ∧ ∀ e, r = .error e → m f = .error e f := by
  unfold attempt at h
  cases hm : m f with
  | ok a g => rw [hm] at h; cases h; exact ⟨fun _ h => by cases h; rfl, fun _ h => by cases h⟩
  | error e g => rw [hm] at h; cases h; exact ⟨fun _ h => (nomatch h), fun _ h => by cases h; rfl⟩

/-- A walk from a bound below all keys of a tree of the intact file: it succeeds in the damaged file if all nodes
are read and the callback is content with every entry. -/
theorem tree_pass (E : Env) (L : E.Laws) {X : Idx} (hV : ∀ kv, X.V kv → kv.1.length < 4096) {f0 f : File}
    (D : DamagedFile E f0 f) (w : f0.WF) {rq : LookRq σ} (ht : rq.tolerate = false)
    {I : σ → Prop} (hI : ∀ u k v, I u → I (rq.fetch u k v).1)
    (hn : ∀ cb, rq.node = some cb → ∀ u a, (cb u a).2 = none ∧ (I u → I (cb u a).1)) {good : KV → Prop}
    (hg : ∀ u kv, (rq.fetch u kv.1 (some kv.2)).2 = none ↔ good kv) (fuel l : Nat) (hl : l < fuel) (p : NodePointer)
    (kvs : List KV) (h : TreeAt E X f0 l p kvs) (lo : Bytes) (hlo : ∀ kv ∈ kvs, lookupCompare rq.cmp kv.1 lo ≠ .lt) :
    PassAt E rq I f fuel p.pointer lo (Whole E f0.calm f fuel p.pointer ∧ ∀ kv ∈ kvs, good kv) := by
  induction fuel generalizing l p kvs with
  | zero => omega
  | succ fuel ih =>
    obtain ⟨cs, hne, hcs, rfl, hz, _⟩ := h
    have hfit : ∀ i ∈ cs.map (·.1), i.key.length < 4096 ∧ i.data.length < 2 ^ 28 := by
      intro i hi
      obtain ⟨c, hc, rfl⟩ := List.mem_map.mp hi
      exact (hcs c hc).fits hV
    have h0 := readNode_calm E L w.crc hz hfit
    intro u b hu
    rcases D.node L w.crc hz hfit with hr | ⟨e, he⟩
    · have hr' := (attempt_ok hr).1 _ rfl
      cases l with
      | zero =>
        obtain ⟨u', b', e, hi, h1, h2, h3⟩ := leaf_pass ht hI hg (cs.flatMap (·.2)) lo hlo u hu b
        refine ⟨u', b', e, hi, h1, ?_, ?_⟩
        · unfold lookInner
          rw [bind_ok hr, leaf_items hcs]
          dsimp only
          rw [if_neg (by decide), if_pos (by decide), h2]
          rfl
        · rw [h3]
          refine ⟨fun h => ⟨⟨_, _, h0, hr', ?_⟩, h⟩, fun h => h.2⟩
          intro h
          exact absurd h (by decide)
      | succ l =>
        have hc : ∀ c ∈ cs, lookupCompare rq.cmp c.1.key lo ≠ .lt ∧
            ∃ q, readPointer c.1.key c.1.data = some q ∧ PassAt E rq I f fuel q.pointer lo
              (Whole E f0.calm f fuel (beDec (slice c.1.data 0 6)) ∧ ∀ kv ∈ c.2, good kv) := by
          intro c hc
          obtain ⟨q, hq, hrp, hlk, htree, hlk', htree'⟩ := (hcs c hc).ptr
          obtain ⟨v, hv⟩ := lastKey_mem hlk
          refine ⟨?_, truncPtr q, hrp, ?_⟩
          · have hkey : c.1.key = q.key := by rw [hq]; rfl
            rw [hkey]
            exact hlo _ (List.mem_flatMap.mpr ⟨c, hc, hv⟩)
          · rw [← (readPointer_pointer hrp).2]
            exact ih l (by omega) (truncPtr q) c.2 htree' fun kv hkv => hlo kv (List.mem_flatMap.mpr ⟨c, hc, hkv⟩)
        obtain ⟨u', b', e, fl, hi, h1, h2, h3, h4⟩ := kpLook_pass ht hn cs lo hc u hu b
        refine ⟨u', b', e, hi, h1, ?_, ?_⟩
        · unfold lookInner
          rw [bind_ok hr]
          dsimp only
          rw [if_pos (show (kindOf (l + 1)).byte = 0 from rfl), bind_ok h2, h3]
          rfl
        · rw [h4]
          constructor
          · intro h
            refine ⟨⟨_, _, h0, hr', ?_⟩, ?_⟩
            · intro _ k v hm _
              obtain ⟨i, hi, he⟩ := List.mem_map.mp hm
              obtain ⟨c, hc, rfl⟩ := List.mem_map.mp hi
              cases he
              exact (h c hc).1
            · intro kv hkv
              obtain ⟨c, hc, hk⟩ := List.mem_flatMap.mp hkv
              exact (h c hc).2 kv hk
          · rintro ⟨⟨t, recs, w1, -, w3⟩, hgood⟩ c hc'
            rw [h0] at w1
            cases w1
            obtain ⟨-, q, hq, -⟩ := hc c hc'
            exact ⟨w3 rfl _ _ (List.mem_map.mpr ⟨c.1, List.mem_map.mpr ⟨c, hc', rfl⟩, rfl⟩) (readPointer_pointer hq).1,
              fun kv hkv => hgood kv (List.mem_flatMap.mpr ⟨c, hc', hkv⟩)⟩
    · refine ⟨u, b, some e, hu, id, ?_, ?_⟩
      · unfold lookInner
        rw [bind_ok he]
        rfl
      · constructor
        · intro h; cases h
        · rintro ⟨⟨t, recs, -, w2, -⟩, -⟩
          have := (attempt_ok he).2 _ rfl
          rw [w2] at this
          cases this

end Couchstore
