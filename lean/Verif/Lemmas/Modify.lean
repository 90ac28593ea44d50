import Verif.Lemmas.Tree
import Verif.Lemmas.Fold

/-! Helper lemmas: the B-tree update refines the abstract meaning of the batch. -/

namespace Couchstore

variable {σ : Type}

theorem Ext.wf' {f g : File} (e : Ext f g) (w : f.WF) : g.WF := e.wf w

/-! ### Pushing records -/

theorem maybeFlush_spec (E : Env) {rq : Rq σ} {K X} (ok : RqOk rq K X) (l : Nat) (mr : MR)
    (c : List KV) (ps vs : List (Item × List KV)) (f : File) (w : f.WF)
    (h : MRInv E X f l mr c ps vs) :
    Sp (maybeFlush E rq mr) f
      (fun mr' g => Ext f g ∧ mr'.modified = mr.modified ∧
        ∃ ps' vs', MRInv E X g l mr' c ps' vs' ∧
          (l ≠ 0 → 2 * ps'.length + vs'.length ≤ 2 * ps.length + vs.length) ∧
          (ps' = [] → ps = [] ∧ vs' = vs) ∧ (mr.modified = false → mr' = mr))
      (FailT f) := by
  have hstay : Sp (pure mr : M MR) f
      (fun mr' g => Ext f g ∧ mr'.modified = mr.modified ∧
        ∃ ps' vs', MRInv E X g l mr' c ps' vs' ∧
          (l ≠ 0 → 2 * ps'.length + vs'.length ≤ 2 * ps.length + vs.length) ∧
          (ps' = [] → ps = [] ∧ vs' = vs) ∧ (mr.modified = false → mr' = mr))
      (FailT f) := ⟨Ext.refl _, rfl, ps, vs, h, fun _ => Nat.le_refl _, fun h => ⟨h, rfl⟩, fun _ => rfl⟩
  have hflush : ∀ quota, (0 < quota ∨ l ≠ 0) → mr.modified = true → 1 ≤ vs.length →
      (l ≠ 0 → 2 ≤ vs.length) → Sp (flushMrPartial E rq mr quota) f
      (fun mr' g => Ext f g ∧ mr'.modified = mr.modified ∧
        ∃ ps' vs', MRInv E X g l mr' c ps' vs' ∧
          (l ≠ 0 → 2 * ps'.length + vs'.length ≤ 2 * ps.length + vs.length) ∧
          (ps' = [] → ps = [] ∧ vs' = vs) ∧ (mr.modified = false → mr' = mr))
      (FailT f) := by
    intro quota hq hm h1 h2
    apply (flushMrPartial_spec E ok l mr c ps vs quota f w h hq).mono
    · rintro mr' g ⟨he, hmod, ps', vs', hi, _, _, h3, h4, _, _⟩
      refine ⟨he, hmod, ps', vs', hi, fun hl => h3 hl (h2 hl), ?_, ?_⟩
      · intro h0
        have := h4 hm (by intro h0; subst h0; simp at h1)
        rw [h0] at this; simp at this
      · intro h0; rw [hm] at h0; simp at h0
    · exact fun _ _ h => h
  have hkv : mr.kind = .kv → l = 0 := by
    intro hk; rw [h.kind] at hk
    cases l with
    | zero => rfl
    | succ l => simp [kindOf] at hk
  have hkp : mr.kind = .kp → l ≠ 0 := by
    intro hk; rw [h.kind] at hk
    cases l with
    | zero => simp [kindOf] at hk
    | succ l => omega
  have hthr := ok.thr
  have hlen := h.len
  have hcnt := h.count
  have hvs : 0 < mr.nodeLen → 1 ≤ vs.length := by
    intro h0
    cases vs with
    | nil => rw [hlen] at h0; simp [itemsSize] at h0
    | cons a b => simp
  unfold maybeFlush
  split
  · split
    · rename_i hc
      obtain ⟨hm, hc⟩ := hc
      rcases hc with ⟨hk, hc⟩ | ⟨hk, hc, hc2⟩
      · exact hflush _ (Or.inl (by omega)) hm (hvs (by omega)) (fun hl => absurd (hkv hk) hl)
      · exact hflush _ (Or.inr (hkp hk)) hm (by omega) (fun _ => by omega)
    · exact hstay
  · split
    · rename_i hc
      split
      · rename_i hk
        exact hflush _ (Or.inl (by omega)) hc.1 (by omega) (fun _ => by omega)
      · split
        · rename_i hk
          exact hflush _ (Or.inr (hkp hk.1)) hc.1 (by omega) (fun _ => by omega)
        · exact hstay
    · exact hstay

theorem mrPush_spec (E : Env) {rq : Rq σ} {K X} (ok : RqOk rq K X) (l : Nat) (mr : MR)
    (c : List KV) (ps vs : List (Item × List KV)) (it : Item) (kvs : List KV) (f : File) (w : f.WF)
    (h : MRInv E X f l mr c ps vs) (hit : ItemAt E X f l it kvs) :
    Sp (mrPush E rq it mr) f
      (fun mr' g => Ext f g ∧ mr'.modified = mr.modified ∧
        ∃ ps' vs', MRInv E X g l mr' (c ++ kvs) ps' vs' ∧
          (l ≠ 0 → 2 * ps'.length + vs'.length ≤ 2 * ps.length + vs.length + 1) ∧
          (ps' = [] → ps = [] ∧ vs' = vs ++ [(it, kvs)]) ∧
          (mr.modified = false → mr'.values = mr.values ++ [it]))
      (FailT f) := by
  unfold mrPush
  have hinv : MRInv E X f l { mr with values := mr.values ++ [it], nodeLen := mr.nodeLen + it.kvSize,
                                      count := mr.count + 1 } (c ++ kvs) ps (vs ++ [(it, kvs)]) := by
    refine ⟨h.kind, h.pointers, ?_, h.ps_ok, ?_, ?_, ?_, ?_⟩
    · simp [h.values]
    · intro x hx
      rcases List.mem_append.mp hx with hx | hx
      · exact h.vs_ok x hx
      · simp at hx; subst hx; exact hit
    · simp [h.len, itemsSize]
    · simp [h.count]
    · rw [h.content]; simp
  apply (maybeFlush_spec E ok l _ _ ps _ f w hinv).mono
  · rintro mr' g ⟨he, hm, ps', vs', hi, h1, h2, h3⟩
    refine ⟨he, hm, ps', vs', hi, fun hl => ?_, h2, ?_⟩
    · have := h1 hl; simp at this; omega
    · intro h0; rw [h3 h0]
  · exact fun _ _ h => h

theorem mrPushList_spec (E : Env) {rq : Rq σ} {K X} (ok : RqOk rq K X) (l : Nat)
    (xs : List (Item × List KV)) (mr : MR)
    (c : List KV) (ps vs : List (Item × List KV)) (f : File) (w : f.WF)
    (h : MRInv E X f l mr c ps vs) (hx : ∀ x ∈ xs, ItemAt E X f l x.1 x.2) :
    Sp (mrPushList E rq (xs.map (·.1)) mr) f
      (fun mr' g => Ext f g ∧ mr'.modified = mr.modified ∧
        ∃ ps' vs', MRInv E X g l mr' (c ++ xs.flatMap (·.2)) ps' vs' ∧
          (l ≠ 0 → 2 * ps'.length + vs'.length ≤ 2 * ps.length + vs.length + xs.length) ∧
          (ps' = [] → ps = [] ∧ vs' = vs ++ xs))
      (FailT f) := by
  induction xs generalizing mr c ps vs f with
  | nil => exact ⟨Ext.refl _, rfl, ps, vs, by simpa using h, fun _ => by simp, fun h0 => ⟨h0, by simp⟩⟩
  | cons x xs ih =>
    unfold mrPushList
    apply Sp.bind' (mrPush_spec E ok l mr c ps vs x.1 x.2 f w h (hx x (by simp)))
    · rintro mr1 g ⟨he, hm, ps1, vs1, hi, h1, h2, _⟩
      apply (ih mr1 _ ps1 vs1 g (he.wf' w) hi (fun y hy => (hx y (by simp [hy])).keep (he.keep w))).mono
      · rintro mr2 g2 ⟨he2, hm2, ps2, vs2, hi2, h3, h4⟩
        refine ⟨he.trans he2, hm2.trans hm, ps2, vs2, by simpa using hi2, ?_, ?_⟩
        · intro hl
          have a1 := h1 hl; have a2 := h3 hl
          simp only [List.length_cons]; omega
        · intro h0
          obtain ⟨a1, a2⟩ := h4 h0
          obtain ⟨a3, a4⟩ := h2 a1
          exact ⟨a3, by rw [a2, a4]; simp⟩
      · exact fun _ _ h => FailT.trans he h
    · exact fun _ _ h => h

/-- The node under construction holds the entries `c`. -/
def MRC (E : Env) (X : Idx) (f : File) (l : Nat) (mr : MR) (c : List KV) : Prop :=
  ∃ ps vs, MRInv E X f l mr c ps vs

theorem MRC.keep {E X f g l mr c} (h : MRC E X f l mr c) (k : Keep f g) : MRC E X g l mr c := by
  obtain ⟨ps, vs, h⟩ := h; exact ⟨ps, vs, h.keep k⟩

theorem MRC.setModified {E X f l mr c} (h : MRC E X f l mr c) (b : Bool) :
    MRC E X f l { mr with modified := b } c := by
  obtain ⟨ps, vs, h⟩ := h; exact ⟨ps, vs, h.1, h.2, h.3, h.4, h.5, h.6, h.7, h.8⟩

theorem MRInv.setModified {E X f l mr c ps vs} (h : MRInv E X f l mr c ps vs) (b : Bool) :
    MRInv E X f l { mr with modified := b } c ps vs :=
  ⟨h.1, h.2, h.3, h.4, h.5, h.6, h.7, h.8⟩

/-- A failure of an update whose abstract meaning is `spec`. -/
def FailS {α : Type} (f : File) (spec : Except Err α) (e : Err) (g : File) : Prop :=
  Ext f g ∧ (f.faults ≠ [] ∨ e = .formatLimit ∨ spec = .error e)

theorem FailT.failS {α : Type} {f g : File} {e : Err} (h : FailT f e g) (s : Except Err α) :
    FailS f s e g := ⟨h.1, h.2.imp id Or.inl⟩

theorem FailR.failS {α : Type} {f g : File} {e : Err} (h : FailR f e g) (s : Except Err α) :
    FailS f s e g := ⟨h.1.ext, Or.inl h.2⟩

theorem FailS.trans {α β : Type} {f g h : File} {e : Err} {s : Except Err α} {s' : Except Err β}
    (a : Ext f g) (b : FailS g s e h) (hs : s = .error e → s' = .error e) : FailS f s' e h :=
  ⟨a.trans b.1, by
    rcases b.2 with h | h | h
    · exact Or.inl (a.faults_ne h)
    · exact Or.inr (Or.inl h)
    · exact Or.inr (Or.inr (hs h))⟩

/-- Requirements on the actions of a request. -/
def ActsOk (K : Bytes → Prop) (X : Idx) (as : List Action) : Prop :=
  ∀ a ∈ as, K a.key ∧ (a.inserts → X.V (a.key, a.data))

theorem mrPushItem_spec (E : Env) {rq : Rq σ} {K X} (ok : RqOk rq K X) (k v : Bytes)
    (loc : MR) (c : List KV) (f : File) (w : f.WF) (h : MRC E X f 0 loc c) (hv : X.V (k, v)) :
    Sp (mrPushItem E rq k v loc) f
      (fun r g => Ext f g ∧ r.modified = loc.modified ∧ MRC E X g 0 r (c ++ [(k, v)])) (FailT f) := by
  obtain ⟨ps, vs, h⟩ := h
  unfold mrPushItem
  apply (mrPush_spec E ok 0 loc c ps vs _ [(k, v)] f w h
    ⟨rfl, rfl, hv, (ok.entry _ hv).2.1, (ok.entry _ hv).2.2⟩).mono
  · rintro r g ⟨he, hm, ps', vs', hi, _⟩
    exact ⟨he, hm, ps', vs', hi⟩
  · exact fun _ _ h => h

theorem maybePurgeKv_off (E : Env) (rq : Rq σ) (k v : Bytes) (u : σ) (res : MR) :
    maybePurgeKv E rq k v ⟨u, false⟩ res =
      (do let r ← mrPushItem E rq k v res; pure (⟨u, false⟩, r)) := rfl

theorem maybePurgeKp_off (E : Env) (rq : Rq σ) (pn) (p : NodePointer) (u : σ) (res : MR) :
    maybePurgeKp E rq pn p ⟨u, false⟩ res =
      (do let r ← mrPushPointer E rq p res; pure (⟨u, false⟩, r)) := rfl

theorem maybePurgeKv_spec (E : Env) {rq : Rq σ} {K X} (ok : RqOk rq K X) (k v : Bytes) (u : σ)
    (loc : MR) (c : List KV) (f : File) (w : f.WF) (h : MRC E X f 0 loc c) (hv : X.V (k, v)) :
    Sp (maybePurgeKv E rq k v ⟨u, false⟩ loc) f
      (fun r g => Ext f g ∧ r.1 = ⟨u, false⟩ ∧ r.2.modified = loc.modified ∧
        MRC E X g 0 r.2 (c ++ [(k, v)])) (FailT f) := by
  rw [maybePurgeKv_off]
  apply Sp.bind' (mrPushItem_spec E ok k v loc c f w h hv)
  · rintro r g ⟨he, hm, hi⟩
    exact ⟨he, rfl, hm, hi⟩
  · exact fun _ _ h => h

/-! ### One action -/

/-- The callback part of an insertion. -/
def specSave (rq : Rq σ) (a : Action) (old : Option Bytes) (u : σ) : Except Err σ :=
  match rq.saveCb with
  | none => .ok u
  | some cb => cb u a.key old a.data a.userReq

theorem doInsert_spec (E : Env) {rq : Rq σ} {K X} (ok : RqOk rq K X) (a : Action)
    (old : Option Bytes) (u : σ)
    (loc : MR) (c : List KV) (f : File) (w : f.WF) (h : MRC E X f 0 loc c) (hv : X.V (a.key, a.data)) :
    Sp (doInsert E rq a old ⟨u, false⟩ loc) f
      (fun r g => Ext f g ∧ (∃ u', specSave rq a old u = .ok u' ∧ r.1 = ⟨u', false⟩) ∧
        r.2.modified = true ∧ MRC E X g 0 r.2 (c ++ [(a.key, a.data)]))
      (FailS f (specSave rq a old u)) := by
  unfold doInsert
  apply Sp.bind' (mrPushItem_spec E ok a.key a.data _ c f w (h.setModified true) hv)
  · rintro r g ⟨he, hm, hi⟩
    unfold doSave specSave
    cases rq.saveCb with
    | none => exact ⟨he, ⟨u, rfl, rfl⟩, hm, hi⟩
    | some cb =>
      simp only
      cases hcb : cb u a.key old a.data a.userReq with
      | ok u' => exact ⟨he, ⟨u', rfl, rfl⟩, hm, hi⟩
      | error e => exact ⟨he, Or.inr (Or.inr rfl)⟩
  · exact fun _ _ h => h.failS _

theorem specInsert_eq (rq : Rq σ) (a : Action) (u : σ) (kvs : List KV) :
    specInsert rq a u kvs =
      match specSave rq a (kvFind a.key kvs) u with
      | .ok u' => .ok (u', kvInsert rq.cmp a.key a.data kvs)
      | .error e => .error e := by
  unfold specInsert specSave
  cases rq.saveCb with
  | none => rfl
  | some cb => rfl

/-- The fetch part of an action. -/
def specFetch (rq : Rq σ) (a : Action) (found : Option Bytes) (u : σ) : Except Err (σ × ActType) :=
  match rq.fetchCb with
  | none => .ok (u, a.type)
  | some cb => cb u a found

theorem doFetch_spec (rq : Rq σ) (a : Action) (found : Option Bytes) (u : σ) (f : File) :
    Sp (doFetch rq a found ⟨u, false⟩) f
      (fun r g => g = f ∧ ∃ u' t, specFetch rq a found u = .ok (u', t) ∧ r = (⟨u', false⟩, t))
      (fun e g => g = f ∧ specFetch rq a found u = .error e) := by
  unfold doFetch specFetch
  cases rq.fetchCb with
  | none => exact ⟨rfl, u, a.type, rfl, rfl⟩
  | some cb =>
    simp only
    cases hcb : cb u a found with
    | ok x => exact ⟨rfl, x.1, x.2, rfl, rfl⟩
    | error e => exact ⟨rfl, rfl⟩

theorem specStep_fetch (rq : Rq σ) (a : Action) (u : σ) (kvs : List KV)
    (h1 : a.type ≠ .remove) (h2 : a.type ≠ .insert) :
    specStep rq a u kvs =
      match specFetch rq a (kvFind a.key kvs) u with
      | .ok (u', t) => if t = .fetch then .ok (u', kvs) else specInsert rq a u' kvs
      | .error e => .error e := by
  unfold specStep specFetch
  cases ht : a.type <;> simp_all
  all_goals cases rq.fetchCb with
  | none => simp
  | some cb => rfl

theorem fetch_inserts {rq : Rq σ} {K X} (ok : RqOk rq K X) {a : Action} {found u u' t}
    (h1 : a.type ≠ .remove) (h : specFetch rq a found u = .ok (u', t)) (ht : t ≠ .fetch) :
    a.inserts := by
  unfold specFetch at h
  cases hty : a.type with
  | remove => exact absurd hty h1
  | insert => exact Or.inl hty
  | fetchInsert => exact Or.inr hty
  | fetch =>
    exfalso
    cases hcb : rq.fetchCb with
    | none => rw [hcb] at h; simp at h; exact ht (h.2 ▸ hty)
    | some cb =>
      rw [hcb] at h
      exact ht (ok.fetch cb hcb u a _ _ _ hty h)

/-- An action on a key below all remaining entries. -/
theorem notFound_spec (E : Env) {rq : Rq σ} {K X} (ok : RqOk rq K X) (a : Action) (u : σ)
    (loc : MR) (c : List KV) (f : File) (w : f.WF) (h : MRC E X f 0 loc c)
    (ha : K a.key ∧ (a.inserts → X.V (a.key, a.data))) :
    Sp (notFound E rq a ⟨u, false⟩ loc) f
      (fun r g => Ext f g ∧ ∃ u' out, specStep rq a u [] = .ok (u', out) ∧ r.1 = ⟨u', false⟩ ∧
        MRC E X g 0 r.2 (c ++ out) ∧
        (r.2.modified = false → loc.modified = false ∧ out = []))
      (FailS f (specStep rq a u [])) := by
  have hins : ∀ u, a.inserts → Sp (doInsert E rq a none ⟨u, false⟩ loc) f
      (fun r g => Ext f g ∧ ∃ u' out, specInsert rq a u [] = .ok (u', out) ∧ r.1 = ⟨u', false⟩ ∧
        MRC E X g 0 r.2 (c ++ out) ∧
        (r.2.modified = false → loc.modified = false ∧ out = []))
      (FailS f (specInsert rq a u [])) := by
    intro u hi
    apply (doInsert_spec E ok a none u loc c f w h (ha.2 hi)).mono
    · rintro r g ⟨he, ⟨u', hs, hr⟩, hm, hc⟩
      refine ⟨he, u', [(a.key, a.data)], ?_, hr, hc, ?_⟩
      · rw [specInsert_eq]; simp only [kvFind]; rw [hs]; rfl
      · intro h0; rw [hm] at h0; simp at h0
    · intro e g hf
      refine ⟨hf.1, hf.2.imp id (Or.imp id ?_)⟩
      intro hs
      rw [specInsert_eq]; simp only [kvFind]; rw [hs]
  unfold notFound
  split
  · rename_i ht
    refine ⟨Ext.refl _, u, [], ?_, rfl, ?_, by simp⟩
    · unfold specStep; rw [ht]; rfl
    · simpa using h.setModified true
  · rename_i ht
    have := hins u (Or.inl ht)
    have he : specStep rq a u [] = specInsert rq a u [] := by unfold specStep; rw [ht]
    rw [he]; exact this
  · rename_i h1 h2
    rw [specStep_fetch rq a u [] h1 h2]
    simp only [kvFind]
    apply Sp.bind' (doFetch_spec rq a none u f)
    · rintro ⟨st, t⟩ g ⟨rfl, u', t', hs, hr⟩
      injection hr with hr1 hr2
      subst hr1; subst hr2
      rw [hs]
      simp only
      split
      · refine ⟨Ext.refl _, u', [], rfl, rfl, by simpa using h, fun h0 => ⟨h0, rfl⟩⟩
      · rename_i ht
        exact hins u' (fetch_inserts ok h1 hs ht)
    · rintro e g ⟨rfl, hs⟩
      rw [hs]
      exact ⟨Ext.refl _, Or.inr (Or.inr rfl)⟩

/-! ### Leaves -/

theorem SortedKV.head_lt {cmp} {x : KV} {xs : List KV} (h : SortedKV cmp (x :: xs)) :
    ∀ y ∈ xs, cmp x.1 y.1 = .lt := (List.pairwise_cons.mp h).1

theorem SortedKV.tail {cmp} {x : KV} {xs : List KV} (h : SortedKV cmp (x :: xs)) :
    SortedKV cmp xs := (List.pairwise_cons.mp h).2

theorem ActsOk.tail {K X a as} (h : ActsOk K X (a :: as)) : ActsOk K X as :=
  fun b hb => h b (by simp [hb])

theorem BatchOk.tail {rq : Rq σ} {a as} (h : BatchOk rq (a :: as)) : BatchOk rq as :=
  (List.pairwise_cons.mp h).2

/-- After an inserting action all other actions are on greater keys. -/
theorem BatchOk.after_insert {rq : Rq σ} {a as} (h : BatchOk rq (a :: as)) (hi : a.inserts) :
    ∀ b ∈ as, rq.cmp a.key b.key = .lt := by
  intro b hb
  rcases (List.pairwise_cons.mp h).1 b hb with h | h
  · exact h
  · exact absurd hi h.2

/-- All actions are on keys at least the first. -/
theorem BatchOk.head_lt {rq : Rq σ} {K} (C : CmpLaws rq.cmp K) {a as x} (h : BatchOk rq (a :: as))
    (hK : ∀ b ∈ a :: as, K b.key) (hx : K x) (hlt : rq.cmp x a.key = .lt) :
    ∀ b ∈ a :: as, rq.cmp x b.key = .lt := by
  intro b hb
  rcases List.mem_cons.mp hb with rfl | hb'
  · exact hlt
  · rcases (List.pairwise_cons.mp h).1 b hb' with h | h
    · exact C.trans x a.key b.key hx (hK a (by simp)) (hK b hb) hlt h
    · rw [← h.1]; exact hlt

theorem specFold_cons (rq : Rq σ) (a : Action) (as : List Action) (u : σ) (kvs : List KV) :
    specFold rq (a :: as) u kvs =
      match specStep rq a u kvs with
      | .ok (u', kvs') => specFold rq as u' kvs'
      | .error e => .error e := by rw [specFold]; rfl

theorem kvInner_spec (E : Env) {rq : Rq σ} {K X} (ok : RqOk rq K X) (k v : Bytes)
    (items : List KV) (hs : SortedKV rq.cmp ((k, v) :: items)) (hV : ∀ kv ∈ (k, v) :: items, X.V kv)
    (as : List Action) (u : σ) (loc : MR) (c : List KV) (f : File) (w : f.WF)
    (h : MRC E X f 0 loc c) (hb : BatchOk rq as) (ha : ActsOk K X as) :
    Sp (kvInner E rq k v as ⟨u, false⟩ loc) f
      (fun r g => Ext f g ∧ ∃ u' pre,
        specFold rq as u ((k, v) :: items) =
          preR pre (specFold rq r.1 u' (if r.2.1 then items else (k, v) :: items)) ∧
        r.2.2.1 = ⟨u', false⟩ ∧ MRC E X g 0 r.2.2.2 (c ++ pre) ∧ (r.2.1 = false → r.1 = []) ∧
        BatchOk rq r.1 ∧ ActsOk K X r.1 ∧
        (r.2.2.2.modified = false → loc.modified = false ∧
          pre ++ (if r.2.1 then items else (k, v) :: items) = (k, v) :: items))
      (FailS f (specFold rq as u ((k, v) :: items))) := by
  have hKi : ∀ kv ∈ (k, v) :: items, K kv.1 := fun kv hkv => (ok.entry kv (hV kv hkv)).1
  have hk : K k := hKi (k, v) (by simp)
  have C := ok.cmp
  induction as generalizing u loc c f with
  | nil =>
    refine ⟨Ext.refl _, u, [], ?_, rfl, by simpa using h, by simp, hb, ha, ?_⟩
    · rw [preR_nil]; rfl
    · intro h0; exact ⟨h0, rfl⟩
  | cons a as ih =>
    have haK := (ha a (by simp)).1
    have hasK : ∀ b ∈ as, K b.key := fun b hb => (ha b (by simp [hb])).1
    unfold kvInner
    split
    · -- below the action
      rename_i hc
      apply Sp.bind' (maybePurgeKv_spec E ok k v u loc c f w h (hV _ (by simp)))
      · rintro ⟨st, loc'⟩ g ⟨he, hst, hm, hi⟩
        simp only at hst hm hi
        subst hst
        refine ⟨he, u, [(k, v)], ?_, rfl, hi, by simp, hb, ha, ?_⟩
        · exact specFold_pre C (as := a :: as) (pre := [(k, v)]) (kvs := items)
            (fun b hb => (ha b hb).1) (by simpa using hk) (by
              intro b hb' kv hkv
              simp at hkv; subst hkv
              exact BatchOk.head_lt C hb (fun b hb => (ha b hb).1) hk hc b hb')
        · intro h0
          simp only at h0
          exact ⟨hm ▸ h0, rfl⟩
      · exact fun _ _ h => h.failS _
    · -- above the action
      rename_i hc
      have hlt : ∀ kv ∈ (k, v) :: items, rq.cmp a.key kv.1 = .lt := by
        have h1 := C.gt_lt hk haK hc
        intro kv hkv
        rcases List.mem_cons.mp hkv with rfl | hkv
        · exact h1
        · exact C.trans _ k _ haK hk (hKi kv (by simp [hkv])) h1 (hs.head_lt kv hkv)
      have hstep : specStep rq a u ((k, v) :: items) =
          sufR ((k, v) :: items) (specStep rq a u []) := by
        have := specStep_suf C (a := a) (u := u) (suf := (k, v) :: items) (kvs := []) haK hKi hlt
        exact this
      rw [specFold_cons, hstep]
      apply Sp.bind' (notFound_spec E ok a u loc c f w h (ha a (by simp)))
      · rintro ⟨st, loc'⟩ g ⟨he, u1, out, hsp, hst, hi, hmod⟩
        simp only at hst hi hmod
        subst hst
        rw [hsp]
        simp only [sufR]
        have hpre : specFold rq as u1 (out ++ (k, v) :: items) =
            preR out (specFold rq as u1 ((k, v) :: items)) := by
          apply specFold_pre C hasK
          · intro kv hkv
            rcases specStep_keys ok hsp kv hkv with ⟨_, rfl⟩ | h0
            · exact haK
            · simp at h0
          · intro b hb' kv hkv
            rcases specStep_keys ok hsp kv hkv with ⟨hins, rfl⟩ | h0
            · exact hb.after_insert hins b hb'
            · simp at h0
        rw [hpre]
        apply (ih u1 loc' (c ++ out) g (he.wf' w) hi hb.tail ha.tail).mono
        · rintro ⟨as', adv, st', loc''⟩ g' ⟨he', u', pre, h1, h2, h3, h4, h5, h6, h7⟩
          refine ⟨he.trans he', u', out ++ pre, ?_, h2, by simpa using h3, h4, h5, h6, ?_⟩
          · rw [h1, preR_preR]
          · intro h0
            obtain ⟨h8, h9⟩ := h7 h0
            obtain ⟨h10, h11⟩ := hmod h8
            subst h11
            exact ⟨h10, by simpa using h9⟩
        · intro e g' hf
          exact hf.trans he (fun h => by rw [preR_error]; exact h)
      · intro e g hf
        exact hf.trans (Ext.refl _) (fun h => by rw [h]; rfl)
    · -- equal
      rename_i hc
      have hkey : k = a.key := (C.eq_iff k a.key hk haK).mp hc
      have hfind : kvFind a.key ((k, v) :: items) = some v := by
        rw [kvFind, if_pos hkey]
      have hinsert : kvInsert rq.cmp a.key a.data ((k, v) :: items) = (a.key, a.data) :: items := by
        rw [kvInsert, hc]
      have hne : ∀ kv ∈ items, kv.1 ≠ a.key := by
        intro kv hkv h0
        have h1 := hs.head_lt kv hkv
        rw [h0, ← hkey] at h1
        simp only at h1
        rw [C.refl hk] at h1
        simp at h1
      -- insertion of an existing key
      have hins : ∀ u1, a.inserts →
          Sp (doInsert E rq a (some v) ⟨u1, false⟩ loc >>= fun x =>
              (pure (as, true, x.1, x.2) : M (List Action × Bool × St σ × MR))) f
            (fun r g => Ext f g ∧ ∃ u' pre,
              (match specInsert rq a u1 ((k, v) :: items) with
                | .ok (u', kvs') => specFold rq as u' kvs'
                | .error e => .error e) =
                preR pre (specFold rq r.1 u' (if r.2.1 then items else (k, v) :: items)) ∧
              r.2.2.1 = ⟨u', false⟩ ∧ MRC E X g 0 r.2.2.2 (c ++ pre) ∧ (r.2.1 = false → r.1 = []) ∧
              BatchOk rq r.1 ∧ ActsOk K X r.1 ∧
              (r.2.2.2.modified = false → loc.modified = false ∧
                pre ++ (if r.2.1 then items else (k, v) :: items) = (k, v) :: items))
            (FailS f (match specInsert rq a u1 ((k, v) :: items) with
                | .ok (u', kvs') => specFold rq as u' kvs'
                | .error e => .error e)) := by
        intro u1 hi
        rw [specInsert_eq, hfind, hinsert]
        apply Sp.bind' (doInsert_spec E ok a (some v) u1 loc c f w h ((ha a (by simp)).2 hi))
        · rintro ⟨st, loc'⟩ g ⟨he, ⟨u', hsv, hst⟩, hm, hi'⟩
          simp only at hst hm hi'
          subst hst
          rw [hsv]
          refine ⟨he, u', [(a.key, a.data)], ?_, rfl, hi', by simp, hb.tail, ha.tail, ?_⟩
          · exact specFold_pre C (as := as) (pre := [(a.key, a.data)]) (kvs := items) hasK
              (by simpa using haK) (by
                intro b hb' kv hkv
                simp at hkv; subst hkv
                exact hb.after_insert hi b hb')
          · intro h0
            simp only at h0
            rw [hm] at h0; simp at h0
        · intro e g hf
          exact hf.trans (Ext.refl _) (fun h => by rw [h])
      split
      · rename_i ht
        have hstep : specStep rq a u ((k, v) :: items) = .ok (u, items) := by
          unfold specStep
          rw [ht]
          simp only
          have : kvErase a.key ((k, v) :: items) = kvErase a.key items := by
            unfold kvErase
            rw [List.filter_cons_of_neg]
            simp [hkey]
          rw [this, kvErase_none hne]
        rw [specFold_cons, hstep]
        refine ⟨Ext.refl _, u, [], ?_, rfl, by simpa using h.setModified true, by simp, hb.tail,
          ha.tail, by simp⟩
        rw [preR_nil]; rfl
      · rename_i ht
        have hstep : specStep rq a u ((k, v) :: items) = specInsert rq a u ((k, v) :: items) := by
          unfold specStep; rw [ht]
        rw [specFold_cons, hstep]
        exact hins u (Or.inl ht)
      · rename_i h1 h2
        rw [specFold_cons, specStep_fetch rq a u _ h1 h2, hfind]
        apply Sp.bind' (doFetch_spec rq a (some v) u f)
        · rintro ⟨st, t⟩ g ⟨rfl, u1, t', hsf, hr⟩
          injection hr with hr1 hr2
          subst hr1; subst hr2
          rw [hsf]
          simp only
          by_cases ht : t = .fetch
          · rw [if_pos ht, if_pos ht]
            exact ih u1 loc c g w h hb.tail ha.tail
          · rw [if_neg ht, if_neg ht]
            exact hins u1 (fetch_inserts ok h1 hsf ht)
        · rintro e g ⟨rfl, hsf⟩
          rw [hsf]
          exact ⟨Ext.refl _, Or.inr (Or.inr rfl)⟩

theorem kvTail_spec (E : Env) {rq : Rq σ} {K X} (ok : RqOk rq K X)
    (as : List Action) (u : σ) (loc : MR) (c : List KV) (f : File) (w : f.WF)
    (h : MRC E X f 0 loc c) (hb : BatchOk rq as) (ha : ActsOk K X as) :
    Sp (kvTail E rq as ⟨u, false⟩ loc) f
      (fun r g => Ext f g ∧ ∃ u' out, specFold rq as u [] = .ok (u', out) ∧
        r.1 = ⟨u', false⟩ ∧ MRC E X g 0 r.2 (c ++ out) ∧
        (r.2.modified = false → loc.modified = false ∧ out = []))
      (FailS f (specFold rq as u [])) := by
  induction as generalizing u loc c f with
  | nil => exact ⟨Ext.refl _, u, [], rfl, rfl, by simpa using h, fun h0 => ⟨h0, rfl⟩⟩
  | cons a as ih =>
    unfold kvTail
    rw [specFold_cons]
    have haK := (ha a (by simp)).1
    apply Sp.bind' (notFound_spec E ok a u loc c f w h (ha a (by simp)))
    · rintro ⟨st, loc'⟩ g ⟨he, u1, out, hsp, hst, hi, hmod⟩
      simp only at hst hi hmod
      subst hst
      rw [hsp]
      simp only
      have hpre : specFold rq as u1 out = preR out (specFold rq as u1 []) := by
        have := specFold_pre ok.cmp (as := as) (u := u1) (pre := out) (kvs := [])
          (fun b hb => (ha b (by simp [hb])).1) (by
            intro kv hkv
            rcases specStep_keys ok hsp kv hkv with ⟨_, rfl⟩ | h0
            · exact haK
            · simp at h0) (by
            intro b hb' kv hkv
            rcases specStep_keys ok hsp kv hkv with ⟨hins, rfl⟩ | h0
            · exact hb.after_insert hins b hb'
            · simp at h0)
        simpa using this
      rw [hpre]
      apply (ih u1 loc' (c ++ out) g (he.wf' w) hi hb.tail ha.tail).mono
      · rintro ⟨st', loc''⟩ g' ⟨he', u', out', h1, h2, h3, h4⟩
        refine ⟨he.trans he', u', out ++ out', ?_, h2, by simpa using h3, ?_⟩
        · rw [h1]; rfl
        · intro h0
          obtain ⟨h8, h9⟩ := h4 h0
          obtain ⟨h10, h11⟩ := hmod h8
          subst h11
          exact ⟨h10, by simpa using h9⟩
      · intro e g' hf
        exact hf.trans he (fun h => by rw [preR_error]; exact h)
    · intro e g hf
      exact hf.trans (Ext.refl _) (fun h => by rw [h])

theorem kvLoop_spec (E : Env) {rq : Rq σ} {K X} (ok : RqOk rq K X)
    (items : List KV) (as : List Action) (u : σ) (loc : MR) (c : List KV) (f : File) (w : f.WF)
    (hs : SortedKV rq.cmp items) (hV : ∀ kv ∈ items, X.V kv)
    (h : MRC E X f 0 loc c) (hb : BatchOk rq as) (ha : ActsOk K X as) :
    Sp (kvLoop E rq (items.map fun kv => some (kv.1, kv.2)) as ⟨u, false⟩ loc) f
      (fun r g => Ext f g ∧ ∃ u' out, specFold rq as u items = .ok (u', out) ∧
        r.1 = ⟨u', false⟩ ∧ MRC E X g 0 r.2 (c ++ out) ∧
        (r.2.modified = false → loc.modified = false ∧ out = items))
      (FailS f (specFold rq as u items)) := by
  induction items generalizing as u loc c f with
  | nil => exact kvTail_spec E ok as u loc c f w h hb ha
  | cons kv items ih =>
    obtain ⟨k, v⟩ := kv
    rw [List.map_cons]
    unfold kvLoop
    simp only
    apply Sp.bind' (kvInner_spec E ok k v items hs hV as u loc c f w h hb ha)
    · rintro ⟨as1, adv, st1, loc1⟩ g1 ⟨he1, u1, pre, h1, h2, h3, h4, h5, h6, h7⟩
      simp only at h1 h2 h3 h4 h5 h6 h7
      subst h2
      rw [h1]
      simp only
      have hVt : ∀ kv ∈ items, X.V kv := fun kv hkv => hV kv (by simp [hkv])
      cases adv with
      | true =>
        rw [if_neg (by simp)]
        simp only [if_true] at h7 ⊢
        apply (ih as1 u1 loc1 (c ++ pre) g1 (he1.wf' w) hs.tail hVt h3 h5 h6).mono
        · rintro ⟨st2, loc2⟩ g2 ⟨he2, u2, out, h8, h9, h10, h11⟩
          refine ⟨he1.trans he2, u2, pre ++ out, by rw [h8]; rfl, h9, by simpa using h10, ?_⟩
          intro h0
          obtain ⟨h12, h13⟩ := h11 h0
          obtain ⟨h14, h15⟩ := h7 h12
          exact ⟨h14, by rw [h13, h15]⟩
        · intro e g' hf
          exact hf.trans he1 (fun h => by rw [preR_error]; exact h)
      | false =>
        have h0 := h4 rfl
        subst h0
        rw [if_pos ⟨rfl, rfl⟩]
        simp only [if_false, Bool.false_eq_true] at h7 ⊢
        have w1 := he1.wf' w
        apply Sp.bind' (maybePurgeKv_spec E ok k v u1 loc1 (c ++ pre) g1 w1 h3 (hV _ (by simp)))
        · rintro ⟨st2, loc2⟩ g2 ⟨he2, hst, hm, hi⟩
          simp only at hst hm hi
          subst hst
          simp only
          apply (ih [] u1 loc2 (c ++ pre ++ [(k, v)]) g2 (he2.wf' w1) hs.tail hVt hi h5 h6).mono
          · rintro ⟨st3, loc3⟩ g3 ⟨he3, u3, out, h8, h9, h10, h11⟩
            simp only [specFold] at h8
            injection h8 with h8; injection h8 with h81 h82
            subst h81; subst h82
            refine ⟨he1.trans (he2.trans he3), u1, pre ++ (k, v) :: items, rfl, h9,
              by simpa using h10, ?_⟩
            intro h0
            obtain ⟨h12, h13⟩ := h11 h0
            exact h7 (hm ▸ h12)
          · intro e g' hf
            exact hf.trans (he1.trans he2) (fun h => by simp [specFold] at h)
        · intro e g' hf
          exact (hf.failS (.ok ())).trans he1 (fun h => by simp at h)
    · exact fun _ _ h => h

end Couchstore
