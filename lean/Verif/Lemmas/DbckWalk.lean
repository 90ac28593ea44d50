import Verif.Lemmas.RecoverFill
import Verif.Model.Dbck

/-! A walk whose callback ignores nodes and never fails meets what a plain traversal meets. -/

namespace Couchstore

variable {σ : Type}

/-- The requests are the same but for the nodes. -/
structure WalkSim (rq : LookRq (σ × Nat)) (rq' : LookRq σ) : Prop where
  cmp : rq.cmp = rq'.cmp
  tol : rq.tolerate = true
  tol' : rq'.tolerate = true
  node : ∃ nd, rq.node = some nd ∧ ∀ u a, (nd u a).1.1 = u.1 ∧ (nd u a).2 = none
  node' : rq'.node = none
  fetch : ∀ u k v, (rq.fetch u k v).1.1 = (rq'.fetch u.1 k v).1 ∧ (rq.fetch u k v).2 = none ∧ (rq'.fetch u.1 k v).2 = none

/-- The states agree but for the depth. -/
structure StSim (a : LSt (σ × Nat)) (b : LSt σ) : Prop where
  user : a.user.1 = b.user
  fold : a.fold = b.fold
  inFold : a.inFold = b.inFold

inductive FlowSim : Flow (σ × Nat) → Flow σ → Prop where
  | go {st st' ks ec ec'} : StSim st st' → FlowSim (.go st ks ec) (.go st' ks ec')
  | halt {st st' e e'} : StSim st st' → FlowSim (.halt st e) (.halt st' e')

theorem nodeCall_sim {rq : LookRq (σ × Nat)} {rq' : LookRq σ} (h : WalkSim rq rq') {st : LSt (σ × Nat)} {st' : LSt σ}
    (hs : StSim st st') (arg) (ec : Option Err) : ∃ st1 ec1, nodeCall rq arg st ec = .ok (st1, ec1) ∧ StSim st1 st' := by
  obtain ⟨nd, h1, h2⟩ := h.node
  unfold nodeCall
  rw [h1]
  obtain ⟨h3, h4⟩ := h2 st.user arg
  dsimp only
  rcases hx : nd st.user arg with ⟨u, _ | e⟩
  · rw [hx] at h3
    exact ⟨_, _, rfl, by dsimp only at h3 ⊢; rw [h3]; exact hs.user, hs.fold, hs.inFold⟩
  · rw [hx] at h4; cases h4

theorem kvRec_sim {rq : LookRq (σ × Nat)} {rq' : LookRq σ} (h : WalkSim rq rq') (ck v : Bytes) (ks : List Bytes)
    {st : LSt (σ × Nat)} {st' : LSt σ} (hs : StSim st st') (ec ec' : Option Err) :
    FlowSim (kvRec rq ck v ks st ec) (kvRec rq' ck v ks st' ec') := by
  induction ks generalizing st st' ec ec' with
  | nil => exact .go hs
  | cons k ks ih =>
    obtain ⟨⟨u, n⟩, fo, inf⟩ := st
    obtain ⟨u', fo', inf'⟩ := st'
    obtain ⟨hu, h2, h3⟩ := hs
    dsimp only at hu h2 h3
    subst hu h2 h3
    unfold kvRec
    rw [h.cmp]
    have key : ∀ inf2 : Bool, FlowSim
        (if inf2 = true ∧ pastEnd rq'.cmp ck ks = true then Flow.go ⟨(u, n), false, false⟩ [] ec
         else if lookupCompare rq'.cmp ck k ≠ .lt then
          let (w, e) := if lookupCompare rq'.cmp ck k = .eq ∨ inf2 = true then rq.fetch (u, n) ck (some v) else rq.fetch (u, n) k none
          match tolerateOr rq.tolerate e ec with
          | .error e => .halt ⟨w, fo, inf2⟩ e
          | .ok ec =>
            if inf2 = true then .go ⟨w, fo, inf2⟩ (k :: ks) ec
            else if lookupCompare rq'.cmp ck k = .eq then .go ⟨w, fo, inf2⟩ ks ec
            else kvRec rq ck v ks ⟨w, fo, inf2⟩ ec
         else .go ⟨(u, n), fo, inf2⟩ (k :: ks) ec)
        (if inf2 = true ∧ pastEnd rq'.cmp ck ks = true then Flow.go ⟨u, false, false⟩ [] ec'
         else if lookupCompare rq'.cmp ck k ≠ .lt then
          let (w, e) := if lookupCompare rq'.cmp ck k = .eq ∨ inf2 = true then rq'.fetch u ck (some v) else rq'.fetch u k none
          match tolerateOr rq'.tolerate e ec' with
          | .error e => .halt ⟨w, fo, inf2⟩ e
          | .ok ec =>
            if inf2 = true then .go ⟨w, fo, inf2⟩ (k :: ks) ec
            else if lookupCompare rq'.cmp ck k = .eq then .go ⟨w, fo, inf2⟩ ks ec
            else kvRec rq' ck v ks ⟨w, fo, inf2⟩ ec
         else .go ⟨u, fo, inf2⟩ (k :: ks) ec') := by
      intro inf2
      split
      · exact .go ⟨rfl, rfl, rfl⟩
      split
      · have hf : ∀ k v, ∃ n' w, rq.fetch (u, n) k v = ((w, n'), none) ∧ rq'.fetch u k v = (w, none) := by
          intro k v
          obtain ⟨a1, a2, a3⟩ := h.fetch (u, n) k v
          refine ⟨(rq.fetch (u, n) k v).1.2, (rq'.fetch u k v).1, ?_, ?_⟩
          · rw [← a2, ← a1]
          · rw [← a3]
        have key : ∀ k0 v0, FlowSim
            (match tolerateOr rq.tolerate (rq.fetch (u, n) k0 v0).2 ec with
              | .error e => .halt ⟨(rq.fetch (u, n) k0 v0).1, fo, inf2⟩ e
              | .ok ec =>
                if inf2 = true then .go ⟨(rq.fetch (u, n) k0 v0).1, fo, inf2⟩ (k :: ks) ec
                else if lookupCompare rq'.cmp ck k = .eq then .go ⟨(rq.fetch (u, n) k0 v0).1, fo, inf2⟩ ks ec
                else kvRec rq ck v ks ⟨(rq.fetch (u, n) k0 v0).1, fo, inf2⟩ ec)
            (match tolerateOr rq'.tolerate (rq'.fetch u k0 v0).2 ec' with
              | .error e => .halt ⟨(rq'.fetch u k0 v0).1, fo, inf2⟩ e
              | .ok ec =>
                if inf2 = true then .go ⟨(rq'.fetch u k0 v0).1, fo, inf2⟩ (k :: ks) ec
                else if lookupCompare rq'.cmp ck k = .eq then .go ⟨(rq'.fetch u k0 v0).1, fo, inf2⟩ ks ec
                else kvRec rq' ck v ks ⟨(rq'.fetch u k0 v0).1, fo, inf2⟩ ec) := by
          intro k0 v0
          obtain ⟨n', w, e1, e2⟩ := hf k0 v0
          rw [e1, e2, h.tol, h.tol']
          dsimp only [tolerateOr]
          split
          · exact .go ⟨rfl, rfl, rfl⟩
          split
          · exact .go ⟨rfl, rfl, rfl⟩
          · exact ih ⟨rfl, rfl, rfl⟩ _ _
        by_cases hc : lookupCompare rq'.cmp ck k = .eq ∨ inf2 = true
        · simp only [if_pos hc]; exact key ck (some v)
        · simp only [if_neg hc]; exact key k none
      · exact .go ⟨rfl, rfl, rfl⟩
    dsimp only
    by_cases hc : lookupCompare rq'.cmp ck k ≠ .lt ∧ fo = true ∧ ¬ inf = true
    · rw [if_pos hc, if_pos hc]
      have := key true
      dsimp only at this ⊢
      exact this
    · rw [if_neg hc, if_neg hc]; exact key inf

theorem kvLook_sim {rq : LookRq (σ × Nat)} {rq' : LookRq σ} (h : WalkSim rq rq') (recs : List (Option (Bytes × Bytes)))
    (ks : List Bytes) {st : LSt (σ × Nat)} {st' : LSt σ} (hs : StSim st st') (ec ec' : Option Err) :
    FlowSim (kvLook rq recs ks st ec) (kvLook rq' recs ks st' ec') := by
  induction recs generalizing ks st st' ec ec' with
  | nil => cases ks <;> exact .go hs
  | cons r recs ih =>
    cases ks with
    | nil => exact .go hs
    | cons k ks =>
      cases r with
      | none => exact .halt hs
      | some kv =>
        obtain ⟨ck, v⟩ := kv
        unfold kvLook
        have := kvRec_sim h ck v (k :: ks) hs ec ec'
        cases hx : kvRec rq ck v (k :: ks) st ec <;> cases hy : kvRec rq' ck v (k :: ks) st' ec' <;>
          rw [hx, hy] at this <;> cases this
        · exact ih _ (by assumption) _ _
        · exact .halt (by assumption)

theorem restLook_sim {rq : LookRq (σ × Nat)} {rq' : LookRq σ} (h : WalkSim rq rq') (ks : List Bytes)
    {st : LSt (σ × Nat)} {st' : LSt σ} (hs : StSim st st') (ec ec' : Option Err) :
    StSim (restLook rq ks st ec).1 (restLook rq' ks st' ec').1 := by
  induction ks generalizing st st' ec ec' with
  | nil => exact hs
  | cons k ks ih =>
    unfold restLook
    rw [hs.fold]
    split
    · exact hs
    · obtain ⟨a1, a2, a3⟩ := h.fetch st.user k none
      rw [hs.user] at a1 a3
      rcases hx : rq.fetch st.user k none with ⟨w, _ | e⟩
      · rcases hy : rq'.fetch st'.user k none with ⟨w', _ | e⟩
        · rw [hx, hy] at a1
          exact ih (st := ⟨w, st'.fold, st.inFold⟩) (st' := ⟨w', st'.fold, st'.inFold⟩) ⟨a1, rfl, hs.inFold⟩ _ _
        · rw [hy] at a3; cases a3
      · rw [hx] at a2; cases a2

theorem endLook_sim {rq : LookRq (σ × Nat)} {rq' : LookRq σ} (h : WalkSim rq rq') {fl : Flow (σ × Nat)} {fl' : Flow σ}
    (hf : FlowSim fl fl') : StSim (endLook rq fl).1 (endLook rq' fl').1 := by
  cases hf with
  | go hs => exact restLook_sim h _ hs _ _
  | halt hs => exact hs

/-- What both runs give. -/
def RunSim {α β : Type} (R : α → β → Prop) : EStateM.Result Err File α → EStateM.Result Err File β → Prop
  | .ok a f, .ok b g => R a b ∧ f = g
  | _, _ => False

theorem kpLook_sim {rq : LookRq (σ × Nat)} {rq' : LookRq σ} (h : WalkSim rq rq')
    {dn : Nat → List Bytes → LSt (σ × Nat) → M (LSt (σ × Nat) × Option Err)}
    {dn' : Nat → List Bytes → LSt σ → M (LSt σ × Option Err)}
    (hd : ∀ p ks st st' f, StSim st st' → RunSim (fun a b => StSim a.1 b.1) (dn p ks st f) (dn' p ks st' f))
    (recs : List (Option (Bytes × Bytes))) (ks : List Bytes) {st : LSt (σ × Nat)} {st' : LSt σ} (hs : StSim st st')
    (ec ec' : Option Err) (f : File) :
    RunSim FlowSim (kpLook rq dn recs ks st ec f) (kpLook rq' dn' recs ks st' ec' f) := by
  induction recs generalizing ks st st' ec ec' f with
  | nil => exact ⟨.go hs, rfl⟩
  | cons r recs ih =>
    cases ks with
    | nil => exact ⟨.go hs, rfl⟩
    | cons k ks =>
      cases r with
      | none => exact ⟨.halt hs, rfl⟩
      | some kv =>
        obtain ⟨ck, v⟩ := kv
        unfold kpLook
        rw [h.cmp]
        split
        · dsimp only
          have hs1 : StSim (if st.fold = true then { st with inFold := true } else st)
              (if st'.fold = true then { st' with inFold := true } else st') := by
            rw [hs.fold]
            split
            · exact ⟨hs.user, rfl, rfl⟩
            · exact hs
          cases readPointer ck v with
          | none => exact ⟨.halt hs1, rfl⟩
          | some p =>
            dsimp only
            obtain ⟨st1, ec1, e1, hs2⟩ := nodeCall_sim h hs1 (some (p.subtreesize, p.reduceValue)) ec
            have e2 : ∀ (arg : Option (Nat × Bytes)) (st : LSt σ) (ec : Option Err), nodeCall rq' arg st ec = .ok (st, ec) := by
              intro arg st ec
              unfold nodeCall
              rw [h.node']
            rw [e1, e2]
            dsimp only
            have := hd p.pointer (k :: ks.takeWhile fun k' => lookupCompare rq'.cmp ck k' ≠ .lt) _ _ f hs2
            show RunSim FlowSim ((dn p.pointer _ st1 >>= _) f) ((dn' p.pointer _ _ >>= _) f)
            revert this
            cases hx : dn p.pointer (k :: ks.takeWhile fun k' => lookupCompare rq'.cmp ck k' ≠ .lt) st1 f with
            | error => intro this; exact this.elim
            | ok a g =>
              cases hy : dn' p.pointer (k :: ks.takeWhile fun k' => lookupCompare rq'.cmp ck k' ≠ .lt)
                  (if st'.fold = true then { st' with inFold := true } else st') f with
              | error => intro this; exact this.elim
              | ok b g' =>
                rintro ⟨hs3, rfl⟩
                rw [bind_ok hx, bind_ok hy]
                obtain ⟨a, ea⟩ := a
                obtain ⟨b, eb⟩ := b
                dsimp only at hs3 ⊢
                obtain ⟨eca, hta⟩ : ∃ x, tolerateOr rq.tolerate ea ec1 = .ok x := by
                  rw [h.tol]; cases ea <;> exact ⟨_, rfl⟩
                obtain ⟨ecb, htb⟩ : ∃ x, tolerateOr rq'.tolerate eb ec' = .ok x := by
                  rw [h.tol']; cases eb <;> exact ⟨_, rfl⟩
                rw [hta, htb]
                dsimp only
                obtain ⟨st2, ec2, e3, hs4⟩ := nodeCall_sim h hs3 none eca
                rw [e3, e2, hs3.inFold]
                exact ih _ hs4 _ _ _
        · exact ih _ hs _ _ _

theorem lookInner_sim (E : Env) {rq : LookRq (σ × Nat)} {rq' : LookRq σ} (h : WalkSim rq rq') (fuel pos : Nat)
    (ks : List Bytes) {st : LSt (σ × Nat)} {st' : LSt σ} (hs : StSim st st') (f : File) :
    RunSim (fun a b => StSim a.1 b.1) (lookInner E rq fuel pos ks st f) (lookInner E rq' fuel pos ks st' f) := by
  induction fuel generalizing pos ks st st' f with
  | zero => cases ks <;> exact ⟨hs, rfl⟩
  | succ fuel ih =>
    cases ks with
    | nil => exact ⟨hs, rfl⟩
    | cons k ks =>
      unfold lookInner
      obtain ⟨r, g, hr⟩ : ∃ r g, attempt (readNode E pos) f = .ok r g := by
        unfold attempt
        cases readNode E pos f <;> exact ⟨_, _, rfl⟩
      rw [bind_ok hr, bind_ok hr]
      cases r with
      | error e => exact ⟨hs, rfl⟩
      | ok tr =>
        obtain ⟨t, recs⟩ := tr
        dsimp only
        split
        · have := kpLook_sim h (fun p ks st st' f hs => ih p ks hs f) recs (k :: ks) hs none none g
          revert this
          cases hx : kpLook rq (lookInner E rq fuel) recs (k :: ks) st none g with
          | error => intro this; exact this.elim
          | ok a g1 =>
            cases hy : kpLook rq' (lookInner E rq' fuel) recs (k :: ks) st' none g with
            | error => intro this; exact this.elim
            | ok b g2 =>
              rintro ⟨hf, rfl⟩
              rw [bind_ok hx, bind_ok hy]
              exact ⟨endLook_sim h hf, rfl⟩
        split
        · exact ⟨endLook_sim h (kvLook_sim h recs (k :: ks) hs none none), rfl⟩
        · exact ⟨endLook_sim h (.go hs), rfl⟩

/-- What a traversal with a callback that never fails leaves behind. -/
theorem visitMet_foldl {τ : Type} (fetch : τ → Bytes → Option Bytes → τ × Option Err) (evs : List (Except Err KV)) (u : τ)
    (ec : Option Err) : (visitMet true fetch evs u ec).1 = (oks evs).foldl (fun u kv => (fetch u kv.1 (some kv.2)).1) u := by
  induction evs generalizing u ec with
  | nil => rfl
  | cons x evs ih =>
    cases x with
    | error e =>
      simp only [visitMet]
      exact ih _ _
    | ok kv =>
      simp only [visitMet]
      cases hx : (fetch u kv.1 (some kv.2)).2 <;> exact ih _ _

end Couchstore
