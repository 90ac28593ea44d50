import Verif.Model.Btree

/-
Model of /repo/src/btree_read.cc.

A callback is a function from the caller's state to a new state and an optional error: like the
C callback it can change its context and still fail.  The lookup never loses the callback's
state, so what was delivered before a failure is visible.  Callbacks that themselves do I/O on
another file handle keep that handle in their state.
-/

namespace Couchstore

/-- The parts of `couchfile_lookup_request` (couch_btree.h:33-58) that do not change during a
lookup.  The keys are passed separately. -/
structure LookRq (σ : Type) where
  cmp : Bytes → Bytes → Ordering
  tolerate : Bool
  fetch : σ → Bytes → Option Bytes → σ × Option Err
  /-- `node_callback`: size and reduction of a subtree before descending, `none` after it. -/
  node : Option (σ → Option (Nat × Bytes) → σ × Option Err)

/-- The parts of `couchfile_lookup_request` that change: callback context, `fold`, `in_fold`. -/
structure LSt (σ : Type) where
  user : σ
  fold : Bool
  inFold : Bool

/-- How a loop of `btree_lookup_inner` ends: normally (with the keys from `current` to `end` and
the value of `errcode`) or by a jump to `cleanup` with an error. -/
inductive Flow (σ : Type) where
  | go (st : LSt σ) (ks : List Bytes) (errcode : Option Err)
  | halt (st : LSt σ) (e : Err)

/-- btree_read.cc:9-23 `lookup_compare`. -/
def lookupCompare (cmp : Bytes → Bytes → Ordering) (k1 k2 : Bytes) : Ordering :=
  if k1.length = 0 ∧ k2.length = 0 then .eq
  else if k1.length = 0 then .lt
  else if k2.length = 0 then .gt
  else cmp k1 k2

/-- Run an operation, handing its error to the caller as a value (a C function returning its
error code). -/
def attempt {α : Type} (m : M α) : M (Except Err α) := fun f =>
  match m f with
  | .ok a g => .ok (.ok a) g
  | .error e g => .ok (.error e) g

/-- `if (rq->tolerate_corruption) error_tolerate(e) else error_pass(e)` (util.h:56-68): the
new `errcode`, or an error to jump with.  `error_pass` of a success resets `errcode`. -/
def tolerateOr (tolerate : Bool) (e ec : Option Err) : Except Err (Option Err) :=
  match tolerate, e with
  | false, some x => .error x
  | false, none => .ok none
  | true, some x => .ok (some x)
  | true, none => .ok ec

/-- `error_pass` of a node callback, if there is one (btree_read.cc:75-81, 96-98). -/
def nodeCall {σ} (rq : LookRq σ) (arg : Option (Nat × Bytes)) (st : LSt σ) (ec : Option Err) :
    Except (LSt σ × Err) (LSt σ × Option Err) :=
  match rq.node with
  | none => .ok (st, ec)
  | some cb =>
    match cb st.user arg with
    | (u, some e) => .error ({ st with user := u }, e)
    | (u, none) => .ok ({ st with user := u }, none)

/-- btree_read.cc:48-100, the loop over an interior node; `descend` is the recursive call. -/
def kpLook {σ} (rq : LookRq σ)
    (descend : Nat → List Bytes → LSt σ → M (LSt σ × Option Err)) :
    List (Option (Bytes × Bytes)) → List Bytes → LSt σ → Option Err → M (Flow σ)
  | [], ks, st, ec => pure (.go st ks ec)
  | _ :: _, [], st, ec => pure (.go st [] ec)
  | none :: _, _ :: _, st, _ => pure (.halt st .corrupt)
  | some (ck, v) :: rs, k :: ks, st, ec =>
    if lookupCompare rq.cmp ck k ≠ .lt then
      let st := if st.fold then { st with inFold := true } else st
      let taken := k :: ks.takeWhile fun k' => lookupCompare rq.cmp ck k' ≠ .lt
      let rest := ks.dropWhile fun k' => lookupCompare rq.cmp ck k' ≠ .lt
      match readPointer ck v with
      | none => pure (.halt st .corrupt)
      | some p =>
        match nodeCall rq (some (p.subtreesize, p.reduceValue)) st ec with
        | .error (st, e) => pure (.halt st e)
        | .ok (st, ec) => do
          let (st, e) ← descend p.pointer taken st
          match tolerateOr rq.tolerate e ec with
          | .error e => pure (.halt st e)
          | .ok ec =>
            let ks' := if st.inFold then k :: ks else rest
            match nodeCall rq none st ec with
            | .error (st, e) => pure (.halt st e)
            | .ok (st, ec) => kpLook rq descend rs ks' st ec
    else kpLook rq descend rs (k :: ks) st ec

/-- Is the record past the second key (btree_read.cc:126-127)? -/
def pastEnd (cmp : Bytes → Bytes → Ordering) (ck : Bytes) : List Bytes → Bool
  | [] => false
  | k2 :: _ => lookupCompare cmp ck k2 = .gt

/-- btree_read.cc:120-158: compare one record of a leaf with the current key, and with the
following ones as long as `next_key` is false. -/
def kvRec {σ} (rq : LookRq σ) (ck v : Bytes) : List Bytes → LSt σ → Option Err → Flow σ
  | [], st, ec => .go st [] ec
  | k :: ks, st, ec =>
    let c := lookupCompare rq.cmp ck k
    let st := if c ≠ .lt ∧ st.fold ∧ ¬ st.inFold then { st with inFold := true } else st
    if st.inFold ∧ pastEnd rq.cmp ck ks then
      .go { st with inFold := false, fold := false } [] ec
    else if c ≠ .lt then
      let (u, e) := if c = .eq ∨ st.inFold then rq.fetch st.user ck (some v)
        else rq.fetch st.user k none
      let st := { st with user := u }
      match tolerateOr rq.tolerate e ec with
      | .error e => .halt st e
      | .ok ec =>
        if st.inFold then .go st (k :: ks) ec
        else if c = .eq then .go st ks ec
        else kvRec rq ck v ks st ec
    else .go st (k :: ks) ec

/-- btree_read.cc:106-159, the loop over a leaf. -/
def kvLook {σ} (rq : LookRq σ) :
    List (Option (Bytes × Bytes)) → List Bytes → LSt σ → Option Err → Flow σ
  | _, [], st, ec => .go st [] ec
  | [], ks, st, ec => .go st ks ec
  | none :: _, _ :: _, st, _ => .halt st .corrupt
  | some (ck, v) :: rs, k :: ks, st, ec =>
    match kvRec rq ck v (k :: ks) st ec with
    | .halt st e => .halt st e
    | .go st ks ec => kvLook rq rs ks st ec

/-- btree_read.cc:163-166: the remaining keys are not found. -/
def restLook {σ} (rq : LookRq σ) : List Bytes → LSt σ → Option Err → LSt σ × Option Err
  | [], st, ec => (st, ec)
  | k :: ks, st, ec =>
    if st.fold then (st, ec)
    else
      match rq.fetch st.user k none with
      | (u, some e) => ({ st with user := u }, some e)
      | (u, none) => restLook rq ks { st with user := u } none

/-- btree_read.cc:162-171: what follows the loops. -/
def endLook {σ} (rq : LookRq σ) : Flow σ → LSt σ × Option Err
  | .halt st e => (st, some e)
  | .go st ks ec => restLook rq ks st ec

/-- btree_read.cc:25-172 `btree_lookup_inner`; `fuel` bounds the depth of the recursion (the
code has no bound: on a cyclic tree it does not return). -/
def lookInner {σ} (E : Env) (rq : LookRq σ) :
    Nat → Nat → List Bytes → LSt σ → M (LSt σ × Option Err)
  | _, _, [], st => pure (st, none)
  | 0, _, _ :: _, st => pure (st, some .diverge)
  | fuel + 1, pos, k :: ks, st => do
    match ← attempt (readNode E pos) with
    | .error e => pure (st, some e)
    | .ok (t, recs) =>
      if t = 0 then do
        let fl ← kpLook rq (lookInner E rq fuel) recs (k :: ks) st none
        pure (endLook rq fl)
      else if t = 1 then pure (endLook rq (kvLook rq recs (k :: ks) st none))
      else pure (endLook rq (.go st (k :: ks) none))

/-- btree_read.cc:174-179 `btree_lookup`. -/
def btreeLookup {σ} (E : Env) (rq : LookRq σ) (fold : Bool) (root : Nat) (keys : List Bytes)
    (u : σ) : M (σ × Option Err) := do
  let f ← get
  let (st, e) ← lookInner E rq (f.disk.length + 1) root keys ⟨u, fold, false⟩
  pure (st.user, e)

end Couchstore
