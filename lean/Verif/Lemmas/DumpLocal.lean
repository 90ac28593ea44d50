import Mathlib.Data.List.Perm.Subperm
import Verif.Lemmas.DbInfoToolOpen
import Verif.Lemmas.Reach
import Verif.Lemmas.RecoverFill
import Verif.Spec.DumpLocal

/-! Lemmas for the dump of local documents. -/

namespace Couchstore

variable {E : Env} {lib : LocalLib} {json : Bool}

/-- The local document of an entry of the tree. -/
def locDoc (kv : KV) : LocalDoc := ⟨kv.1, kv.2, false⟩

/-- What a call of the callback does. -/
theorem localPrint_some (st : LocalState) (kv : KV) :
    ∃ ls e, localPrint lib json st kv.1 (some kv.2) = (⟨st.lines ++ ls, st.count + 1⟩, e) ∧
      LocalRight lib json (locDoc kv) ls ∧ (e = none ↔ LocalPrintable lib json (locDoc kv)) := by
  obtain ⟨k, v⟩ := kv
  unfold localPrint LocalRight LocalPrintable locDoc
  dsimp only
  cases hd : lib.decode k v with
  | none =>
    have hc : localContents lib ⟨k, v, false⟩ = none := by unfold localContents; dsimp only; rw [hd]
    rw [hc]
    refine ⟨if json then [] else [.keyOnly k], some .corrupt, ?_, ⟨by simp, by simp⟩, by simp⟩
    cases json <;> simp
  | some x =>
    have hc : localContents lib ⟨k, v, false⟩ = some (if x.isEmpty then v else x) := by
      unfold localContents; dsimp only; rw [hd]; cases x <;> rfl
    dsimp only
    rw [hc]
    generalize (if x.isEmpty then v else x) = y
    cases json with
    | false => exact ⟨[.doc k y (some v.length)], none, by simp, ⟨by simp, by simp⟩, by simp⟩
    | true =>
      cases hj : lib.isJson y with
      | true => exact ⟨[.doc k y none], none, by simp, ⟨by simp, by simp [hj]⟩, by simp [hj]⟩
      | false => exact ⟨[], some .corrupt, by simp, ⟨by simp [hj], by simp⟩, by simp [hj]⟩

theorem localPrint_visit (evs : List (Except Err KV)) (st : LocalState) (ec : Option Err) :
    ∃ ls e, visitMet true (localPrint lib json) evs st ec = (⟨st.lines ++ ls, st.count + (oks evs).length⟩, e) ∧
      LocalsRight lib json ((oks evs).map locDoc) ls ∧
      (e = none ↔ ec = none ∧ (∀ x, .error x ∉ evs) ∧ ∀ kv ∈ oks evs, LocalPrintable lib json (locDoc kv)) := by
  induction evs generalizing st ec with
  | nil => exact ⟨[], ec, by simp [visitMet, oks], rfl, by simp [oks]⟩
  | cons a r ih =>
    cases a with
    | error x =>
      obtain ⟨ls, e, h1, h2, h3⟩ := ih st (some x)
      refine ⟨ls, e, ?_, h2, ?_⟩
      · simp only [visitMet, tolerateOr]; exact h1
      · rw [h3]
        constructor
        · rintro ⟨h, -⟩; cases h
        · rintro ⟨-, h, -⟩; exact absurd List.mem_cons_self (h x)
    | ok kv =>
      obtain ⟨l1, e1, g1, g2, g3⟩ := localPrint_some (lib := lib) (json := json) st kv
      have hok : oks (.ok kv :: r) = kv :: oks r := rfl
      have key : ∀ ec', (ec' = none ↔ ec = none ∧ e1 = none) →
          visitMet true (localPrint lib json) (.ok kv :: r) st ec =
            visitMet true (localPrint lib json) r ⟨st.lines ++ l1, st.count + 1⟩ ec' →
          ∃ ls e, visitMet true (localPrint lib json) (.ok kv :: r) st ec =
              (⟨st.lines ++ ls, st.count + (oks (.ok kv :: r)).length⟩, e) ∧
            LocalsRight lib json ((oks (.ok kv :: r)).map locDoc) ls ∧
            (e = none ↔ ec = none ∧ (∀ x, .error x ∉ (.ok kv :: r : List (Except Err KV))) ∧
              ∀ kv' ∈ oks (.ok kv :: r), LocalPrintable lib json (locDoc kv')) := by
        intro ec' hec hv
        obtain ⟨ls, e, h1, h2, h3⟩ := ih ⟨st.lines ++ l1, st.count + 1⟩ ec'
        refine ⟨l1 ++ ls, e, ?_, ?_, ?_⟩
        · rw [hv, h1, hok, List.length_cons, List.append_assoc, Nat.add_assoc, Nat.add_comm 1]
        · rw [hok]; exact ⟨l1, ls, rfl, g2, h2⟩
        · rw [h3, hec, g3, hok]
          constructor
          · rintro ⟨⟨a1, a2⟩, a3, a4⟩
            refine ⟨a1, fun x hx => ?_, fun kv' hkv => ?_⟩
            · rcases List.mem_cons.mp hx with h | h
              · cases h
              · exact a3 x h
            · rcases List.mem_cons.mp hkv with rfl | h
              · exact a2
              · exact a4 kv' h
          · rintro ⟨a1, a2, a3⟩
            exact ⟨⟨a1, a3 kv List.mem_cons_self⟩, fun x hx => a2 x (List.mem_cons_of_mem _ hx),
              fun kv' h => a3 kv' (List.mem_cons_of_mem _ h)⟩
      cases e1 with
      | none => exact key ec (by simp) (by simp only [visitMet, g1, tolerateOr])
      | some x => exact key (some x) (by simp) (by simp only [visitMet, g1, tolerateOr])

/-! ### What can be opened -/

theorem answer_local (L : E.Laws) {db : Db} {ids seqs locs} (inv : Inv E db ids seqs locs) (hd : db.dropped = false) (d : LocalDoc) :
    answer (openLocalDocument E d.id) db = .ok d ↔ d.deleted = false ∧ (d.id, d.json) ∈ locs := by
  have h := (openLocalDocument_spec E L db.calm inv.calm hd d.id).answer_eq
  rw [h]
  have hfind : kvFind d.id locs = some d.json ↔ (d.id, d.json) ∈ locs :=
    ⟨mem_of_kvFind, kvFind_of_mem ebinCmp_laws (fun _ _ => trivial) inv.locSorted⟩
  rw [← hfind]
  unfold localOr
  cases hk : kvFind d.id locs with
  | none => simp
  | some v =>
    obtain ⟨i, j, dl⟩ := d
    simp only [Except.ok.injEq, LocalDoc.mk.injEq, true_and, Option.some.injEq]
    constructor
    · rintro ⟨rfl, rfl⟩; exact ⟨rfl, rfl⟩
    · rintro ⟨rfl, rfl⟩; exact ⟨rfl, rfl⟩

theorem answer_local_missing (L : E.Laws) {db : Db} {ids seqs locs} (inv : Inv E db ids seqs locs) (hd : db.dropped = false)
    (id : Bytes) (h : ∀ d, answer (openLocalDocument E id) db ≠ .ok d) : kvFind id locs = none := by
  have h1 := (openLocalDocument_spec E L db.calm inv.calm hd id).answer_eq
  cases hk : kvFind id locs with
  | none => rfl
  | some v => rw [hk] at h1; exact absurd h1 (h _)

/-- The tree of the local documents in a damaged file. -/
structure LocalsAt (E : Env) (lib : LocalLib) (json : Bool) (db : Db) (locs : List KV) (evs : List (Except Err KV)) : Prop where
  met : Met locs evs
  all : dumpLocals E lib json none db =
    match visitMet true (localPrint lib json) evs ⟨[], 0⟩ none with
    | (st, none) => .done st.lines st.count
    | (st, some _) => .failed st.lines
  opens : ∀ kv ∈ locs, answer (openLocalDocument E kv.1) db = .ok (locDoc kv) ↔ .ok kv ∈ evs
  one : ∀ kv, .ok kv ∈ evs → dumpLocals E lib json (some kv.1) db =
    match localPrint lib json ⟨[], 0⟩ kv.1 (some kv.2) with
    | (st, none) => .done st.lines st.count
    | (st, some _) => .failed st.lines
  none_ : ∀ kv ∈ locs, .ok kv ∉ evs → dumpLocals E lib json (some kv.1) db = .failed []

theorem locals_at (L : E.Laws) {db0 db : Db} {ids seqs locs} (inv : Inv E db0 ids seqs locs) (hd : db0.dropped = false)
    (hdb : db = { db0 with file := db.file }) (D : DamagedFile E db0.file db.file) :
    ∃ evs, LocalsAt E lib json db locs evs := by
  have hroot : db.header.localRoot = db0.header.localRoot := by rw [hdb]
  have hdrop : db.dropped = false := by rw [hdb]; exact hd
  have hcalm : db.calm = db := by
    unfold Db.calm File.calm
    rw [← D.faults]
  cases hr : db0.header.localRoot with
  | none =>
    have h0 := inv.locRoot.none_iff.mp hr
    subst h0
    refine ⟨[], ⟨⟨List.nil_sublist _, fun _ => rfl, by simp⟩, ?_, by simp, by simp, by simp⟩⟩
    unfold dumpLocals
    rw [hroot, hr]
    rfl
  | some p =>
    obtain ⟨evs, M⟩ := root_met E L (X := Idx.loc) ebin_look (fun kv h => ⟨trivial, h.1⟩) D inv.wf p locs
      (by have := inv.locRoot; rw [hr] at this; exact this) (by rw [lookupCompare_ebin]; exact inv.locSorted)
    have hrq : MetRq (⟨ebinCmp, true, localPrint lib json, none⟩ : LookRq LocalState) ebinCmp := ⟨rfl, rfl⟩
    have hrq2 : MetRq (⟨ebinCmp, false, localDocFetch, none⟩ : LookRq (Option LocalDoc)) ebinCmp := ⟨rfl, rfl⟩
    refine ⟨evs, ⟨M.met, ?_, ?_, ?_, ?_⟩⟩
    · obtain ⟨b', -, h⟩ := M.walk _ hrq [] (by intro kv _; rw [lookupCompare_ebin]; cases kv.1 <;> simp [ebinCmp_lt_iff]) ⟨[], 0⟩ false
      unfold dumpLocals
      rw [hroot, hr]
      dsimp only [Option.isNone_none, Option.getD_none]
      rw [btreeLookup_of h]
      dsimp only
      generalize visitMet true (localPrint lib json) evs ⟨[], 0⟩ none = r
      obtain ⟨st, _ | e⟩ := r <;> rfl
    · intro kv hkv
      have ho : ∀ r, btreeLookup E (⟨ebinCmp, false, localDocFetch, none⟩ : LookRq (Option LocalDoc)) false p.pointer [kv.1] none db.file =
          .ok r db.file → openLocalDocument E kv.1 db = openLocalDocument.localResult r db := by
        intro r h
        unfold openLocalDocument
        show (EStateM.bind _ _) db = _
        simp only [get, getThe, MonadStateOf.get, EStateM.get, EStateM.bind, hdrop, Bool.false_eq_true, if_false, hroot, hr]
        show (EStateM.bind (liftF _) _) db = _
        unfold EStateM.bind liftF
        rw [h]
      by_cases hm : .ok kv ∈ evs
      · have h := ho _ (btreeLookup_of (M.found _ hrq2 kv hm none))
        simp only [hm, iff_true]
        unfold answer
        rw [hcalm, h]
        rfl
      · obtain ⟨e, he⟩ := M.missed _ hrq2 kv hkv hm none
        have h := ho _ (btreeLookup_of he)
        simp only [hm, iff_false]
        unfold answer
        rw [hcalm, h]
        simp [openLocalDocument.localResult, throw, throwThe, MonadExceptOf.throw, EStateM.throw]
    · intro kv hm
      have h := btreeLookup_of (M.found _ hrq kv hm ⟨[], 0⟩)
      unfold dumpLocals
      rw [hroot, hr]
      dsimp only [Option.isNone_some, Option.getD_some]
      rw [h]
      dsimp only
      generalize localPrint lib json ⟨[], 0⟩ kv.1 (some kv.2) = r
      obtain ⟨st, _ | e⟩ := r <;> rfl
    · intro kv hkv hm
      obtain ⟨e, he⟩ := M.missed _ hrq kv hkv hm ⟨[], 0⟩
      have h := btreeLookup_of he
      unfold dumpLocals
      rw [hroot, hr]
      dsimp only [Option.isNone_some, Option.getD_some]
      rw [h]

/-- Nothing is damaged. -/
theorem DamagedFile.none {f : File} (h : f.faults = []) : DamagedFile E f f := by
  refine ⟨rfl, rfl, h, fun p b b' g g' h1 h2 => ?_⟩
  rw [show ({ f with faults := [] } : File) = f by rw [← h]] at h1
  rw [h1] at h2
  cases h2
  rfl

/-- Which documents are dumped, and how the program ends. -/
theorem locals_all (L : E.Laws) {db0 db : Db} {ids seqs locs} (inv : Inv E db0 ids seqs locs) (hd : db0.dropped = false)
    (hdb : db = { db0 with file := db.file }) (D : DamagedFile E db0.file db.file) :
    ∃ docs ls, LocalsRight lib json docs ls ∧ docs.Pairwise (fun a b => a.id < b.id) ∧
      (∀ d, d ∈ docs ↔ answer (openLocalDocument E d.id) db0 = .ok d ∧ answer (openLocalDocument E d.id) db = .ok d) ∧
      ((∀ d, answer (openLocalDocument E d.id) db0 = .ok d → d ∈ docs ∧ LocalPrintable lib json d) →
        dumpLocals E lib json none db = .done ls docs.length) ∧
      ((∃ d, answer (openLocalDocument E d.id) db0 = .ok d ∧ ¬ (d ∈ docs ∧ LocalPrintable lib json d)) →
        dumpLocals E lib json none db = .failed ls) := by
  obtain ⟨evs, A⟩ := locals_at (lib := lib) (json := json) L inv hd hdb D
  obtain ⟨ls, e, h1, h2, h3⟩ := localPrint_visit (lib := lib) (json := json) evs ⟨[], 0⟩ none
  have hmem : ∀ d, d ∈ (oks evs).map locDoc ↔
      answer (openLocalDocument E d.id) db0 = .ok d ∧ answer (openLocalDocument E d.id) db = .ok d := by
    intro d
    rw [answer_local L inv hd, List.mem_map]
    constructor
    · rintro ⟨kv, hkv, rfl⟩
      have hl := A.met.sub.subset hkv
      exact ⟨⟨rfl, hl⟩, (A.opens kv hl).mpr (mem_oks.mp hkv)⟩
    · rintro ⟨⟨g1, g2⟩, g3⟩
      have hdd : locDoc (d.id, d.json) = d := by obtain ⟨i, j, dl⟩ := d; cases g1; rfl
      exact ⟨(d.id, d.json), mem_oks.mpr ((A.opens _ g2).mp (by rw [hdd]; exact g3)), hdd⟩
  have hall := A.all
  rw [h1] at hall
  have hnil : ([] : List LocalLine) ++ ls = ls := rfl
  dsimp only at hall
  rw [hnil, Nat.zero_add] at hall
  have hgood : e = none ↔ ∀ d, answer (openLocalDocument E d.id) db0 = .ok d →
      d ∈ (oks evs).map locDoc ∧ LocalPrintable lib json d := by
    rw [h3]
    constructor
    · rintro ⟨-, g1, g2⟩ d hdd
      rw [answer_local L inv hd] at hdd
      have hkv : (d.id, d.json) ∈ oks evs := by rw [A.met.full g1]; exact hdd.2
      have hdl : locDoc (d.id, d.json) = d := by obtain ⟨i, j, dl⟩ := d; cases hdd.1; rfl
      exact ⟨List.mem_map.mpr ⟨_, hkv, hdl⟩, hdl ▸ g2 _ hkv⟩
    · intro g
      refine ⟨rfl, fun x hx => ?_, fun kv hkv => ?_⟩
      · have hlt := A.met.loss x hx
        have hsub : locs ⊆ oks evs := by
          intro kv hkv
          obtain ⟨k1, -⟩ := g (locDoc kv) ((answer_local L inv hd _).mpr ⟨rfl, hkv⟩)
          obtain ⟨kv', h4, h5⟩ := List.mem_map.mp k1
          obtain rfl : kv' = kv := by
            obtain ⟨a, b⟩ := kv; obtain ⟨a', b'⟩ := kv'
            simp only [locDoc, LocalDoc.mk.injEq, and_true] at h5
            rw [h5.1, h5.2]
          exact h4
        have hnd : locs.Nodup := List.Pairwise.imp (fun {a b} h (heq : a = b) => ebin_lt_ne h (by rw [heq])) inv.locSorted
        have := (List.Nodup.subperm hnd hsub).length_le
        omega
      · exact (g (locDoc kv) ((answer_local L inv hd _).mpr ⟨rfl, A.met.sub.subset hkv⟩)).2
  refine ⟨(oks evs).map locDoc, ls, h2, ?_, hmem, fun g => ?_, ?_⟩
  · rw [List.pairwise_map]
    exact (List.Pairwise.sublist A.met.sub inv.locSorted).imp fun h => (ebinCmp_lt_iff _ _).mp h
  · rw [hall, hgood.mpr g, List.length_map]
  · rintro ⟨d, g1, g2⟩
    cases e with
    | none => exact absurd (hgood.mp rfl d g1) g2
    | some x => exact hall

/-! ### The lookup of one key -/

section
variable {σ : Type}

/-- The two runs are the same, and no fold has begun. -/
def SameRun (a b : EStateM.Result Err File (LSt σ × Option Err)) : Prop :=
  a = b ∧ ∀ st e g, a = .ok (st, e) g → st.fold = false ∧ st.inFold = false

/-- The request that does not tolerate errors. -/
def LookRq.strict (rq : LookRq σ) : LookRq σ := { rq with tolerate := false }

theorem restLook_single (rq : LookRq σ) (k : Bytes) (u : σ) :
    restLook rq [k] ⟨u, false, false⟩ none = restLook rq.strict [k] ⟨u, false, false⟩ none ∧
      (restLook rq [k] ⟨u, false, false⟩ none).1.fold = false ∧ (restLook rq [k] ⟨u, false, false⟩ none).1.inFold = false := by
  unfold restLook
  simp only [Bool.false_eq_true, if_false, LookRq.strict]
  obtain ⟨u', _ | e⟩ := rq.fetch u k none <;> simp [restLook]

theorem kvLook_single (rq : LookRq σ) (k : Bytes) (u : σ) (recs : List (Option (Bytes × Bytes))) :
    endLook rq (kvLook rq recs [k] ⟨u, false, false⟩ none) =
        endLook rq.strict (kvLook rq.strict recs [k] ⟨u, false, false⟩ none) ∧
      (endLook rq (kvLook rq recs [k] ⟨u, false, false⟩ none)).1.fold = false ∧
      (endLook rq (kvLook rq recs [k] ⟨u, false, false⟩ none)).1.inFold = false := by
  induction recs with
  | nil => exact restLook_single rq k u
  | cons a r ih =>
    cases a with
    | none => exact ⟨rfl, rfl, rfl⟩
    | some kv =>
      obtain ⟨ck, v⟩ := kv
      unfold kvLook kvRec
      simp only [LookRq.strict, Bool.false_eq_true, and_false, false_and, if_false, or_false]
      by_cases hlt : lookupCompare rq.cmp ck k = .lt
      · simp only [hlt, ne_eq, not_true_eq_false, if_false]
        exact ih
      · simp only [ne_eq, hlt, not_false_eq_true, if_true]
        by_cases heq : lookupCompare rq.cmp ck k = .eq
        · simp only [heq, if_true]
          obtain ⟨u', _ | e⟩ := rq.fetch u ck (some v) <;> cases rq.tolerate <;>
            simp [tolerateOr, kvLook, endLook, restLook]
        · simp only [heq, if_false]
          obtain ⟨u', _ | e⟩ := rq.fetch u k none <;> cases rq.tolerate <;>
            simp [tolerateOr, kvRec, kvLook, endLook, restLook]

theorem kpLook_single (rq : LookRq σ) (hn : rq.node = none) (k : Bytes)
    (d1 d2 : Nat → List Bytes → LSt σ → M (LSt σ × Option Err))
    (hd : ∀ pos u f, SameRun (d1 pos [k] ⟨u, false, false⟩ f) (d2 pos [k] ⟨u, false, false⟩ f))
    (recs : List (Option (Bytes × Bytes))) (u : σ) (f : File) :
    SameRun ((kpLook rq d1 recs [k] ⟨u, false, false⟩ none >>= fun fl => pure (endLook rq fl) : M _) f)
      ((kpLook rq.strict d2 recs [k] ⟨u, false, false⟩ none >>= fun fl => pure (endLook rq.strict fl) : M _) f) := by
  induction recs with
  | nil =>
    obtain ⟨h1, h2, h3⟩ := restLook_single rq k u
    unfold kpLook
    simp only [pure_bind]
    refine ⟨?_, ?_⟩
    · show EStateM.Result.ok _ f = EStateM.Result.ok _ f
      exact congrArg (EStateM.Result.ok · f) h1
    · intro st e g h
      have h : EStateM.Result.ok (restLook rq [k] ⟨u, false, false⟩ none) f = .ok (st, e) g := h
      injection h with h
      rw [h] at h2 h3
      exact ⟨h2, h3⟩
  | cons a r ih =>
    cases a with
    | none =>
      unfold kpLook
      refine ⟨rfl, fun st e g h => ?_⟩
      have h : EStateM.Result.ok ((⟨u, false, false⟩ : LSt σ), some Err.corrupt) f = .ok (st, e) g := h
      injection h with h
      injection h with h _
      rw [← h]
      exact ⟨rfl, rfl⟩
    | some kv =>
      obtain ⟨ck, v⟩ := kv
      unfold kpLook
      simp only [LookRq.strict, nodeCall, hn, Bool.false_eq_true, if_false, List.takeWhile_nil, List.dropWhile_nil]
      by_cases hlt : lookupCompare rq.cmp ck k = .lt
      · simp only [hlt, ne_eq, not_true_eq_false, if_false]
        have := ih
        simp only [LookRq.strict, hn] at this
        exact this
      · simp only [ne_eq, hlt, not_false_eq_true, if_true]
        cases readPointer ck v with
        | none =>
          refine ⟨rfl, fun st e g h => ?_⟩
          have h : EStateM.Result.ok ((⟨u, false, false⟩ : LSt σ), some Err.corrupt) f = .ok (st, e) g := h
          injection h with h
          injection h with h _
          rw [← h]
          exact ⟨rfl, rfl⟩
        | some p =>
          dsimp only
          obtain ⟨h1, h2⟩ := hd p.pointer u f
          cases hx : d1 p.pointer [k] ⟨u, false, false⟩ f with
          | error e g =>
            rw [hx] at h1
            simp only [bind_assoc]
            rw [bind_error hx, bind_error h1.symm]
            exact ⟨rfl, fun _ _ _ h => nomatch h⟩
          | ok x g =>
            obtain ⟨st, e⟩ := x
            obtain ⟨g1, g2⟩ := h2 st e g hx
            rw [hx] at h1
            simp only [bind_assoc]
            rw [bind_ok hx, bind_ok h1.symm]
            dsimp only
            obtain ⟨u', fo, inf⟩ := st
            obtain rfl : fo = false := g1
            obtain rfl : inf = false := g2
            have hend : ∀ (q : LookRq σ) (d : Nat → List Bytes → LSt σ → M (LSt σ × Option Err)) (ec : Option Err),
                kpLook q d r [] ⟨u', false, false⟩ ec = pure (.go ⟨u', false, false⟩ [] ec) := by
              intro q d ec
              cases r with
              | nil => unfold kpLook; rfl
              | cons a r => cases a <;> (unfold kpLook; rfl)
            have fin : ∀ (z : EStateM.Result Err File (LSt σ × Option Err)),
                z = .ok (⟨u', false, false⟩, e) g → ∀ st e g, z = .ok (st, e) g → st.fold = false ∧ st.inFold = false := by
              rintro z rfl st e g h
              injection h with h
              injection h with h _
              rw [← h]
              exact ⟨rfl, rfl⟩
            cases e with
            | none =>
              cases rq.tolerate <;> simp only [tolerateOr, Bool.false_eq_true, if_false, hend] <;>
                exact ⟨rfl, fin _ rfl⟩
            | some e =>
              cases rq.tolerate <;> simp only [tolerateOr, Bool.false_eq_true, if_false, hend] <;>
                exact ⟨rfl, fin _ rfl⟩

theorem lookInner_single (E : Env) (rq : LookRq σ) (hn : rq.node = none) (k : Bytes) : ∀ fuel pos u f,
    SameRun (lookInner E rq fuel pos [k] ⟨u, false, false⟩ f) (lookInner E rq.strict fuel pos [k] ⟨u, false, false⟩ f) := by
  intro fuel
  induction fuel with
  | zero =>
    intro pos u f
    unfold lookInner
    refine ⟨rfl, fun st e g h => ?_⟩
    have h : EStateM.Result.ok ((⟨u, false, false⟩ : LSt σ), some Err.diverge) f = .ok (st, e) g := h
    injection h with h
    injection h with h _
    rw [← h]
    exact ⟨rfl, rfl⟩
  | succ fuel ih =>
    intro pos u f
    unfold lookInner
    cases hx : attempt (readNode E pos) f with
    | error e g =>
      rw [bind_error hx, bind_error hx]
      exact ⟨rfl, fun _ _ _ h => nomatch h⟩
    | ok x g =>
      rw [bind_ok hx, bind_ok hx]
      cases x with
      | error e =>
        dsimp only
        refine ⟨rfl, fun st e' g' h => ?_⟩
        have h : EStateM.Result.ok ((⟨u, false, false⟩ : LSt σ), some e) g = .ok (st, e') g' := h
        injection h with h
        injection h with h _
        rw [← h]
        exact ⟨rfl, rfl⟩
      | ok x =>
        obtain ⟨t, recs⟩ := x
        dsimp only
        by_cases h0 : t = 0
        · rw [if_pos h0, if_pos h0]
          exact kpLook_single rq hn k _ _ (fun pos u f => ih pos u f) recs u g
        · rw [if_neg h0, if_neg h0]
          have fin : ∀ (a b : LSt σ × Option Err), a = b → a.1.fold = false → a.1.inFold = false →
              SameRun ((pure a : M _) g) ((pure b : M _) g) := by
            rintro a b rfl h1 h2
            refine ⟨rfl, fun st e g' h => ?_⟩
            have h : EStateM.Result.ok a g = .ok (st, e) g' := h
            injection h with h
            rw [h] at h1 h2
            exact ⟨h1, h2⟩
          by_cases h1 : t = 1
          · rw [if_pos h1, if_pos h1]
            obtain ⟨k1, k2, k3⟩ := kvLook_single rq k u recs
            exact fin _ _ k1 k2 k3
          · rw [if_neg h1, if_neg h1]
            obtain ⟨k1, k2, k3⟩ := restLook_single rq k u
            exact fin _ _ k1 k2 k3

/-- For one key it makes no difference whether errors are tolerated. -/
theorem btreeLookup_single (E : Env) (rq : LookRq σ) (hn : rq.node = none) (k : Bytes) (root : Nat) (u : σ) (f : File) :
    btreeLookup E rq false root [k] u f = btreeLookup E rq.strict false root [k] u f := by
  unfold btreeLookup
  show (EStateM.bind EStateM.get _) f = (EStateM.bind EStateM.get _) f
  simp only [EStateM.bind, EStateM.get]
  show ((lookInner E rq (f.disk.length + 1) root [k] ⟨u, false, false⟩ >>= _ : M _) f) =
    ((lookInner E rq.strict (f.disk.length + 1) root [k] ⟨u, false, false⟩ >>= _ : M _) f)
  show EStateM.bind _ _ f = EStateM.bind _ _ f
  unfold EStateM.bind
  rw [(lookInner_single E rq hn k (f.disk.length + 1) root u f).1]

end

/-- A local document that is not there. -/
theorem dumpLocals_missing (L : E.Laws) {db : Db} {ids seqs locs} (inv : Inv E db ids seqs locs) (hf : db.file.faults = [])
    (id : Bytes) (h : kvFind id locs = none) : dumpLocals E lib json (some id) db = .failed [] := by
  unfold dumpLocals
  cases hr : db.header.localRoot with
  | none => rfl
  | some p =>
    dsimp only [Option.isNone_some, Option.getD_some]
    rw [btreeLookup_single E _ rfl]
    have hlook : LookOk (⟨ebinCmp, false, localPrint lib json, none⟩ : LookRq LocalState) (fun _ => True) :=
      ⟨ebin_look, by simp, rfl⟩
    have hsp := btreeLookup_find E L hlook (fun kv h => ⟨trivial, h.1⟩) p locs db.file inv.wf
      (X := Idx.loc) (by have := inv.locRoot; rw [hr] at this; exact this)
      (by show SortedKV (lookupCompare ebinCmp) _; rw [lookupCompare_ebin]; exact inv.locSorted)
      (by simp) [id] (by simp) (by simp) ⟨[], 0⟩
    unfold Sp at hsp
    unfold LookRq.strict
    dsimp only
    cases hx : btreeLookup E (⟨ebinCmp, false, localPrint lib json, none⟩ : LookRq LocalState) false p.pointer [id] ⟨[], 0⟩ db.file with
    | error e g => rw [hx] at hsp
    | ok r g =>
      rw [hx] at hsp
      obtain ⟨st, e⟩ := r
      rcases hsp.2 with h3 | ⟨h3, -⟩
      · simp only [findEvents, List.map_cons, List.map_nil, h, visit, localPrint, Prod.mk.injEq] at h3
        obtain ⟨rfl, rfl⟩ := h3
        rfl
      · exact absurd hf h3

end Couchstore
