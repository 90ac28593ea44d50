import Verif.Lemmas.DbckRewind
import Verif.Lemmas.Replay

/-! Saving the documents of stale commits. -/

namespace Couchstore

/-! ### The documents that a walk meets -/

/-- The walk without the depth. -/
def staleRq (E : Env) (alt : Db) : LookRq StaleSt where
  cmp := ebinCmp
  tolerate := true
  fetch := lookupCallback ⟨true, false, false⟩ byIdReadDocInfo fun st d => (staleDoc E alt st d, none)
  node := none

theorem staleRq_fetch (E : Env) (alt : Db) (st : StaleSt) (d : DocInfo) (h : d.Fits) :
    (staleRq E alt).fetch st d.id (some (assembleIdIndexValue d)) = (staleDoc E alt st d, none) := by
  unfold staleRq lookupCallback
  dsimp only
  rw [byId_roundtrip d h]
  unfold lookupCallback.deliver
  simp

theorem lookup_sim (E : Env) (alt : Db) (u : StaleSt × Nat) (k : Bytes) (v : Option Bytes) :
    (walkFetch ⟨true, false, false⟩ byIdReadDocInfo (staleHook E alt) u k v).1.1 = ((staleRq E alt).fetch u.1 k v).1 ∧
    (walkFetch ⟨true, false, false⟩ byIdReadDocInfo (staleHook E alt) u k v).2 = none ∧
    ((staleRq E alt).fetch u.1 k v).2 = none := by
  unfold walkFetch staleRq lookupCallback
  cases v with
  | none => exact ⟨rfl, rfl, rfl⟩
  | some v =>
    dsimp only
    cases byIdReadDocInfo k v <;> exact ⟨rfl, rfl, rfl⟩

theorem staleSim (E : Env) (alt : Db) :
    WalkSim (walkRq ebinCmp ⟨true, false, false⟩ byIdReadDocInfo (staleHook E alt)) (staleRq E alt) where
  cmp := rfl
  tol := rfl
  tol' := rfl
  node := by
    refine ⟨_, rfl, ?_⟩
    intro u a
    cases a with
    | none => exact ⟨rfl, rfl⟩
    | some a => exact ⟨rfl, rfl⟩
  node' := rfl
  fetch := lookup_sim E alt

theorem foldl_map_entries (E : Env) (alt : Db) (l : List Entry) (hl : ∀ e ∈ l, DocOk e.info) (st : StaleSt) :
    (l.map fun e => idKV e.info).foldl (fun u kv => ((staleRq E alt).fetch u kv.1 (some kv.2)).1) st =
      l.foldl (fun st e => staleDoc E alt st e.info) st := by
  induction l generalizing st with
  | nil => rfl
  | cons e l ih =>
    simp only [List.map_cons, List.foldl_cons]
    rw [ih fun x hx => hl x (by simp [hx])]
    congr 1
    exact congrArg Prod.fst (staleRq_fetch E alt st e.info (hl e (by simp)).fits)

theorem idKV_inj1 {d d' : DocInfo} (h : DocOk d) (h' : DocOk d') (he : idKV d = idKV d') : d = d' := by
  have h1 := byId_roundtrip d h.fits
  have h2 := byId_roundtrip d' h'.fits
  unfold idKV at he
  injection he with e1 e2
  rw [e1, e2, h2] at h1
  injection h1 with h1
  exact h1.symm

theorem walkIdTree_eq {σ : Type} (E : Env) (opts : ScanOpts) (cb : WalkCb σ) (u : σ) (db : Db) :
    walkIdTree E none opts cb u db = walkTree E byIdReadDocInfo db.header.byIdRoot [] opts ebinCmp cb u db := rfl

/-- The walk through a stale commit of the damaged file: every document of the commit that can still be found is
among those it meets. -/
theorem staleWalk_eq (E : Env) (L : E.Laws) {getKey : KeyGetter} {s : Sys} {f : File} {db alt : Db} (S : Stale E getKey s f db)
    (D : DamagedFile E s.db.file f) {ids seqs : List Entry} {locs : List KV}
    (I : Handle E { s.db with header := db.header } ids seqs locs) (st : StaleSt) :
    ∃ l : List Entry, (∀ e ∈ l, e ∈ ids) ∧ staleWalk E alt st db = l.foldl (fun st e => staleDoc E alt st e.info) st ∧
      ∀ e ∈ ids, (answer (docinfoById E e.info.id) db).toOption.isSome = true → e ∈ l := by
  have hd : db.dropped = false := by rw [S.eq]; exact I.opened
  have hfile : db.file = f := by rw [S.eq]
  cases hr : db.header.byIdRoot with
  | none =>
    have h0 : idKVs ids = [] := by
      have := I.inv.idRoot
      rw [show ({ s.db with header := db.header } : Db).header.byIdRoot = none from hr] at this
      exact this
    have : ids = [] := by unfold idKVs at h0; simpa using h0
    subst this
    refine ⟨[], by simp, ?_, by simp⟩
    have : walkIdTree E none ⟨true, false, false⟩ (staleHook E alt) st db = .ok (st, none) db := by
      rw [walkIdTree_eq]
      rw [hr]
      unfold walkTree
      show (if db.dropped = true then throw Err.fileClosed else _ : DbM _) db = _
      rw [hd]
      rfl
    unfold staleWalk
    rw [this]
    rfl
  | some p =>
    have hroot : RootAt E Idx.byId s.db.file (some p) (idKVs ids) := by
      have := I.inv.idRoot
      rw [show ({ s.db with header := db.header } : Db).header.byIdRoot = some p from hr] at this
      exact this
    obtain ⟨evs, M⟩ := root_met E L (X := Idx.byId) ebin_look byId_hV D I.inv.wf p (idKVs ids) hroot
      (by rw [lookupCompare_ebin]; exact sorted_idKVs.mpr I.inv.idSorted)
    obtain ⟨l, h1, h2⟩ := List.sublist_map_iff.mp M.met.sub
    have hok : ∀ e ∈ ids, DocOk e.info := fun e he => I.inv.seqOk e (I.inv.perm.mem_iff.mpr he)
    refine ⟨l, fun e he => h1.subset he, ?_, ?_⟩
    · obtain ⟨b', -, hw⟩ := M.walk (staleRq E alt) ⟨rfl, rfl⟩ [] (by
        intro kv _
        rw [lookupCompare_ebin]
        intro h
        rw [ebinCmp_lt_iff] at h
        exact absurd h (by simp)) st false
      have hsim := lookInner_sim E (staleSim E alt) (f.disk.length + 1) p.pointer [[]]
        (st := ⟨(st, 1), true, false⟩) (st' := ⟨st, true, false⟩) ⟨rfl, rfl, rfl⟩ f
      rw [hw] at hsim
      cases hx : lookInner E (walkRq ebinCmp ⟨true, false, false⟩ byIdReadDocInfo (staleHook E alt)) (f.disk.length + 1)
          p.pointer [[]] ⟨(st, 1), true, false⟩ f with
      | error e g => rw [hx] at hsim; exact hsim.elim
      | ok r g =>
        obtain ⟨r1, r2⟩ := r
        rw [hx] at hsim
        obtain ⟨hs1, rfl⟩ := hsim
        have hb := btreeLookup_of hx
        have hwalk : walkIdTree E none ⟨true, false, false⟩ (staleHook E alt) st db = .ok (r1.user.1, r2) db := by
          rw [walkIdTree_eq]
          rw [hr]
          unfold walkTree
          show (if db.dropped = true then throw Err.fileClosed else _ : DbM _) db = _
          rw [hd, if_neg (by simp)]
          show (liftF _ >>= _ : DbM _) db = _
          have : liftF (btreeLookup E (walkRq ebinCmp ⟨true, false, false⟩ byIdReadDocInfo (staleHook E alt)) true p.pointer
              [[]] (st, 1)) db = .ok (r1.user, r2) db := by
            unfold liftF
            rw [hfile, hb, ← hfile]
          rw [bind_ok this]
          rfl
        unfold staleWalk
        rw [hwalk]
        dsimp only
        rw [hs1.user]
        dsimp only
        rw [show (staleRq E alt).tolerate = true from rfl, visitMet_foldl, h2]
        exact foldl_map_entries E alt l (fun e he => hok e (h1.subset he)) st
    · intro e he hans
      by_contra hne
      have hnot : .ok (idKV e.info) ∉ evs := by
        intro h
        have := mem_oks.mpr h
        rw [h2] at this
        obtain ⟨x, hx, hxe⟩ := List.mem_map.mp this
        have := idKV_inj1 (hok x (h1.subset hx)) (hok e he) hxe
        have hxe : x = e := by
          have a1 := entFind_of_mem I.inv.idSorted (h1.subset hx)
          have a2 := entFind_of_mem I.inv.idSorted he
          rw [this, a2] at a1
          exact (Option.some.inj a1).symm
        exact hne (hxe ▸ hx)
      obtain ⟨x, hx⟩ := M.missed (docinfoRq ebinCmp byIdReadDocInfo) ⟨rfl, rfl⟩ (idKV e.info)
        (List.mem_map.mpr ⟨e, he, rfl⟩) hnot none
      have : docinfoById E e.info.id db = .error x db := by
        unfold docinfoById
        show (if db.dropped = true then throw Err.fileClosed else _ : DbM DocInfo) db = _
        rw [hd, if_neg (by simp), hr]
        show (liftF _ >>= _) db = _
        have : liftF (btreeLookup E (docinfoRq ebinCmp byIdReadDocInfo) false p.pointer [e.info.id] none) db =
            .ok (none, some x) db := by
          have hx := btreeLookup_of hx
          rw [show (idKV e.info).1 = e.info.id from rfl] at hx
          unfold liftF
          rw [hfile, hx, ← hfile]
        rw [bind_ok this]
        rfl
      unfold answer at hans
      rw [calm_of (by rw [hfile]; exact D.faults), this] at hans
      exact absurd hans (by simp [Except.toOption])

/-! ### Saving one document -/

/-- The document was there, in some state. -/
def Old (E : Env) (s : Sys) (x : Entry) : Prop :=
  ∃ db ∈ s.states, x.info ∈ documents E db ∧ storedBodyOf E db x.info.id = x.raw

def FromOld (E : Env) (s : Sys) (e : Entry) : Prop := ∃ x, Old E s x ∧ e.raw = x.raw ∧ SameVersion e.info x.info

theorem IdSorted.distinct {l : List Entry} (h : IdSorted l) : l.Nodup := by
  refine List.Pairwise.imp ?_ h
  intro a b h he
  exact ebin_lt_ne h (by rw [he])

theorem SameVersion.refl (d : DocInfo) : SameVersion d d := rfl

theorem SameVersion.id_eq {d d' : DocInfo} (h : SameVersion d d') : d.id = d'.id := by rw [h]
theorem SameVersion.seq_eq {d d' : DocInfo} (h : SameVersion d d') : d.dbSeq = d'.dbSeq := by rw [h]

/-- The recovered file after some documents of stale commits were saved. -/
structure Restored (E : Env) (s : Sys) (dst0 : Db) (ids0 : List Entry) (locs : List KV) (ids : List Entry) (dst : Db) : Prop where
  steps : Steps E dst0 dst
  opened : dst.dropped = false
  ext : Ext dst0.file dst.file
  head : dst.header = { dst0.header with
    byIdRoot := dst.header.byIdRoot
    bySeqRoot := dst.header.bySeqRoot
    updateSeq := dst.header.updateSeq }
  seq : dst0.header.updateSeq ≤ dst.header.updateSeq
  inv : ∃ seqs, Inv E dst ids seqs locs
  kept : ∀ e ∈ ids0, e ∈ ids
  old : ∀ e ∈ ids, FromOld E s e

/-- One state of the recovery comes after another one. -/
structure Grow (st st' : StaleSt) (ids ids' : List Entry) : Prop where
  keep : ∀ e ∈ ids, e ∈ ids'
  count : st.count ≤ st'.count
  same : st'.count = st.count → st'.dst = st.dst
  len : ids'.length + st.count = ids.length + st'.count

theorem Grow.refl (st : StaleSt) (ids : List Entry) : Grow st st ids ids := ⟨fun _ h => h, Nat.le_refl _, fun _ => rfl, rfl⟩

theorem Grow.trans {a b c : StaleSt} {x y z : List Entry} (h : Grow a b x y) (h' : Grow b c y z) : Grow a c x z := by
  refine ⟨fun e he => h'.keep e (h.keep e he), Nat.le_trans h.count h'.count, fun he => ?_, by have := h.len; have := h'.len; omega⟩
  have h1 := h.count
  have h2 := h'.count
  rw [h'.same (by omega), h.same (by omega)]

/-- What becomes of the recovered file: unless a limit of the format is met it is still in order, and has more
documents, among them those with the ids `new`; the new ones are as `src` says. -/
def Goes (E : Env) (s : Sys) (dst0 : Db) (ids0 : List Entry) (locs : List KV) (ids : List Entry) (st st' : StaleSt)
    (new : Bytes → Prop) (src : Entry → Prop) : Prop :=
  st'.limit = true ∨ ∃ ids', Restored E s dst0 ids0 locs ids' st'.dst ∧ Grow st st' ids ids' ∧ st'.limit = st.limit ∧
    (∀ id, new id → ∃ e ∈ ids', e.info.id = id) ∧ ∀ e ∈ ids', e ∈ ids ∨ src e

theorem staleDoc_limit (E : Env) (alt : Db) (st : StaleSt) (d : DocInfo) (h : st.limit = true) :
    (staleDoc E alt st d).limit = true := by
  unfold staleDoc staleSave
  split
  · exact h
  · split
    · exact h
    · split
      · exact h
      · simp [h]

theorem foldl_limit (E : Env) (alt : Db) (l : List Entry) (st : StaleSt) (h : st.limit = true) :
    (l.foldl (fun st e => staleDoc E alt st e.info) st).limit = true := by
  induction l generalizing st with
  | nil => exact h
  | cons e l ih => exact ih _ (staleDoc_limit E alt st e.info h)

def asResult {α : Type} : Except Err α → Db → EStateM.Result Err Db α
  | .ok a, db => .ok a db
  | .error e, db => .error e db

/-- Reading from a calm handle. -/
theorem Answers.calm {α : Type} {m : DbM α} {db : Db} {ans : Except Err α} (h : Answers m db ans)
    (hf : db.file.faults = []) :
    m db = asResult ans db := by
  have hrd : ∀ d, RD db d → d = db := by
    rintro d ⟨h1, h2⟩
    rw [h1, RFrame.same h2 hf]
  have h' : Sp m db _ _ := h
  cases hm : m db with
  | ok a d =>
    obtain ⟨h1, h2⟩ := h'.ok hm
    subst h2
    rw [hrd d h1]
    rfl
  | error e d =>
    obtain ⟨h1, h2⟩ := h'.error hm
    have h2 := h2.resolve_left (by simp [hf])
    subst h2
    rw [hrd d h1]
    rfl

theorem Restored.args {E : Env} (L : E.Laws) {s : Sys} {dst0 dst : Db} {ids0 ids : List Entry} {locs : List KV}
    (F : Restored E s dst0 ids0 locs ids dst) (N : StaleFits E s) {x : Entry} (hx : Old E s x) (hok : DocOk x.info) {b : Bytes}
    (hb : x.raw = some b) (hne : ∀ e ∈ ids, e.info.id ≠ x.info.id) : SaveArgs E dst replayOpts [⟨some b, x.info, 0⟩] := by
  obtain ⟨seqs, inv⟩ := F.inv
  obtain ⟨o, ho, hx1, hx2⟩ := hx
  refine ⟨?_, by simp, ?_, (fun h => nomatch h), ?_, by simp, ?_⟩
  · intro it hit
    rw [List.mem_singleton] at hit
    subst hit
    refine ⟨hok.fits.id, hok.fits.revSeq, hok.fits.contentMeta, hok.size, ?_⟩
    intro b' hb'
    injection hb' with hb'
    subst hb'
    rw [storedBody_replay]
    have := N.body o ho x.info hx1 b (by rw [hx2, hb])
    unfold chunkLen
    split <;> omega
  · intro r hr
    obtain ⟨r', h1, h2, -, -⟩ := info_answer E inv
    rw [hr] at h1
    cases h1
    have h4 := stats_total (ids.map (·.info))
    unfold statsOf at h2
    simp only [Prod.mk.injEq] at h2
    obtain ⟨l, hl, hm⟩ := N.few
    have hn : ((x :: ids).map (·.info.id)).Nodup := by
      rw [List.map_cons, List.nodup_cons]
      refine ⟨?_, ?_⟩
      · intro h
        obtain ⟨e, he, h⟩ := List.mem_map.mp h
        exact hne e he h
      · rw [List.nodup_iff_pairwise_ne, List.pairwise_map]
        exact inv.idSorted.imp fun h => ebin_lt_ne h
    have := nodup_length_le hn (m := l) (by
      intro k hk
      obtain ⟨e, he, rfl⟩ := List.mem_map.mp hk
      rcases List.mem_cons.mp he with rfl | he
      · exact hm o ho _ hx1
      · obtain ⟨y, ⟨o', ho', hy, -⟩, -, hv⟩ := F.old e he
        rw [hv.id_eq]
        exact hm o' ho' _ hy)
    rw [List.length_map] at h4
    simp only [List.length_map, List.length_cons, List.length_nil] at this ⊢
    omega
  · intro _ it hit
    rw [List.mem_singleton] at hit
    subst hit
    exact hok.fits.dbSeq
  · intro _ it hit d hd
    rw [List.mem_singleton] at hit
    subst hit
    rw [docinfoBySequence_answer E L inv F.opened] at hd
    dsimp only at hd
    cases hf : seqFind (x.info.dbSeq % 2 ^ 48) seqs with
    | none => rw [hf] at hd; cases hd
    | some y =>
      rw [hf] at hd
      injection hd with hd
      have h1 := mem_of_seqFind hf
      obtain ⟨z, ⟨o', ho', hz, -⟩, -, hv⟩ := F.old y (inv.perm.mem_iff.mp h1.1)
      have h2 : z.info.dbSeq = x.info.dbSeq := by
        rw [← hv.seq_eq, h1.2, Nat.mod_eq_of_lt hok.fits.dbSeq]
      have := N.seqs o' ho' o ho _ hz _ hx1 h2
      rw [← hd, hv.id_eq, this]
      simp

theorem staleDoc_spec {E : Env} (L : E.Laws) {s : Sys} {dst0 : Db} {ids0 ids : List Entry} {locs : List KV} {st : StaleSt}
    (hc : dst0.file.faults = []) (F : Restored E s dst0 ids0 locs ids st.dst) (N : StaleFits E s) {x : Entry} (hx : Old E s x)
    (hok : DocOk x.info) {alt : Db} (hb : ∀ b d, openDocWithDocinfo E x.info false alt = .ok b d → x.raw = some b) :
    Goes E s dst0 ids0 locs ids st (staleDoc E alt st x.info)
      (fun id => id = x.info.id ∧ ∃ b d, openDocWithDocinfo E x.info false alt = .ok b d)
      (fun e => SameVersion e.info x.info ∧ e.raw = x.raw) := by
  obtain ⟨seqs, inv⟩ := F.inv
  have hcalm : st.dst.file.faults = [] := by
    by_contra h
    exact F.ext.faults_ne h hc
  have hq := (docinfoById_spec E L st.dst inv F.opened x.info.id).calm hcalm
  unfold staleDoc
  cases hf : entFind x.info.id ids with
  | some e =>
    rw [hf] at hq
    have hq : docinfoById E x.info.id st.dst = .ok e.info st.dst := hq
    rw [hq]
    exact Or.inr ⟨ids, F, Grow.refl _ _, rfl, fun id h => ⟨e, (mem_of_entFind hf).1, by rw [h.1]; exact (mem_of_entFind hf).2⟩,
      fun _ h => Or.inl h⟩
  | none =>
    rw [hf] at hq
    have hq : docinfoById E x.info.id st.dst = .error .docNotFound st.dst := hq
    rw [hq]
    dsimp only
    cases ho : openDocWithDocinfo E x.info false alt with
    | error e d =>
      exact Or.inr ⟨ids, F, Grow.refl _ _, rfl, fun id h => (by obtain ⟨-, b, d, h⟩ := h; cases h),
        fun _ h => Or.inl h⟩
    | ok b d =>
      dsimp only
      have hraw := hb b d ho
      have hne := entFind_none.mp hf
      have A := F.args L N hx hok hraw hne
      have hsp := (saveDocuments_spec E L replayOpts (none : Option (SaveCb Unit)) [⟨some b, x.info, 0⟩] () st.dst inv F.opened
        (A.fits L inv F.opened)).withAfter
      unfold staleSave
      rw [show ({ st with dst := st.dst } : StaleSt) = st from rfl]
      rw [show (⟨false, true⟩ : SaveOpts) = replayOpts from rfl]
      cases hs : saveDocuments E replayOpts none [⟨some b, x.info, 0⟩] () st.dst with
      | error e db =>
        left
        obtain ⟨⟨-, -, h1⟩, -⟩ := hsp.error hs
        have : e = .formatLimit := h1.resolve_left (by simp [hcalm])
        simp [this]
      | ok r db =>
        right
        obtain ⟨⟨h1, h2, h3, -, h5, es, ids', seqs', h6, -, h8, h9⟩, h10⟩ := hsp.ok hs
        obtain ⟨a1, a2⟩ := assignAll_true (opts := replayOpts) rfl [⟨some b, x.info, 0⟩] st.dst.header.updateSeq
        rw [h5, a1] at h6
        have h6 : AllSaved E st.dst.file.cfg replayOpts [⟨some b, x.info, 0⟩] [x.info] es := h6
        obtain ⟨e', rfl, bp, hbp, he'⟩ : ∃ e', es = [e'] ∧ ∃ bp, bp ≠ 0 ∧
            e' = ⟨{ x.info with bp := bp, physicalSize := chunkLen E st.dst.file.cfg (storedBody E replayOpts x.info b) },
              some (storedBody E replayOpts x.info b)⟩ := by
          cases h6 with
          | cons h1 h2 =>
            cases h2
            exact ⟨_, rfl, h1⟩
        rw [storedBody_replay] at he'
        have hid : e'.info.id = x.info.id := by rw [he']
        refine ⟨ids', ⟨.step F.steps ?_, h3, F.ext.trans h1, ?_, ?_, ⟨seqs', h9⟩, ?_, ?_⟩, ⟨?_, Nat.le_succ _, ?_, ?_⟩, rfl, ?_, ?_⟩
        · show Step E st.dst db
          rw [h10]
          exact Step.save _ _ _ _ A
        · show db.header = _
          rw [h2, F.head]
        · show dst0.header.updateSeq ≤ db.header.updateSeq
          rw [h2, a2]
          have := F.seq
          simp only [List.foldl_cons, List.foldl_nil]
          omega
        · intro e he
          exact (h8.mem e).mpr (Or.inr ⟨F.kept e he, fun y hy => by
            rw [List.mem_singleton] at hy; subst hy; rw [hid]; exact fun h => hne e (F.kept e he) h.symm⟩)
        · intro e he
          rcases (h8.mem e).mp he with h | ⟨h, -⟩
          · rw [List.mem_singleton] at h
            subst h
            exact ⟨x, hx, by rw [he', hraw], by rw [he']; rfl⟩
          · exact F.old e h
        · intro e he
          exact (h8.mem e).mpr (Or.inr ⟨he, fun y hy => by
            rw [List.mem_singleton] at hy; subst hy; rw [hid]; exact fun h => hne e he h.symm⟩)
        · intro h
          exact absurd h (Nat.succ_ne_self _)
        · have hp : List.Perm ids' (e' :: ids) := by
            refine (List.perm_ext_iff_of_nodup ?_ ?_).mpr ?_
            · exact h9.idSorted.distinct
            · refine List.nodup_cons.mpr ⟨fun h => hne e' h hid, ?_⟩
              exact inv.idSorted.distinct
            · intro y
              rw [h8.mem y, List.mem_singleton, List.mem_cons]
              constructor
              · rintro (h | h)
                · exact Or.inl h
                · exact Or.inr h.1
              · rintro (h | h)
                · exact Or.inl h
                · refine Or.inr ⟨h, fun z hz => ?_⟩
                  rw [List.mem_singleton] at hz
                  subst hz
                  rw [hid]
                  exact fun h' => hne y h h'.symm
          rw [hp.length_eq, List.length_cons]
          show ids.length + 1 + st.count = ids.length + (st.count + 1)
          omega
        · intro id h
          exact ⟨e', (h8.mem e').mpr (Or.inl (by simp)), by rw [hid, h.1]⟩
        · intro e he
          rcases (h8.mem e).mp he with h | ⟨h, -⟩
          · rw [List.mem_singleton] at h
            subst h
            exact Or.inr ⟨by rw [he']; rfl, by rw [he', hraw]⟩
          · exact Or.inl h

theorem Goes.trans {E : Env} {s : Sys} {dst0 : Db} {ids0 : List Entry} {locs : List KV} {ids : List Entry}
    {st st' st'' : StaleSt} {new new' new'' : Bytes → Prop} {src src' src'' : Entry → Prop}
    (h : Goes E s dst0 ids0 locs ids st st' new src) (hl : st'.limit = true → st''.limit = true)
    (h' : ∀ ids', Restored E s dst0 ids0 locs ids' st'.dst → Goes E s dst0 ids0 locs ids' st' st'' new' src')
    (hn : ∀ id, new'' id → new id ∨ new' id)
    (hsrc : ∀ (ids' : List Entry) (e : Entry), (∀ id, new id → ∃ x ∈ (ids' : List Entry), x.info.id = id) → (∀ x ∈ ids', x.info.id ≠ (e : Entry).info.id) → src' e → src'' e)
    (hsrc' : ∀ e, src e → src'' e) :
    Goes E s dst0 ids0 locs ids st st'' new'' src'' := by
  rcases h with h | ⟨ids', F, G, h1, h2, h3⟩
  · exact Or.inl (hl h)
  · rcases h' ids' F with h | ⟨ids'', F', G', k1, k2, k3⟩
    · exact Or.inl h
    · refine Or.inr ⟨ids'', F', G.trans G', k1.trans h1, ?_, ?_⟩
      · intro id hid
        rcases hn id hid with h | h
        · obtain ⟨e, he, h⟩ := h2 id h
          exact ⟨e, G'.keep e he, h⟩
        · exact k2 id h
      · have hin : ∀ e ∈ ids', e ∈ ids ∨ src'' e := fun e he => (h3 e he).imp (fun h => h) (hsrc' e)
        intro e he
        by_cases hmem : e ∈ ids'
        · exact hin e hmem
        · refine Or.inr (hsrc ids' e h2 ?_ ((k3 e he).resolve_left hmem))
          intro x hx heq
          obtain ⟨seqs, inv⟩ := F'.inv
          have a1 := entFind_of_mem inv.idSorted he
          have a2 := entFind_of_mem inv.idSorted (G'.keep x hx)
          rw [heq, a1] at a2
          cases a2
          exact hmem hx

theorem stale_foldl {E : Env} (L : E.Laws) {s : Sys} {dst0 : Db} {ids0 : List Entry} {locs : List KV}
    (hc : dst0.file.faults = []) (N : StaleFits E s) {alt : Db} (l : List Entry) (hl : ∀ x ∈ l, Old E s x ∧ DocOk x.info ∧
      ∀ b d, openDocWithDocinfo E x.info false alt = .ok b d → x.raw = some b) (ids : List Entry) (st : StaleSt)
    (F : Restored E s dst0 ids0 locs ids st.dst) :
    Goes E s dst0 ids0 locs ids st (l.foldl (fun st e => staleDoc E alt st e.info) st)
      (fun id => ∃ x ∈ l, x.info.id = id ∧ ∃ b d, openDocWithDocinfo E x.info false alt = .ok b d)
      (fun e => ∃ x ∈ l, SameVersion e.info x.info ∧ e.raw = x.raw) := by
  induction l generalizing ids st with
  | nil => exact Or.inr ⟨ids, F, Grow.refl _ _, rfl, by simp, fun _ h => Or.inl h⟩
  | cons x l ih =>
    obtain ⟨h1, h2, h3⟩ := hl x (by simp)
    have hd := staleDoc_spec L hc F N h1 h2 h3
    rw [List.foldl_cons]
    generalize staleDoc E alt st x.info = st1 at hd
    refine Goes.trans hd (foldl_limit E alt l st1) (fun ids' F' => ih (fun y hy => hl y (by simp [hy])) ids' st1 F') ?_ ?_ ?_
    · rintro id ⟨y, hy, k1, k2⟩
      rcases List.mem_cons.mp hy with rfl | hy
      · exact Or.inl ⟨k1.symm, k2⟩
      · exact Or.inr ⟨y, hy, k1, k2⟩
    · rintro _ e _ _ ⟨y, hy, k⟩
      exact ⟨y, by simp [hy], k⟩
    · intro e k
      exact ⟨x, by simp, k⟩

/-! ### All stale commits -/

theorem documents_sameAnswers {E : Env} {a b : Db} (h : SameAnswers E a b) : documents E b = documents E a := by
  unfold documents
  rw [h _ (by show 0 < 2 ^ 48; omega)]

theorem storedBodyOf_sameAnswers {E : Env} {a b : Db} (h : SameAnswers E a b) (id : Bytes) : storedBodyOf E b id = storedBodyOf E a id := by
  unfold storedBodyOf
  rw [h (.open id false) trivial]

theorem old_of_shows {E : Env} (L : E.Laws) {s : Sys} {db : Db} {ids seqs locs} (I : Inv E db ids seqs locs)
    (hd : db.dropped = false) {o : Db} (ho : o ∈ s.states) (h : SameAnswers E o db) {x : Entry} (hx : x ∈ ids) : Old E s x := by
  refine ⟨o, ho, ?_, ?_⟩
  · rw [← documents_sameAnswers h, documents_eq L I hd]
    exact List.mem_map.mpr ⟨x, I.perm.mem_iff.mpr hx, rfl⟩
  · rw [← storedBodyOf_sameAnswers h, storedBodyOf_eq L I hd hx]

/-- A body that can be read from the damaged file is what it was. -/
theorem open_damaged {E : Env} (L : E.Laws) {f0 : File} {alt : Db} (D : DamagedFile E f0 alt.file) (w : f0.WF)
    {x : Entry} (hb : BodyAt E f0 x) {b : Bytes} {d : Db} (h : openDocWithDocinfo E x.info false alt = .ok b d) : x.raw = some b := by
  unfold openDocWithDocinfo at h
  unfold BodyAt at hb
  cases hr : x.raw with
  | none =>
    rw [hr] at hb
    rw [if_pos hb.1] at h
    cases h
  | some b0 =>
    rw [hr] at hb
    rw [if_neg hb.1] at h
    have h : (if alt.dropped = true then throw Err.fileClosed else liftF (preadBin E x.info.bp) : DbM Bytes) alt = .ok b d := h
    split at h
    · cases h
    unfold liftF at h
    rcases D.chunk L w.crc hb.2 with h1 | ⟨e, h1⟩
    · rw [h1] at h
      injection h with h
      rw [h]
    · rw [h1] at h
      cases h

/-- The document of the stale commit can still be read. -/
def Found (E : Env) (s : Sys) (alt db : Db) (id : Bytes) : Prop :=
  ∃ d ∈ documents E { db with file := s.db.file }, d.id = id ∧ (answer (docinfoById E d.id) db).toOption.isSome = true ∧
    (answer (openDocWithDocinfo E d false) alt).toOption.isSome = true

/-- The document is from the stale commit that the handle shows. -/
def FromStale (E : Env) (s : Sys) (db : Db) (e : Entry) : Prop :=
  ∃ d ∈ documents E { db with file := s.db.file }, SameVersion e.info d ∧
    storedBodyOf E { db with file := s.db.file } d.id = e.raw

theorem staleWalk_spec {E : Env} (L : E.Laws) {getKey : KeyGetter} {s : Sys} {f : File} {db alt : Db} (S : Stale E getKey s f db)
    (D : DamagedFile E s.db.file f) (halt : alt.file = f) (hsh : ∃ c ∈ s.commits, Shows E { s.db with header := db.header } c)
    {dst0 : Db} {ids0 : List Entry} {locs : List KV} (hc : dst0.file.faults = []) (N : StaleFits E s) (ids : List Entry)
    (st : StaleSt) (F : Restored E s dst0 ids0 locs ids st.dst) :
    Goes E s dst0 ids0 locs ids st (staleWalk E alt st db) (Found E s alt db) (FromStale E s db) := by
  obtain ⟨ids1, seqs1, locs1, I⟩ := S.hist.handle
  have I : Handle E { s.db with header := db.header } ids1 seqs1 locs1 := I
  obtain ⟨l, h1, h2, h3⟩ := staleWalk_eq E L (alt := alt) S D I st
  obtain ⟨c, hc1, hc2⟩ := hsh
  have ho : c.db ∈ s.states := List.mem_cons_of_mem _ (List.mem_map.mpr ⟨c, hc1, rfl⟩)
  have heq : ({ db with file := s.db.file } : Db) = { s.db with header := db.header } := by rw [S.eq]
  rw [h2]
  have hfold := stale_foldl (alt := alt) L hc N l (by
    intro x hx
    refine ⟨old_of_shows L I.inv I.opened ho hc2.answers (h1 x hx), I.inv.seqOk x (I.inv.perm.mem_iff.mpr (h1 x hx)), ?_⟩
    intro b d hb
    exact open_damaged L (f0 := s.db.file) (by rw [halt]; exact D) I.inv.wf (I.inv.body x (h1 x hx)) hb) ids st F
  rcases hfold with h | ⟨ids', F', G, k1, k2, k3⟩
  · exact Or.inl h
  refine Or.inr ⟨ids', F', G, k1, ?_, ?_⟩
  · rintro id ⟨d, hd, rfl, j1, j2⟩
    rw [heq, documents_eq L I.inv I.opened] at hd
    obtain ⟨x, hx, rfl⟩ := List.mem_map.mp hd
    refine k2 _ ⟨x, h3 x (I.inv.perm.mem_iff.mp hx) j1, rfl, ?_⟩
    unfold answer at j2
    rw [calm_of (by rw [halt]; exact D.faults)] at j2
    cases ho : openDocWithDocinfo E x.info false alt with
    | ok b d => exact ⟨b, d, rfl⟩
    | error e d => rw [ho] at j2; cases j2
  · intro e he
    refine (k3 e he).imp (fun h => h) ?_
    rintro ⟨x, hx, j1, j2⟩
    unfold FromStale
    rw [heq, documents_eq L I.inv I.opened]
    exact ⟨x.info, List.mem_map.mpr ⟨x, I.inv.perm.mem_iff.mpr (h1 x hx), rfl⟩, j1,
      by rw [storedBodyOf_eq L I.inv I.opened (h1 x hx), j2]⟩

theorem staleWalk_limit {E : Env} (L : E.Laws) {getKey : KeyGetter} {s : Sys} {f : File} {db alt : Db} (S : Stale E getKey s f db)
    (D : DamagedFile E s.db.file f) (st : StaleSt) (h : st.limit = true) : (staleWalk E alt st db).limit = true := by
  obtain ⟨ids1, seqs1, locs1, I⟩ := S.hist.handle
  obtain ⟨l, h1, h2, h3⟩ := staleWalk_eq E L (alt := alt) S D I st
  rw [h2]
  exact foldl_limit E alt l st h

theorem Rewound.front {E : Env} {db d : Db} (h : Rewound E db d) :
    ∃ d1, rewindDbHeader E db = .ok () d1 ∧ (d = d1 ∨ Rewound E d1 d) := by
  induction h with
  | one h => exact ⟨_, h, Or.inl rfl⟩
  | more _ h ih =>
    obtain ⟨d1, h1, h2⟩ := ih
    refine ⟨d1, h1, Or.inr ?_⟩
    rcases h2 with rfl | h2
    · exact .one h
    · exact .more h2 h

theorem staleLoop_limit {E : Env} (L : E.Laws) {getKey : KeyGetter} {s : Sys} {f : File} {alt : Db}
    (D : DamagedFile E s.db.file f) (DH : DamagedHeaders E s.db.file f) (n : Nat) (db : Db) (S : Stale E getKey s f db)
    (st : StaleSt) (h : st.limit = true) : (staleLoop E alt n db st).limit = true := by
  induction n generalizing db st with
  | zero => exact h
  | succ n ih =>
    unfold staleLoop
    cases hr : rewindDbHeader E db with
    | error e d => exact h
    | ok a d =>
      have S' := (S.rewind L D DH hr).1
      exact ih d S' _ (staleWalk_limit L S' D st h)

/-- The newest commit, of those that the tool can move back to, in which the document can be read. -/
def Newest (E : Env) (s : Sys) (alt db : Db) (e : Entry) : Prop :=
  ∃ d, Rewound E db d ∧ FromStale E s d e ∧
    ∀ d', Rewound E db d' → d.header.position < d'.header.position → ¬ Found E s alt d' e.info.id

theorem staleLoop_spec {E : Env} (L : E.Laws) {getKey : KeyGetter} {s : Sys} {f : File} {alt : Db}
    (D : DamagedFile E s.db.file f) (DH : DamagedHeaders E s.db.file f) (halt : alt.file = f) {dst0 : Db} {ids0 : List Entry}
    {locs : List KV} (hc : dst0.file.faults = []) (N : StaleFits E s) (n : Nat) (db : Db) (S : Stale E getKey s f db)
    (hn : db.header.position < n) (ids : List Entry) (st : StaleSt) (F : Restored E s dst0 ids0 locs ids st.dst) :
    Goes E s dst0 ids0 locs ids st (staleLoop E alt n db st) (fun id => ∃ d, Rewound E db d ∧ Found E s alt d id)
      (Newest E s alt db) := by
  induction n generalizing db ids st with
  | zero => omega
  | succ n ih =>
    unfold staleLoop
    cases hr : rewindDbHeader E db with
    | error e d =>
      refine Or.inr ⟨ids, F, Grow.refl _ _, rfl, ?_, fun _ h => Or.inl h⟩
      rintro id ⟨d', h, -⟩
      obtain ⟨d1, h1, -⟩ := h.front
      rw [hr] at h1
      cases h1
    | ok a d =>
      dsimp only
      obtain ⟨S', hlt, c, hc1, -, hc2⟩ := S.rewind L D DH hr
      have hw := staleWalk_spec L S' D halt ⟨c, hc1, hc2⟩ hc N ids st F
      generalize staleWalk E alt st d = st1 at hw
      have hfront : ∀ d', Rewound E db d' → d' = d ∨ Rewound E d d' := by
        intro d' h
        obtain ⟨d1, h1, h2⟩ := h.front
        rw [hr] at h1
        injection h1 with _ h1
        subst h1
        exact h2
      have hback : ∀ {x d'}, Rewound E x d' → x = d → Rewound E db d' := by
        intro x d' h
        induction h with
        | one h => intro hx; exact .more (.one hr) (hx ▸ h)
        | more _ h ih => intro hx; exact .more (ih hx) h
      refine Goes.trans hw (staleLoop_limit (alt := alt) L D DH n d S' st1)
        (fun ids' F' => ih d S' (by omega) ids' st1 F') ?_ ?_ ?_
      · rintro id ⟨d', h, hf⟩
        rcases hfront d' h with rfl | h2
        · exact Or.inl hf
        · exact Or.inr ⟨d', h2, hf⟩
      · rintro ids' e hnew hne ⟨d', h1, h2, h3⟩
        refine ⟨d', hback h1 rfl, h2, ?_⟩
        intro d'' k1 k2 k3
        rcases hfront d'' k1 with rfl | k1
        · obtain ⟨x, hx, hid⟩ := hnew _ k3
          exact hne x hx hid
        · exact h3 d'' k1 k2 k3
      · intro e he
        refine ⟨d, .one hr, he, ?_⟩
        intro d' k1 k2
        exfalso
        rcases hfront d' k1 with rfl | k1
        · omega
        · have := (S'.rewound L D DH k1).2.1
          omega

/-! ### The documents of the recovered file -/

/-- The same but for the position and size of the body. -/
theorem sameVersion_of_plain {d d' : DocInfo} (h : d.plain true = d'.plain true) : SameVersion d d' := by
  unfold SameVersion
  obtain ⟨a1, a2, a3, a4, a5, a6, a7, a8⟩ := d
  obtain ⟨b1, b2, b3, b4, b5, b6, b7, b8⟩ := d'
  simp only [DocInfo.plain, DocInfo.mk.injEq] at h ⊢
  simp_all

/-- What the recovered file has before stale commits are looked at. -/
theorem recovered_old {E : Env} (L : E.Laws) {s : Sys} {ids seqs locs} (I : Inv E s.db ids seqs locs) (hd : s.db.dropped = false)
    {gone : DocInfo → Bool} {p : Nat} {t : Db} (h : HoldsWithout E s.db t gone p) {ids' seqs' locs'}
    (I' : Inv E t ids' seqs' locs') (hd' : t.dropped = false) :
    (∀ e ∈ ids', FromOld E s e ∧ ∃ x ∈ ids, gone x.info = false ∧ SameVersion e.info x.info) ∧
    ∀ x ∈ ids, gone x.info = false → ∃ e ∈ ids', SameVersion e.info x.info ∧ e.raw = x.raw := by
  have hdoc : ∀ id, ask E s.db (.docinfo id) = .doc (foundOr (entFind id ids)) := fun id =>
    congrArg Reply.doc (docinfoById_answer E L I hd id)
  have hdoc' : ∀ id, ask E t (.docinfo id) = .doc (foundOr (entFind id ids')) := fun id =>
    congrArg Reply.doc (docinfoById_answer E L I' hd' id)
  have hopen : ∀ id, ask E s.db (.open id false) = .body (openIdAns E false (entFind id ids)) := fun id =>
    congrArg Reply.body (openDocument_answer E L I hd id false)
  have hopen' : ∀ id, ask E t (.open id false) = .body (openIdAns E false (entFind id ids')) := fun id =>
    congrArg Reply.body (openDocument_answer E L I' hd' id false)
  have hraw : ∀ x y : Entry, (openAns E false x) = (openAns E false y) → x.raw = y.raw := by
    intro x y hxy
    unfold openAns at hxy
    cases hx : x.raw <;> cases hy : y.raw <;> rw [hx, hy] at hxy <;> simp_all
  have key : ∀ id x, entFind id ids = some x → gone x.info = false → ∃ e, entFind id ids' = some e ∧
      SameVersion e.info x.info ∧ e.raw = x.raw := by
    intro id x hx hg
    have h1 := h (.docinfo id) trivial
    have h2 := h (.open id false) trivial
    simp only [askWithout, askWithout.without] at h1 h2
    rw [hdoc', hdoc, hx] at h1
    rw [hopen', hdoc, hx, hopen, hx] at h2
    simp only [foundOr, hg, Bool.false_eq_true, if_false] at h1 h2
    cases he : entFind id ids' with
    | none => rw [he] at h1; simp [Reply.plain] at h1
    | some e =>
      rw [he] at h1 h2
      simp only [Reply.plain, Reply.doc.injEq, Except.ok.injEq] at h1
      refine ⟨e, rfl, sameVersion_of_plain h1, ?_⟩
      simp only [Reply.plain, openIdAns, Reply.body.injEq] at h2
      exact hraw e x h2
  constructor
  · intro e he
    have hf := entFind_of_mem I'.idSorted he
    cases hx : entFind e.info.id ids with
    | none =>
      have h1 := h (.docinfo e.info.id) trivial
      simp only [askWithout] at h1
      rw [hdoc', hdoc, hx, hf] at h1
      simp [foundOr, askWithout.without, Reply.plain] at h1
    | some x =>
      have hg : gone x.info = false := by
        cases hg : gone x.info with
        | false => rfl
        | true =>
          have h1 := h (.docinfo e.info.id) trivial
          simp only [askWithout] at h1
          rw [hdoc', hdoc, hx, hf] at h1
          simp [foundOr, askWithout.without, Reply.plain, hg] at h1
      obtain ⟨e', h1, h2, h3⟩ := key _ x hx hg
      rw [hf] at h1
      cases h1
      exact ⟨⟨x, old_of_shows L I hd (List.mem_cons_self ..) (fun _ _ => rfl) (mem_of_entFind hx).1, h3, h2⟩,
        x, (mem_of_entFind hx).1, hg, h2⟩
  · intro x hx hg
    obtain ⟨e, h1, h2⟩ := key _ x (entFind_of_mem I.idSorted hx) hg
    exact ⟨e, (mem_of_entFind h1).1, h2⟩

end Couchstore
