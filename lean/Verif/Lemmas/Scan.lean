import Verif.Lemmas.Ask

/-! Helper lemmas: what the iterating functions deliver. -/

namespace Couchstore

variable {σ : Type}

theorem feed_append (cb : ChangesCb σ) (a b : List DocInfo) (u : σ) :
    feed cb (a ++ b) u =
      match feed cb a u with
      | (u', some e) => (u', some e)
      | (u', none) => feed cb b u' := by
  induction a generalizing u with
  | nil => rfl
  | cons x xs ih =>
    simp only [List.cons_append, feed]
    rcases cb u x with ⟨u', _ | e⟩
    · exact ih u'
    · rfl

/-- The callback received the documents of `l` one by one up to its first error, or, if raw
operations may misbehave, some first ones of them, and an error was reported. -/
def Fed (cb : ChangesCb σ) (f : File) (l : List DocInfo) (u : σ) (r : σ × Option Err) : Prop :=
  feed cb l u = r ∨ (f.faults ≠ [] ∧ r.2 ≠ none ∧ ∃ n, feed cb (l.take n) u = (r.1, none))

/-- The documents an event stands for. -/
def eventDocs (opts : ScanOpts) (read : Bytes → Bytes → Option DocInfo)
    (evs : List (Bytes × Option Bytes)) : List DocInfo :=
  evs.filterMap fun ev => (ev.2.bind (read ev.1)).filter opts.selects

theorem eventDocs_some {opts : ScanOpts} {read : Bytes → Bytes → Option DocInfo} {k v : Bytes} {d : DocInfo}
    (h : read k v = some d) (evs : List (Bytes × Option Bytes)) :
    eventDocs opts read ((k, some v) :: evs) =
      if opts.selects d then d :: eventDocs opts read evs else eventDocs opts read evs := by
  unfold eventDocs
  rw [List.filterMap_cons]
  simp only [Option.bind_some, h]
  cases hs : opts.selects d <;> simp [Option.filter, hs]

theorem lookupCallback_docs (opts : ScanOpts) (read : Bytes → Bytes → Option DocInfo) (cb : ChangesCb σ)
    (u : σ) (k : Bytes) (v : Option Bytes) (hr : ∀ x, v = some x → (read k x).isSome) :
    lookupCallback opts read cb u k v =
      feed cb ((v.bind (read k)).filter opts.selects).toList u := by
  cases v with
  | none => rfl
  | some x =>
    obtain ⟨d, hd⟩ := Option.isSome_iff_exists.mp (hr x rfl)
    have : lookupCallback opts read cb u k (some x) = lookupCallback.deliver opts cb u d := by
      simp only [lookupCallback, hd]
    rw [this]
    simp only [Option.bind_some, hd, Option.filter]
    unfold lookupCallback.deliver ScanOpts.selects
    have hone : feed cb [d] u = cb u d := by
      simp only [feed]; rcases cb u d with ⟨_, _ | _⟩ <;> rfl
    cases opts.deletesOnly <;> cases opts.noDeletes <;> cases d.deleted <;> simp [hone] <;> rfl

theorem visit_lookup (opts : ScanOpts) (read : Bytes → Bytes → Option DocInfo) (cb : ChangesCb σ)
    (evs : List (Bytes × Option Bytes))
    (hr : ∀ ev ∈ evs, ∀ x, ev.2 = some x → (read ev.1 x).isSome) (u : σ) :
    visit (lookupCallback opts read cb) evs u = feed cb (eventDocs opts read evs) u := by
  induction evs generalizing u with
  | nil => rfl
  | cons ev evs ih =>
    obtain ⟨k, v⟩ := ev
    have hd : eventDocs opts read ((k, v) :: evs) =
        ((v.bind (read k)).filter opts.selects).toList ++ eventDocs opts read evs := by
      unfold eventDocs
      rw [List.filterMap_cons]
      cases (v.bind (read k)).filter opts.selects <;> simp
    rw [hd, feed_append, visit, lookupCallback_docs opts read cb u k v (hr (k, v) (by simp))]
    rcases feed cb ((v.bind (read k)).filter opts.selects).toList u with ⟨u', _ | e⟩
    · exact ih (fun ev h => hr ev (by simp [h])) u'
    · rfl

theorem eventDocs_take (opts : ScanOpts) (read : Bytes → Bytes → Option DocInfo)
    (evs : List (Bytes × Option Bytes)) (n : Nat) :
    ∃ m, eventDocs opts read (evs.take n) = (eventDocs opts read evs).take m := by
  have : eventDocs opts read evs = eventDocs opts read (evs.take n) ++ eventDocs opts read (evs.drop n) := by
    unfold eventDocs
    rw [← List.filterMap_append, List.take_append_drop]
  exact ⟨(eventDocs opts read (evs.take n)).length, by rw [this]; simp⟩

theorem Delivered.fed {cmp opts read} {cb : ChangesCb σ} {tol : Bool} {f : File}
    {evs : List (Bytes × Option Bytes)} {u : σ} {r : σ × Option Err}
    (hr : ∀ ev ∈ evs, ∀ x, ev.2 = some x → (read ev.1 x).isSome)
    (h : Delivered (scanRq cmp opts read cb tol) f evs u r.1 r.2) :
    Fed cb f (eventDocs opts read evs) u r := by
  rcases h with h | ⟨h1, h2, n, h3⟩
  · left
    rw [← visit_lookup opts read cb evs hr]
    exact h
  · right
    obtain ⟨m, hm⟩ := eventDocs_take opts read evs n
    refine ⟨h1, h2, m, ?_⟩
    rw [← hm, ← visit_lookup opts read cb _ fun ev hev => hr ev (List.mem_of_mem_take hev)]
    exact h3

theorem scanRq_look {cmp} {opts : ScanOpts} {read} {cb : ChangesCb σ} {tol : Bool} {K : Bytes → Prop}
    (h : CmpLaws (lookupCompare cmp) K) (ht : tol = true → opts.tolerate = true)
    (hcb : tol = true → ∀ u d, (cb u d).2 = none) : LookOk (scanRq cmp opts read cb tol) K where
  cmp := h
  tol htol u k v := by
    have hcb := hcb htol
    have ht := ht htol
    show (lookupCallback opts read cb u k v).2 = none
    have hdel : ∀ d, (lookupCallback.deliver opts cb u d).2 = none := by
      intro d
      unfold lookupCallback.deliver
      split
      · rfl
      · split
        · rfl
        · exact hcb u d
    unfold lookupCallback
    cases v with
    | none => rfl
    | some x =>
      simp only [ht]
      cases read k x <;> exact hdel _
  node := rfl

/-! ### The entries of a range -/

theorem seqRange (l : List Entry) (hl : ∀ x ∈ l, DocOk x.info) (lo : Nat) (hlo : lo < 2 ^ 48) (hi : Option Nat)
    (hhi : ∀ h, hi = some h → h < 2 ^ 48) (opts : ScanOpts) :
    eventDocs opts bySeqReadDocInfo
      (rangeEvents (lookupCompare seqCmp) (enc48 lo) (hi.map enc48) (seqKVs l)) =
      (l.map (·.info)).filter fun d => decide (lo ≤ d.dbSeq) &&
        hi.all (fun h => decide (d.dbSeq ≤ h)) && opts.selects d := by
  induction l with
  | nil => rfl
  | cons e l ih =>
    have hok := hl e (by simp)
    have ih := ih fun x hx => hl x (by simp [hx])
    have hne : ∀ s, enc48 s ≠ [] := fun s h => by have := congrArg List.length h; simp at this
    have hin : inRange (lookupCompare seqCmp) (enc48 lo) (hi.map enc48) (enc48 e.info.dbSeq) =
        (decide (lo ≤ e.info.dbSeq) && hi.all (fun h => decide (e.info.dbSeq ≤ h))) := by
      unfold inRange
      rw [lookupCompare_nonempty (hne _) (hne _), seqCmp_enc48 hok.fits.dbSeq hlo]
      congr 1
      · by_cases h : e.info.dbSeq = lo
        · simp [h]
        · by_cases h2 : e.info.dbSeq < lo
          · simp [h, h2]
          · simp only [h, h2, if_false]
            have : lo ≤ e.info.dbSeq := by omega
            simp [this]
      · cases hi with
        | none => rfl
        | some h =>
          simp only [Option.map_some, Option.all_some]
          rw [lookupCompare_nonempty (hne _) (hne _), seqCmp_enc48 hok.fits.dbSeq (hhi h rfl)]
          by_cases h1 : e.info.dbSeq = h
          · simp [h1]
          · by_cases h2 : e.info.dbSeq < h
            · have : e.info.dbSeq ≤ h := by omega
              simp [h1, h2, this]
            · have : ¬ e.info.dbSeq ≤ h := by omega
              simp [h1, h2, this]
    have hrd : bySeqReadDocInfo (enc48 e.info.dbSeq) (assembleSeqIndexValue e.info) = some e.info :=
      bySeq_roundtrip _ hok.fits
    unfold rangeEvents seqKVs at *
    simp only [List.map_cons, seqKV] at *
    rw [List.filter_cons, List.filter_cons]
    simp only [hin]
    cases hb : (decide (lo ≤ e.info.dbSeq) && hi.all (fun h => decide (e.info.dbSeq ≤ h)))
    · simp only [Bool.false_and]
      exact ih
    · simp only [Bool.true_and, if_true, List.map_cons]
      rw [eventDocs_some hrd, ih]

theorem idRange (l : List Entry) (hl : ∀ x ∈ l, DocOk x.info) (lo : Bytes) (hi : Option Bytes)
    (opts : ScanOpts) :
    eventDocs opts byIdReadDocInfo
      (rangeEvents (lookupCompare ebinCmp) lo hi (idKVs l)) =
      (l.map (·.info)).filter fun d => decide (lo ≤ d.id) &&
        hi.all (fun h => decide (d.id ≤ h)) && opts.selects d := by
  rw [lookupCompare_ebin]
  induction l with
  | nil => rfl
  | cons e l ih =>
    have hok := hl e (by simp)
    have ih := ih fun x hx => hl x (by simp [hx])
    have hin : inRange ebinCmp lo hi e.info.id =
        (decide (lo ≤ e.info.id) && hi.all (fun h => decide (e.info.id ≤ h))) := by
      unfold inRange
      congr 1
      · rw [decide_eq_decide]
        simp only [ne_eq, ebinCmp_lt_iff, List.not_lt]
      · cases hi with
        | none => rfl
        | some h =>
          simp only [Option.all_some]
          rw [decide_eq_decide]
          simp only [ne_eq, ebinCmp_gt_iff, List.not_lt]
    have hrd : byIdReadDocInfo e.info.id (assembleIdIndexValue e.info) = some e.info :=
      byId_roundtrip _ hok.fits
    unfold rangeEvents idKVs at *
    simp only [List.map_cons, idKV] at *
    rw [List.filter_cons, List.filter_cons]
    simp only [hin]
    cases hb : (decide (lo ≤ e.info.id) && hi.all (fun h => decide (e.info.id ≤ h)))
    · simp only [Bool.false_and]
      exact ih
    · simp only [Bool.true_and, if_true, List.map_cons]
      rw [eventDocs_some hrd, ih]

theorem seqEvents_read {l : List Entry} (hl : ∀ x ∈ l, DocOk x.info) {lc lo hi} :
    ∀ ev ∈ rangeEvents lc lo hi (seqKVs l), ∀ x, ev.2 = some x → (bySeqReadDocInfo ev.1 x).isSome := by
  intro ev hev x hx
  obtain ⟨kv, hkv, rfl⟩ := List.mem_map.mp hev
  obtain ⟨e, he, rfl⟩ := List.mem_map.mp (List.mem_filter.mp hkv).1
  cases hx
  show (bySeqReadDocInfo (enc48 e.info.dbSeq) (assembleSeqIndexValue e.info)).isSome
  rw [bySeq_roundtrip _ (hl e he).fits]; rfl

theorem idEvents_read {l : List Entry} (hl : ∀ x ∈ l, DocOk x.info) {lc lo hi} :
    ∀ ev ∈ rangeEvents lc lo hi (idKVs l), ∀ x, ev.2 = some x → (byIdReadDocInfo ev.1 x).isSome := by
  intro ev hev x hx
  obtain ⟨kv, hkv, rfl⟩ := List.mem_map.mp hev
  obtain ⟨e, he, rfl⟩ := List.mem_map.mp (List.mem_filter.mp hkv).1
  cases hx
  show (byIdReadDocInfo e.info.id (assembleIdIndexValue e.info)).isSome
  rw [byId_roundtrip _ (hl e he).fits]; rfl

/-- In tolerant mode the theorems are about callbacks that do not fail and a file without
misbehaving operations. -/
def TolOk (tol : Bool) (cb : ChangesCb σ) (db : Db) : Prop :=
  tol = true → (∀ u d, (cb u d).2 = none) ∧ db.file.faults = []

theorem changesSince_spec (E : Env) (L : E.Laws) (db : Db) {ids seqs locs}
    (inv : Inv E db ids seqs locs) (hd : db.dropped = false) (since : Nat) (hs : since < 2 ^ 48)
    (opts : ScanOpts) (cb : ChangesCb σ) (ht : TolOk opts.tolerate cb db) (u : σ) :
    Sp (changesSince E since opts cb u) db
      (fun r d => RD db d ∧ Fed cb db.file
        ((seqs.map (·.info)).filter fun d => decide (since ≤ d.dbSeq) && opts.selects d) u r)
      (fun _ _ => False) := by
  unfold changesSince
  apply Sp.get_bind
  rw [hd, if_neg (by simp)]
  cases hr : db.header.bySeqRoot with
  | none =>
    have h0 := inv.seqRoot.none_iff.mp hr
    have : seqs = [] := by unfold seqKVs at h0; simpa using h0
    subst this
    exact ⟨RD.refl _, Or.inl rfl⟩
  | some p =>
    dsimp only
    refine (liftF_spec (btreeLookup_fold E L (scanRq_look (opts := opts) (read := bySeqReadDocInfo)
      (cb := cb) seq_look id fun h => (ht h).1) bySeq_hV p (seqKVs seqs) db.file inv.wf
      (by have := inv.seqRoot; rw [hr] at this; exact this) (sorted_seqKVs_look inv.seqSorted inv.seqOk)
      (fun h => (ht h).2) (enc48 since) none (Or.inl (by simp)) (by simp) u)).mono ?_
      (fun _ _ h => h.2.elim)
    rintro r d ⟨h1, h2, h3⟩
    refine ⟨⟨h1, h2⟩, ?_⟩
    have := Delivered.fed (seqEvents_read inv.seqOk) h3
    have hrng := seqRange seqs inv.seqOk since hs none (by simp) opts
    simp only [Option.map_none, Option.all_none, Bool.and_true] at hrng
    rw [← hrng]
    exact this

theorem allDocs_spec (E : Env) (L : E.Laws) (db : Db) {ids seqs locs}
    (inv : Inv E db ids seqs locs) (hd : db.dropped = false) (start : Option Bytes)
    (opts : ScanOpts) (cb : ChangesCb σ) (ht : TolOk opts.tolerate cb db) (u : σ) :
    Sp (allDocs E start opts cb u) db
      (fun r d => RD db d ∧ Fed cb db.file
        ((ids.map (·.info)).filter fun d => decide (start.getD [] ≤ d.id) && opts.selects d) u r)
      (fun _ _ => False) := by
  unfold allDocs
  apply Sp.get_bind
  rw [hd, if_neg (by simp)]
  cases hr : db.header.byIdRoot with
  | none =>
    have := inv.roots_none.1.mp hr
    subst this
    exact ⟨RD.refl _, Or.inl rfl⟩
  | some p =>
    dsimp only
    refine (liftF_spec (btreeLookup_fold E L (scanRq_look (opts := opts) (read := byIdReadDocInfo)
      (cb := cb) ebin_look id fun h => (ht h).1) byId_hV p (idKVs ids) db.file inv.wf
      (by have := inv.idRoot; rw [hr] at this; exact this)
      (by show SortedKV (lookupCompare ebinCmp) _; rw [lookupCompare_ebin]; exact sorted_idKVs.mpr inv.idSorted)
      (fun h => (ht h).2) (start.getD []) none trivial (by simp) u)).mono ?_
      (fun _ _ h => h.2.elim)
    rintro r d ⟨h1, h2, h3⟩
    refine ⟨⟨h1, h2⟩, ?_⟩
    have := Delivered.fed (idEvents_read inv.ok) h3
    have hrng := idRange ids inv.ok (start.getD []) none opts
    simp only [Option.all_none, Bool.and_true] at hrng
    rw [← hrng]
    exact this

end Couchstore
