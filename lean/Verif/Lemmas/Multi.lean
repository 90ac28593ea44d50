import Verif.Lemmas.Local

/-! Helper lemmas: looking up several documents in one call. -/

namespace Couchstore

variable {σ : Type}

/-- Distinct keys in the order used by the comparison. -/
theorem sortKeys_lt {cmp : Bytes → Bytes → Ordering} {K : Bytes → Prop} (C : CmpLaws cmp K) (ks : List Bytes)
    (hK : ∀ k ∈ ks, K k) (hn : ks.Nodup) (heq : ∀ a b, K a → K b → cmp a b = .eq → a = b) :
    (sortBy (fun a b => cmp a b != .gt) ks).Pairwise fun a b => cmp a b = .lt := by
  have hle : LeOk (fun a b => cmp a b != .gt) K :=
    { total := by
        intro a b ha hb
        simp only [bne_iff_ne, ne_eq]
        by_cases h : cmp a b = .gt
        · right; intro h'
          have := C.gt_lt ha hb h
          rw [this] at h'; cases h'
        · left; exact h
      trans := by
        intro a b c ha hb hc h1 h2
        simp only [bne_iff_ne, ne_eq] at *
        intro h
        rcases hbc : cmp b c with _ | _ | _
        · have := C.le_trans_lt ha hb hc h1 hbc
          rw [this] at h; cases h
        · have := heq b c hb hc hbc
          subst this
          exact h1 h
        · exact h2 hbc }
  have h1 := sortBy_sorted hle ks hK
  have h2 : (sortBy (fun a b => cmp a b != .gt) ks).Pairwise fun a b => a ≠ b :=
    (List.Perm.pairwise_iff (fun h h0 => h h0.symm) (sortBy_perm _ ks)).mpr hn
  refine (h1.and h2).imp_of_mem ?_
  rintro a b ha hb ⟨h3, h4⟩
  simp only [bne_iff_ne, ne_eq] at h3
  cases h : cmp a b with
  | lt => rfl
  | eq => exact absurd (heq a b (hK a (mem_sortBy.mp ha)) (hK b (mem_sortBy.mp hb)) h) h4
  | gt => exact absurd h h3

theorem selects_all (d : DocInfo) : (ScanOpts.mk false false false).selects d = true := rfl

theorem findDocs_id (ids : List Entry) (hok : ∀ x ∈ ids, DocOk x.info) (ks : List Bytes) :
    eventDocs ⟨false, false, false⟩ byIdReadDocInfo (findEvents (idKVs ids) ks) =
      ks.filterMap fun k => (entFind k ids).map (·.info) := by
  unfold eventDocs findEvents
  rw [List.filterMap_map]
  apply filterMap_congr'
  intro k _
  simp only [Function.comp_apply, kvFind_idKVs]
  cases h : entFind k ids with
  | none => rfl
  | some e =>
    obtain ⟨h1, rfl⟩ := mem_of_entFind h
    have : byIdReadDocInfo e.info.id (assembleIdIndexValue e.info) = some e.info :=
      byId_roundtrip _ (hok e h1).fits
    simp [this, selects_all]

theorem findDocs_seq (seqs : List Entry) (hok : ∀ x ∈ seqs, DocOk x.info) (ss : List Nat) :
    eventDocs ⟨false, false, false⟩ bySeqReadDocInfo (findEvents (seqKVs seqs) (ss.map enc48)) =
      ss.filterMap fun s => (seqFind (s % 2 ^ 48) seqs).map (·.info) := by
  unfold eventDocs findEvents
  rw [List.filterMap_map, List.filterMap_map]
  apply filterMap_congr'
  intro s _
  have hk : kvFind (enc48 s) (seqKVs seqs) =
      (seqFind (s % 2 ^ 48) seqs).map fun e => assembleSeqIndexValue e.info := by
    rw [enc48_mod]
    exact kvFind_seqKVs (Nat.mod_lt _ (by decide)) seqs fun x hx => (hok x hx).fits.dbSeq
  simp only [Function.comp_apply, hk]
  cases h : seqFind (s % 2 ^ 48) seqs with
  | none => rfl
  | some e =>
    obtain ⟨h1, h2⟩ := mem_of_seqFind h
    have : bySeqReadDocInfo (enc48 s) (assembleSeqIndexValue e.info) = some e.info := by
      rw [enc48_mod, ← h2]; exact bySeq_roundtrip _ (hok e h1).fits
    simp [this, selects_all]

theorem findEvents_read_id {ids : List Entry} (hok : ∀ x ∈ ids, DocOk x.info) {ks : List Bytes} :
    ∀ ev ∈ findEvents (idKVs ids) ks, ∀ x, ev.2 = some x → (byIdReadDocInfo ev.1 x).isSome := by
  intro ev hev x hx
  obtain ⟨k, -, rfl⟩ := List.mem_map.mp hev
  simp only [kvFind_idKVs] at hx
  obtain ⟨e, he, rfl⟩ := Option.map_eq_some_iff.mp hx
  obtain ⟨h1, rfl⟩ := mem_of_entFind he
  show (byIdReadDocInfo e.info.id (assembleIdIndexValue e.info)).isSome
  rw [byId_roundtrip _ (hok e h1).fits]; rfl

theorem findEvents_read_seq {seqs : List Entry} (hok : ∀ x ∈ seqs, DocOk x.info) {ks : List Bytes} :
    ∀ ev ∈ findEvents (seqKVs seqs) ks, ∀ x, ev.2 = some x → (bySeqReadDocInfo ev.1 x).isSome := by
  intro ev hev x hx
  obtain ⟨k, -, rfl⟩ := List.mem_map.mp hev
  have hm := mem_of_kvFind hx
  unfold seqKVs at hm
  obtain ⟨e, he, h⟩ := List.mem_map.mp hm
  obtain ⟨rfl, rfl⟩ : enc48 e.info.dbSeq = k ∧ assembleSeqIndexValue e.info = x := by
    simp only [seqKV, Prod.mk.injEq] at h; exact h
  show (bySeqReadDocInfo (enc48 e.info.dbSeq) (assembleSeqIndexValue e.info)).isSome
  rw [bySeq_roundtrip _ (hok e he).fits]; rfl

/-- The keys of the range form: a start, or a start and an end. -/
theorem docinfosById_ranges_spec (E : Env) (L : E.Laws) (db : Db) {ids seqs locs}
    (inv : Inv E db ids seqs locs) (hd : db.dropped = false) (lo : Bytes) (hi : Option Bytes)
    (cb : ChangesCb σ) (u : σ) :
    Sp (docinfosById E (boundKeys lo hi) true false cb u) db
      (fun r d => RD db d ∧ Fed cb db.file
        ((ids.map (·.info)).filter fun d => decide (lo ≤ d.id) && hi.all (fun h => decide (d.id ≤ h))) u r)
      (fun _ _ => False) := by
  unfold docinfosById iterateDocinfos
  apply Sp.get_bind
  apply Sp.get_bind
  rw [hd, if_neg (by simp)]
  cases hr : db.header.byIdRoot with
  | none =>
    have := inv.roots_none.1.mp hr
    subst this
    exact ⟨RD.refl _, Or.inl rfl⟩
  | some p =>
    dsimp only
    rw [if_neg (by cases hi <;> simp [boundKeys])]
    simp only [if_true]
    refine (liftF_spec (btreeLookup_fold E L (scanRq_look (opts := ⟨false, false, false⟩)
      (read := byIdReadDocInfo) (cb := cb) (tol := false) ebin_look (by simp) (by simp)) byId_hV p (idKVs ids)
      db.file inv.wf (by have := inv.idRoot; rw [hr] at this; exact this)
      (by show SortedKV (lookupCompare ebinCmp) _; rw [lookupCompare_ebin]; exact sorted_idKVs.mpr inv.idSorted)
      (by simp [scanRq]) lo hi trivial (fun _ _ => trivial) u)).mono ?_ (fun _ _ h => h.2.elim)
    rintro r d ⟨h1, h2, h3⟩
    refine ⟨⟨h1, h2⟩, ?_⟩
    have := Delivered.fed (idEvents_read inv.ok) h3
    have hrng := idRange ids inv.ok lo hi ⟨false, false, false⟩
    simp only [selects_all, Bool.and_true] at hrng
    rw [← hrng]
    exact this

theorem docinfosById_spec (E : Env) (L : E.Laws) (db : Db) {ids seqs locs}
    (inv : Inv E db ids seqs locs) (hd : db.dropped = false) (ks : List Bytes) (hk : ks ≠ []) (hn : ks.Nodup)
    (cb : ChangesCb σ) (u : σ) :
    Sp (docinfosById E ks false false cb u) db
      (fun r d => RD db d ∧ Fed cb db.file
        ((sortBy (fun a b => ebinCmp a b != .gt) ks).filterMap fun k => (entFind k ids).map (·.info)) u r)
      (fun _ _ => False) := by
  unfold docinfosById iterateDocinfos
  apply Sp.get_bind
  apply Sp.get_bind
  rw [hd, if_neg (by simp)]
  cases hr : db.header.byIdRoot with
  | none =>
    have := inv.roots_none.1.mp hr
    subst this
    refine ⟨RD.refl _, Or.inl ?_⟩
    rw [show (List.filterMap (fun k => Option.map (fun x => x.info) (entFind k []))
      (sortBy (fun a b => ebinCmp a b != .gt) ks)) = [] from List.filterMap_eq_nil_iff.mpr (by simp [entFind])]
    rfl
  | some p =>
    dsimp only
    rw [if_neg hk]
    simp only [Bool.false_eq_true, if_false]
    refine (liftF_spec (btreeLookup_find E L (scanRq_look (opts := ⟨false, false, false⟩)
      (read := byIdReadDocInfo) (cb := cb) (tol := false) ebin_look (by simp) (by simp)) byId_hV p (idKVs ids)
      db.file inv.wf (by have := inv.idRoot; rw [hr] at this; exact this)
      (by show SortedKV (lookupCompare ebinCmp) _; rw [lookupCompare_ebin]; exact sorted_idKVs.mpr inv.idSorted)
      (by simp [scanRq]) (sortBy (fun a b => ebinCmp a b != .gt) ks)
      (by
        show List.Pairwise (fun a b => lookupCompare ebinCmp a b = .lt) _
        rw [lookupCompare_ebin]
        exact sortKeys_lt ebinCmp_laws ks (fun _ _ => trivial) hn fun a b _ _ h => (ebinCmp_eq_iff _ _).mp h)
      (fun _ _ => trivial) u)).mono ?_ (fun _ _ h => h.2.elim)
    rintro r d ⟨h1, h2, h3⟩
    refine ⟨⟨h1, h2⟩, ?_⟩
    rw [← findDocs_id ids inv.ok]
    exact Delivered.fed (findEvents_read_id inv.ok) h3

theorem docinfosBySequence_ranges_spec (E : Env) (L : E.Laws) (db : Db) {ids seqs locs}
    (inv : Inv E db ids seqs locs) (hd : db.dropped = false) (lo : Nat) (hlo : lo < 2 ^ 48) (hi : Option Nat)
    (hhi : ∀ h, hi = some h → h < 2 ^ 48) (cb : ChangesCb σ) (u : σ) :
    Sp (docinfosBySequence E (lo :: hi.toList) true false cb u) db
      (fun r d => RD db d ∧ Fed cb db.file
        ((seqs.map (·.info)).filter fun d => decide (lo ≤ d.dbSeq) && hi.all (fun h => decide (d.dbSeq ≤ h))) u r)
      (fun _ _ => False) := by
  unfold docinfosBySequence iterateDocinfos
  apply Sp.get_bind
  rw [hd, if_neg (by simp)]
  apply Sp.get_bind
  rw [hd, if_neg (by simp)]
  cases hr : db.header.bySeqRoot with
  | none =>
    have h0 := inv.seqRoot.none_iff.mp hr
    have : seqs = [] := by unfold seqKVs at h0; simpa using h0
    subst this
    exact ⟨RD.refl _, Or.inl rfl⟩
  | some p =>
    dsimp only
    have hkeys : (lo :: hi.toList).map enc48 = boundKeys (enc48 lo) (hi.map enc48) := by
      cases hi <;> rfl
    rw [hkeys, if_neg (by cases hi <;> simp [boundKeys])]
    simp only [if_true]
    refine (liftF_spec (btreeLookup_fold E L (scanRq_look (opts := ⟨false, false, false⟩)
      (read := bySeqReadDocInfo) (cb := cb) (tol := false) seq_look (by simp) (by simp)) bySeq_hV p (seqKVs seqs)
      db.file inv.wf (by have := inv.seqRoot; rw [hr] at this; exact this)
      (sorted_seqKVs_look inv.seqSorted inv.seqOk)
      (by simp [scanRq]) (enc48 lo) (hi.map enc48) (Or.inl (by simp)) (by
        intro h hh
        obtain ⟨x, -, rfl⟩ := Option.map_eq_some_iff.mp hh
        exact Or.inl (by simp)) u)).mono ?_ (fun _ _ h => h.2.elim)
    rintro r d ⟨h1, h2, h3⟩
    refine ⟨⟨h1, h2⟩, ?_⟩
    have := Delivered.fed (seqEvents_read inv.seqOk) h3
    have hrng := seqRange seqs inv.seqOk lo hlo hi hhi ⟨false, false, false⟩
    simp only [selects_all, Bool.and_true] at hrng
    rw [← hrng]
    exact this

theorem docinfosBySequence_spec (E : Env) (L : E.Laws) (db : Db) {ids seqs locs}
    (inv : Inv E db ids seqs locs) (hd : db.dropped = false) (ss : List Nat) (hk : ss ≠ []) (hn : ss.Nodup)
    (hlt : ∀ s ∈ ss, s < 2 ^ 48) (cb : ChangesCb σ) (u : σ) :
    Sp (docinfosBySequence E ss false false cb u) db
      (fun r d => RD db d ∧ Fed cb db.file
        ((sortBy (fun a b => decide (a ≤ b)) ss).filterMap fun s => (seqFind s seqs).map (·.info)) u r)
      (fun _ _ => False) := by
  unfold docinfosBySequence iterateDocinfos
  apply Sp.get_bind
  rw [hd, if_neg (by simp)]
  apply Sp.get_bind
  rw [hd, if_neg (by simp)]
  cases hr : db.header.bySeqRoot with
  | none =>
    have h0 := inv.seqRoot.none_iff.mp hr
    have : seqs = [] := by unfold seqKVs at h0; simpa using h0
    subst this
    refine ⟨RD.refl _, Or.inl ?_⟩
    rw [show (List.filterMap (fun s => Option.map (fun x => x.info) (seqFind s []))
      (sortBy (fun a b => decide (a ≤ b)) ss)) = [] from List.filterMap_eq_nil_iff.mpr (by simp [seqFind])]
    rfl
  | some p =>
    dsimp only
    rw [if_neg (by simpa using hk)]
    simp only [Bool.false_eq_true, if_false]
    have hsk : ∀ k ∈ ss.map enc48, k.length = 6 := by
      intro k hk; obtain ⟨s, -, rfl⟩ := List.mem_map.mp hk; simp
    have hnk : (ss.map enc48).Nodup := by
      unfold List.Nodup at hn ⊢
      rw [List.pairwise_map]
      exact hn.imp_of_mem fun ha hb h h0 => h (enc48_inj (hlt _ ha) (hlt _ hb) h0)
    have hdec : ∀ k : Bytes, k.length = 6 → ∃ s, s < 2 ^ 48 ∧ k = enc48 s := by
      intro k hk
      refine ⟨beDec k, ?_, ?_⟩
      · have := beDec_lt k; rw [hk] at this; omega
      · unfold enc48; rw [← hk]; exact (beEnc_beDec k).symm
    have hsorted := sortKeys_lt seqCmp_laws (ss.map enc48) hsk hnk (by
      intro a b ha hb h
      obtain ⟨x, hx, rfl⟩ := hdec a ha
      obtain ⟨y, hy, rfl⟩ := hdec b hb
      rw [seqCmp_enc48 hx hy] at h
      by_cases hxy : x = y
      · rw [hxy]
      · rw [if_neg hxy] at h
        split at h <;> cases h)
    have hmap : sortBy (fun a b => seqCmp a b != .gt) (ss.map enc48) =
        (sortBy (fun a b => decide (a ≤ b)) ss).map enc48 := by
      -- both are the ascending arrangement of the same keys
      have hle : LeOk (fun a b : Nat => decide (a ≤ b)) (fun _ => True) :=
        ⟨fun a b _ _ => by simp only [decide_eq_true_eq]; omega,
         fun a b c _ _ _ => by simp only [decide_eq_true_eq]; omega⟩
      have h1 : ((sortBy (fun a b => decide (a ≤ b)) ss).map enc48).Pairwise fun a b => seqCmp a b = .lt := by
        rw [List.pairwise_map]
        have hs := sortBy_sorted hle ss fun _ _ => trivial
        have hn' : (sortBy (fun a b => decide (a ≤ b)) ss).Pairwise fun a b => a ≠ b :=
          (List.Perm.pairwise_iff (fun h h0 => h h0.symm) (sortBy_perm _ ss)).mpr hn
        refine (hs.and hn').imp_of_mem ?_
        rintro a b ha hb ⟨h3, h4⟩
        simp only [decide_eq_true_eq] at h3
        rw [seqCmp_enc48 (hlt a (mem_sortBy.mp ha)) (hlt b (mem_sortBy.mp hb)), if_neg h4, if_pos (by omega)]
      refine List.Perm.eq_of_pairwise (le := fun a b => seqCmp a b = .lt) ?_ hsorted h1
        ((sortBy_perm _ _).trans ((sortBy_perm _ ss).map enc48).symm)
      intro a b ha hb h2 h3
      have := seqCmp_laws.trans a b a (hsk a (mem_sortBy.mp ha)) (by
        obtain ⟨s, -, rfl⟩ := List.mem_map.mp hb; simp) (hsk a (mem_sortBy.mp ha)) h2 h3
      rw [seqCmp_laws.refl (hsk a (mem_sortBy.mp ha))] at this
      cases this
    refine (liftF_spec (btreeLookup_find E L (scanRq_look (opts := ⟨false, false, false⟩)
      (read := bySeqReadDocInfo) (cb := cb) (tol := false) seq_look (by simp) (by simp)) bySeq_hV p (seqKVs seqs)
      db.file inv.wf (by have := inv.seqRoot; rw [hr] at this; exact this)
      (sorted_seqKVs_look inv.seqSorted inv.seqOk)
      (by simp [scanRq]) (sortBy (fun a b => seqCmp a b != .gt) (ss.map enc48))
      (by
        refine hsorted.imp_of_mem ?_
        intro a b ha hb h
        have h1 := hsk a (mem_sortBy.mp ha)
        have h2 := hsk b (mem_sortBy.mp hb)
        rw [show (scanRq seqCmp ⟨false, false, false⟩ bySeqReadDocInfo cb false).cmp = seqCmp from rfl,
          lookupCompare_nonempty (by intro h0; rw [h0] at h1; simp at h1) (by intro h0; rw [h0] at h2; simp at h2)]
        exact h)
      (fun k hk => Or.inl (hsk k (mem_sortBy.mp hk))) u)).mono ?_ (fun _ _ h => h.2.elim)
    rintro r d ⟨h1, h2, h3⟩
    refine ⟨⟨h1, h2⟩, ?_⟩
    have hdocs := findDocs_seq seqs inv.seqOk (sortBy (fun a b => decide (a ≤ b)) ss)
    rw [← hmap] at hdocs
    have hmod : (sortBy (fun a b => decide (a ≤ b)) ss).filterMap (fun s => (seqFind (s % 2 ^ 48) seqs).map (·.info))
        = (sortBy (fun a b => decide (a ≤ b)) ss).filterMap fun s => (seqFind s seqs).map (·.info) := by
      apply filterMap_congr'
      intro s hs
      rw [Nat.mod_eq_of_lt (hlt s (mem_sortBy.mp hs))]
    rw [← hmod, ← hdocs]
    exact Delivered.fed (findEvents_read_seq inv.seqOk) h3

end Couchstore
