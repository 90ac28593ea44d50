import Verif.Model.ViewCompact
import Verif.Lemmas.ViewUpdate4

/-! Compaction of a view group. -/

namespace Couchstore

theorem sorted_lookup {cmp : Bytes → Bytes → Ordering} {kvs : List KV} (hs : SortedKV cmp kvs) (hne : ∀ kv ∈ kvs, kv.1 ≠ []) :
    SortedKV (lookupCompare cmp) kvs := by
  unfold SortedKV at hs ⊢
  refine hs.imp_of_mem ?_
  intro a b ha hb h
  have len : ∀ {k : KV}, k ∈ kvs → ¬k.1.length = 0 := fun h e => hne _ h (List.length_eq_zero_iff.mp e)
  unfold lookupCompare
  rw [if_neg (fun h => len ha h.1), if_neg (len ha), if_neg (len hb)]
  exact h

theorem all_events (cmp : Bytes → Bytes → Ordering) (l : List KV) :
    rangeEvents (lookupCompare cmp) [] none l = l.map fun kv => (kv.1, some kv.2) := by
  unfold rangeEvents
  congr 1
  apply List.filter_eq_self.mpr
  intro kv _
  unfold inRange lookupCompare
  by_cases h : kv.1.length = 0
  · simp [h]
  · rw [if_neg (fun h' => h h'.1), if_neg h]
    rfl

theorem visit_compactView {σ : Type} (E : Env) {rq : Rq σ} {K X} (ok : RqOk rq K X) {filter : Option Bytes} {dead : KV → Bool}
    (l : List KV) (hl : ∀ kv ∈ l, X.V kv) (hf : ∀ kv ∈ l, compactFilter filter kv.2 = .ok (dead kv)) (f : File) (w : f.WF)
    (mr : MR) (hm : mr.modified = true) (n : Nat) (c : List KV) (C : MRC E X f 0 mr c) (st : File × MR × Nat) (er : Option Err)
    (h : visit (runFetch (compactViewFetch E rq filter)) (l.map fun kv => (kv.1, some kv.2)) (f, mr, n) = (st, er)) :
    (er = none → Ext f st.1 ∧ MRC E X st.1 0 st.2.1 (c ++ l.filter fun kv => !dead kv) ∧ st.2.1.modified = true ∧
      st.2.2 % 2 ^ 64 = (n + (l.filter fun kv => !dead kv).length) % 2 ^ 64) ∧
      (∀ x, er = some x → f.faults ≠ [] ∨ x = .formatLimit) := by
  induction l generalizing f mr c n with
  | nil =>
    cases h
    exact ⟨fun _ => ⟨Ext.refl f, by rw [List.filter_nil, List.append_nil]; exact C, hm, rfl⟩, fun _ h => nomatch h⟩
  | cons kv l ih =>
    simp only [List.map_cons, visit, runFetch, compactViewFetch, hf kv (by simp)] at h
    have ih := ih (fun x hx => hl x (by simp [hx])) fun x hx => hf x (by simp [hx])
    cases hd : dead kv with
    | true =>
      simp only [hd] at h
      rw [List.filter_cons_of_neg (by simp [hd])]
      exact ih f w mr hm n c C h
    | false =>
      simp only [hd] at h
      rw [List.filter_cons_of_pos (by simp [hd])]
      have S := mrPushItem_spec E ok kv.1 kv.2 mr c f w C (hl kv (by simp))
      unfold Sp at S
      cases hp : mrPushItem E rq kv.1 kv.2 mr f with
      | ok r g =>
        rw [hp] at h S
        dsimp only at h S
        obtain ⟨s1, s2, s3⟩ := S
        obtain ⟨i1, i2⟩ := ih g (s1.wf' w) r (s2.trans hm) _ _ s3 h
        refine ⟨fun hn => ?_, fun x hx => (i2 x hx).imp s1.faults_ne id⟩
        obtain ⟨j1, j2, j3, j4⟩ := i1 hn
        rw [List.append_assoc] at j2
        refine ⟨s1.trans j1, j2, j3, ?_⟩
        rw [j4, List.length_cons]
        omega
      | error x g =>
        rw [hp] at h S
        cases h
        exact ⟨(fun h => nomatch h), fun _ h => (Option.some.inj h) ▸ S.2⟩

/-- Why a compaction fails. -/
def CompactStop (s : ViewCompactSt) (er : Err) : Prop := s.src.faults ≠ [] ∨ s.tgt.faults ≠ [] ∨ er = .formatLimit

theorem compactBtree_spec {σ : Type} (E : Env) (L : E.Laws) {rq : Rq σ} {K X} (ok : RqOk rq K X)
    (CL : CmpLaws (lookupCompare rq.cmp) (fun k => K k ∨ k = [])) {filter : Option Bytes} {dead : KV → Bool}
    (root : Option NodePointer) (kvs : List KV) (s : ViewCompactSt) (ws : s.src.WF) (wt : s.tgt.WF)
    (hr : RootAt E X s.src root kvs) (hs : SortedKV (lookupCompare rq.cmp) kvs)
    (hf : ∀ kv ∈ kvs, compactFilter filter kv.2 = .ok (dead kv)) :
    Sp (compactBtree E rq filter root) s
      (fun r s' => RFrame s.src s'.src ∧ Ext s.tgt s'.tgt ∧ RootAt E X s'.tgt r (kvs.filter fun kv => !dead kv) ∧
        s'.inserted % 2 ^ 64 = (s.inserted + (kvs.filter fun kv => !dead kv).length) % 2 ^ 64)
      (fun er s' => RFrame s.src s'.src ∧ CompactStop s er) := by
  unfold compactBtree Sp
  cases root with
  | none =>
    have h0 : kvs = [] := hr
    subst h0
    exact ⟨RFrame.refl _, Ext.refl _, rfl, rfl⟩
  | some p =>
    have hlook : LookOk (σ := File × MR × Nat) ⟨rq.cmp, false, runFetch (compactViewFetch E rq filter), none⟩
        (fun k => K k ∨ k = []) := ⟨CL, (fun h => nomatch h), rfl⟩
    have hfold := btreeLookup_fold (X := X) E L hlook (fun kv h => ⟨Or.inl (ok.entry kv h).1, (ok.entry kv h).2.1⟩) p kvs s.src ws
      hr hs (fun h => nomatch h) [] none (Or.inr rfl) (by simp) (s.tgt, newBtreeModres, s.inserted)
    unfold Sp at hfold
    dsimp only [boundKeys, Option.toList] at hfold ⊢
    cases hb : btreeLookup E _ true p.pointer [[]] _ s.src with
    | error e f => rw [hb] at hfold; exact hfold.elim
    | ok r f =>
      obtain ⟨st, er⟩ := r
      rw [hb] at hfold
      dsimp only at hfold ⊢
      obtain ⟨hrf, hd⟩ := hfold
      rw [all_events] at hd
      have C0 : MRC E X s.tgt 0 newBtreeModres [] := ⟨[], [], MRInv.new E X s.tgt 0 true⟩
      cases er with
      | some x =>
        refine ⟨hrf, ?_⟩
        rcases hd with hd | ⟨hd, -⟩
        · exact Or.inr ((visit_compactView E ok kvs hr.valid hf s.tgt wt _ rfl _ _ C0 _ _ hd).2 x rfl)
        · exact Or.inl hd
      | none =>
        have hd := hd.none_eq
        obtain ⟨k1, k2, k3, k4⟩ := (visit_compactView E ok kvs hr.valid hf s.tgt wt _ rfl _ _ C0 _ _ hd).1 rfl
        rw [List.nil_append] at k2
        have S := completeNewBtree_spec E ok st.2.1 _ st.1 (k1.wf' wt) k2 k3
        unfold Sp at S
        dsimp only
        cases hc : completeNewBtree E rq st.2.1 st.1 with
        | ok r g =>
          rw [hc] at S
          exact ⟨hrf, k1.trans S.1, S.2, k4⟩
        | error er g =>
          rw [hc] at S
          exact ⟨hrf, Or.inr (S.2.imp k1.faults_ne id)⟩

/-- The filter of a group with these partitions to be cleaned up. -/
def groupFilter (cleanup : Bytes) : Option Bytes := if isEqualBitmap emptyBitmap cleanup then none else some cleanup

theorem groupFilter_ok {cleanup : Bytes} (hc : cleanup.length = 128) {kv : KV} (h2 : 2 ≤ kv.2.length) (hp : idPart kv < 1024) :
    compactFilter (groupFilter cleanup) kv.2 = .ok (hasPart cleanup (idPart kv)) := by
  unfold groupFilter compactFilter
  split
  · rename_i h
    split at h
    · rename_i he
      have he : emptyBitmap = cleanup := by simpa [isEqualBitmap] using he
      rw [← he, emptyBitmap_parts]
    · cases h
  · rename_i h
    split at h
    · cases h
    · cases h
      unfold decodePartition
      rw [if_neg (by omega)]
      exact isBitSet_ok hc hp

theorem compactIdBtree_spec (E : Env) (L : E.Laws) (a b : Nat) (ha : 2 ≤ a) {cleanup : Bytes} (hc : cleanup.length = 128)
    {kmax : Nat} (hmax : kmax < 4096) (root : Option NodePointer) (ids : List KV) (s : ViewCompactSt) (ws : s.src.WF)
    (wt : s.tgt.WF) (hr : RootAt E (viewIdIdx kmax) s.src root ids) (hs : SortedKV ebinCmp ids) :
    Sp (compactIdBtree E a b (groupFilter cleanup) root) s
      (fun r s' => RFrame s.src s'.src ∧ Ext s.tgt s'.tgt ∧ RootAt E (viewIdIdx kmax) s'.tgt r (keptIds cleanup ids) ∧
        s'.inserted % 2 ^ 64 = (s.inserted + (keptIds cleanup ids).length) % 2 ^ 64)
      (fun er s' => RFrame s.src s'.src ∧ CompactStop s er) := by
  refine compactBtree_spec E L (viewIdRq_ok hmax (a + a / 3) (b + b / 3) emptyBitmap (by omega)) ?_ root ids s ws wt hr ?_ ?_
  · show CmpLaws (lookupCompare ebinCmp) _
    rw [lookupCompare_ebin]
    exact ⟨fun x y _ _ => ebinCmp_laws.eq_iff x y trivial trivial, fun x y _ _ => ebinCmp_laws.swap x y trivial trivial,
      fun x y z _ _ _ => ebinCmp_laws.trans x y z trivial trivial trivial⟩
  · show SortedKV (lookupCompare ebinCmp) ids
    rw [lookupCompare_ebin]
    exact hs
  · intro kv hkv
    obtain ⟨-, -, h2, h3⟩ := hr.valid kv hkv
    exact groupFilter_ok hc h2 h3

/-- What a compaction makes of the index of a view. -/
def CompactedView (E : Env) (cleanup : Bytes) (g : File) (x : View × Option NodePointer) (r : Option NodePointer) : Prop :=
  (x.1.having (keptEmits cleanup x.1.emits)).At E g r

theorem Emit.kv_part {specs : List ReducerSpec} {m : Emit} (h : m.Fits specs) : 2 ≤ m.kv.2.length ∧ idPart m.kv < 1024 := by
  rw [Emit.idPart_kv h]
  refine ⟨?_, h.2.1⟩
  show 2 ≤ (encodeViewValue _).length
  unfold encodeViewValue
  rw [List.length_append, enc16, length_beEnc]
  omega

theorem compactViewBtree_spec {D : Type} [LinearOrder D] (E : Env) (L : E.Laws) (e : CollateEnv D) (round : Rat → D)
    (ucol : Bytes → Bytes → Int) (H : e.Ok round ucol) (a b : Nat) (ha : 2 ≤ a) {cleanup : Bytes} (hc : cleanup.length = 128)
    (x : View × Option NodePointer) (hv : x.1.Ok e) (hs : SortedKV (viewBtreeCmp e) (x.1.emits.map Emit.kv))
    (s : ViewCompactSt) (ws : s.src.WF) (wt : s.tgt.WF) (hr : x.1.At E s.src x.2) :
    Sp (compactViewBtree E e a b (groupFilter cleanup) x.1.reducers x.2) s
      (fun r s' => RFrame s.src s'.src ∧ Ext s.tgt s'.tgt ∧ CompactedView E cleanup s'.tgt x r ∧
        s'.inserted % 2 ^ 64 = (s.inserted + (keptEmits cleanup x.1.emits).length) % 2 ^ 64)
      (fun er s' => RFrame s.src s'.src ∧ CompactStop s er) := by
  obtain ⟨hK, hred, room⟩ := hv
  have ne : ∀ k, x.1.keys k → k ≠ [] := by
    rintro k hk rfl
    obtain ⟨v, d, -, h⟩ := hK.key [] hk
    have := congrArg List.length h
    unfold encodeViewKey at this
    simp only [List.length_append, enc16, length_beEnc, List.length_nil] at this
    omega
  have ok := viewRq_ok e round ucol H x.1.keys hK hred room (a + a / 3) (b + b / 3) emptyBitmap (by omega)
  refine (compactBtree_spec E L ok (lookupCompare_laws ok.cmp ne) (dead := fun kv => hasPart cleanup (idPart kv)) x.2 _ s ws wt
    hr.1 (sorted_lookup hs fun kv hkv => ne _ (hr.1.valid kv hkv).1) ?_).mono ?_ fun _ _ h => h
  · intro kv hkv
    obtain ⟨m, hm, rfl⟩ := List.mem_map.mp hkv
    exact groupFilter_ok hc (Emit.kv_part (hr.2 m hm)).1 (Emit.kv_part (hr.2 m hm)).2
  · rintro r s' ⟨h1, h2, h3, h4⟩
    rw [keptEmits_kv hr.2] at h3 h4
    rw [List.length_map] at h4
    exact ⟨h1, h2, ⟨h3, keptEmits_fits hr.2⟩, h4⟩

theorem compactViews_spec {D : Type} [LinearOrder D] (E : Env) (L : E.Laws) (e : CollateEnv D) (round : Rat → D)
    (ucol : Bytes → Bytes → Int) (H : e.Ok round ucol) (a b : Nat) (ha : 2 ≤ a) {cleanup : Bytes} (hc : cleanup.length = 128) :
    ∀ (views : List (View × Option NodePointer)) (s : ViewCompactSt) (_ : s.src.WF) (_ : s.tgt.WF)
      (_ : ∀ x ∈ views, x.1.Ok e ∧ SortedKV (viewBtreeCmp e) (x.1.emits.map Emit.kv) ∧ x.1.At E s.src x.2),
    Sp (compactViews E e a b (groupFilter cleanup) (views.map fun x => (x.1.reducers, x.2))) s
      (fun rs s' => RFrame s.src s'.src ∧ Ext s.tgt s'.tgt ∧ List.Forall₂ (CompactedView E cleanup s'.tgt) views rs ∧
        s'.inserted % 2 ^ 64 = (s.inserted + (views.map fun x => (keptEmits cleanup x.1.emits).length).sum) % 2 ^ 64)
      (fun er s' => RFrame s.src s'.src ∧ CompactStop s er) := by
  intro views
  induction views with
  | nil =>
    intro s _ _ _
    exact ⟨RFrame.refl _, Ext.refl _, .nil, rfl⟩
  | cons x views ih =>
    intro s ws wt hv
    obtain ⟨h1, h2, h3⟩ := hv x (by simp)
    rw [List.map_cons]
    unfold compactViews
    apply Sp.bind' (compactViewBtree_spec E L e round ucol H a b ha hc x h1 h2 s ws wt h3)
    · rintro r s1 ⟨k1, k2, k3, k4⟩
      have ws1 : s1.src.WF := ⟨by rw [k1.pos, k1.disk]; exact ws.pos_le, by rw [k1.cfg]; exact ws.crc⟩
      have wt1 := k2.wf' wt
      apply Sp.bind' (ih s1 ws1 wt1 fun y hy =>
        ⟨(hv y (by simp [hy])).1, (hv y (by simp [hy])).2.1, (hv y (by simp [hy])).2.2.keep k1.keep⟩)
      · rintro rs s2 ⟨j1, j2, j3, j4⟩
        refine Sp.pure ⟨k1.trans j1, k2.trans j2, .cons (k3.keep (j2.keep wt1)) j3, ?_⟩
        rw [j4, List.map_cons, List.sum_cons, Nat.add_mod, k4, ← Nat.add_mod]
        congr 1
        omega
      · rintro er s2 ⟨j1, j2⟩
        refine ⟨k1.trans j1, ?_⟩
        rcases j2 with j2 | j2 | j2
        · exact Or.inl (k1.faults_ne j2)
        · exact Or.inr (Or.inl (k2.faults_ne j2))
        · exact Or.inr (Or.inr j2)
    · exact fun _ _ h => h

theorem onNew_spec {α : Type} {m : M α} {s : ViewCompactSt} {Q : α → File → Prop} {R : Err → File → Prop} (h : Sp m s.tgt Q R) :
    Sp (onNew m) s (fun x s' => s' = { s with tgt := s'.tgt } ∧ Q x s'.tgt) (fun er s' => s' = { s with tgt := s'.tgt } ∧ R er s'.tgt) := by
  unfold onNew Sp at *
  cases e : m s.tgt with
  | ok x f => rw [e] at h; simp only [e]; exact ⟨trivial, h⟩
  | error er f => rw [e] at h; simp only [e]; exact ⟨trivial, h⟩

/-- What a compaction of a group does. -/
structure CompactedGroup (E : Env) (kmax : Nat) (g : File) (h : IndexHeader) (ids : List KV) (views : List View) (out : Bytes) :
    Prop where
  indexes : g.disk.length ≤ 2 ^ 48 → ∃ h', decodeIndexHeader E out = .ok h' ∧
    h' = { h with idRoot := h'.idRoot, views := h'.views, cleanup := emptyBitmap } ∧
    IndexesAt E kmax g h' (keptIds h.cleanup ids) (views.map fun v => v.having (keptEmits h.cleanup v.emits))

theorem compactViewGroup_spec {D : Type} [LinearOrder D] (E : Env) (L : E.Laws) (hne : ∀ b, b ≠ [] → E.deflate b ≠ [])
    (e : CollateEnv D) (round : Rat → D) (ucol : Bytes → Bytes → Int) (H : e.Ok round ucol) (a b : Nat) (ha : 2 ≤ a)
    (junk : Bytes) (s : ViewCompactSt) (hsrc : s.src.cfg.crcMode ≠ .unknown) (htgt : s.tgt.cfg.crcMode ≠ .unknown) (buf : Bytes)
    (h : IndexHeader) (hd : decodeIndexHeader E buf = .ok h) {kmax : Nat} (hmax : kmax < 4096) (ids : List KV)
    (views : List View) (hg : IndexesAt E kmax s.src h ids views) (hs : SortedKV ebinCmp ids)
    (hv : ∀ v ∈ views, v.Ok e ∧ SortedKV (viewBtreeCmp e) (v.emits.map Emit.kv) ∧ reductionMax v.specs + 12 < 2 ^ 16) :
    Sp (compactViewGroup E e a b junk buf (views.map (·.reducers))) s
      (fun out s' => RFrame s.src.atEnd s'.src ∧ FileGrown s.tgt s'.tgt ∧ CompactedGroup E kmax s'.tgt h ids views out ∧
        s'.inserted % 2 ^ 64 = (s.inserted + (keptIds h.cleanup ids).length +
          (views.map fun v => (keptEmits h.cleanup v.emits).length).sum) % 2 ^ 64)
      (fun er s' => RFrame s.src.atEnd s'.src ∧ CompactStop s er) := by
  have hok : h.Ok := (decodeIndexHeader_ok hd).1
  have hn : views.length = h.views.length := hg.views.length_eq
  unfold compactViewGroup
  have hgoal : ∀ {m : ViewCompactM Bytes} {Q R}, Sp m { s with src := s.src.atEnd } Q R →
      Sp (fun s : ViewCompactSt => m { s with src := { s.src with pos := s.src.disk.length } }) s Q R := fun h => h
  have ws : s.src.atEnd.WF := ⟨Nat.le_refl _, hsrc⟩
  rw [hd]
  simp only [List.length_map, hn, ne_eq, not_true_eq_false, if_false]
  refine hgoal ?_
  apply Sp.bind' (onNew_spec (Q := fun _ g => ∃ f2, RFrame s.tgt f2 ∧ g = f2.atEnd)
    (R := fun _ g => RFrame s.tgt g ∧ s.tgt.faults ≠ []) (s := { s with src := s.src.atEnd }) ?_)
  · rintro _ s1 ⟨e1, f2, k2, e2⟩
    have wt1 : s1.tgt.WF := by
      rw [e2]
      exact ⟨Nat.le_refl _, by show f2.cfg.crcMode ≠ _; rw [k2.cfg]; exact htgt⟩
    have es : s1.src = s.src.atEnd := by rw [e1]
    have ei : s1.inserted = s.inserted := by rw [e1]
    rw [← es] at ws
    have gr1 : FileGrown s.tgt s1.tgt := by
      rw [e2]
      exact ⟨k2.grown.agree, k2.grown.len, k2.grown.cfg⟩
    have fl : s1.tgt.faults ≠ [] → s.tgt.faults ≠ [] := by
      rw [e2]
      exact k2.faults_ne
    apply Sp.bind' (compactIdBtree_spec E L a b ha hok.cleanup hmax h.idRoot ids s1 ws wt1 (by rw [es]; exact hg.ids) hs)
    · rintro idRoot s2 ⟨x1, x2, x3, x4⟩
      have ws2 : s2.src.WF := ⟨by rw [x1.pos, x1.disk]; exact ws.pos_le, by rw [x1.cfg]; exact ws.crc⟩
      have wt2 := x2.wf' wt1
      have hz := forall₂_zip hg.views
      have ez : (views.map (·.reducers)).zip h.views = (views.zip h.views).map fun x => (x.1.reducers, x.2) := by
        rw [List.zip_map_left]
        rfl
      rw [ez]
      apply Sp.bind' (compactViews_spec E L e round ucol H a b ha hok.cleanup (views.zip h.views) s2 ws2 wt2 (by
        intro x hx
        obtain ⟨q1, q2, q3⟩ := hv x.1 (List.of_mem_zip hx).1
        refine ⟨q1, q2, View.At.keep x1.keep ?_⟩
        rw [es]
        exact hz x hx))
      · rintro roots s3 ⟨y1, y2, y3, y4⟩
        have wt3 := y2.wf' wt2
        have i3 := x3.keep (y2.keep wt2)
        have hl : roots.length = h.views.length := by
          rw [← y3.length_eq, List.length_zip, hn, Nat.min_self]
        refine Sp.pure ⟨by rw [← es]; exact x1.trans y1, gr1.trans ((x2.trans y2).frame.grown ?_), ⟨fun hdisk => ?_⟩, ?_⟩
        · rw [e2]; exact Nat.le_refl _
        · have ok2 : IndexHeader.Ok { h with idRoot := idRoot, views := roots, cleanup := emptyBitmap } :=
            { hok with views := by show roots.length < 256; rw [hl]; exact hok.views
                       cleanup := by simp [emptyBitmap] }
          have hsize : s3.tgt.pos ≤ 2 ^ 48 := Nat.le_trans wt3.pos_le hdisk
          have ke := keep_atEnd wt3
          refine ⟨_, decode_encode L _ ok2 junk hne, rfl, ⟨?_, ?_⟩⟩
          · exact (storedRoot_at i3 hsize (viewId_reduction i3)).keep ke
          · show List.Forall₂ _ _ (roots.map storedRoot)
            rw [List.forall₂_map_right_iff, List.forall₂_map_left_iff]
            rw [List.forall₂_iff_get] at y3 ⊢
            have hvl : views.length = roots.length := hn.trans hl.symm
            refine ⟨hvl, fun i h1 h2 => ?_⟩
            have hr := y3.2 i (by rw [List.length_zip, hn, Nat.min_self, ← hl]; exact h2) h2
            unfold CompactedView at hr
            simp only [List.get_eq_getElem, List.getElem_zip] at hr ⊢
            exact View.At.keep ke ⟨storedRoot_at hr.1 hsize (view_reduction hr (hv _ (List.getElem_mem h1)).2.2), hr.2⟩
        · rw [y4, map_zip_fst (F := fun v : View => (keptEmits h.cleanup v.emits).length) hn, Nat.add_mod, x4, ei, ← Nat.add_mod]
      · rintro er s3 ⟨y1, y2⟩
        refine ⟨by rw [← es]; exact x1.trans y1, ?_⟩
        rcases y2 with y2 | y2 | y2
        · refine Or.inl (?_ : s.src.atEnd.faults ≠ [])
          rw [← es]
          exact x1.faults_ne y2
        · exact Or.inr (Or.inl (fl (x2.faults_ne y2)))
        · exact Or.inr (Or.inr y2)
    · rintro er s2 ⟨y1, y2⟩
      refine ⟨by rw [← es]; exact y1, ?_⟩
      rcases y2 with y2 | y2 | y2
      · refine Or.inl (?_ : s.src.atEnd.faults ≠ [])
        rw [← es]
        exact y2
      · exact Or.inr (Or.inl (fl y2))
      · exact Or.inr (Or.inr y2)
  · rintro er s1 ⟨e1, -, h2⟩
    refine ⟨?_, Or.inr (Or.inl h2)⟩
    rw [e1]
    exact RFrame.refl _
  · apply Sp.bind' (gotoEof_spec s.tgt)
    · rintro _ f2 ⟨rfl, k2⟩
      show ∃ _, _
      refine ⟨f2, k2, ?_⟩
      rw [← k2.disk]
      rfl
    · exact fun _ _ h => h

end Couchstore
