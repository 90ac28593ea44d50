import Verif.Lemmas.ViewPurge
import Verif.Lemmas.Compact

/-! Cleaning up the indexes of a view group. -/

namespace Couchstore

theorem roomy_keep {E : Env} (L : E.Laws) {X : Idx} {f g : File} (w : f.WF) (w' : g.WF) (k : Keep f g)
    (hV : ∀ kv, X.V kv → kv.1.length < 4096) {a b M : Nat} :
    ∀ {l p kvs}, TreeAt E X f l p kvs → roomy E f a b M l p = true → roomy E g a b M l p = true
  | 0, p, kvs, h, hr => by
    have h' := h.keep k
    obtain ⟨cs, h1, h2, rfl, hz, _⟩ := h
    have fits : ∀ i ∈ cs.map (·.1), i.key.length < 4096 ∧ i.data.length < 2 ^ 28 := by
      intro i hi
      obtain ⟨c, hc, rfl⟩ := List.mem_map.mp hi
      exact (h2 c hc).fits hV
    have hn := nodeAt_spec L w hz fits
    have hn' := nodeAt_spec L w' (ChunkAt.keep hz k) fits
    unfold roomy at hr ⊢
    rw [hn] at hr
    rw [hn']
    exact hr
  | l + 1, p, kvs, h, hr => by
    obtain ⟨cs, h1, h2, rfl, hz, _⟩ := h
    have fits : ∀ i ∈ cs.map (·.1), i.key.length < 4096 ∧ i.data.length < 2 ^ 28 := by
      intro i hi
      obtain ⟨c, hc, rfl⟩ := List.mem_map.mp hi
      exact (h2 c hc).fits hV
    have hn := nodeAt_spec L w hz fits
    have hn' := nodeAt_spec L w' (ChunkAt.keep hz k) fits
    unfold roomy at hr ⊢
    rw [hn] at hr
    rw [hn']
    simp only [Bool.and_eq_true, decide_eq_true_eq, List.length_map, List.all_eq_true] at hr ⊢
    refine ⟨hr.1, fun x hx => ?_⟩
    have hx' := hr.2 x hx
    obtain ⟨i, hi, rfl⟩ := List.mem_map.mp hx
    obtain ⟨c, hc, rfl⟩ := List.mem_map.mp hi
    obtain ⟨p2, hp2, hrd, _, _, _, ht⟩ := (h2 c hc).ptr
    simp only [hrd] at hx' ⊢
    exact roomy_keep L w w' k hV ht hx'

/-- What `guidedPurge_spec` asks for, from a check in an earlier state of the file. -/
theorem rootRoomy_keep {E : Env} (L : E.Laws) {X : Idx} {f g : File} (w : f.WF) (w' : g.WF) (k : Keep f g)
    (hV : ∀ kv, X.V kv → kv.1.length < 4096) {a b M : Nat} {root : Option NodePointer} {kvs : List KV}
    (hr : RootAt E X f root kvs) (h : rootRoomy E f a b M root = true) (p : NodePointer) (l : Nat)
    (hp : root = some p) (ht : TreeAt E X g l p kvs) : roomy E g a b M l p = true := by
  subst hp
  obtain ⟨l0, h0⟩ := hr
  have e0 := treeHeight_spec L w hV h0 (show l0 < p.pointer + 1 by have := h0.height; omega)
  have e1 := treeHeight_spec L w' hV (h0.keep k) (show l0 < p.pointer + 1 by have := h0.height; omega)
  have e2 := treeHeight_spec L w' hV ht (show l < p.pointer + 1 by have := ht.height; omega)
  rw [e1] at e2
  injection e2 with e2
  subst e2
  simp only [rootRoomy, e0] at h
  exact roomy_keep L w w' k hV h0 h

/-! ### One index -/

theorem cleanupIdBtree_spec (E : Env) (L : E.Laws) (a b : Nat) {cleanup : Bytes} (ha : 2 ≤ a) (hc : cleanup.length = 128)
    {kmax : Nat} (hmax : kmax < 4096) (q : Prop) (f : File) (w : f.WF) (root : Option NodePointer) (ids : List KV)
    (hr : RootAt E (viewIdIdx kmax) f root ids) (hq : q → rootRoomy E f a b (kmax + 133 + 19) root = true) (u : Nat) :
    Sp (cleanupIdBtree E a b cleanup root u) f
      (fun r g => Ext f g ∧ (ids.length < 2 ^ 40 → u + goneIds cleanup ids < 2 ^ 64 → r.1 = u + goneIds cleanup ids) ∧
        (keptIds cleanup ids = ids → r.2 = root) ∧
        ∃ left, left <:+ keptIds cleanup ids ∧ RootAt E (viewIdIdx kmax) g r.2 left ∧ (q → left = keptIds cleanup ids))
      (FailT f) := by
  have ok := viewIdRq_ok hmax a b cleanup ha
  unfold cleanupIdBtree
  apply Sp.bind' (guidedPurge_spec E L ok (viewIdRq_purgeOk a b hc) (viewIdRq_tally a b hc) q
    (kmax + 133 + 19) (fun _ => rfl) (fun _ => recMax_of (fun kv h => h.1) (fun kvs r h => Nat.le_of_eq h.1)) root ids u f w hr
    (fun hq' p l hp ht => rootRoomy_keep L w w (Keep.refl f) (fun kv h => (ok.entry kv h).2.1) hr (hq hq') p l hp ht))
  · rintro ⟨st, r⟩ g ⟨he, hs, h1, c', h2, h3, h4⟩
    rw [purgeList_cleanup] at hs h1 h2 h4
    exact ⟨he, hs.2 hs.1, h1, c', h2, h3, h4⟩
  · exact fun _ _ h => h

theorem keptEmits_kv {specs : List ReducerSpec} {cleanup : Bytes} {ms : List Emit} (h : ∀ m ∈ ms, m.Fits specs) :
    (ms.map Emit.kv).filter (fun kv => !hasPart cleanup (idPart kv)) = (keptEmits cleanup ms).map Emit.kv := by
  unfold keptEmits
  rw [List.filter_map]
  congr 1
  apply List.filter_congr
  intro m hm
  simp only [Function.comp, Emit.idPart_kv (h m hm)]

theorem suffix_map {α β : Type} {F : α → β} {l : List α} {c : List β} (h : c <:+ l.map F) : ∃ m, m <:+ l ∧ c = m.map F := by
  obtain ⟨t, ht⟩ := h
  obtain ⟨a, b, rfl, rfl, rfl⟩ := List.map_eq_append_iff.mp ht.symm
  exact ⟨b, List.suffix_append a b, rfl⟩

theorem keptEmits_fits {specs : List ReducerSpec} {cleanup : Bytes} {ms : List Emit} (h : ∀ m ∈ ms, m.Fits specs) :
    ∀ m ∈ keptEmits cleanup ms, m.Fits specs := fun m hm => h m (List.mem_of_mem_filter hm)

/-- What a cleanup of the index of a view does. -/
def CleanedView (E : Env) (q : Prop) (cleanup : Bytes) (g : File) (x : View × Option NodePointer) (r : Option NodePointer) :
    Prop :=
  (keptEmits cleanup x.1.emits = x.1.emits → r = x.2) ∧
    ∃ left, left <:+ keptEmits cleanup x.1.emits ∧ (x.1.having left).At E g r ∧ (q → left = keptEmits cleanup x.1.emits)

theorem cleanupViewBtree_spec {D : Type} [LinearOrder D] (E : Env) (L : E.Laws) (e : CollateEnv D) (round : Rat → D)
    (ucol : Bytes → Bytes → Int) (H : e.Ok round ucol) (a b : Nat) {cleanup : Bytes} (ha : 2 ≤ a)
    (hc : cleanup.length = 128) (q : Prop) (f0 f : File) (w0 : f0.WF) (w : f.WF) (k : Keep f0 f)
    (x : View × Option NodePointer) (hv : x.1.Ok e) (hr : x.1.At E f0 x.2)
    (hq : q → ∃ kmax, (∀ k, x.1.keys k → k.length ≤ kmax) ∧
      rootRoomy E f0 a b (kmax + reductionMax x.1.specs + 19) x.2 = true) (u : Nat) :
    Sp (cleanupViewBtree E e a b cleanup x.1.reducers x.2 u) f
      (fun r g => Ext f g ∧
        (valueCount x.1.emits < 2 ^ 40 → u + goneValues cleanup x.1.emits < 2 ^ 64 →
          r.1 = u + goneValues cleanup x.1.emits) ∧ CleanedView E q cleanup g x r.2)
      (FailT f) := by
  obtain ⟨hK, hm, fit⟩ := hv
  have ok := viewRq_ok e round ucol H _ hK hm fit a b cleanup ha
  have hV : ∀ kv, (viewIdx x.1.keys x.1.specs).V kv → kv.1.length < 4096 := fun kv h => (ok.entry kv h).2.1
  have main : ∀ M, (q → RecMax E (viewIdx x.1.keys x.1.specs) M) → (q → rootRoomy E f0 a b M x.2 = true) →
      Sp (cleanupViewBtree E e a b cleanup x.1.reducers x.2 u) f
      (fun r g => Ext f g ∧
        (valueCount x.1.emits < 2 ^ 40 → u + goneValues cleanup x.1.emits < 2 ^ 64 →
          r.1 = u + goneValues cleanup x.1.emits) ∧ CleanedView E q cleanup g x r.2)
      (FailT f) := by
    intro M hM hroom
    unfold cleanupViewBtree
    apply Sp.bind' (guidedPurge_spec E L ok (viewRq_purgeOk e x.1.keys x.1.reducers x.1.specs a b hc)
      (viewRq_tally e x.1.keys x.1.reducers x.1.specs a b hc) q
      M (fun _ => rfl) hM x.2 _ u f w (hr.1.keep k)
      (fun hq' p l hp ht => rootRoomy_keep L w0 w k hV hr.1 (hroom hq') p l hp ht))
    · rintro ⟨st, r⟩ g ⟨he, hs, h1, c', h2, h3, h4⟩
      rw [purgeList_cleanup] at hs h1 h2 h4
      rw [keptEmits_kv hr.2] at h1 h2 h4
      obtain ⟨left, hl, rfl⟩ := suffix_map h2
      have hlf : ∀ m ∈ left, m.Fits x.1.specs := fun m hm => keptEmits_fits hr.2 m (hl.subset hm)
      refine ⟨he, hs.2 hs.1 _ rfl hr.2, fun h => h1 (by rw [h]), left, hl, ⟨h3, hlf⟩, fun hq' => ?_⟩
      exact Emit.map_kv_inj hlf (keptEmits_fits hr.2) (h4 hq')
    · exact fun _ _ h => h
  by_cases hq0 : q
  · obtain ⟨kmax, h1, h2⟩ := hq hq0
    exact main _ (fun _ => recMax_of (fun kv h => h1 _ h.1) (fun kvs r h => h.1)) (fun _ => h2)
  · exact main 0 (fun h => absurd h hq0) (fun h => absurd h hq0)

theorem CleanedView.keep {E : Env} {q : Prop} {cleanup : Bytes} {f g : File} (k : Keep f g) {x : View × Option NodePointer}
    {r : Option NodePointer} (h : CleanedView E q cleanup f x r) : CleanedView E q cleanup g x r := by
  obtain ⟨h1, left, h2, h3, h4⟩ := h
  exact ⟨h1, left, h2, ⟨h3.1.keep k, h3.2⟩, h4⟩

/-! ### All the indexes -/

/-- The number of values that are to go from all the views. -/
def goneTotal (cleanup : Bytes) (views : List (View × Option NodePointer)) : Nat :=
  (views.map fun x => goneValues cleanup x.1.emits).sum

theorem cleanupViews_spec {D : Type} [LinearOrder D] (E : Env) (L : E.Laws) (e : CollateEnv D) (round : Rat → D)
    (ucol : Bytes → Bytes → Int) (H : e.Ok round ucol) (a b : Nat) {cleanup : Bytes} (ha : 2 ≤ a)
    (hc : cleanup.length = 128) (q : Prop) (f0 : File) (w0 : f0.WF) :
    ∀ (views : List (View × Option NodePointer)) (f : File), f.WF → Keep f0 f →
    (∀ x ∈ views, x.1.Ok e ∧ x.1.At E f0 x.2) →
    (q → ∀ x ∈ views, ∃ kmax, (∀ k, x.1.keys k → k.length ≤ kmax) ∧
      rootRoomy E f0 a b (kmax + reductionMax x.1.specs + 19) x.2 = true) → ∀ u,
    Sp (cleanupViews E e a b cleanup (views.map fun x => (x.1.reducers, x.2)) u) f
      (fun r g => Ext f g ∧
        ((∀ x ∈ views, valueCount x.1.emits < 2 ^ 40) → u + goneTotal cleanup views < 2 ^ 64 →
          r.1 = u + goneTotal cleanup views) ∧ List.Forall₂ (CleanedView E q cleanup g) views r.2)
      (FailT f)
  | [], f, w, k, hv, hq, u => ⟨Ext.refl f, fun _ _ => by simp [goneTotal], .nil⟩
  | x :: views, f, w, k, hv, hq, u => by
    simp only [List.map_cons]
    unfold cleanupViews
    apply Sp.bind' (cleanupViewBtree_spec E L e round ucol H a b ha hc q f0 f w0 w k x (hv x (by simp)).1 (hv x (by simp)).2
      (fun h => hq h x (by simp)) u)
    · rintro ⟨n, r⟩ g ⟨he, hn, hx⟩
      simp only
      apply Sp.bind' (cleanupViews_spec E L e round ucol H a b ha hc q f0 w0 views g (he.wf' w) (k.trans (he.keep w))
        (fun y hy => hv y (by simp [hy])) (fun h y hy => hq h y (by simp [hy])) n)
      · rintro ⟨n', out⟩ g' ⟨he', hn', hx'⟩
        refine ⟨he.trans he', fun h1 h2 => ?_, .cons (hx.keep (he'.keep (he.wf' w))) hx'⟩
        have e1 : goneTotal cleanup (x :: views) = goneValues cleanup x.1.emits + goneTotal cleanup views := by
          simp [goneTotal]
        rw [e1] at h2 ⊢
        have a1 := hn (h1 x (by simp)) (by omega)
        simp only at a1 hn'
        have a2 := hn' (fun y hy => h1 y (by simp [hy])) (by omega)
        omega
      · exact fun _ _ h => FailT.trans he h
    · exact fun _ _ h => h

/-- No partition of the mask is in the cleanup. -/
def Apart (cleanup bm : Bytes) : Prop := bm.length = 128 ∧ ∀ p, hasPart bm p = true → hasPart cleanup p = false

theorem viewIdBitmask_spec {E : Env} {kmax : Nat} {g : File} {root : Option NodePointer} {cleanup : Bytes} {left : List KV}
    (h : RootAt E (viewIdIdx kmax) g root left) (hl : ∀ kv ∈ left, hasPart cleanup (idPart kv) = false) (bm : Bytes)
    (hb : Apart cleanup bm) : ∃ bm', viewIdBitmask root bm = .ok bm' ∧ Apart cleanup bm' := by
  cases root with
  | none => exact ⟨bm, rfl, hb⟩
  | some p =>
    obtain ⟨l, cs, -, -, -, -, hR, -⟩ := h
    obtain ⟨-, n, b, hd, -, hbl, hp⟩ := hR
    refine ⟨_, by simp only [viewIdBitmask, hd], (union_parts hb.1 hbl 0).1, fun p => ?_⟩
    rw [(union_parts hb.1 hbl p).2, Bool.or_eq_true, hp]
    rintro (h | ⟨kv, hkv, rfl⟩)
    · exact hb.2 p h
    · exact hl kv hkv

theorem viewBitmasks_spec {E : Env} {q : Prop} {g : File} {cleanup : Bytes} {views : List (View × Option NodePointer)}
    {roots : List (Option NodePointer)} (h : List.Forall₂ (CleanedView E q cleanup g) views roots) :
    ∀ bm, Apart cleanup bm → ∃ bm', viewBitmasks roots bm = .ok bm' ∧ Apart cleanup bm' := by
  induction h with
  | nil => exact fun bm hb => ⟨bm, rfl, hb⟩
  | @cons x r views roots h1 _ ih =>
    intro bm hb
    cases r with
    | none => exact ih bm hb
    | some p =>
      obtain ⟨-, left, hl, ⟨hr, hf⟩, -⟩ := h1
      obtain ⟨l, cs, -, -, -, -, hR, -⟩ := hr
      obtain ⟨-, ms, y, he, hms, hd, hy, -⟩ := hR
      have : left = ms := Emit.map_kv_inj hf hms he
      subst this
      simp only [viewBitmasks, viewReduction_bitmap hd]
      refine ih _ ⟨(union_parts hb.1 hy.2.1 0).1, fun p => ?_⟩
      rw [(union_parts hb.1 hy.2.1 p).2, Bool.or_eq_true, hy.2.2.1 p]
      rintro (h | ⟨m, hm, rfl⟩)
      · exact hb.2 p h
      · have := hl.subset hm
        simp only [keptEmits, List.mem_filter, Bool.not_eq_true'] at this
        exact this.2

/-- What a cleanup of a group does. -/
structure Cleaned (E : Env) (q : Prop) (cleanup : Bytes) (kmax : Nat) (g : File) (ids : List KV) (idRoot : Option NodePointer)
    (views : List (View × Option NodePointer)) (n : Nat) (idRoot' : Option NodePointer) (roots' : List (Option NodePointer))
    (bm : Bytes) : Prop where
  count : ids.length < 2 ^ 40 → (∀ x ∈ views, valueCount x.1.emits < 2 ^ 40) →
    goneIds cleanup ids + goneTotal cleanup views < 2 ^ 64 → n = goneIds cleanup ids + goneTotal cleanup views
  same : keptIds cleanup ids = ids → idRoot' = idRoot
  ids : ∃ left, left <:+ keptIds cleanup ids ∧ RootAt E (viewIdIdx kmax) g idRoot' left ∧ (q → left = keptIds cleanup ids)
  views : List.Forall₂ (CleanedView E q cleanup g) views roots'
  mask : bm = emptyBitmap

theorem cleanupGroup_spec {D : Type} [LinearOrder D] (E : Env) (L : E.Laws) (e : CollateEnv D) (round : Rat → D)
    (ucol : Bytes → Bytes → Int) (H : e.Ok round ucol) (a b : Nat) {cleanup : Bytes} (ha : 2 ≤ a)
    (hc : cleanup.length = 128) {kmax : Nat} (hmax : kmax < 4096) (q : Prop) (f : File) (w : f.WF)
    (idRoot : Option NodePointer) (ids : List KV) (hr : RootAt E (viewIdIdx kmax) f idRoot ids)
    (views : List (View × Option NodePointer)) (hv : ∀ x ∈ views, x.1.Ok e ∧ x.1.At E f x.2)
    (hq : q → rootRoomy E f a b (kmax + 133 + 19) idRoot = true)
    (hq' : q → ∀ x ∈ views, ∃ kmax, (∀ k, x.1.keys k → k.length ≤ kmax) ∧
      rootRoomy E f a b (kmax + reductionMax x.1.specs + 19) x.2 = true) :
    Sp (cleanupGroup E e a b cleanup idRoot (views.map fun x => (x.1.reducers, x.2))) f
      (fun r g => Ext f g ∧ Cleaned E q cleanup kmax g ids idRoot views r.1 r.2.1 r.2.2.1 r.2.2.2)
      (FailT f) := by
  unfold cleanupGroup
  apply Sp.bind' (cleanupIdBtree_spec E L a b ha hc hmax q f w idRoot ids hr hq 0)
  · rintro ⟨n, r⟩ g ⟨he, hn, hsame, left, hl, hleft, hqi⟩
    simp only at hn hsame hleft ⊢
    apply Sp.bind' (cleanupViews_spec E L e round ucol H a b ha hc q f w views g (he.wf' w) (he.keep w) hv hq' n)
    · rintro ⟨n', out⟩ g' ⟨he', hn', hx⟩
      simp only at hn' hx ⊢
      have hleft' := hleft.keep (he'.keep (he.wf' w))
      obtain ⟨bm, e1, hbm⟩ := viewIdBitmask_spec (cleanup := cleanup) hleft' (fun kv hkv => by
        have := hl.subset hkv
        simp only [keptIds, List.mem_filter, Bool.not_eq_true'] at this
        exact this.2) emptyBitmap ⟨by simp [emptyBitmap], fun p h => by rw [emptyBitmap_parts] at h; cases h⟩
      obtain ⟨bm2, e2, hbm2⟩ := viewBitmasks_spec hx bm hbm
      simp only [e1, e2, ofExcept, pure_bind]
      refine ⟨he.trans he', ⟨fun h1 h2 h3 => ?_, hsame, ⟨left, hl, hleft', hqi⟩, hx, ?_⟩⟩
      · have a1 := hn h1 (by omega)
        have a2 := hn' h2 (by omega)
        simp only
        omega
      · apply bitmap_ext
        · rw [(intersect_parts hbm2.1 hc 0).1]; simp [emptyBitmap]
        · intro p
          rw [(intersect_parts hbm2.1 hc p).2, emptyBitmap_parts]
          cases h : hasPart bm2 p with
          | false => rfl
          | true => rw [hbm2.2 p h]; rfl
    · exact fun _ _ h => FailT.trans he h
  · exact fun _ _ h => h

/-- Building an index from records. -/
theorem buildBtree_spec {σ : Type} (E : Env) {rq : Rq σ} {K X} (ok : RqOk rq K X) (kvs : List KV) (hv : ∀ kv ∈ kvs, X.V kv)
    (f : File) (w : f.WF) :
    Sp (buildBtree E rq kvs) f (fun r g => Ext f g ∧ RootAt E X g r kvs) (FailT f) := by
  unfold buildBtree
  apply Sp.bind' (pushItems_spec E ok kvs hv newBtreeModres [] f w ⟨[], [], MRInv.new E X f 0 true⟩)
  · rintro mr g ⟨h1, h2, h3⟩
    refine (completeNewBtree_spec E ok mr _ g (h1.wf' w) h3 h2).mono ?_ fun _ _ h => FailT.trans h1 h
    rintro r g' ⟨k1, k2⟩
    exact ⟨h1.trans k1, k2⟩
  · exact fun _ _ h => h

end Couchstore
