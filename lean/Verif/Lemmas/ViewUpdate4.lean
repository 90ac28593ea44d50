import Verif.Lemmas.ViewUpdate3

/-! Updates of a whole view group. -/

namespace Couchstore

theorem IndexesAt.grown {E : Env} {kmax : Nat} {f g : File} {h : IndexHeader} {ids : List KV} {views : List View}
    (hg : IndexesAt E kmax f h ids views) (hf : FileGrown f g) : IndexesAt E kmax g h ids views :=
  ⟨hg.ids.keep hf.keep, hg.views.imp fun _ _ h => h.keep hf.keep⟩

theorem zip_recs : ∀ {views : List (View × List ViewRec)} {roots : List (Option NodePointer)},
    (views.map fun x => (x.1.reducers, recFile x.2)).zip roots =
      (views.zip roots).map fun x => ((x.1.1.reducers, recFile x.1.2), x.2)
  | [], _ => rfl
  | _ :: _, [] => rfl
  | v :: views, r :: roots => by
    rw [List.map_cons, List.zip_cons_cons, List.zip_cons_cons, List.map_cons, zip_recs]

/-- The views after an update. -/
theorem updated_views {D : Type} [LinearOrder D] {E : Env} {e : CollateEnv D} {cleanup : Bytes} {g : File} :
    ∀ {views : List (View × List ViewRec)} {old roots : List (Option NodePointer)}, views.length = old.length →
    List.Forall₂ (UpdatedView E e cleanup g) (views.zip old) roots →
    ∃ kept : List View, List.Forall₂ (fun (x : View × List ViewRec) v' => ∃ ms, v' = x.1.having ms ∧
        Updated (viewBtreeCmp e) cleanup x.2 (x.1.emits.map Emit.kv) (ms.map Emit.kv)) views kept ∧
      List.Forall₂ (fun (v : View) r => v.At E g r) kept roots
  | [], [], roots, _, h => by
    cases h
    exact ⟨[], .nil, .nil⟩
  | v :: views, r :: old, roots, hl, h => by
    rw [List.zip_cons_cons] at h
    cases h with
    | cons h1 h2 =>
      obtain ⟨-, ms, k1, k2⟩ := h1
      obtain ⟨kept, k3, k4⟩ := updated_views (by simpa using hl) h2
      exact ⟨v.1.having ms :: kept, .cons ⟨ms, rfl, k2⟩ k3, .cons k1 k4⟩

/-- What an update of a group does. -/
structure UpdatedGroup {D : Type} [LinearOrder D] (E : Env) (e : CollateEnv D) (kmax : Nat) (g : File) (h : IndexHeader)
    (ids : List KV) (idRecs : List ViewRec) (views : List (View × List ViewRec)) (stats : UpdateStats) (out : Bytes) : Prop where
  indexes : g.disk.length ≤ 2 ^ 48 → ∃ h' ids' views', decodeIndexHeader E out = .ok h' ∧
    h' = { h with idRoot := h'.idRoot, views := h'.views, cleanup := h'.cleanup } ∧
    IndexesAt E kmax g h' ids' views' ∧ Updated ebinCmp h.cleanup idRecs ids ids' ∧
    List.Forall₂ (fun (x : View × List ViewRec) v' => ∃ ms, v' = x.1.having ms ∧
      Updated (viewBtreeCmp e) h.cleanup x.2 (x.1.emits.map Emit.kv) (ms.map Emit.kv)) views views' ∧
    ∀ p, hasPart h'.cleanup p = true ↔ hasPart h.cleanup p = true ∧
      ((∃ kv ∈ ids', idPart kv = p) ∨ ∃ v ∈ views', ∃ m ∈ v.emits, m.part = p)
  idCount : stats.ids = countOps idRecs
  viewCount : stats.kvs = ⟨(views.map fun x => (countOps x.2).inserted).sum, (views.map fun x => (countOps x.2).removed).sum⟩
  purged : NoInsertInto h.cleanup idRecs → ids.length + idRecs.length < 2 ^ 40 → (∀ x ∈ views, ViewCountOk h.cleanup x) →
    goneIds h.cleanup ids + (views.map fun x => goneValues h.cleanup x.1.emits).sum < 2 ^ 64 →
    leastIdsPurged h.cleanup idRecs ids + (views.map fun x => leastValuesPurged h.cleanup x.2 x.1.emits).sum ≤ stats.purged ∧
    stats.purged ≤ goneIds h.cleanup ids + (views.map fun x => goneValues h.cleanup x.1.emits).sum

theorem updateViewGroup_spec {D : Type} [LinearOrder D] (E : Env) (L : E.Laws) (hne : ∀ b, b ≠ [] → E.deflate b ≠ [])
    (e : CollateEnv D) (round : Rat → D) (ucol : Bytes → Bytes → Int) (H : e.Ok round ucol) (a b : Nat) (ha : 2 ≤ a)
    (junk : Bytes) (batchSize maxActs : Nat) (f : File) (hcrc : f.cfg.crcMode ≠ .unknown) (buf : Bytes) (h : IndexHeader)
    (hd : decodeIndexHeader E buf = .ok h) {kmax : Nat} (hmax : kmax < 4096) (ids : List KV) (idRecs : List ViewRec)
    (views : List (View × List ViewRec)) (hg : IndexesAt E kmax f h ids (views.map (·.1))) (hs : SortedKV ebinCmp ids)
    (hi : RecsOk ebinCmp (fun _ => True) (viewIdIdx kmax).V idRecs)
    (hv : ∀ x ∈ views, ViewRecsOk e x ∧ reductionMax x.1.specs + 12 < 2 ^ 16) :
    Sp (updateViewGroup E e a b junk batchSize maxActs buf (recFile idRecs)
        (views.map fun x => (x.1.reducers, recFile x.2))) f
      (fun r g => FileGrown f g ∧ UpdatedGroup E e kmax g h ids idRecs views r.1 r.2)
      (fun er g => FileGrown f g ∧ (f.faults ≠ [] ∨ er = .formatLimit)) := by
  have hok : h.Ok := (decodeIndexHeader_ok hd).1
  have hn : views.length = h.views.length := by have := hg.views.length_eq; rwa [List.length_map] at this
  unfold updateViewGroup
  simp only [hd, ofExcept, pure_bind]
  rw [if_neg (by simp [hn])]
  apply Sp.bind' (gotoEof_spec f)
  · rintro _ f2 ⟨rfl, k2⟩
    apply Sp.bind' (Q1 := fun _ g => g = f2.atEnd) (R1 := fun _ _ => False)
    · show _ = _
      rw [← k2.disk]
      rfl
    · rintro _ f3 rfl
      have g2 := hg.grown k2.grown
      have w2 : f2.atEnd.WF := ⟨Nat.le_refl _, by show f2.cfg.crcMode ≠ _; rw [k2.cfg]; exact hcrc⟩
      apply Sp.bind' (updateIdBtree_spec E L a b ha hok.cleanup hmax batchSize maxActs idRecs hi 0 ⟨0, 0⟩ h.idRoot ids f2.atEnd
        w2 g2.ids hs)
      · rintro ⟨n, ci, idRoot⟩ f3 ⟨x1, x2, -, ids', x3, x4, x5⟩
        simp only at x2 x3 x5 ⊢
        have w3 := x1.wf' w2
        rw [zip_recs]
        have hz := forall₂_zip g2.views
        apply Sp.bind' (updateViews_spec E L e round ucol H a b ha hok.cleanup batchSize maxActs (views.zip h.views) f3 w3
          (fun x hx => ⟨(hv x.1 (List.of_mem_zip hx).1).1, by
            refine View.At.keep (x1.keep w2) (hz (x.1.1, x.2) ?_)
            rw [List.zip_map_left]
            exact List.mem_map.mpr ⟨x, hx, rfl⟩⟩) n ⟨0, 0⟩)
        · rintro ⟨n', cv, roots⟩ f4 ⟨y1, y2, y3, y4⟩
          simp only at y2 y3 y4 ⊢
          obtain ⟨kept, c1, c2⟩ := updated_views hn y3
          have w4 := y1.wf' w3
          have i4 := x3.keep (y1.keep w3)
          obtain ⟨bm1, e1, e2, e3⟩ := viewIdBitmask_parts i4 emptyBitmap (by simp [emptyBitmap])
          obtain ⟨bm2, e4, e5, e6⟩ := viewBitmasks_parts c2 bm1 e2
          simp only [e1, e4, pure_bind]
          refine Sp.pure ?_
          have gr : FileGrown f f4 := k2.grown.trans ((x1.trans y1).frame.grown (Nat.le_refl _)).of_atEnd
          have hl : roots.length = h.views.length := by rw [← hn, c1.length_eq, c2.length_eq]
          refine ⟨gr, ⟨fun hdisk => ?_, ?_, ?_, fun n1 n2 n3 n4 => ?_⟩⟩
          · have hib := intersect_parts e5 hok.cleanup
            have ok2 : IndexHeader.Ok { h with idRoot := idRoot, views := roots, cleanup := intersectBitmaps bm2 h.cleanup } :=
              { hok with views := by show roots.length < 256; rw [hl]; exact hok.views
                         cleanup := (hib 0).1 }
            have hsize : f4.pos ≤ 2 ^ 48 := Nat.le_trans w4.pos_le hdisk
            have ke := keep_atEnd w4
            refine ⟨_, ids', kept, decode_encode L _ ok2 junk hne, rfl, ⟨?_, ?_⟩, x4, c1, fun p => ?_⟩
            · exact (storedRoot_at i4 hsize (viewId_reduction i4)).keep ke
            · show List.Forall₂ _ kept (roots.map storedRoot)
              rw [List.forall₂_map_right_iff]
              have : List.Forall₂ (fun (v : View) r => v ∈ kept ∧ v.At E f4 r) kept roots := by
                rw [List.forall₂_iff_get] at c2 ⊢
                exact ⟨c2.1, fun i h1 h2 => ⟨List.get_mem _ _, c2.2 i h1 h2⟩⟩
              refine this.imp ?_
              rintro v r ⟨hvm, hr⟩
              obtain ⟨x, hxm, ms, rfl, -⟩ := forall₂_mem_right c1 hvm
              exact View.At.keep ke ⟨storedRoot_at hr.1 hsize (view_reduction hr (hv x hxm).2), hr.2⟩
            · show hasPart (intersectBitmaps bm2 h.cleanup) p = true ↔ _
              rw [(hib p).2, Bool.and_eq_true, e6, e3, emptyBitmap_parts]
              constructor
              · rintro ⟨(h1 | h1) | h1, h2⟩
                · cases h1
                · exact ⟨h2, Or.inl h1⟩
                · exact ⟨h2, Or.inr h1⟩
              · rintro ⟨h2, h1 | h1⟩
                · exact ⟨Or.inl (Or.inr h1), h2⟩
                · exact ⟨Or.inr h1, h2⟩
          · show ci = _
            rw [x2]
            simp
          · show cv = _
            rw [y2, map_zip_fst (F := fun x : View × List ViewRec => (countOps x.2).inserted) hn,
              map_zip_fst (F := fun x : View × List ViewRec => (countOps x.2).removed) hn]
            simp
          · rw [map_zip_fst (F := fun x : View × List ViewRec => goneValues h.cleanup x.1.emits) hn,
              map_zip_fst (F := fun x : View × List ViewRec => leastValuesPurged h.cleanup x.2 x.1.emits) hn] at y4
            have a1 := x5 n1 n2 (by omega)
            have a2 := y4 (fun x hx => n3 x.1 (List.of_mem_zip hx).1) (by omega)
            show _ ≤ n' ∧ n' ≤ _
            omega
        · rintro er g ⟨h1, h2⟩
          refine ⟨k2.grown.trans ((x1.trans h1).frame.grown (Nat.le_refl _)).of_atEnd, ?_⟩
          rcases h2 with h2 | h2
          · exact Or.inl (k2.faults_ne (x1.faults_ne h2))
          · exact Or.inr h2
      · rintro er g ⟨h1, h2⟩
        refine ⟨k2.grown.trans (h1.frame.grown (Nat.le_refl _)).of_atEnd, ?_⟩
        rcases h2 with h2 | h2
        · exact Or.inl (k2.faults_ne h2)
        · exact Or.inr h2
    · exact fun _ _ h => h.elim
  · rintro er g ⟨h1, h2⟩
    exact ⟨h1.grown, Or.inl h2⟩

end Couchstore
