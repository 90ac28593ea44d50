import Verif.Lemmas.SpatialRead
import Verif.Lemmas.ViewUpdate4
import Verif.Lemmas.ViewCompact
import Verif.Spec.SpatialGroup

/-! Lemmas about view groups with spatial views. -/

namespace Couchstore

theorem storedRoot_spatial {E : Env} {d : Nat} (hd : d ≤ 255) {f : File} {r : Option NodePointer} {kvs : List KV}
    (h : SRootAt E d f r kvs) : SRootAt E d f (storedRoot r) kvs := by
  cases r with
  | none => exact h
  | some p =>
    obtain ⟨l, cs, h1, h2, h3, h4, h5, h6, h7, h8⟩ := h
    have hp : p.pointer < 2 ^ 47 := by
      obtain ⟨-, hq, -⟩ := h4
      exact hq
    have hr : p.reduceValue.length + 12 < 2 ^ 16 := by
      obtain ⟨b, hb, e⟩ := h5
      rw [e, boxKey_length hb.1]
      omega
    rw [storedRoot_some p hr, Nat.mod_eq_of_lt (by omega)]
    exact ⟨l, cs, h1, h2, h3, h4, h5, h6, h7, by simpa using h8⟩

theorem SpatialIndexesAt.grown {E : Env} {kmax : Nat} {f g : File} {h : IndexHeader} {ids : List KV} {views : List SpatialView}
    (hg : SpatialIndexesAt E kmax f h ids views) (hf : FileGrown f g) : SpatialIndexesAt E kmax g h ids views :=
  ⟨hg.ids.keep hf.keep, hg.views.imp fun _ _ h => h.keep hf.keep⟩

/-- The indexes of a header with the roots as they are stored. -/
theorem SpatialIndexesAt.stored {E : Env} {kmax : Nat} {f : File} (w : f.WF) (hpos : f.disk.length ≤ 2 ^ 48) {ids : List KV}
    {views : List SpatialView} {idRoot : Option NodePointer} {roots : List (Option NodePointer)} (hv : ∀ v ∈ views, v.dim ≤ 255)
    (hi : RootAt E (viewIdIdx kmax) f idRoot ids)
    (hr : List.Forall₂ (fun (v : SpatialView) r => SRootAt E v.dim f r v.recs) views roots) (h : IndexHeader) :
    SpatialIndexesAt E kmax f { h with idRoot := storedRoot idRoot, views := roots.map storedRoot } ids views := by
  have hsize : f.pos ≤ 2 ^ 48 := Nat.le_trans w.pos_le hpos
  have ke := keep_atEnd w
  refine ⟨(storedRoot_at hi hsize (viewId_reduction hi)).keep ke, ?_⟩
  show List.Forall₂ _ views (roots.map storedRoot)
  rw [List.forall₂_map_right_iff]
  rw [List.forall₂_iff_get] at hr ⊢
  exact ⟨hr.1, fun i h1 h2 => (storedRoot_spatial (hv _ (List.get_mem _ _)) (hr.2 i h1 h2)).keep ke⟩

theorem buildSpatialViews_spec (E : Env) (a b : Nat) :
    ∀ (views : List SpatialView), (∀ v ∈ views, v.Ok) → ∀ (f : File), f.WF → f.faults = [] →
      Sp (buildSpatialViews E a b (views.map (·.recs))) f
        (fun roots g => Ext f g ∧ List.Forall₂ (fun (v : SpatialView) r => SRootAt E v.dim g r v.recs) views roots) (Stop0 f)
  | [], _, f, _, _ => ⟨Ext.refl _, .nil⟩
  | v :: views, hv, f, w, h0 => by
    obtain ⟨hd, hk⟩ := hv v (by simp)
    rw [List.map_cons]
    unfold buildSpatialViews
    apply Sp.bind' (buildSpatial_spec hd a b E v.recs f w h0 fun kv hkv => (hk kv hkv).1)
    · rintro r g ⟨k1, k2⟩
      apply Sp.bind' (buildSpatialViews_spec E a b views (fun v hv' => hv v (by simp [hv'])) g (k1.wf' w) (k1.no_faults h0))
      · rintro out g' ⟨k3, k4⟩
        exact ⟨k1.trans k3, .cons (k2.keep (k3.keep (k1.wf' w))) k4⟩
      · exact fun _ _ h => ⟨k1.trans h.1, h.2⟩
    · exact fun _ _ h => h

theorem buildSpatialGroup_spec (E : Env) (L : E.Laws) (hne : ∀ b, b ≠ [] → E.deflate b ≠ []) (a b : Nat) (ha : 2 ≤ a)
    (junk : Bytes) (old : File) (hcrc : old.cfg.crcMode ≠ .unknown) (pos : Nat) (h : IndexHeader)
    (hh : ViewHeaderAt E old pos h) {kmax : Nat} (hmax : kmax < 4096) (ids : List KV)
    (hi : ∀ kv ∈ ids, (viewIdIdx kmax).V kv) (views : List SpatialView) (hn : views.length = h.views.length)
    (hv : ∀ v ∈ views, v.Ok) (f : File) (w : f.WF) (h0 : f.faults = []) :
    Sp (buildSpatialGroup E a b junk old pos ids (views.map (·.recs))) f
      (fun p g => g.WF ∧ (∀ i, i < f.pos → g.disk[i]? = f.disk[i]?) ∧ ∃ idRoot roots, roots.length = h.views.length ∧
        (g.disk.length ≤ 2 ^ 48 →
        (encodeIndexHeader E junk { h with idRoot := idRoot, views := roots }).length + 4 ≤ maxViewHeaderSize →
        ViewHeaderAt E g p { h with idRoot := storedRoot idRoot, views := roots.map storedRoot } ∧
        SpatialIndexesAt E kmax g { h with idRoot := storedRoot idRoot, views := roots.map storedRoot } ids views))
      (fun er _ => old.faults ≠ [] ∨ er = .formatLimit) := by
  have hread := readViewGroupHeader_spec hcrc hh
  have hok : h.Ok := by
    obtain ⟨-, b, q, -, -, -, hd⟩ := hh
    exact (decodeIndexHeader_ok hd).1
  unfold buildSpatialGroup
  cases hr : readViewGroupHeader E pos old with
  | error er g => exact Or.inl (hread.error hr).2
  | ok h' g =>
    obtain rfl := (hread.ok hr).1
    simp only
    rw [if_neg (by simp [hn])]
    apply Sp.bind' (buildBtree_spec E (viewIdRq_ok hmax (a + a / 3) (b + b / 3) emptyBitmap (by omega)) ids hi f w)
    · rintro idRoot f1 ⟨k1, k2⟩
      have w1 := k1.wf' w
      have h1 := k1.no_faults h0
      apply Sp.bind' (buildSpatialViews_spec E a b views hv f1 w1 h1)
      · rintro roots f2 ⟨k3, k4⟩
        have w2 := k3.wf' w1
        have h2 := k3.no_faults h1
        have hl : roots.length = h'.views.length := by rw [← hn, k4.length_eq]
        have ok2 : IndexHeader.Ok { h' with idRoot := idRoot, views := roots } :=
          { hok with views := by show roots.length < 256; rw [hl]; exact hok.views }
        refine (writeViewGroupHeader_spec f2 w2 (decode_encode L _ ok2 junk hne)).mono ?_ ?_
        · rintro p g' ⟨rfl, j1, j2, j3, j4, j5⟩
          have k : Keep f2 g' := ⟨fun i hi _ => j1.agree i hi (by have := w2.pos_le; omega), by rw [j1.cfg], by rw [j1.cfg], j3⟩
          have kx := k1.trans k3
          refine ⟨j2, fun i hi => ?_, idRoot, roots, hl, fun hg hlen => ⟨j5 hlen, ?_⟩⟩
          · have hp := kx.pos
            have hw := w.pos_le
            have hw2 := w2.pos_le
            exact (j1.agree i (by omega) (by omega)).trans (kx.frame.agree i hi (by omega))
          · exact SpatialIndexesAt.stored j2 hg (fun v hv' => (hv v hv').1) ((k2.keep (k3.keep w1)).keep k)
              (k4.imp fun _ _ h => h.keep k) h'
        · rintro er g' ⟨-, -, -, j4⟩
          exact Or.inr (j4.resolve_left fun h => h h2)
      · exact fun _ _ h => Or.inr h.2
    · exact fun _ _ h => Or.inr (h.2.resolve_left fun h => h h0)

/-! ### Compaction -/

theorem spatialFilter_ok {cleanup : Bytes} (hc : cleanup.length = 128) {kv : KV} (h2 : 2 ≤ kv.2.length) (hp : idPart kv < 1024) :
    spatialFilter (groupFilter cleanup) kv.2 = .ok (hasPart cleanup (idPart kv)) := by
  unfold groupFilter spatialFilter
  split
  · rename_i h
    split at h
    · rename_i he
      have he : emptyBitmap = cleanup := by simpa [isEqualBitmap] using he
      rw [← he, emptyBitmap_parts]
    · cases h
  · rename_i h
    split at h
    · cases h
    · cases h
      rw [if_neg (by omega)]
      exact isBitSet_ok hc hp

theorem compactSpatialViews_spec (E : Env) (L : E.Laws) (cmp : Bytes → Bytes → Ordering) (a b : Nat) {cleanup : Bytes}
    (hc : cleanup.length = 128) :
    ∀ {views : List SpatialView} {roots : List (Option NodePointer)} (s : ViewCompactSt) (_ : s.src.WF) (_ : s.tgt.WF)
      (_ : s.tgt.faults = []) (_ : ∀ v ∈ views, v.Ok)
      (_ : List.Forall₂ (fun (v : SpatialView) r => SRootAt E v.dim s.src r v.recs) views roots),
    Sp (compactSpatialViews E cmp a b (groupFilter cleanup) roots) s
      (fun rs s' => RFrame s.src s'.src ∧ Ext s.tgt s'.tgt ∧
        List.Forall₂ (fun (v : SpatialView) r => SRootAt E v.dim s'.tgt r v.recs) (views.map (·.without cleanup)) rs ∧
        s'.inserted % 2 ^ 64 = (s.inserted + (views.map fun v => (v.without cleanup).recs.length).sum) % 2 ^ 64)
      (fun er s' => RFrame s.src s'.src ∧ (s.src.faults ≠ [] ∨ er = .formatLimit)) := by
  intro views
  induction views with
  | nil =>
    intro roots s _ _ _ _ hr
    cases hr
    exact ⟨RFrame.refl _, Ext.refl _, .nil, rfl⟩
  | cons v views ih =>
    intro roots s ws wt h0 hv hr
    cases hr with
    | cons hr1 hr2 =>
      obtain ⟨hd, hk⟩ := hv v (by simp)
      unfold compactSpatialViews
      apply Sp.bind' (compactSpatial_spec E L cmp hd a b (dead := fun kv => hasPart cleanup (idPart kv)) _ v.recs s ws wt h0 hr1
        fun kv hkv => spatialFilter_ok hc (hk kv hkv).2.1 (hk kv hkv).2.2)
      · rintro r s1 ⟨k1, k2, k3, k4⟩
        have ws1 : s1.src.WF := ⟨by rw [k1.pos, k1.disk]; exact ws.pos_le, by rw [k1.cfg]; exact ws.crc⟩
        have wt1 := k2.wf' wt
        apply Sp.bind' (ih s1 ws1 wt1 (k2.no_faults h0) (fun y hy => hv y (by simp [hy])) (hr2.imp fun _ _ h => h.keep k1.keep))
        · rintro rs s2 ⟨j1, j2, j3, j4⟩
          refine Sp.pure ⟨k1.trans j1, k2.trans j2, .cons (k3.keep (j2.keep wt1)) j3, ?_⟩
          rw [j4, List.map_cons, List.sum_cons, Nat.add_mod, k4, ← Nat.add_mod, Nat.add_assoc]
          rfl
        · rintro er s2 ⟨j1, j2⟩
          exact ⟨k1.trans j1, j2.imp_left k1.faults_ne⟩
      · exact fun _ _ h => h

theorem compactSpatialGroup_spec (E : Env) (L : E.Laws) (hne : ∀ b, b ≠ [] → E.deflate b ≠ [])
    (cmp : Bytes → Bytes → Ordering) (a b : Nat) (ha : 2 ≤ a)
    (junk : Bytes) (s : ViewCompactSt) (hsrc : s.src.cfg.crcMode ≠ .unknown) (htgt : s.tgt.cfg.crcMode ≠ .unknown)
    (h0 : s.tgt.faults = []) (buf : Bytes)
    (h : IndexHeader) (hd : decodeIndexHeader E buf = .ok h) {kmax : Nat} (hmax : kmax < 4096) (ids : List KV)
    (views : List SpatialView) (hg : SpatialIndexesAt E kmax s.src h ids views) (hs : SortedKV ebinCmp ids)
    (hv : ∀ v ∈ views, v.Ok) :
    Sp (compactSpatialGroup E cmp a b junk buf views.length) s
      (fun out s' => RFrame s.src.atEnd s'.src ∧ FileGrown s.tgt s'.tgt ∧ (s'.tgt.disk.length ≤ 2 ^ 48 →
        ∃ h', decodeIndexHeader E out = .ok h' ∧
          h' = { h with idRoot := h'.idRoot, views := h'.views, cleanup := emptyBitmap } ∧
          SpatialIndexesAt E kmax s'.tgt h' (keptIds h.cleanup ids) (views.map (·.without h.cleanup))) ∧
        s'.inserted % 2 ^ 64 = (s.inserted + (keptIds h.cleanup ids).length +
          (views.map fun v => (v.without h.cleanup).recs.length).sum) % 2 ^ 64)
      (fun er s' => RFrame s.src.atEnd s'.src ∧ (s.src.faults ≠ [] ∨ er = .formatLimit)) := by
  have hok : h.Ok := (decodeIndexHeader_ok hd).1
  have hn : views.length = h.views.length := hg.views.length_eq
  unfold compactSpatialGroup
  have hgoal : ∀ {m : ViewCompactM Bytes} {Q R}, Sp m { s with src := s.src.atEnd } Q R →
      Sp (fun s : ViewCompactSt => m { s with src := { s.src with pos := s.src.disk.length } }) s Q R := fun h => h
  have ws : s.src.atEnd.WF := ⟨Nat.le_refl _, hsrc⟩
  rw [hd]
  simp only [hn, ne_eq, not_true_eq_false, if_false]
  refine hgoal ?_
  apply Sp.bind' (onNew_spec (Q := fun _ g => ∃ f2, RFrame s.tgt f2 ∧ g = f2.atEnd)
    (R := fun _ g => RFrame s.tgt g ∧ s.tgt.faults ≠ []) (s := { s with src := s.src.atEnd }) ?_)
  · rintro _ s1 ⟨e1, f2, k2, e2⟩
    have wt1 : s1.tgt.WF := by
      rw [e2]
      exact ⟨Nat.le_refl _, by show f2.cfg.crcMode ≠ _; rw [k2.cfg]; exact htgt⟩
    have es : s1.src = s.src.atEnd := by rw [e1]
    have ei : s1.inserted = s.inserted := by rw [e1]
    rw [← es] at ws
    have gr1 : FileGrown s.tgt s1.tgt := by
      rw [e2]
      exact ⟨k2.grown.agree, k2.grown.len, k2.grown.cfg⟩
    have fl : s1.tgt.faults = [] := by
      by_contra hc
      rw [e2] at hc
      exact k2.faults_ne hc h0
    apply Sp.bind' (compactIdBtree_spec E L a b ha hok.cleanup hmax h.idRoot ids s1 ws wt1 (by rw [es]; exact hg.ids) hs)
    · rintro idRoot s2 ⟨x1, x2, x3, x4⟩
      have ws2 : s2.src.WF := ⟨by rw [x1.pos, x1.disk]; exact ws.pos_le, by rw [x1.cfg]; exact ws.crc⟩
      have wt2 := x2.wf' wt1
      apply Sp.bind' (compactSpatialViews_spec E L cmp a b hok.cleanup (views := views) s2 ws2 wt2 (x2.no_faults fl) hv
        (hg.views.imp fun v r hr => SRootAt.keep x1.keep (by rw [es]; exact hr)))
      · rintro roots s3 ⟨y1, y2, y3, y4⟩
        have wt3 := y2.wf' wt2
        have hl : roots.length = h.views.length := by rw [← y3.length_eq, List.length_map, hn]
        refine Sp.pure ⟨by rw [← es]; exact x1.trans y1, gr1.trans ((x2.trans y2).frame.grown ?_), fun hdisk => ?_, ?_⟩
        · rw [e2]; exact Nat.le_refl _
        · have ok2 : IndexHeader.Ok { h with idRoot := idRoot, views := roots, cleanup := emptyBitmap } :=
            { hok with views := by show roots.length < 256; rw [hl]; exact hok.views
                       cleanup := by simp [emptyBitmap] }
          refine ⟨_, decode_encode L _ ok2 junk hne, rfl, ?_⟩
          refine SpatialIndexesAt.stored wt3 hdisk ?_ (x3.keep (y2.keep wt2)) y3 { h with cleanup := emptyBitmap }
          intro v hv'
          obtain ⟨x, hx, rfl⟩ := List.mem_map.mp hv'
          exact (hv x hx).1
        · rw [y4, Nat.add_mod, x4, ei, ← Nat.add_mod]
      · rintro er s3 ⟨y1, y2⟩
        refine ⟨by rw [← es]; exact x1.trans y1, y2.imp_left fun y2 => ?_⟩
        show s.src.atEnd.faults ≠ []
        rw [← es]
        exact x1.faults_ne y2
    · rintro er s2 ⟨y1, y2⟩
      refine ⟨by rw [← es]; exact y1, ?_⟩
      rcases y2 with y2 | y2 | y2
      · refine Or.inl (?_ : s.src.atEnd.faults ≠ [])
        rw [← es]
        exact y2
      · exact absurd fl y2
      · exact Or.inr y2
  · rintro er s1 ⟨e1, -, h2⟩
    exact absurd h0 h2
  · apply Sp.bind' (gotoEof_spec s.tgt)
    · rintro _ f2 ⟨rfl, k2⟩
      show ∃ _, _
      refine ⟨f2, k2, ?_⟩
      rw [← k2.disk]
      rfl
    · exact fun _ _ h => h

/-! ### Updates -/

/-- What an update of a group with spatial views gives. -/
structure UpdatedSpatialGroup (E : Env) (kmax : Nat) (g : File) (h : IndexHeader) (ids : List KV) (idRecs : List ViewRec)
    (views : List SpatialView) (stats : UpdateStats) (out : Bytes) : Prop where
  indexes : g.disk.length ≤ 2 ^ 48 → ∃ h' ids', decodeIndexHeader E out = .ok h' ∧
    h' = { h with idRoot := h'.idRoot, cleanup := h'.cleanup } ∧ SpatialIndexesAt E kmax g h' ids' views ∧
    Updated ebinCmp h.cleanup idRecs ids ids' ∧
    ∀ p, hasPart h'.cleanup p = true ↔ hasPart h.cleanup p = true ∧ ∃ kv ∈ ids', idPart kv = p
  idCount : stats.ids = countOps idRecs
  viewCount : stats.kvs = ⟨0, 0⟩
  purged : NoInsertInto h.cleanup idRecs → ids.length + idRecs.length < 2 ^ 40 → goneIds h.cleanup ids < 2 ^ 64 →
    leastIdsPurged h.cleanup idRecs ids ≤ stats.purged ∧ stats.purged ≤ goneIds h.cleanup ids

theorem updateSpatialGroup_spec (E : Env) (L : E.Laws) (hne : ∀ b, b ≠ [] → E.deflate b ≠ []) (a b : Nat) (ha : 2 ≤ a)
    (junk : Bytes) (batchSize maxActs : Nat) (f : File) (hcrc : f.cfg.crcMode ≠ .unknown) (buf : Bytes) (h : IndexHeader)
    (hd : decodeIndexHeader E buf = .ok h) {kmax : Nat} (hmax : kmax < 4096) (ids : List KV) (idRecs : List ViewRec)
    (views : List SpatialView) (hg : SpatialIndexesAt E kmax f h ids views) (hs : SortedKV ebinCmp ids)
    (hi : RecsOk ebinCmp (fun _ => True) (viewIdIdx kmax).V idRecs) :
    Sp (updateSpatialGroup E a b junk batchSize maxActs buf (recFile idRecs)) f
      (fun r g => FileGrown f g ∧ UpdatedSpatialGroup E kmax g h ids idRecs views r.1 r.2)
      (fun er g => FileGrown f g ∧ (f.faults ≠ [] ∨ er = .formatLimit)) := by
  obtain ⟨hok, hroots, -⟩ := decodeIndexHeader_ok hd
  unfold updateSpatialGroup
  simp only [hd, ofExcept, pure_bind]
  apply Sp.bind' (gotoEof_spec f)
  · rintro _ f2 ⟨rfl, k2⟩
    apply Sp.bind' (Q1 := fun _ g => g = f2.atEnd) (R1 := fun _ _ => False)
    · show _ = _
      rw [← k2.disk]
      rfl
    · rintro _ f3 rfl
      have g2 := hg.grown k2.grown
      have w2 : f2.atEnd.WF := ⟨Nat.le_refl _, by show f2.cfg.crcMode ≠ _; rw [k2.cfg]; exact hcrc⟩
      apply Sp.bind' (updateIdBtree_spec E L a b ha hok.cleanup hmax batchSize maxActs idRecs hi 0 ⟨0, 0⟩ h.idRoot ids f2.atEnd
        w2 g2.ids hs)
      · rintro ⟨n, ci, idRoot⟩ f3 ⟨x1, x2, -, ids', x3, x4, x5⟩
        simp only at x2 x3 x5 ⊢
        have w3 := x1.wf' w2
        obtain ⟨bm1, e1, e2, e3⟩ := viewIdBitmask_parts x3 emptyBitmap (by simp [emptyBitmap])
        simp only [e1, pure_bind]
        refine Sp.pure ?_
        have gr : FileGrown f f3 := k2.grown.trans (x1.frame.grown (Nat.le_refl _)).of_atEnd
        have hib := intersect_parts e2 hok.cleanup
        refine ⟨gr, ⟨fun hdisk => ?_, ?_, rfl, fun n1 n2 n3 => ?_⟩⟩
        · have ok2 : IndexHeader.Ok { h with idRoot := idRoot, cleanup := intersectBitmaps bm1 h.cleanup } :=
            { hok with cleanup := (hib 0).1 }
          have ev : h.views.map storedRoot = h.views := by
            conv_rhs => rw [← List.map_id h.views]
            exact List.map_congr_left fun r hr => storedRoot_ok (hroots.2 r hr)
          have hsize : f3.pos ≤ 2 ^ 48 := Nat.le_trans w3.pos_le hdisk
          refine ⟨_, ids', decode_encode L _ ok2 junk hne, ?_, ⟨?_, ?_⟩, x4, fun p => ?_⟩
          · unfold IndexHeader.stored
            simp only [ev]
          · exact (storedRoot_at x3 hsize (viewId_reduction x3)).keep (keep_atEnd w3)
          · show List.Forall₂ _ views (h.views.map storedRoot)
            rw [ev]
            exact (hg.grown gr).views
          · show hasPart (intersectBitmaps bm1 h.cleanup) p = true ↔ _
            rw [(hib p).2, Bool.and_eq_true, e3, emptyBitmap_parts]
            constructor
            · rintro ⟨h1 | h1, h2⟩
              · cases h1
              · exact ⟨h2, h1⟩
            · rintro ⟨h2, h1⟩
              exact ⟨Or.inr h1, h2⟩
        · show ci = _
          rw [x2]
          simp
        · have := x5 n1 n2 (by omega)
          show _ ≤ n ∧ n ≤ _
          omega
      · rintro er g ⟨h1, h2⟩
        exact ⟨k2.grown.trans (h1.frame.grown (Nat.le_refl _)).of_atEnd, h2.imp_left k2.faults_ne⟩
    · exact fun _ _ h => h.elim
  · rintro er g ⟨h1, h2⟩
    exact ⟨h1.grown, Or.inl h2⟩

end Couchstore
