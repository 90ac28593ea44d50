import Verif.Lemmas.Spatial

/-! Helper lemmas: building a spatial index. -/

namespace Couchstore

/-! ### Records -/

theorem SItemAt.keep {E : Env} {X : Idx} {f g : File} (k : Keep f g) :
    ∀ {l it kvs}, SItemAt E X f l it kvs → SItemAt E X g l it kvs
  | 0, _, _, h => h
  | l + 1, it, kvs, h => by
    obtain ⟨p, h1, h2, h3⟩ := h
    exact ⟨p, h1, h2, h3.mono k (fun it c hc => SItemAt.keep k hc)⟩

theorem SRootAt.keep {E : Env} {d : Nat} {f g : File} (k : Keep f g) {r kvs}
    (h : SRootAt E d f r kvs) : SRootAt E d g r kvs := by
  cases r with
  | none => exact h
  | some p => obtain ⟨l, h⟩ := h; exact ⟨l, h.mono k fun _ _ hc => hc.keep k⟩

theorem SItemAt.ne_nil {E : Env} {X : Idx} {f : File} :
    ∀ {l it kvs}, SItemAt E X f l it kvs → kvs ≠ []
  | 0, _, _, h => by rw [h.2.1]; simp
  | l + 1, _, _, h => by
    obtain ⟨p, _, _, cs, h1, h2, rfl, _⟩ := h
    exact flatMap_ne_nil h1 (fun c hc => (h2 c hc).ne_nil)

theorem SItemAt.valid {E : Env} {X : Idx} {f : File} :
    ∀ {l it kvs}, SItemAt E X f l it kvs → ∀ kv ∈ kvs, X.V kv
  | 0, _, _, h => by
    obtain ⟨_, rfl, h⟩ := h
    intro kv hkv; simp at hkv; subst hkv; exact h
  | l + 1, _, _, h => by
    obtain ⟨p, _, _, cs, h1, h2, rfl, _⟩ := h
    intro kv hkv
    obtain ⟨c, hc, hkv⟩ := List.mem_flatMap.mp hkv
    exact (h2 c hc).valid kv hkv

theorem SItemAt.pointer_lt {E : Env} {X : Idx} {f : File} {l it kvs} (h : SItemAt E X f l it kvs) :
    ∀ q, it.pointer = some q → q.pointer < f.pos := by
  intro q hq
  cases l with
  | zero => rw [h.1] at hq; exact nomatch hq
  | succ l =>
    obtain ⟨p, rfl, _, _, _, _, _, h4, _⟩ := h
    injection hq with hq
    subst hq
    exact h4.lt

/-- The key of a record is that of the smallest box around the records for which it stands. -/
theorem SItemAt.box {E : Env} {d : Nat} (hd : d ≤ 255) {f : File} {l it kvs} (h : SItemAt E (spatialIdx d) f l it kvs) :
    ∃ b, IsHull d b kvs ∧ it.key = boxKey b := by
  cases l with
  | zero =>
    obtain ⟨_, rfl, ⟨b, hb, hk⟩, _⟩ := h
    refine ⟨b, ⟨hb, ?_, ?_⟩, hk⟩
    · intro kv hkv r hr hkr
      simp at hkv
      subst hkv
      rw [boxKey_inj hd hb hr (hk.symm.trans hkr)]
      exact Encloses.refl _
    · intro c _ hc
      exact hc _ (by simp) b hb hk
  | succ l =>
    obtain ⟨p, rfl, hk, _, _, _, _, _, ⟨b, hb, hr⟩, _⟩ := h
    exact ⟨b, hb, hk.trans hr⟩

theorem SItemAt.sizes {E : Env} {d : Nat} (hd : d ≤ 255) {f : File} {l it kvs} (h : SItemAt E (spatialIdx d) f l it kvs) :
    it.key.length < 4096 ∧ it.data.length < 2 ^ 28 := by
  obtain ⟨b, hb, hk⟩ := h.box hd
  refine ⟨by rw [hk, boxKey_length hb.1]; omega, ?_⟩
  cases l with
  | zero => exact h.2.2.2.2
  | succ l =>
    obtain ⟨p, rfl, _, _, _, _, _, _, _, hr, _⟩ := h
    show (encodePointer p).length < _
    rw [encodePointer_length]
    omega

/-- The reduction of records. -/
theorem spatial_nodeReduce {d : Nat} (hd : d ≤ 255) (t1 t2 : Nat) {E : Env} {f : File} (l : Nat)
    (cs : List (Item × List KV)) (hne : cs ≠ []) (h : ∀ c ∈ cs, SItemAt E (spatialIdx d) f l c.1 c.2) :
    ∃ r, nodeReduce (spatialRq t1 t2) (kindOf l) (cs.map (·.1)) = .ok r ∧ (spatialIdx d).R (cs.flatMap (·.2)) r ∧
      r.length < 2 ^ 16 := by
  have hbox : ∃ xs : List ((Item × List KV) × Box), cs = xs.map (·.1) ∧
      ∀ x ∈ xs, IsHull d x.2 x.1.2 ∧ x.1.1.key = boxKey x.2 := by
    clear hne
    induction cs with
    | nil => exact ⟨[], rfl, by simp⟩
    | cons c cs ih =>
      obtain ⟨xs, h1, h2⟩ := ih (fun d hd => h d (by simp [hd]))
      obtain ⟨b, hb, hk⟩ := (h c (by simp)).box hd
      refine ⟨(c, b) :: xs, by rw [h1]; rfl, ?_⟩
      intro x hx
      rcases List.mem_cons.mp hx with rfl | hx
      · exact ⟨hb, hk⟩
      · exact h2 x hx
  obtain ⟨xs, rfl, hxs⟩ := hbox
  obtain ⟨b, h1, h2, h3, h4⟩ := spatialReduce_spec hd (xs.map fun x => (x.1.1, x.2)) (by
    intro h0; apply hne; simpa using h0) (by
    intro y hy
    obtain ⟨x, hx, rfl⟩ := List.mem_map.mp hy
    exact ⟨(hxs x hx).1.1, (hxs x hx).2⟩)
  refine ⟨boxKey b, ?_, ⟨b, ⟨h2, ?_, ?_⟩, rfl⟩, by rw [boxKey_length h2]; omega⟩
  · have : nodeReduce (spatialRq t1 t2) (kindOf l) = spatialReduce := by
      cases l <;> rfl
    rw [this, ← h1, List.map_map, List.map_map]
    rfl
  · intro kv hkv r hr hkr
    obtain ⟨c, hc, hkv⟩ := List.mem_flatMap.mp hkv
    obtain ⟨x, hx, rfl⟩ := List.mem_map.mp hc
    exact (h3 _ (List.mem_map.mpr ⟨x, hx, rfl⟩)).trans ((hxs x hx).1.2.1 kv hkv r hr hkr)
  · intro c hc hall
    apply h4
    intro y hy
    obtain ⟨x, hx, rfl⟩ := List.mem_map.mp hy
    apply (hxs x hx).1.2.2 c hc
    intro kv hkv r hr hkr
    exact hall kv (List.mem_flatMap.mpr ⟨x.1, List.mem_map.mpr ⟨x, hx, rfl⟩, hkv⟩) r hr hkr

/-! ### Flushing -/

theorem spatialTake_all (kind : NodeKind) (is : List Item) (n : Nat) : spatialTake kind (itemsSize is) is n = (is, []) := by
  induction is generalizing n with
  | nil => rfl
  | cons i is ih =>
    rw [itemsSize_cons]
    have : 0 < i.kvSize := by unfold Item.kvSize; omega
    unfold spatialTake
    rw [if_pos (Or.inl (by omega)), if_neg (by omega)]
    simp only
    rw [show i.kvSize + itemsSize is - i.kvSize = itemsSize is by omega, ih]

/-- A node under construction at height `l`, with the records `c`. -/
structure SMRInv (E : Env) (X : Idx) (f : File) (l : Nat) (mr : MR) (c : List KV)
    (ps vs : List (Item × List KV)) : Prop where
  modified : mr.modified = true
  kind : mr.kind = kindOf l
  pointers : mr.pointers = ps.map (·.1)
  values : mr.values = vs.map (·.1)
  ps_ok : ∀ x ∈ ps, SItemAt E X f (l + 1) x.1 x.2
  vs_ok : ∀ x ∈ vs, SItemAt E X f l x.1 x.2
  len : mr.nodeLen = itemsSize (vs.map (·.1))
  count : mr.count = vs.length
  content : c = ps.flatMap (·.2) ++ vs.flatMap (·.2)

theorem SMRInv.keep {E X f g l mr c ps vs} (h : SMRInv E X f l mr c ps vs) (k : Keep f g) :
    SMRInv E X g l mr c ps vs :=
  { h with ps_ok := fun x hx => (h.ps_ok x hx).keep k, vs_ok := fun x hx => (h.vs_ok x hx).keep k }

theorem SMRInv.new (E : Env) (X : Idx) (f : File) (l : Nat) :
    SMRInv E X f l { MR.new (kindOf l) with modified := true } [] [] [] :=
  ⟨rfl, rfl, rfl, rfl, by simp, by simp, rfl, rfl, rfl⟩

section
variable {d : Nat} (hd : d ≤ 255) (t1 t2 : Nat)
include hd

theorem flushSpatial_spec (E : Env) (l : Nat) (mr : MR) (c : List KV) (ps vs : List (Item × List KV)) (f : File) (w : f.WF)
    (h : SMRInv E (spatialIdx d) f l mr c ps vs) :
    Sp (flushSpatial E (spatialRq t1 t2) mr) f
      (fun mr' g => Ext f g ∧ ∃ ps', SMRInv E (spatialIdx d) g l mr' c ps' [] ∧
        (vs = [] → ps' = ps) ∧ (vs ≠ [] → ps'.length = ps.length + 1))
      (FailT f) := by
  unfold flushSpatial flushSpatialPartial
  have hvals := h.values
  by_cases hv : vs = []
  · subst hv
    rw [if_pos (by simpa using hvals)]
    exact ⟨Ext.refl _, ps, h, fun _ => rfl, fun h => absurd rfl h⟩
  · rw [if_neg (by rw [hvals]; simpa using hv), if_neg (by rw [h.modified]; simp)]
    have ht : spatialTake mr.kind mr.nodeLen mr.values 0 = (mr.values, []) := by
      rw [h.len, hvals]; exact spatialTake_all _ _ _
    simp only [ht]
    rw [if_neg (by rw [List.length_cons, encodeItems_length, h.len, hvals]; omega)]
    apply Sp.bind' (dbWriteBufCompressed_spec E _ f w)
    · rintro ⟨dp, ds⟩ g1 ⟨hext, hdp, hlt, hz, hpre, hds⟩
      simp only at hdp hds
      subst hdp
      simp only
      obtain ⟨red, hr1, hr2, hr3⟩ := spatial_nodeReduce hd t1 t2 (E := E) (f := f) l vs hv h.vs_ok
      rw [h.kind, hvals, hr1]
      apply Sp.bind' (Q1 := fun x g => x = red ∧ g = g1) (R1 := fun _ _ => False)
        (show Sp (ofExcept (.ok red)) g1 _ _ from ⟨rfl, rfl⟩)
      · rintro x g2 ⟨rfl, rfl⟩
        rw [if_neg (by omega)]
        have hk := hext.keep w
        have hss : ((vs.map (·.1)).map Item.sub).sum = (vs.map (fun c => c.1.sub)).sum := by
          rw [List.map_map]; rfl
        refine ⟨hext, ps ++ [(ptrItem
            { key := x, pointer := f.pos, reduceValue := x,
              subtreesize := (vs.map (fun c => c.1.sub)).sum + ds }, vs.flatMap (·.2))],
          ⟨h.modified, ?_, ?_, rfl, ?_, by simp, ?_, ?_, ?_⟩, fun h0 => absurd h0 hv, fun _ => by simp⟩
        · rfl
        · show mr.pointers ++ [_] = _
          rw [h.pointers, List.map_append, hss]
          rfl
        · intro y hy
          rcases List.mem_append.mp hy with hy | hy
          · exact (h.ps_ok y hy).keep hk
          · simp at hy
            subst hy
            refine ⟨_, rfl, rfl, vs, hv, fun c hc => (h.vs_ok c hc).keep hk, rfl, ?_, hr2, by simpa using hr3, ?_, ?_⟩
            · show ZChunkAt E g2 f.pos _
              rw [h.kind, hvals] at hz
              exact hz
            · intro c hc q hcq
              exact (h.vs_ok c hc).pointer_lt q hcq
            · simp only
              rw [chunkBytes_keep hk, hds, h.kind, hvals]
        · show mr.nodeLen - (((kindOf l).byte :: encodeItems (vs.map (·.1))).length - 1) = _
          rw [List.length_cons, encodeItems_length, h.len]
          simp [itemsSize]
        · show mr.count - (vs.map (·.1)).length = _
          rw [h.count, List.length_map]
          simp
        · rw [h.content]
          simp
      · exact fun _ _ h => h.elim
    · exact fun _ _ h => h.failT

theorem maybeFlushSpatial_spec (E : Env) (l : Nat) (mr : MR) (c : List KV) (ps vs : List (Item × List KV)) (f : File) (w : f.WF)
    (h : SMRInv E (spatialIdx d) f l mr c ps vs) :
    Sp (maybeFlushSpatial E (spatialRq t1 t2) mr) f
      (fun mr' g => Ext f g ∧ ∃ ps' vs', SMRInv E (spatialIdx d) g l mr' c ps' vs' ∧
          (l ≠ 0 → 2 * ps'.length + vs'.length ≤ 2 * ps.length + vs.length) ∧
          (ps' = [] → ps = [] ∧ vs' = vs))
      (FailT f) := by
  have hkp : mr.kind = .kp → l ≠ 0 := by
    intro hk; rw [h.kind] at hk
    cases l with
    | zero => simp [kindOf] at hk
    | succ l => omega
  have hkv : mr.kind = .kv → l = 0 := by
    intro hk; rw [h.kind] at hk
    cases l with
    | zero => rfl
    | succ l => simp [kindOf] at hk
  have hlen := h.len
  have hcnt := h.count
  unfold maybeFlushSpatial
  rw [if_pos (show (spatialRq t1 t2).compacting = true from rfl)]
  split
  · rename_i hc
    have hvs : vs ≠ [] := by
      intro h0
      subst h0
      have h1 : mr.nodeLen = 0 := hlen
      rcases hc.2 with hc | hc
      · have := hc.2; omega
      · have := hc.2.1; omega
    apply (flushSpatial_spec hd t1 t2 E l mr c ps vs f w h).mono
    · rintro mr' g ⟨he, ps', hi, _, h2⟩
      have h3 := h2 hvs
      refine ⟨he, ps', [], hi, fun hl => ?_, ?_⟩
      · rcases hc.2 with hc | hc
        · exact absurd (hkv hc.1) hl
        · have := hc.2.2
          simp; omega
      · intro h0; rw [h0] at h3; simp at h3
    · exact fun _ _ h => h
  · exact ⟨Ext.refl _, ps, vs, h, fun _ => Nat.le_refl _, fun h => ⟨h, rfl⟩⟩

theorem spatialPush_spec (E : Env) (l : Nat) (mr : MR) (c : List KV) (ps vs : List (Item × List KV)) (it : Item)
    (kvs : List KV) (f : File) (w : f.WF) (h : SMRInv E (spatialIdx d) f l mr c ps vs)
    (hit : SItemAt E (spatialIdx d) f l it kvs) :
    Sp (spatialPush E (spatialRq t1 t2) it mr) f
      (fun mr' g => Ext f g ∧ ∃ ps' vs', SMRInv E (spatialIdx d) g l mr' (c ++ kvs) ps' vs' ∧
          (l ≠ 0 → 2 * ps'.length + vs'.length ≤ 2 * ps.length + vs.length + 1) ∧
          (ps' = [] → ps = [] ∧ vs' = vs ++ [(it, kvs)]))
      (FailT f) := by
  unfold spatialPush
  have hinv : SMRInv E (spatialIdx d) f l { mr with values := mr.values ++ [it], nodeLen := mr.nodeLen + it.kvSize,
                                                    count := mr.count + 1 } (c ++ kvs) ps (vs ++ [(it, kvs)]) := by
    refine ⟨h.modified, h.kind, h.pointers, ?_, h.ps_ok, ?_, ?_, ?_, ?_⟩
    · simp [h.values]
    · intro x hx
      rcases List.mem_append.mp hx with hx | hx
      · exact h.vs_ok x hx
      · simp at hx; subst hx; exact hit
    · simp [h.len, itemsSize]
    · simp [h.count]
    · rw [h.content]; simp
  apply (maybeFlushSpatial_spec hd t1 t2 E l _ _ ps _ f w hinv).mono
  · rintro mr' g ⟨he, ps', vs', hi, h1, h2⟩
    refine ⟨he, ps', vs', hi, fun hl => ?_, h2⟩
    have := h1 hl; simp at this; omega
  · exact fun _ _ h => h

theorem spatialPushList_spec (E : Env) (l : Nat) (xs : List (Item × List KV)) (mr : MR)
    (c : List KV) (ps vs : List (Item × List KV)) (f : File) (w : f.WF)
    (h : SMRInv E (spatialIdx d) f l mr c ps vs) (hx : ∀ x ∈ xs, SItemAt E (spatialIdx d) f l x.1 x.2) :
    Sp (spatialPushList E (spatialRq t1 t2) (xs.map (·.1)) mr) f
      (fun mr' g => Ext f g ∧ ∃ ps' vs', SMRInv E (spatialIdx d) g l mr' (c ++ xs.flatMap (·.2)) ps' vs' ∧
          (l ≠ 0 → 2 * ps'.length + vs'.length ≤ 2 * ps.length + vs.length + xs.length) ∧
          (ps' = [] → ps = [] ∧ vs' = vs ++ xs))
      (FailT f) := by
  induction xs generalizing mr c ps vs f with
  | nil => exact ⟨Ext.refl _, ps, vs, by simpa using h, fun _ => by simp, fun h0 => ⟨h0, by simp⟩⟩
  | cons x xs ih =>
    unfold spatialPushList
    apply Sp.bind' (spatialPush_spec hd t1 t2 E l mr c ps vs x.1 x.2 f w h (hx x (by simp)))
    · rintro mr1 g ⟨he, ps1, vs1, hi, h1, h2⟩
      apply (ih mr1 _ ps1 vs1 g (he.wf' w) hi (fun y hy => (hx y (by simp [hy])).keep (he.keep w))).mono
      · rintro mr2 g2 ⟨he2, ps2, vs2, hi2, h3, h4⟩
        refine ⟨he.trans he2, ps2, vs2, by simpa using hi2, ?_, ?_⟩
        · intro hl
          have a1 := h1 hl; have a2 := h3 hl
          simp only [List.length_cons]; omega
        · intro h0
          obtain ⟨a1, a2⟩ := h4 h0
          obtain ⟨a3, a4⟩ := h2 a1
          exact ⟨a3, by rw [a2, a4]; simp⟩
      · exact fun _ _ h => FailT.trans he h
    · exact fun _ _ h => h

theorem spatialMovePointers_spec (E : Env) (l : Nat)
    (src dst : MR) (cs cd : List KV) (ps psd vsd : List (Item × List KV)) (f : File) (w : f.WF)
    (hsrc : SMRInv E (spatialIdx d) f l src cs ps []) (hdst : SMRInv E (spatialIdx d) f (l + 1) dst cd psd vsd) :
    Sp (spatialMovePointers E (spatialRq t1 t2) src dst) f
      (fun r g => Ext f g ∧ r.1 = { src with pointers := [] } ∧
        ∃ ps' vs', SMRInv E (spatialIdx d) g (l + 1) r.2 (cd ++ cs) ps' vs' ∧
          2 * ps'.length + vs'.length ≤ 2 * psd.length + vsd.length + ps.length ∧
          (ps' = [] → psd = [] ∧ vs' = vsd ++ ps))
      (FailT f) := by
  have : cs = ps.flatMap (·.2) := by rw [hsrc.content]; simp
  rw [this]
  unfold spatialMovePointers
  rw [hsrc.pointers]
  apply Sp.bind' (spatialPushList_spec hd t1 t2 E (l + 1) ps dst cd psd vsd f w hdst hsrc.ps_ok)
  · rintro dst' g ⟨he, ps', vs', hi, h1, h2⟩
    exact ⟨he, rfl, ps', vs', hi, h1 (by omega), h2⟩
  · exact fun _ _ h => h

/-! ### The root -/

theorem spatialRootLoop_spec (E : Env) (fuel l : Nat)
    (root coll : MR) (c : List KV) (ps : List (Item × List KV)) (f : File) (w : f.WF)
    (hfuel : ps.length ≤ fuel) (hc : c ≠ [])
    (hr : SMRInv E (spatialIdx d) f (l + 1) root c ps [])
    (hcoll : SMRInv E (spatialIdx d) f (l + 2) coll [] [] []) :
    Sp (spatialRootLoop E (spatialRq t1 t2) fuel root coll) f
      (fun r g => Ext f g ∧ SRootAt E d g r c) (FailT f) := by
  induction fuel generalizing l root coll ps f with
  | zero =>
    exfalso
    have : ps = [] := List.eq_nil_of_length_eq_zero (by omega)
    subst this
    exact hc (by rw [hr.content]; rfl)
  | succ fuel ih =>
    unfold spatialRootLoop
    split
    · rename_i it hp
      rw [hr.pointers] at hp
      obtain ⟨x, hx⟩ : ∃ x, ps = [x] := by
        cases ps with
        | nil => simp at hp
        | cons x xs =>
          cases xs with
          | nil => exact ⟨x, rfl⟩
          | cons y ys => simp at hp
      subst hx
      simp at hp
      subst hp
      obtain ⟨p, h1, h2, h3⟩ := hr.ps_ok x (by simp)
      have hcx : c = x.2 := by rw [hr.content]; simp
      have hp : x.1.pointer = some p := by rw [h1]; rfl
      refine ⟨Ext.refl _, ?_⟩
      rw [hp]
      refine ⟨l + 1, ?_⟩
      rw [hcx]; exact h3
    · rename_i hp
      have hn : 2 ≤ ps.length := by
        rw [hr.pointers] at hp
        cases ps with
        | nil => exact absurd (by rw [hr.content]; rfl) hc
        | cons x xs =>
          cases xs with
          | nil => exact absurd rfl (hp x.1)
          | cons y ys => simp
      simp only
      apply Sp.bind' (spatialMovePointers_spec hd t1 t2 E (l + 1) root coll c [] ps [] [] f w hr hcoll)
      · rintro ⟨root', coll'⟩ g ⟨he, h1, ps1, vs1, hi, hcnt, h3⟩
        simp only at h1 hi
        subst h1
        simp only at hcnt ⊢
        have w1 := he.wf' w
        apply Sp.bind' (flushSpatial_spec hd t1 t2 E (l + 2) coll' _ ps1 vs1 g w1 hi)
        · rintro coll2 g2 ⟨he2, ps2, hi2, h4, h5⟩
          have w2 := he2.wf' w1
          have hlt : ps2.length < ps.length := by
            simp at hcnt
            by_cases hv : vs1 = []
            · rw [h4 hv]
              subst hv
              simp at hcnt
              omega
            · have a1 := h5 hv
              have a0 : vs1.length ≠ 0 := fun h0 => hv (List.eq_nil_of_length_eq_zero h0)
              by_cases hv1 : vs1.length = 1
              · have a2 : ps1.length ≠ 0 := by
                  intro h0
                  have := h3 (List.eq_nil_of_length_eq_zero h0)
                  rw [this.2] at hv1
                  simp at hv1; omega
                omega
              · omega
          have hi2' : SMRInv E (spatialIdx d) g2 (l + 1 + 1) coll2 c ps2 [] := by simpa using hi2
          have hroot2 : SMRInv E (spatialIdx d) g2 (l + 1 + 2) { root with pointers := [] } [] [] [] :=
            ⟨hr.modified, hr.kind, rfl, hr.values, by simp, by simp, hr.len, hr.count, rfl⟩
          apply (ih (l + 1) coll2 { root with pointers := [] } ps2 g2 w2 (by omega) hi2' hroot2).mono
          · rintro r g3 ⟨he3, rest⟩
            exact ⟨he.trans (he2.trans he3), rest⟩
          · exact fun _ _ h => FailT.trans he (FailT.trans he2 h)
        · exact fun _ _ h => FailT.trans he h
      · exact fun _ _ h => h

/-- Why an index is not built, if no system call fails. -/
def Stop0 (f : File) (e : Err) (g : File) : Prop := Ext f g ∧ e = .formatLimit

omit hd in
theorem FailT.stop0 {f g : File} {e : Err} (h : FailT f e g) (h0 : f.faults = []) : Stop0 f e g :=
  ⟨h.1, h.2.resolve_left (fun h => h h0)⟩

omit hd in
theorem Ext.no_faults {f g : File} (h : Ext f g) (h0 : f.faults = []) : g.faults = [] := by
  by_cases h1 : g.faults = []
  · exact h1
  · exact absurd h0 (h.faults_ne h1)

theorem spatialFinishRoot_spec (E : Env) (l : Nat)
    (root : MR) (c : List KV) (ps vs : List (Item × List KV)) (f : File) (w : f.WF) (hf : f.faults = [])
    (hc : c ≠ []) (hr : SMRInv E (spatialIdx d) f (l + 1) root c ps vs) :
    Sp (spatialFinishRoot E (spatialRq t1 t2) root) f
      (fun r g => Ext f g ∧ SRootAt E d g r c) (Stop0 f) := by
  unfold spatialFinishRoot
  have S := flushSpatial_spec hd t1 t2 E (l + 1) root c ps vs f w hr
  have S' : Sp (flushSpatialIgnore E (spatialRq t1 t2) root) f
      (fun mr' g => Ext f g ∧ ∃ ps', SMRInv E (spatialIdx d) g (l + 1) mr' c ps' []) (Stop0 f) := by
    unfold Sp at S ⊢
    unfold flushSpatialIgnore
    cases hx : flushSpatial E (spatialRq t1 t2) root f with
    | ok r g =>
      rw [hx] at S
      obtain ⟨h1, ps', h2, _⟩ := S
      exact ⟨h1, ps', h2⟩
    | error e g =>
      rw [hx] at S
      have := S.stop0 hf
      simp only
      rw [this.2, if_neg (by decide)]
      exact ⟨this.1, rfl⟩
  apply Sp.bind' S'
  · rintro root' g ⟨he, ps', hi⟩
    have w1 := he.wf' w
    apply (spatialRootLoop_spec hd t1 t2 E _ l root' _ c ps' g w1 (by
      rw [hi.pointers, hi.values]; simp; omega) hc hi (SMRInv.new E _ g (l + 2))).mono
    · rintro r g' ⟨he', rest⟩
      exact ⟨he.trans he', rest⟩
    · intro e g' h
      have := h.stop0 (he.no_faults hf)
      exact ⟨he.trans this.1, this.2⟩
  · exact fun _ _ h => h

omit hd in
theorem SMRInv.ne_nil {E X f l mr c ps vs} (h : SMRInv E X f l mr c ps vs)
    (hne : mr.count > 1 ∨ mr.pointers ≠ []) : c ≠ [] := by
  rw [h.content]
  rcases hne with hne | hne
  · rw [h.count] at hne
    have : vs.flatMap (·.2) ≠ [] := flatMap_ne_nil (by intro h0; subst h0; simp at hne)
      (fun x hx => (h.vs_ok x hx).ne_nil)
    intro h0
    exact this (List.append_eq_nil_iff.mp h0).2
  · rw [h.pointers] at hne
    have : ps.flatMap (·.2) ≠ [] := flatMap_ne_nil (by intro h0; subst h0; simp at hne)
      (fun x hx => (h.ps_ok x hx).ne_nil)
    intro h0
    exact this (List.append_eq_nil_iff.mp h0).1

omit hd in
theorem spatial_lastPointer {E f l mr c ps vs} (h : SMRInv E (spatialIdx d) f (l + 1) mr c ps vs)
    (hne : ¬ (mr.count > 1 ∨ mr.pointers ≠ [])) : SRootAt E d f (lastPointer mr) c := by
  have hps : ps = [] := by
    by_cases h0 : ps = []
    · exact h0
    · exact absurd (Or.inr (by rw [h.pointers]; simpa using h0)) hne
  subst hps
  have hv : vs.length ≤ 1 := by
    rw [← h.count]; omega
  have hcon := h.content
  have hvals := h.values
  cases vs with
  | nil =>
    have : lastPointer mr = none := by unfold lastPointer; rw [hvals]; rfl
    rw [this]
    exact show c = [] by simpa using hcon
  | cons x xs =>
    have : xs = [] := List.eq_nil_of_length_eq_zero (by rw [List.length_cons] at hv; omega)
    subst this
    obtain ⟨p, h1, h2, h3⟩ := h.vs_ok x (by simp)
    have hcx : c = x.2 := by simpa using hcon
    have : lastPointer mr = some p := by unfold lastPointer; rw [hvals]; simp [h1, ptrItem]
    rw [this]
    exact ⟨l, by rw [hcx]; exact h3⟩

theorem completeNewSpatial_spec (E : Env) (mr : MR) (c : List KV) (ps vs : List (Item × List KV)) (f : File) (w : f.WF)
    (hf : f.faults = []) (h : SMRInv E (spatialIdx d) f 0 mr c ps vs) :
    Sp (completeNewSpatial E (spatialRq t1 t2) mr) f
      (fun r g => Ext f g ∧ SRootAt E d g r c) (Stop0 f) := by
  unfold completeNewSpatial
  apply Sp.bind' (flushSpatial_spec hd t1 t2 E 0 mr c ps vs f w h)
  · rintro mr' g ⟨he, ps', hi, _⟩
    have w1 := he.wf' w
    have hf1 := he.no_faults hf
    apply Sp.bind' (spatialMovePointers_spec hd t1 t2 E 0 mr' { MR.new .kp with modified := true } c [] ps'
      [] [] g w1 hi (SMRInv.new E _ g 1))
    · rintro ⟨src', dst'⟩ g' ⟨he', _, ps2, vs2, hi2, _⟩
      simp only at hi2
      simp only
      have hi2' : SMRInv E (spatialIdx d) g' (0 + 1) dst' c ps2 vs2 := hi2
      by_cases hc : dst'.count > 1 ∨ dst'.pointers ≠ []
      · rw [if_pos hc]
        apply (spatialFinishRoot_spec hd t1 t2 E 0 dst' c ps2 vs2 g' (he'.wf' w1) (he'.no_faults hf1) (hi2'.ne_nil hc) hi2').mono
        · rintro r g2 ⟨he2, h3⟩
          exact ⟨he.trans (he'.trans he2), h3⟩
        · exact fun _ _ h => ⟨he.trans (he'.trans h.1), h.2⟩
      · rw [if_neg hc]
        exact ⟨he.trans he', spatial_lastPointer hi2' hc⟩
    · intro e g' h
      have := h.stop0 hf1
      exact ⟨he.trans this.1, this.2⟩
  · exact fun _ _ h => h.stop0 hf

/-! ### Building -/

theorem spatialPushItem_spec (E : Env) (k v : Bytes) (mr : MR) (c : List KV) (f : File) (w : f.WF)
    (h : ∃ ps vs, SMRInv E (spatialIdx d) f 0 mr c ps vs) (hv : (spatialIdx d).V (k, v)) :
    Sp (spatialPushItem E (spatialRq t1 t2) k v mr) f
      (fun mr' g => Ext f g ∧ ∃ ps vs, SMRInv E (spatialIdx d) g 0 mr' (c ++ [(k, v)]) ps vs) (FailT f) := by
  obtain ⟨ps, vs, h⟩ := h
  unfold spatialPushItem
  apply (spatialPush_spec hd t1 t2 E 0 mr c ps vs { key := k, data := v, pointer := none } [(k, v)] f w h
    ⟨rfl, rfl, hv⟩).mono
  · rintro mr' g ⟨he, ps', vs', hi, _⟩
    exact ⟨he, ps', vs', hi⟩
  · exact fun _ _ h => h

theorem spatialPushItems_spec (E : Env) (kvs : List KV) (mr : MR) (c : List KV) (f : File) (w : f.WF)
    (h : ∃ ps vs, SMRInv E (spatialIdx d) f 0 mr c ps vs) (hv : ∀ kv ∈ kvs, (spatialIdx d).V kv) :
    Sp (spatialPushItems E (spatialRq t1 t2) kvs mr) f
      (fun mr' g => Ext f g ∧ ∃ ps vs, SMRInv E (spatialIdx d) g 0 mr' (c ++ kvs) ps vs) (FailT f) := by
  induction kvs generalizing mr c f with
  | nil => exact ⟨Ext.refl _, by simpa using h⟩
  | cons kv kvs ih =>
    unfold spatialPushItems
    apply Sp.bind' (spatialPushItem_spec hd t1 t2 E kv.1 kv.2 mr c f w h (hv kv (by simp)))
    · rintro mr1 g ⟨he, h1⟩
      apply (ih mr1 _ g (he.wf' w) h1 (fun x hx => hv x (by simp [hx]))).mono
      · rintro mr2 g2 ⟨he2, h2⟩
        exact ⟨he.trans he2, by simpa using h2⟩
      · exact fun _ _ h => FailT.trans he h
    · exact fun _ _ h => h

theorem buildSpatial_spec (E : Env) (kvs : List KV) (f : File) (w : f.WF) (hf : f.faults = [])
    (hv : ∀ kv ∈ kvs, (spatialIdx d).V kv) :
    Sp (buildSpatial E t1 t2 kvs) f (fun r g => Ext f g ∧ SRootAt E d g r kvs) (Stop0 f) := by
  unfold buildSpatial
  apply Sp.bind' (spatialPushItems_spec hd t1 t2 E kvs newBtreeModres [] f w ⟨[], [], SMRInv.new E _ f 0⟩ hv)
  · rintro mr g ⟨he, ps, vs, hi⟩
    apply (completeNewSpatial_spec hd t1 t2 E mr _ ps vs g (he.wf' w) (he.no_faults hf) hi).mono
    · rintro r g' ⟨he', h⟩
      exact ⟨he.trans he', by simpa using h⟩
    · exact fun _ _ h => ⟨he.trans h.1, h.2⟩
  · exact fun _ _ h => h.stop0 hf

end

end Couchstore
