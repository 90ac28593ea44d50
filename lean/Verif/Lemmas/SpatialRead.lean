import Verif.Lemmas.SpatialTree
import Verif.Lemmas.ViewCompact

/-! Helper lemmas: searching and compacting a spatial index. -/

namespace Couchstore

/-! ### Searching -/

theorem boxOf_aux (b : Box) (hb : ∀ x ∈ b, x.1.length = 8 ∧ x.2.length = 8) (pre : Bytes) :
    ((List.range b.length).map fun i => (slice (pre ++ b.flatMap fun x => x.1 ++ x.2) (pre.length + 16 * i) 8,
      slice (pre ++ b.flatMap fun x => x.1 ++ x.2) (pre.length + 8 + 16 * i) 8)) = b := by
  induction b generalizing pre with
  | nil => rfl
  | cons x b ih =>
    obtain ⟨h1, h2⟩ := hb x (by simp)
    have ih := ih (fun y hy => hb y (by simp [hy])) (pre ++ (x.1 ++ x.2))
    rw [List.length_cons, List.range_succ_eq_map, List.map_cons, List.map_map, List.flatMap_cons]
    congr 1
    · refine Prod.ext ?_ ?_
      · simp only [slice, Nat.mul_zero, Nat.add_zero]
        rw [List.drop_left' rfl, List.append_assoc, ← h1, List.take_left' rfl]
      · simp only [slice, Nat.mul_zero, Nat.add_zero]
        rw [← List.append_assoc, ← List.append_assoc, List.append_assoc (pre ++ x.1),
          List.drop_left' (by simp [h1]), ← h2, List.take_left' rfl]
    · refine Eq.trans ?_ ih
      apply List.map_congr_left
      intro i _
      simp only [Function.comp, Nat.succ_eq_add_one, List.append_assoc, List.length_append, h1, h2]
      rw [show pre.length + 16 * (i + 1) = pre.length + (8 + 8) + 16 * i by omega,
        show pre.length + 8 + 16 * (i + 1) = pre.length + (8 + 8) + 8 + 16 * i by omega]

theorem boxOf_boxKey {d : Nat} {b : Box} (h : BoxOk d b) : boxOf (boxKey b) = b := by
  have := boxOf_aux b (fun x hx => ⟨(h.2 x hx).1.1, (h.2 x hx).2.1⟩) (beEnc 2 (2 * b.length))
  rw [show (beEnc 2 (2 * b.length)).length = 2 by simp] at this
  unfold boxOf
  rw [boxKey_length h, show (2 + 16 * d - 2) / 16 = b.length by rw [h.1]; omega]
  refine Eq.trans ?_ this
  apply List.map_congr_left
  intro i _
  rfl

theorem meets_mono : ∀ {w a b : Box}, Encloses a b → meets w b = true → meets w a = true
  | [], _, _, .nil, h => h
  | [], _, _, .cons _ _, h => by simp [meets] at h
  | x :: w, _, _, .nil, h => h
  | x :: w, _, _, .cons (a := a) (b := b) (l₁ := as) (l₂ := bs) h1 h2, h => by
    unfold meets at h ⊢
    simp only [List.length_cons, Nat.add_right_cancel_iff, List.zip_cons_cons, List.all_cons, Bool.and_eq_true,
      decide_eq_true_eq] at h ⊢
    obtain ⟨h3, ⟨h4, h5⟩, h6⟩ := h
    have := meets_mono (w := w) h2 (by unfold meets; simp [h3, h6])
    unfold meets at this
    simp only [Bool.and_eq_true, decide_eq_true_eq] at this
    exact ⟨this.1, ⟨by omega, by omega⟩, this.2⟩

/-- A box that does not meet the window has no records that do. -/
theorem hull_misses {d : Nat} {w b : Box} {kvs : List KV} (h : IsHull d b kvs) (hv : ∀ kv ∈ kvs, (spatialIdx d).V kv)
    (hm : meets w b = false) : (kvs.filter fun kv => meets w (boxOf kv.1)) = [] := by
  apply List.filter_eq_nil_iff.mpr
  intro kv hkv hmeet
  obtain ⟨⟨r, hr, hk⟩, _⟩ := hv kv hkv
  rw [hk, boxOf_boxKey hr] at hmeet
  have := meets_mono (h.2.1 kv hkv r hr hk) hmeet
  rw [hm] at this
  exact nomatch this

theorem SItemAt.ptr {E d f l it kvs} (h : SItemAt E (spatialIdx d) f (l + 1) it kvs) :
    ∃ p, readPointer it.key it.data = some (truncPtr p) ∧ SItemAt E (spatialIdx d) f (l + 1) (ptrItem p) kvs := by
  have h0 := h
  obtain ⟨p, rfl, h2, cs, _, _, _, h4, _, h6, _⟩ := h
  exact ⟨p, readPointer_encode p (by have := h4.2.1; omega) h6, h0⟩

theorem leaf_spatial {E X f} {cs : List (Item × List KV)} (h : ∀ c ∈ cs, SItemAt E X f 0 c.1 c.2) :
    cs.flatMap (·.2) = cs.map fun c => (c.1.key, c.1.data) := by
  induction cs with
  | nil => rfl
  | cons c cs ih =>
    rw [List.flatMap_cons, List.map_cons, (h c (by simp)).2.1, ih (fun d hd => h d (by simp [hd]))]
    rfl

theorem windowKids_spec (E : Env) {d : Nat} (hd : d ≤ 255) (w : Box) (l : Nat) (descend : Nat → M (List KV)) (f0 : File)
    (cs : List (Item × List KV)) (hcs : ∀ c ∈ cs, SItemAt E (spatialIdx d) f0 (l + 1) c.1 c.2)
    (hdesc : ∀ c ∈ cs, ∀ p, SItemAt E (spatialIdx d) f0 (l + 1) (ptrItem p) c.2 → ∀ f, RFrame f0 f →
      Sp (descend p.pointer) f (fun r g => r = (c.2.filter fun kv => meets w (boxOf kv.1)) ∧ RFrame f g) (FailR f))
    (f : File) (hf : RFrame f0 f) :
    Sp (windowKids w descend (cs.map fun c => some (c.1.key, c.1.data))) f
      (fun r g => r = ((cs.flatMap (·.2)).filter fun kv => meets w (boxOf kv.1)) ∧ RFrame f g) (FailR f) := by
  induction cs generalizing f with
  | nil => exact ⟨rfl, RFrame.refl _⟩
  | cons c cs ih =>
    have ih := ih (fun x hx => hcs x (by simp [hx])) (fun x hx => hdesc x (by simp [hx]))
    have hc := hcs c (by simp)
    obtain ⟨b, hb, hk⟩ := hc.box hd
    rw [List.map_cons, List.flatMap_cons, List.filter_append]
    unfold windowKids
    cases hm : meets w (boxOf c.1.key) with
    | true =>
      obtain ⟨p, hp, hi⟩ := hc.ptr
      rw [hp]
      simp only [if_true]
      apply Sp.bind' (hdesc c (by simp) p hi f hf)
      · rintro a g ⟨rfl, hg⟩
        apply Sp.bind' (ih g (hf.trans hg))
        · rintro a g' ⟨rfl, hg'⟩
          exact ⟨rfl, hg.trans hg'⟩
        · exact fun _ _ h => ⟨hg.trans h.1, hg.faults_ne h.2⟩
      · exact fun _ _ h => h
    | false =>
      rw [hk, boxOf_boxKey hb.1] at hm
      rw [hull_misses hb hc.valid hm]
      exact ih f hf

theorem windowSearch_spec (E : Env) (L : E.Laws) {d : Nat} (hd : d ≤ 255) (w : Box) (fuel l : Nat) (hl : l < fuel)
    (p : NodePointer) (kvs : List KV) (f : File) (wf : f.WF)
    (h : NodeAt E (spatialIdx d) f (SItemAt E (spatialIdx d) f l) (kindOf l) p kvs) :
    Sp (windowSearch E w fuel p.pointer) f
      (fun r g => r = (kvs.filter fun kv => meets w (boxOf kv.1)) ∧ RFrame f g) (FailR f) := by
  induction fuel generalizing l p kvs f with
  | zero => omega
  | succ fuel ih =>
    unfold windowSearch
    obtain ⟨cs, hne, hcs, rfl, hz, _⟩ := h
    apply Sp.bind' (readNode_spec E L p.pointer (kindOf l).byte (cs.map (·.1)) f wf.crc hz (by
        intro i hi
        obtain ⟨c, hc, rfl⟩ := List.mem_map.mp hi
        exact (hcs c hc).sizes hd))
    · rintro n g ⟨rfl, hg⟩
      have wg := hg.wf wf
      dsimp only
      rw [List.map_map]
      cases l with
      | zero =>
        rw [if_pos (show (kindOf 0).byte = 1 from rfl)]
        refine ⟨?_, hg⟩
        rw [leaf_spatial hcs]
        congr 1
        rw [List.filterMap_map]
        show List.filterMap (some ∘ fun c : Item × List KV => (c.1.key, c.1.data)) cs = _
        rw [List.filterMap_eq_map]
      | succ l =>
        rw [if_neg (show ¬(kindOf (l + 1)).byte = 1 from (show ¬NodeKind.kp.byte = 1 by decide))]
        apply (windowKids_spec E hd w l _ g cs (fun c hc => (hcs c hc).keep hg.keep) ?_ g (RFrame.refl _)).mono
        · rintro r g' ⟨h1, h2⟩
          exact ⟨h1, hg.trans h2⟩
        · exact fun _ _ h => ⟨hg.trans h.1, hg.faults_ne h.2⟩
        · intro c hc q hq g' hg'
          obtain ⟨q', h1, _, h3⟩ := hq.keep hg'.keep
          have : q = q' := by
            have := congrArg Item.pointer h1
            simpa [ptrItem] using this
          subst this
          exact ih l (by omega) q c.2 g' (hg'.wf wg) h3
    · exact fun _ _ h => h

theorem spatial_height {E X f} : ∀ {l p kvs}, NodeAt E X f (SItemAt E X f l) (kindOf l) p kvs → l ≤ p.pointer
  | 0, _, _, _ => Nat.zero_le _
  | l + 1, p, kvs, h => by
    obtain ⟨cs, hne, hcs, _, _, _, _, h7, _⟩ := h
    cases cs with
    | nil => exact absurd rfl hne
    | cons x xs =>
      obtain ⟨q, h1, _, h3⟩ := hcs x (by simp)
      have := spatial_height h3
      have := h7 x (by simp) q (by rw [h1]; rfl)
      omega

/-! ### Reading all records -/

/-- All records. -/
def allEvents (kvs : List KV) : List (Bytes × Option Bytes) := kvs.map fun kv => (kv.1, some kv.2)

/-- What is known of a scan. -/
def ScanOut {σ : Type} (rq : LookRq σ) (f : File) (kvs : List KV) (b : Bool) (u : σ) (r : LSt σ × Option Err) : Prop :=
  Delivered rq f (allEvents kvs) u r.1.user r.2 ∧
    (r.2 = none → r.1.fold = true ∧ (b = true → r.1.inFold = true))

theorem lookup_from_empty (cmp : Bytes → Bytes → Ordering) (k : Bytes) : lookupCompare cmp k [] ≠ .lt := by
  unfold lookupCompare
  by_cases h : k.length = 0
  · simp [h]
  · simp [h]

theorem kvLook_scan {σ : Type} {rq : LookRq σ} (htol : rq.tolerate = false) (f : File) (kvs : List KV) (b : Bool) (u : σ) :
    ScanOut rq f kvs b u (endLook rq (kvLook rq (kvs.map fun kv => some (kv.1, kv.2)) [[]] ⟨u, true, b⟩ none)) := by
  induction kvs generalizing b u with
  | nil => exact ⟨Or.inl rfl, fun _ => ⟨rfl, id⟩⟩
  | cons kv kvs ih =>
    have hc := lookup_from_empty rq.cmp kv.1
    show ScanOut rq f (kv :: kvs) b u (endLook rq (match kvRec rq kv.1 kv.2 [[]] ⟨u, true, b⟩ none with
          | .halt st e => .halt st e
          | .go st ks ec => kvLook rq (kvs.map fun kv => some (kv.1, kv.2)) ks st ec))
    unfold kvRec
    have hst : (if lookupCompare rq.cmp kv.1 [] ≠ .lt ∧ True ∧ ¬ b = true then LSt.mk u true true
        else LSt.mk u true b) = ⟨u, true, true⟩ := by
      cases b <;> simp [hc]
    simp only []
    rw [hst]
    simp only [pastEnd, Bool.false_eq_true, and_false, if_false, hc, ne_eq, not_false_eq_true, if_true, or_true, htol]
    rcases hf : rq.fetch u kv.1 (some kv.2) with ⟨u', _ | e⟩
    · have := ih true u'
      simp only [tolerateOr]
      refine ⟨?_, fun h0 => ⟨(this.2 h0).1, fun _ => (this.2 h0).2 rfl⟩⟩
      show Delivered rq f ([(kv.1, some kv.2)] ++ allEvents kvs) _ _ _
      apply Delivered.seq (g := f) (u1 := u') _ id this.1
      unfold visit
      rw [hf]
      rfl
    · simp only [tolerateOr]
      refine ⟨?_, fun h0 => by simp [endLook] at h0⟩
      left
      show visit rq.fetch ((kv.1, some kv.2) :: allEvents kvs) u = _
      unfold visit
      rw [hf]
      rfl

theorem kpLook_scan {σ : Type} {E : Env} {d : Nat} {rq : LookRq σ} (htol : rq.tolerate = false) (hnode : rq.node = none) (l : Nat)
    (descend : Nat → List Bytes → LSt σ → M (LSt σ × Option Err)) (f0 : File)
    (cs : List (Item × List KV)) (hcs : ∀ c ∈ cs, SItemAt E (spatialIdx d) f0 (l + 1) c.1 c.2)
    (hd : ∀ c ∈ cs, ∀ p, SItemAt E (spatialIdx d) f0 (l + 1) (ptrItem p) c.2 → ∀ f, RFrame f0 f → ∀ b u,
      Sp (descend p.pointer [[]] ⟨u, true, b⟩) f (fun r g => RFrame f g ∧ ScanOut rq f c.2 b u r) (fun _ _ => False))
    (b : Bool) (u : σ) (f : File) (hf : RFrame f0 f) :
    Sp (kpLook rq descend (cs.map fun c => some (c.1.key, c.1.data)) [[]] ⟨u, true, b⟩ none) f
      (fun fl g => RFrame f g ∧ ScanOut rq f (cs.flatMap (·.2)) b u (endLook rq fl))
      (fun _ _ => False) := by
  induction cs generalizing b u f with
  | nil => exact ⟨RFrame.refl _, Or.inl rfl, fun _ => ⟨rfl, id⟩⟩
  | cons x cs ih =>
    have ih := ih (fun c hc => hcs c (by simp [hc])) (fun c hc => hd c (by simp [hc]))
    obtain ⟨p, hp, hi⟩ := (hcs x (by simp)).ptr
    rw [List.map_cons]
    unfold kpLook
    rw [if_pos (lookup_from_empty rq.cmp x.1.key)]
    simp only [if_true]
    rw [hp]
    have hnc : ∀ arg (st : LSt σ) ec, nodeCall rq arg st ec = .ok (st, ec) := by
      intro arg st ec; unfold nodeCall; rw [hnode]
    simp only [hnc, List.takeWhile_nil, List.dropWhile_nil]
    apply Sp.bind' (hd x (by simp) p hi f hf true u)
    · rintro ⟨st, e⟩ g ⟨hr, hdel, hfl⟩
      simp only at hdel hfl ⊢
      rw [htol]
      have hev : allEvents ((x :: cs).flatMap (·.2)) = allEvents x.2 ++ allEvents (cs.flatMap (·.2)) := by
        simp [allEvents]
      unfold ScanOut
      rw [hev]
      cases e with
      | some e => exact ⟨hr, hdel.stop _, fun h0 => by simp [endLook] at h0⟩
      | none =>
        obtain ⟨h1, h2⟩ := hfl rfl
        replace h2 := h2 trivial
        obtain ⟨u1, fo, fi⟩ := st
        simp only at h1 h2 hdel
        subst h1; subst h2
        simp only [tolerateOr, if_true]
        apply (ih true u1 g (hf.trans hr)).mono
        · rintro fl h ⟨h1, h2, h3⟩
          exact ⟨hr.trans h1, Delivered.seq hdel.none_eq hr.faults_ne h2, fun h0 => ⟨(h3 h0).1, fun _ => (h3 h0).2 rfl⟩⟩
        · exact fun _ _ h => h
    · exact fun _ _ h => h

theorem lookInner_scan {σ : Type} (E : Env) (L : E.Laws) {d : Nat} (hd : d ≤ 255) {rq : LookRq σ} (htol : rq.tolerate = false)
    (hnode : rq.node = none) (fuel l : Nat) (hl : l < fuel) (p : NodePointer) (kvs : List KV) (f : File) (w : f.WF)
    (h : NodeAt E (spatialIdx d) f (SItemAt E (spatialIdx d) f l) (kindOf l) p kvs) (b : Bool) (u : σ) :
    Sp (lookInner E rq fuel p.pointer [[]] ⟨u, true, b⟩) f
      (fun r g => RFrame f g ∧ ScanOut rq f kvs b u r) (fun _ _ => False) := by
  induction fuel generalizing l p kvs f b u with
  | zero => omega
  | succ fuel ih =>
    unfold lookInner
    obtain ⟨cs, hne, hcs, rfl, hz, _⟩ := h
    apply Sp.bind' (attempt_spec (readNode_spec E L p.pointer (kindOf l).byte (cs.map (·.1)) f w.crc hz (by
        intro i hi
        obtain ⟨c, hc, rfl⟩ := List.mem_map.mp hi
        exact (hcs c hc).sizes hd)))
    · rintro (e | ⟨t, recs⟩) g hr
      · exact ⟨hr.1, Or.inr ⟨hr.2, by simp, 0, rfl⟩, fun h0 => by simp at h0⟩
      · simp only at hr
        obtain ⟨hr0, hr1⟩ := hr
        injection hr0 with ht hrecs
        subst ht
        have wg := hr1.wf w
        rw [List.map_map] at hrecs
        cases l with
        | zero =>
          simp only
          rw [if_neg (by decide), if_pos (by decide), hrecs, leaf_spatial hcs]
          refine ⟨hr1, ?_⟩
          have := kvLook_scan htol f (cs.map fun c => (c.1.key, c.1.data)) b u
          rw [List.map_map] at this
          exact this
        | succ l =>
          simp only
          rw [if_pos (show (kindOf (l + 1)).byte = 0 from rfl), hrecs]
          apply Sp.bind' (kpLook_scan (E := E) (d := d) htol hnode l (lookInner E rq fuel) g cs
            (fun c hc => (hcs c hc).keep hr1.keep) (by
              intro c hc q hq g' hg' b u
              obtain ⟨q', h1, _, h3⟩ := hq.keep hg'.keep
              have : q = q' := by
                have := congrArg Item.pointer h1
                simpa [ptrItem] using this
              subst this
              exact ih l (by omega) q c.2 g' (hg'.wf wg) h3 b u) b u g (RFrame.refl _))
          · rintro fl g2 ⟨h1, h2, h3⟩
            exact ⟨hr1.trans h1, Delivered.seq (a := []) rfl hr1.faults_ne h2, h3⟩
          · exact fun _ _ h => h
    · exact fun _ _ h => h

theorem btreeLookup_scan {σ : Type} (E : Env) (L : E.Laws) {d : Nat} (hd : d ≤ 255) {rq : LookRq σ} (htol : rq.tolerate = false)
    (hnode : rq.node = none) (l : Nat) (p : NodePointer) (kvs : List KV) (f : File) (w : f.WF)
    (h : NodeAt E (spatialIdx d) f (SItemAt E (spatialIdx d) f l) (kindOf l) p kvs) (u : σ) :
    Sp (btreeLookup E rq true p.pointer [[]] u) f
      (fun r g => RFrame f g ∧ Delivered rq f (allEvents kvs) u r.1 r.2) (fun _ _ => False) := by
  have hpos : p.pointer < f.disk.length := by
    have hn' := h
    obtain ⟨_, _, _, _, h4, _⟩ := hn'
    have := h4.lt
    have := w.pos_le
    omega
  have hh := spatial_height h
  unfold btreeLookup
  apply Sp.get_bind
  apply Sp.bind' (lookInner_scan E L hd htol hnode (f.disk.length + 1) l (by omega) p kvs f w h false u)
  · rintro ⟨st, e⟩ g ⟨h1, h2, _⟩
    exact ⟨h1, h2⟩
  · exact fun _ _ h => h

/-! ### Compaction -/

theorem visit_compactSpatial (E : Env) {d : Nat} (hd : d ≤ 255) (t1 t2 : Nat) {filter : Option Bytes} {dead : KV → Bool}
    (l : List KV) (hl : ∀ kv ∈ l, (spatialIdx d).V kv) (hf : ∀ kv ∈ l, spatialFilter filter kv.2 = .ok (dead kv)) (f : File) (w : f.WF)
    (mr : MR) (n : Nat) (c : List KV) (C : ∃ ps vs, SMRInv E (spatialIdx d) f 0 mr c ps vs) (st : File × MR × Nat) (er : Option Err)
    (h : visit (runFetch (compactSpatialFetch E (spatialRq t1 t2) filter)) (allEvents l) (f, mr, n) = (st, er)) :
    (er = none → Ext f st.1 ∧ (∃ ps vs, SMRInv E (spatialIdx d) st.1 0 st.2.1 (c ++ l.filter fun kv => !dead kv) ps vs) ∧
      st.2.2 % 2 ^ 64 = (n + (l.filter fun kv => !dead kv).length) % 2 ^ 64) ∧
      (∀ x, er = some x → f.faults ≠ [] ∨ x = .formatLimit) := by
  induction l generalizing f mr c n with
  | nil =>
    cases h
    exact ⟨fun _ => ⟨Ext.refl f, by rw [List.filter_nil, List.append_nil]; exact C, rfl⟩, fun _ h => nomatch h⟩
  | cons kv l ih =>
    simp only [allEvents, List.map_cons, visit, runFetch, compactSpatialFetch, hf kv (by simp)] at h
    have ih := ih (fun x hx => hl x (by simp [hx])) fun x hx => hf x (by simp [hx])
    cases hdd : dead kv with
    | true =>
      simp only [hdd] at h
      rw [List.filter_cons_of_neg (by simp [hdd])]
      exact ih f w mr n c C h
    | false =>
      simp only [hdd] at h
      rw [List.filter_cons_of_pos (by simp [hdd])]
      have S := spatialPushItem_spec hd t1 t2 E kv.1 kv.2 mr c f w C (hl kv (by simp))
      unfold Sp at S
      cases hp : spatialPushItem E (spatialRq t1 t2) kv.1 kv.2 mr f with
      | ok r g =>
        rw [hp] at h S
        dsimp only at h S
        obtain ⟨s1, s3⟩ := S
        obtain ⟨i1, i2⟩ := ih g (s1.wf' w) r _ _ s3 h
        refine ⟨fun hn => ?_, fun x hx => (i2 x hx).imp s1.faults_ne id⟩
        obtain ⟨j1, j2, j4⟩ := i1 hn
        rw [List.append_assoc] at j2
        refine ⟨s1.trans j1, j2, ?_⟩
        rw [j4, List.length_cons]
        omega
      | error x g =>
        rw [hp] at h S
        cases h
        exact ⟨(fun h => nomatch h), fun _ h => (Option.some.inj h) ▸ S.2⟩

theorem SRootAt.valid {E : Env} {d : Nat} {f : File} {r kvs} (h : SRootAt E d f r kvs) :
    ∀ kv ∈ kvs, (spatialIdx d).V kv := by
  cases r with
  | none => rw [show kvs = [] from h]; simp
  | some p =>
    obtain ⟨l, cs, h1, h2, rfl, _⟩ := h
    intro kv hkv
    obtain ⟨c, hc, hkv⟩ := List.mem_flatMap.mp hkv
    exact (h2 c hc).valid kv hkv

theorem compactSpatial_spec (E : Env) (L : E.Laws) (cmp : Bytes → Bytes → Ordering) {d : Nat} (hd : d ≤ 255) (t1 t2 : Nat)
    {filter : Option Bytes} {dead : KV → Bool}
    (root : Option NodePointer) (kvs : List KV) (s : ViewCompactSt) (ws : s.src.WF) (wt : s.tgt.WF) (h0 : s.tgt.faults = [])
    (hr : SRootAt E d s.src root kvs) (hf : ∀ kv ∈ kvs, spatialFilter filter kv.2 = .ok (dead kv)) :
    Sp (compactSpatial E cmp t1 t2 filter root) s
      (fun r s' => RFrame s.src s'.src ∧ Ext s.tgt s'.tgt ∧ SRootAt E d s'.tgt r (kvs.filter fun kv => !dead kv) ∧
        s'.inserted % 2 ^ 64 = (s.inserted + (kvs.filter fun kv => !dead kv).length) % 2 ^ 64)
      (fun er s' => RFrame s.src s'.src ∧ (s.src.faults ≠ [] ∨ er = .formatLimit)) := by
  unfold compactSpatial Sp
  cases root with
  | none =>
    have h0 : kvs = [] := hr
    subst h0
    exact ⟨RFrame.refl _, Ext.refl _, rfl, rfl⟩
  | some p =>
    have hvalid := hr.valid
    obtain ⟨l, hn⟩ := hr
    have hfold := btreeLookup_scan E L hd
      (rq := ⟨cmp, false, runFetch (compactSpatialFetch E (spatialRq t1 t2) filter), none⟩) rfl rfl
      l p kvs s.src ws hn (s.tgt, newBtreeModres, s.inserted)
    unfold Sp at hfold
    dsimp only at hfold ⊢
    cases hb : btreeLookup E _ true p.pointer [[]] _ s.src with
    | error e f => rw [hb] at hfold; exact hfold.elim
    | ok r f =>
      obtain ⟨st, er⟩ := r
      rw [hb] at hfold
      dsimp only at hfold ⊢
      obtain ⟨hrf, hdl⟩ := hfold
      have C0 : ∃ ps vs, SMRInv E (spatialIdx d) s.tgt 0 newBtreeModres [] ps vs := ⟨[], [], SMRInv.new E _ s.tgt 0⟩
      cases er with
      | some x =>
        refine ⟨hrf, ?_⟩
        rcases hdl with hdl | ⟨hdl, -⟩
        · exact Or.inr (((visit_compactSpatial E hd t1 t2 kvs hvalid hf s.tgt wt _ _ _ C0 _ _ hdl).2 x rfl).resolve_left
            fun h => h h0)
        · exact Or.inl hdl
      | none =>
        have hdl := hdl.none_eq
        obtain ⟨k1, ⟨ps, vs, k2⟩, k4⟩ := (visit_compactSpatial E hd t1 t2 kvs hvalid hf s.tgt wt _ _ _ C0 _ _ hdl).1 rfl
        rw [List.nil_append] at k2
        have S := completeNewSpatial_spec hd t1 t2 E st.2.1 _ ps vs st.1 (k1.wf' wt) (k1.no_faults h0) k2
        unfold Sp at S
        dsimp only
        cases hc : completeNewSpatial E (spatialRq t1 t2) st.2.1 st.1 with
        | ok r g =>
          rw [hc] at S
          exact ⟨hrf, k1.trans S.1, S.2, k4⟩
        | error er g =>
          rw [hc] at S
          exact ⟨hrf, Or.inr S.2⟩

end Couchstore
