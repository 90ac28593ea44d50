import Verif.Lemmas.ViewUpdate2

/-! Updates of the indexes of a view group. -/

namespace Couchstore

theorem encodeRec_length (r : ViewRec) : 0 < (encodeRec r).length := by
  unfold encodeRec
  simp only [List.length_append, List.length_cons]
  omega

theorem recs_length (recs : List ViewRec) : recs.length ≤ (recs.flatMap encodeRec).length := by
  induction recs with
  | nil => simp
  | cons r recs ih =>
    rw [List.flatMap_cons, List.length_append, List.length_cons]
    have := encodeRec_length r
    omega

theorem RecsOk.batch {σ : Type} {rq : Rq σ} {K V} {recs : List ViewRec} (h : RecsOk rq.cmp K V recs) :
    BatchOk rq (recs.map ViewRec.act) := by
  unfold BatchOk
  rw [List.pairwise_map]
  refine h.sorted.imp ?_
  rintro a b (h | ⟨h1, h2⟩)
  · exact Or.inl h
  · exact Or.inr ⟨h1, by unfold Action.inserts ViewRec.act; simp [h2]⟩

theorem RecsOk.acts {cmp K} {X : Idx} {recs : List ViewRec} (h : RecsOk cmp K X.V recs) : ActsOk K X (recs.map ViewRec.act) := by
  intro a ha
  obtain ⟨r, hr, rfl⟩ := List.mem_map.mp ha
  refine ⟨h.keys r hr, fun hi => h.valid r hr ?_⟩
  rcases h.op r hr with h1 | h1
  · unfold Action.inserts ViewRec.act at hi; simp [h1] at hi
  · exact h1

theorem RecsOk.plain {cmp K V} {recs : List ViewRec} (h : RecsOk cmp K V recs) : PlainActs (recs.map ViewRec.act) := by
  intro a ha
  obtain ⟨r, hr, rfl⟩ := List.mem_map.mp ha
  unfold ViewRec.act
  rcases h.op r hr with h1 | h1 <;> simp [h1]

theorem Batches.imp {σ : Type} {cmp : Bytes → Bytes → Ordering} {D : KV → PurgeAct} {S S' : σ → σ → List KV → Prop} {V : KV → Prop}
    (hS : ∀ u v kvs, (∀ kv ∈ kvs, V kv) → S u v kvs → S' u v kvs) {u kvs bs u' out} (h : Batches cmp D S u kvs bs u' out)
    (hp : PlainActs bs.flatten) (hins : ∀ a ∈ bs.flatten, a.inserts → V (a.key, a.data)) (hV : ∀ kv ∈ kvs, V kv) :
    Batches cmp D S' u kvs bs u' out := by
  induction h with
  | nil => exact .nil _ _
  | @cons u kvs b bs v u' out hb h1 _ ih =>
    rw [List.flatten_cons] at hp hins
    refine .cons hb (hS _ _ _ (fun kv hkv => hV kv (List.mem_of_mem_filter hkv)) h1)
      (ih (fun a h => hp a (List.mem_append_right _ h)) (fun a h => hins a (List.mem_append_right _ h)) fun kv hkv => ?_)
    rcases applyPlain_keys cmp (fun a h => hp a (List.mem_append_left _ h)) kv hkv with ⟨a, ha, hi, rfl⟩ | hkv
    · exact hins a (List.mem_append_left _ ha) hi
    · exact hV kv (mem_keptBy.mp hkv).1

/-- The entries that no record names. -/
theorem untouched_unnamed (recs : List ViewRec) (kvs : List KV) : untouched (recs.map ViewRec.act) kvs = unnamed recs kvs := by
  unfold untouched unnamed
  refine List.filter_congr fun kv _ => ?_
  rw [Bool.eq_iff_iff, Option.isNone_iff_eq_none, lastRec_none]
  simp [ViewRec.act]

theorem addedWeight_recs (wt : KV → Nat) {recs : List ViewRec} (hop : ∀ r ∈ recs, r.op = 1 ∨ r.op = 2) :
    addedWeight wt (recs.map ViewRec.act) = ((recs.filter fun r => r.op = 2).map fun r => wt (r.key, r.val)).sum := by
  unfold addedWeight
  rw [List.filter_map, List.map_map]
  congr 2
  refine List.filter_congr fun r hr => ?_
  rcases hop r hr with h | h <;> simp [ViewRec.act, h]

theorem updateBtree_spec (E : Env) (L : E.Laws) {rq : Rq Nat} {K X} (ok : RqOk rq K X) {cleanup : Bytes} {S}
    (po : PurgeOn rq X (fun kv => cleanupAct cleanup (idPart kv)) S) (wt : KV → Nat)
    (hS : ∀ u v kvs, (∀ kv ∈ kvs, X.V kv) → S u v kvs → WTally (fun kv => cleanupAct cleanup (idPart kv)) wt u v kvs)
    (hoff : (∀ p, hasPart cleanup p = false) → ∀ u kvs, (∀ kv ∈ kvs, X.V kv) → S u u kvs) (batchSize maxActs : Nat)
    (recs : List ViewRec) (hrecs : RecsOk rq.cmp K X.V recs) (u : Nat) (c : OpCount) (root : Option NodePointer) (kvs : List KV)
    (f : File) (w : f.WF) (hr : RootAt E X f root kvs) (hs : SortedKV rq.cmp kvs) :
    Sp (updateBtree E rq cleanup batchSize maxActs (recFile recs) root u c) f
      (fun r g => Ext f g ∧ r.2.1 = ⟨c.inserted + (countOps recs).inserted, c.removed + (countOps recs).removed⟩ ∧
        (recs = [] → r.2.2 = root ∧ r.1 = u) ∧
        ∃ out, RootAt E X g r.2.2 out ∧ Updated rq.cmp cleanup recs kvs out ∧
          (recs ≠ [] → NoInsertInto cleanup recs →
            (kvs.map wt).sum + ((recs.filter fun r => r.op = 2).map fun r => wt (r.key, r.val)).sum < 2 ^ 40 →
            u + goneWeight (fun kv => cleanupAct cleanup (idPart kv)) wt kvs < 2 ^ 64 →
            u + goneWeight (fun kv => cleanupAct cleanup (idPart kv)) wt (unnamed recs kvs) ≤ r.1 ∧
              r.1 ≤ u + goneWeight (fun kv => cleanupAct cleanup (idPart kv)) wt kvs))
      (FailT f) := by
  unfold updateBtree
  have hD : ∀ kv : KV, cleanupAct cleanup (idPart kv) = .item ↔ hasPart cleanup (idPart kv) = true := fun kv => by
    unfold cleanupAct; split <;> simp [*]
  apply Sp.bind' (updateLoop_spec E L ok po (!isEqualBitmap emptyBitmap cleanup) (fun h => by
      have he : emptyBitmap = cleanup := by simpa [isEqualBitmap] using h
      have h0 : ∀ p, hasPart cleanup p = false := fun p => by rw [← he]; exact emptyBitmap_parts p
      exact ⟨fun kv h1 => (by rw [hD, h0] at h1; cases h1), hoff h0⟩) batchSize maxActs
    ((recFile recs).bytes.length + 1) recs (by have := recs_length recs; show _ < (recs.flatMap encodeRec).length + 1; omega)
    hrecs.op hrecs.sizes [] 0 c u root kvs f w hr hs (by rw [List.nil_append]; exact hrecs.batch)
    (by rw [List.nil_append]; exact hrecs.acts) (fun a h => (nomatch h)))
  · rintro ⟨st, c', root'⟩ g ⟨h1, h2, h3, u', out, bs, h4, h5, h6, h7, h8⟩
    refine Sp.pure ?_
    simp only at h2 h3 h4 h7 ⊢
    subst h4
    rw [List.nil_append] at h5
    have hK : ∀ kv ∈ kvs, K kv.1 := fun kv h => (ok.entry kv (hr.valid kv h)).1
    have hp : PlainActs bs.flatten := by rw [h5]; exact hrecs.plain
    have ha : ActsOk K X bs.flatten := by rw [h5]; exact hrecs.acts
    have hm := h6.mem ok.cmp hp (fun a h => (ha a h).1) hK hs
    have hbs : recs = [] ↔ bs = [] := by
      constructor
      · rintro rfl
        cases h6 with
        | nil => rfl
        | @cons _ _ b bs _ _ _ hb _ _ =>
          simp only [List.map_nil, List.flatten_cons] at h5
          exact absurd (List.append_eq_nil_iff.mp h5).1 hb
      · rintro rfl
        simpa using h5.symm
    refine ⟨h1, h2, fun h => ⟨h3 trivial h, ?_⟩, out, h7, ⟨h8, fun kv hkv => ?_, fun hne kv hkv hc => ?_, fun h => ?_⟩, ?_⟩
    · rw [hbs] at h
      subst h
      cases h6
      rfl
    · rw [(hm kv).1 (by rw [Ne, hD, hkv]; simp), h5, appliedA_map hrecs.op]
    · have := (hm kv).2 ((hD kv).mpr hc) (fun h => hne (hbs.mpr h)) hkv
      rwa [h5, appliedA_map hrecs.op] at this
    · rw [hbs] at h
      subst h
      cases h6
      rfl
    · intro hne hno hw hu
      have h6' := h6.imp hS hp (fun a h hi => (ha a h).2 hi) hr.valid
      have := h6'.count hp (by
        rw [h5]
        intro a ha' hi
        obtain ⟨r, hr', rfl⟩ := List.mem_map.mp ha'
        rw [Ne, hD]
        have h2 : r.op = 2 := by
          rcases hrecs.op r hr' with h | h
          · unfold ViewRec.act at hi; simp [h] at hi
          · exact h
        simp only [ViewRec.act]
        rw [hno r hr' h2]
        simp) (by rw [h5, addedWeight_recs wt hrecs.op]; exact hw) hu (fun h => hne (hbs.mpr h))
      rw [h5, untouched_unnamed] at this
      exact this
  · exact fun _ _ h => h

/-! ### The index by document id -/

theorem sum_ones {α : Type} (l : List α) : (l.map fun _ => 1).sum = l.length := by
  induction l with
  | nil => rfl
  | cons a l ih => rw [List.map_cons, List.sum_cons, ih, List.length_cons]; omega

theorem goneWeight_ids (cleanup : Bytes) (kvs : List KV) :
    goneWeight (fun kv => cleanupAct cleanup (idPart kv)) (fun _ => 1) kvs = goneIds cleanup kvs := by
  unfold goneWeight goneIds
  rw [sum_ones]
  congr 1
  refine List.filter_congr fun kv _ => ?_
  by_cases h : hasPart cleanup (idPart kv) = true <;> simp [cleanupAct, h]

theorem viewIdRq_purgeOn {kmax : Nat} (a b : Nat) {cleanup : Bytes} (hc : cleanup.length = 128) :
    PurgeOn (viewIdRq a b cleanup) (viewIdIdx kmax) (fun kv => cleanupAct cleanup (idPart kv)) (IdTally cleanup) :=
  ⟨⟨rfl, rfl⟩, viewIdRq_purgeOk a b hc, fun kv _ => by unfold cleanupAct; split <;> simp, viewIdRq_tally a b hc⟩

theorem updateIdBtree_spec (E : Env) (L : E.Laws) (a b : Nat) {cleanup : Bytes} (ha : 2 ≤ a) (hc : cleanup.length = 128)
    {kmax : Nat} (hmax : kmax < 4096) (batchSize maxActs : Nat) (recs : List ViewRec)
    (hrecs : RecsOk ebinCmp (fun _ => True) (viewIdIdx kmax).V recs) (u : Nat) (c : OpCount) (root : Option NodePointer)
    (ids : List KV) (f : File) (w : f.WF) (hr : RootAt E (viewIdIdx kmax) f root ids) (hs : SortedKV ebinCmp ids) :
    Sp (updateIdBtree E a b cleanup batchSize maxActs (recFile recs) root u c) f
      (fun r g => Ext f g ∧ r.2.1 = ⟨c.inserted + (countOps recs).inserted, c.removed + (countOps recs).removed⟩ ∧
        (recs = [] → r.2.2 = root) ∧
        ∃ out, RootAt E (viewIdIdx kmax) g r.2.2 out ∧ Updated ebinCmp cleanup recs ids out ∧
          (NoInsertInto cleanup recs → ids.length + recs.length < 2 ^ 40 → u + goneIds cleanup ids < 2 ^ 64 →
            u + leastIdsPurged cleanup recs ids ≤ r.1 ∧ r.1 ≤ u + goneIds cleanup ids))
      (FailT f) := by
  unfold updateIdBtree
  refine (updateBtree_spec E L (viewIdRq_ok hmax a b cleanup ha) (viewIdRq_purgeOn a b hc) (fun _ => 1) (fun u v kvs _ h => ?_)
    (fun h u kvs _ => ?_) batchSize maxActs recs hrecs u c root ids f w hr hs).mono ?_ fun _ _ h => h
  · unfold WTally
    rw [goneWeight_ids, sum_ones]
    exact h
  · unfold IdTally
    intro _ _
    rw [List.filter_eq_nil_iff.mpr (by intro kv _; rw [h]; simp)]
    rfl
  · rintro r g ⟨h1, h2, h3, out, h4, h5, h6⟩
    refine ⟨h1, h2, fun h => (h3 h).1, out, h4, h5, fun n1 n2 n3 => ?_⟩
    rw [goneWeight_ids, goneWeight_ids, sum_ones, sum_ones] at h6
    unfold leastIdsPurged
    by_cases hne : recs = []
    · rw [if_pos hne, (h3 hne).2]
      omega
    · rw [if_neg hne]
      have := List.length_filter_le (fun r : ViewRec => decide (r.op = 2)) recs
      exact h6 hne n1 (by omega) n3

/-! ### The index of a view -/

theorem valuesIn_emit {specs : List ReducerSpec} {m : Emit} (h : m.Fits specs) : valuesIn m.kv.2 = m.values.length := by
  unfold valuesIn
  rw [(Emit.decode h).2.1]

theorem valueCount_kvs {specs : List ReducerSpec} {ms : List Emit} (h : ∀ m ∈ ms, m.Fits specs) :
    ((ms.map Emit.kv).map fun kv => valuesIn kv.2).sum = valueCount ms := by
  unfold valueCount
  rw [List.map_map]
  congr 1
  exact List.map_congr_left fun m hm => valuesIn_emit (h m hm)

theorem goneWeight_emits {specs : List ReducerSpec} (cleanup : Bytes) {ms : List Emit} (h : ∀ m ∈ ms, m.Fits specs) :
    goneWeight (fun kv => cleanupAct cleanup (idPart kv)) (fun kv => valuesIn kv.2) (ms.map Emit.kv) = goneValues cleanup ms := by
  unfold goneWeight goneValues
  rw [List.filter_map, List.map_map]
  have : (ms.filter ((fun kv => decide (cleanupAct cleanup (idPart kv) = .item)) ∘ Emit.kv)) =
      ms.filter fun m => hasPart cleanup m.part := by
    refine List.filter_congr fun m hm => ?_
    simp only [Function.comp, Emit.idPart_kv (h m hm)]
    unfold cleanupAct
    cases hasPart cleanup m.part <;> rfl
  rw [this]
  congr 1
  exact List.map_congr_left fun m hm => valuesIn_emit (h m (List.mem_of_mem_filter hm))

theorem unnamed_emits (recs : List ViewRec) (ms : List Emit) :
    unnamed recs (ms.map Emit.kv) = (unnamedEmits recs ms).map Emit.kv := by
  unfold unnamed unnamedEmits
  rw [List.filter_map]
  rfl

theorem viewRq_purgeOn {D : Type} [LinearOrder D] (e : CollateEnv D) (K : Bytes → Prop) (rs : List Reducer)
    (specs : List ReducerSpec) (a b : Nat) {cleanup : Bytes} (hc : cleanup.length = 128) :
    PurgeOn (viewRq e rs a b cleanup) (viewIdx K specs) (fun kv => cleanupAct cleanup (idPart kv)) (ViewTally specs cleanup) :=
  ⟨⟨rfl, rfl⟩, viewRq_purgeOk e K rs specs a b hc, fun kv _ => by unfold cleanupAct; split <;> simp,
    viewRq_tally e K rs specs a b hc⟩

/-- Entries of a view as emitted values. -/
theorem emits_of_valid {K : Bytes → Prop} {specs : List ReducerSpec} {kvs : List KV} (h : ∀ kv ∈ kvs, (viewIdx K specs).V kv) :
    ∃ ms : List Emit, kvs = ms.map Emit.kv ∧ ∀ m ∈ ms, m.Fits specs := by
  induction kvs with
  | nil => exact ⟨[], rfl, by simp⟩
  | cons kv kvs ih =>
    obtain ⟨ms, rfl, hms⟩ := ih fun x hx => h x (by simp [hx])
    obtain ⟨-, m, hm, rfl⟩ := h kv (by simp)
    exact ⟨m :: ms, rfl, fun x hx => by rcases List.mem_cons.mp hx with rfl | hx; exacts [hm, hms x hx]⟩

/-- What an update of the index of a view does. -/
def UpdatedView {D : Type} [LinearOrder D] (E : Env) (e : CollateEnv D) (cleanup : Bytes) (g : File)
    (x : (View × List ViewRec) × Option NodePointer) (r : Option NodePointer) : Prop :=
  (x.1.2 = [] → r = x.2) ∧ ∃ ms, (x.1.1.having ms).At E g r ∧
    Updated (viewBtreeCmp e) cleanup x.1.2 (x.1.1.emits.map Emit.kv) (ms.map Emit.kv)

theorem UpdatedView.keep {D : Type} [LinearOrder D] {E : Env} {e : CollateEnv D} {cleanup : Bytes} {f g : File} (k : Keep f g)
    {x : (View × List ViewRec) × Option NodePointer} {r : Option NodePointer} (h : UpdatedView E e cleanup f x r) :
    UpdatedView E e cleanup g x r := by
  obtain ⟨h0, ms, h1, h2⟩ := h
  exact ⟨h0, ms, h1.keep k, h2⟩

/-- The records of a view are as they are to be. -/
def ViewRecsOk {D : Type} [LinearOrder D] (e : CollateEnv D) (x : View × List ViewRec) : Prop :=
  x.1.Ok e ∧ SortedKV (viewBtreeCmp e) (x.1.emits.map Emit.kv) ∧
    RecsOk (viewBtreeCmp e) x.1.keys (viewIdx x.1.keys x.1.specs).V x.2

/-- The counts can be kept. -/
def ViewCountOk (cleanup : Bytes) (x : View × List ViewRec) : Prop :=
  NoInsertInto cleanup x.2 ∧ valueCount x.1.emits + valuesInserted x.2 < 2 ^ 40

theorem updateViewBtree_spec {D : Type} [LinearOrder D] (E : Env) (L : E.Laws) (e : CollateEnv D) (round : Rat → D)
    (ucol : Bytes → Bytes → Int) (H : e.Ok round ucol) (a b : Nat) {cleanup : Bytes} (ha : 2 ≤ a)
    (hc : cleanup.length = 128) (batchSize maxActs : Nat) (x : (View × List ViewRec) × Option NodePointer)
    (hx : ViewRecsOk e x.1) (u : Nat) (c : OpCount) (f : File) (w : f.WF) (hr : x.1.1.At E f x.2) :
    Sp (updateViewBtree E e a b cleanup batchSize maxActs x.1.1.reducers (recFile x.1.2) x.2 u c) f
      (fun r g => Ext f g ∧ r.2.1 = ⟨c.inserted + (countOps x.1.2).inserted, c.removed + (countOps x.1.2).removed⟩ ∧
        UpdatedView E e cleanup g x r.2.2 ∧
        (ViewCountOk cleanup x.1 → u + goneValues cleanup x.1.1.emits < 2 ^ 64 →
          u + leastValuesPurged cleanup x.1.2 x.1.1.emits ≤ r.1 ∧ r.1 ≤ u + goneValues cleanup x.1.1.emits))
      (FailT f) := by
  obtain ⟨⟨hK, hm, fit⟩, hs, hrecs⟩ := hx
  obtain ⟨hr, hf⟩ := hr
  unfold updateViewBtree
  refine (updateBtree_spec E L (viewRq_ok e round ucol H _ hK hm fit a b cleanup ha) (viewRq_purgeOn e _ _ _ a b hc)
    (fun kv => valuesIn kv.2) (fun u v kvs hV h => ?_)
    (fun h u kvs _ => ?_) batchSize maxActs x.1.2 hrecs u c x.2 _ f w hr hs).mono ?_ fun _ _ h => h
  · obtain ⟨ms, rfl, hms⟩ := emits_of_valid hV
    unfold WTally
    rw [goneWeight_emits cleanup hms, valueCount_kvs hms]
    exact h ms rfl hms
  · intro ms _ _ _ _
    unfold goneValues
    rw [List.filter_eq_nil_iff.mpr (by intro m _; rw [h]; simp)]
    rfl
  · rintro r g ⟨h1, h2, h3, out, h4, h5, h6⟩
    obtain ⟨ms, rfl, hms⟩ := emits_of_valid h4.valid
    refine ⟨h1, h2, ⟨fun h => (h3 h).1, ms, ⟨h4, hms⟩, h5⟩, fun n1 n2 => ?_⟩
    have hun : ∀ m ∈ unnamedEmits x.1.2 x.1.1.emits, m.Fits x.1.1.specs := fun m h => hf m (List.mem_of_mem_filter h)
    rw [goneWeight_emits cleanup hf, unnamed_emits, goneWeight_emits cleanup hun, valueCount_kvs hf] at h6
    unfold leastValuesPurged
    by_cases hne : x.1.2 = []
    · rw [if_pos hne, (h3 hne).2]
      omega
    · rw [if_neg hne]
      exact h6 hne n1.1 n1.2 n2

theorem updateViews_spec {D : Type} [LinearOrder D] (E : Env) (L : E.Laws) (e : CollateEnv D) (round : Rat → D)
    (ucol : Bytes → Bytes → Int) (H : e.Ok round ucol) (a b : Nat) {cleanup : Bytes} (ha : 2 ≤ a)
    (hc : cleanup.length = 128) (batchSize maxActs : Nat) :
    ∀ (views : List ((View × List ViewRec) × Option NodePointer)) (f : File), f.WF →
    (∀ x ∈ views, ViewRecsOk e x.1 ∧ x.1.1.At E f x.2) → ∀ u c,
    Sp (updateViews E e a b cleanup batchSize maxActs (views.map fun x => ((x.1.1.reducers, recFile x.1.2), x.2)) u c) f
      (fun r g => Ext f g ∧
        r.2.1 = ⟨c.inserted + (views.map fun x => (countOps x.1.2).inserted).sum,
          c.removed + (views.map fun x => (countOps x.1.2).removed).sum⟩ ∧
        List.Forall₂ (UpdatedView E e cleanup g) views r.2.2 ∧
        ((∀ x ∈ views, ViewCountOk cleanup x.1) → u + (views.map fun x => goneValues cleanup x.1.1.emits).sum < 2 ^ 64 →
          u + (views.map fun x => leastValuesPurged cleanup x.1.2 x.1.1.emits).sum ≤ r.1 ∧
          r.1 ≤ u + (views.map fun x => goneValues cleanup x.1.1.emits).sum))
      (FailT f)
  | [], f, w, hv, u, c => ⟨Ext.refl f, rfl, .nil, fun _ _ => by simp⟩
  | x :: views, f, w, hv, u, c => by
    simp only [List.map_cons]
    unfold updateViews
    apply Sp.bind' (updateViewBtree_spec E L e round ucol H a b ha hc batchSize maxActs x (hv x (by simp)).1 u c f w
      (hv x (by simp)).2)
    · rintro ⟨n, c1, r⟩ g ⟨he, hcnt, hx, hn⟩
      simp only at hcnt hx hn ⊢
      subst hcnt
      apply Sp.bind' (updateViews_spec E L e round ucol H a b ha hc batchSize maxActs views g (he.wf' w)
        (fun y hy => ⟨(hv y (by simp [hy])).1, (hv y (by simp [hy])).2.keep (he.keep w)⟩) n _)
      · rintro ⟨n', c2, out⟩ g' ⟨he', hc', hx', hn'⟩
        simp only at hc' hx' hn'
        refine ⟨he.trans he', ?_, .cons (hx.keep (he'.keep (he.wf' w))) hx', fun h1 h2 => ?_⟩
        · show c2 = _
          rw [hc']
          simp only [List.sum_cons, Nat.add_assoc]
        · simp only [List.sum_cons] at h2 ⊢
          have a1 := hn (h1 x (by simp)) (by omega)
          have a2 := hn' (fun y hy => h1 y (by simp [hy])) (by omega)
          omega
      · exact fun _ _ h => FailT.trans he h
    · exact fun _ _ h => h

/-! ### The cleanup mask -/

/-- The partitions of the entries of an index by document id, added to a mask. -/
theorem viewIdBitmask_parts {E : Env} {kmax : Nat} {g : File} {root : Option NodePointer} {ids : List KV}
    (h : RootAt E (viewIdIdx kmax) g root ids) (bm : Bytes) (hb : bm.length = 128) :
    ∃ bm', viewIdBitmask root bm = .ok bm' ∧ bm'.length = 128 ∧
      ∀ p, hasPart bm' p = true ↔ hasPart bm p = true ∨ ∃ kv ∈ ids, idPart kv = p := by
  cases root with
  | none =>
    have : ids = [] := h
    subst this
    exact ⟨bm, rfl, hb, by simp⟩
  | some p =>
    obtain ⟨l, cs, -, -, -, -, hR, -⟩ := h
    obtain ⟨-, n, b, hd, -, hbl, hp⟩ := hR
    refine ⟨_, by simp only [viewIdBitmask, hd], (union_parts hb hbl 0).1, fun p => ?_⟩
    rw [(union_parts hb hbl p).2, Bool.or_eq_true, hp]

theorem viewBitmasks_parts {E : Env} {g : File} {views : List View} {roots : List (Option NodePointer)}
    (h : List.Forall₂ (fun (v : View) r => v.At E g r) views roots) : ∀ bm, bm.length = 128 →
    ∃ bm', viewBitmasks roots bm = .ok bm' ∧ bm'.length = 128 ∧
      ∀ p, hasPart bm' p = true ↔ hasPart bm p = true ∨ ∃ v ∈ views, ∃ m ∈ v.emits, m.part = p := by
  induction h with
  | nil => exact fun bm hb => ⟨bm, rfl, hb, by simp⟩
  | @cons v r views roots h1 _ ih =>
    intro bm hb
    cases r with
    | none =>
      obtain ⟨bm', e1, e2, e3⟩ := ih bm hb
      have : v.emits.map Emit.kv = [] := h1.1
      have : v.emits = [] := by simpa using this
      refine ⟨bm', e1, e2, fun p => ?_⟩
      rw [e3]
      simp [this]
    | some p =>
      obtain ⟨hr, hf⟩ := h1
      obtain ⟨l, cs, -, -, -, -, hR, -⟩ := hr
      obtain ⟨-, ms, y, he, hms, hd, hy, -⟩ := hR
      have : v.emits = ms := Emit.map_kv_inj hf hms he
      subst this
      obtain ⟨bm', e1, e2, e3⟩ := ih _ (union_parts hb hy.2.1 0).1
      refine ⟨bm', by simp only [viewBitmasks, viewReduction_bitmap hd]; exact e1, e2, fun p => ?_⟩
      rw [e3, (union_parts hb hy.2.1 p).2, Bool.or_eq_true, hy.2.2.1 p]
      simp only [List.mem_cons, exists_eq_or_imp, or_assoc]

end Couchstore
