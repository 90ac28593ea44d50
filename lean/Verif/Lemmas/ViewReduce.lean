import Verif.Spec.ViewReduce
import Verif.Props.ViewCodec
import Mathlib.Data.List.Forall2

/-! Lemmas about the reductions of view indexes. -/

namespace Couchstore
open Couchstore.Props

theorem beEnc_mod_pow (w n : Nat) : beEnc w (n % 256 ^ w) = beEnc w n := by
  have h := beEnc_beDec (beEnc w n)
  rwa [length_beEnc, beDec_beEnc_mod] at h

theorem enc40_mod (n : Nat) : enc40 (n % 2 ^ 40) = enc40 n := beEnc_mod_pow 5 n

/-! ### The index by document id -/

theorem idReduceLoop_ok : ∀ (is : List Item) (bm : Bytes), bm.length = 128 →
    (∀ i ∈ is, 2 ≤ i.data.length ∧ beDec (i.data.take 2) < 1024) →
    ∃ bm', idReduceLoop is bm = .ok bm' ∧ bm'.length = 128 ∧
      ∀ p, hasPart bm' p = true ↔ (hasPart bm p = true ∨ ∃ i ∈ is, beDec (i.data.take 2) = p)
  | [], bm, hl, _ => ⟨bm, rfl, hl, by simp⟩
  | i :: is, bm, hl, h => by
    obtain ⟨h1, h2⟩ := h i (by simp)
    obtain ⟨bm1, e1, l1, p1⟩ := setBit_ok hl h2
    obtain ⟨bm2, e2, l2, p2⟩ := idReduceLoop_ok is bm1 l1 (fun j hj => h j (by simp [hj]))
    refine ⟨bm2, ?_, l2, fun p => ?_⟩
    · simp only [idReduceLoop, decodePartition]
      rw [if_neg (by omega)]
      simp only [e1, e2]
    · rw [p2, p1]
      by_cases hp : p = beDec (i.data.take 2)
      · subst hp; simp
      · simp [hp, Ne.symm hp]

theorem viewIdReduce_ok {kmax : Nat} (is : List Item) (h : ∀ i ∈ is, (viewIdIdx kmax).V (i.key, i.data)) :
    ∃ r, viewIdReduce is = .ok r ∧ (viewIdIdx kmax).R (is.map fun i => (i.key, i.data)) r := by
  obtain ⟨bm, e, l, p⟩ := idReduceLoop_ok is emptyBitmap (by simp [emptyBitmap])
    (fun i hi => ⟨(h i hi).2.2.1, (h i hi).2.2.2⟩)
  refine ⟨encodeIdReduction is.length bm, by simp only [viewIdReduce, e], ?_, _, bm, C42_id_reduction _ _ l, by simp, l,
    fun q => ?_⟩
  · simp [encodeIdReduction, enc40, length_beEnc, l]
  · rw [p, emptyBitmap_parts]
    simp [idPart]

theorem idRereduceLoop_ok {kmax : Nat} : ∀ (cs : List (NodePointer × List KV)) (n : Nat) (bm : Bytes), bm.length = 128 →
    (∀ c ∈ cs, (viewIdIdx kmax).R c.2 c.1.reduceValue) →
    ∃ n' bm', idRereduceLoop (cs.map fun c => ptrItem c.1) n bm = .ok (n', bm') ∧
      n' % 2 ^ 40 = (n + (cs.flatMap (·.2)).length) % 2 ^ 40 ∧ bm'.length = 128 ∧
      ∀ p, hasPart bm' p = true ↔ (hasPart bm p = true ∨ ∃ kv ∈ cs.flatMap (·.2), idPart kv = p)
  | [], n, bm, hl, _ => ⟨n, bm, rfl, by simp, hl, by simp⟩
  | c :: cs, n, bm, hl, h => by
    obtain ⟨_, k, b, h1, h2, h3, h4⟩ := h c (by simp)
    obtain ⟨n', bm', e, hn, l, p⟩ := idRereduceLoop_ok cs ((n + k) % 2 ^ 64) (unionBitmaps bm b)
      (union_parts hl h3 0).1 (fun d hd => h d (by simp [hd]))
    refine ⟨n', bm', ?_, ?_, l, fun q => ?_⟩
    · simp only [List.map_cons, idRereduceLoop, ptrItem, h1]
      exact e
    · rw [hn, h2]
      simp only [List.flatMap_cons, List.length_append]
      omega
    · rw [p, (union_parts hl h3 q).2]
      simp only [List.flatMap_cons, List.mem_append, Bool.or_eq_true, h4]
      constructor
      · rintro ((h | ⟨kv, h, e⟩) | ⟨kv, h, e⟩)
        · exact Or.inl h
        · exact Or.inr ⟨kv, Or.inl h, e⟩
        · exact Or.inr ⟨kv, Or.inr h, e⟩
      · rintro (h | ⟨kv, h | h, e⟩)
        · exact Or.inl (Or.inl h)
        · exact Or.inl (Or.inr ⟨kv, h, e⟩)
        · exact Or.inr ⟨kv, h, e⟩

theorem viewIdRereduce_ok {kmax : Nat} (cs : List (NodePointer × List KV)) (h : ∀ c ∈ cs, (viewIdIdx kmax).R c.2 c.1.reduceValue) :
    ∃ r, viewIdRereduce (cs.map fun c => ptrItem c.1) = .ok r ∧ (viewIdIdx kmax).R (cs.flatMap (·.2)) r := by
  obtain ⟨n, bm, e, hn, l, p⟩ := idRereduceLoop_ok cs 0 emptyBitmap (by simp [emptyBitmap]) h
  refine ⟨encodeIdReduction n bm, by simp only [viewIdRereduce, e], ?_, _, bm, C42_id_reduction _ _ l,
    by rw [hn, Nat.zero_add], l, fun q => ?_⟩
  · simp [encodeIdReduction, enc40, length_beEnc, l]
  · rw [p, emptyBitmap_parts]
    simp

theorem viewIdRq_ok {kmax : Nat} (hmax : kmax < 4096) (a b : Nat) (cleanup : Bytes) (ha : 2 ≤ a) :
    RqOk (viewIdRq a b cleanup) (fun _ => True) (viewIdIdx kmax) where
  cmp := ebinCmp_laws
  entry kv h := ⟨trivial, Nat.lt_of_le_of_lt h.1 hmax, h.2.1⟩
  reduce is _ h := by
    obtain ⟨r, e, hR⟩ := viewIdReduce_ok is h
    exact ⟨r, e, hR, by rw [hR.1]; decide⟩
  rereduce cs _ h := by
    obtain ⟨r, e, hR⟩ := viewIdRereduce_ok cs h
    exact ⟨r, e, hR, by rw [hR.1]; decide⟩
  thr := ha
  fetch cb hcb := by cases hcb

/-! ### The index of a view -/

theorem Emit.decode {specs : List ReducerSpec} {m : Emit} (h : m.Fits specs) :
    decodeJsonKey m.kv.1 = .ok m.json ∧ decodeViewValue m.kv.2 = .ok ⟨m.part, m.values⟩ ∧
      decodePartitionCount m.kv.2 = .ok (m.part, m.values.length) := by
  obtain ⟨h1, h2, h3, h4, -⟩ := h
  have hf : (⟨m.part, m.values⟩ : ViewValue).Fits := ⟨by show m.part < _; omega, h3, h4⟩
  refine ⟨?_, (C42_value _ _).mpr ⟨hf, rfl⟩, C42_value_count ⟨m.part, m.values⟩ hf⟩
  rw [C42_json_key, (C42_view_key m.kv.1 ⟨m.json, m.doc⟩).mpr ⟨h1, rfl⟩]
  rfl

theorem Emit.kv_inj {s1 s2 : List ReducerSpec} {a b : Emit} (ha : a.Fits s1) (hb : b.Fits s2) (h : a.kv = b.kv) :
    a = b := by
  have h1 := (C42_view_key a.kv.1 ⟨a.json, a.doc⟩).mpr ⟨ha.1, rfl⟩
  have h2 := (C42_view_key b.kv.1 ⟨b.json, b.doc⟩).mpr ⟨hb.1, rfl⟩
  rw [h, h2] at h1
  have h3 := (Emit.decode ha).2.1
  rw [h, (Emit.decode hb).2.1] at h3
  injection h1 with h1
  injection h3 with h3
  cases a; cases b
  simp_all

theorem Emit.map_kv_inj {specs : List ReducerSpec} : ∀ {as bs : List Emit}, (∀ m ∈ as, m.Fits specs) →
    (∀ m ∈ bs, m.Fits specs) → as.map Emit.kv = bs.map Emit.kv → as = bs
  | [], [], _, _, _ => rfl
  | [], _ :: _, _, _, h => by simp at h
  | _ :: _, [], _, _, h => by simp at h
  | a :: as, b :: bs, ha, hb, h => by
    simp only [List.map_cons, List.cons.injEq] at h
    rw [Emit.kv_inj (ha a (by simp)) (hb b (by simp)) h.1,
      Emit.map_kv_inj (fun m hm => ha m (by simp [hm])) (fun m hm => hb m (by simp [hm])) h.2]

theorem viewReduceLoop_ok (specs : List ReducerSpec) : ∀ (is : List Item) (ms : List Emit) (vs : List ViewValue)
    (bm : Bytes), bm.length = 128 → (∀ m ∈ ms, m.Fits specs) → (is.map fun i => (i.key, i.data)) = ms.map Emit.kv →
    ∃ bm', viewReduceLoop is vs bm = .ok (vs ++ ms.map (fun m => ⟨m.part, m.values⟩), bm') ∧ bm'.length = 128 ∧
      ∀ p, hasPart bm' p = true ↔ (hasPart bm p = true ∨ ∃ m ∈ ms, m.part = p)
  | [], [], vs, bm, hl, _, _ => ⟨bm, by simp [viewReduceLoop], hl, by simp⟩
  | [], _ :: _, _, _, _, _, h => by simp at h
  | _ :: _, [], _, _, _, _, h => by simp at h
  | i :: is, m :: ms, vs, bm, hl, hm, h => by
    simp only [List.map_cons, List.cons.injEq] at h
    obtain ⟨bm1, e1, l1, p1⟩ := setBit_ok hl (hm m (by simp)).2.1
    obtain ⟨bm2, e2, l2, p2⟩ := viewReduceLoop_ok specs is ms (vs ++ [⟨m.part, m.values⟩]) bm1 l1
      (fun j hj => hm j (by simp [hj])) h.2
    have hd : i.data = m.kv.2 := by rw [← h.1]
    refine ⟨bm2, ?_, l2, fun p => ?_⟩
    · simp only [viewReduceLoop, hd, (Emit.decode (hm m (by simp))).2.1, e1, e2]
      simp
    · rw [p2, p1]
      by_cases hp : p = m.part
      · subst hp; simp
      · simp [hp, Ne.symm hp]

theorem viewPairs_ok (specs : List ReducerSpec) : ∀ (is : List Item) (ms : List Emit), (∀ m ∈ ms, m.Fits specs) →
    (is.map fun i => (i.key, i.data)) = ms.map Emit.kv →
    viewPairs is (ms.map fun m => ⟨m.part, m.values⟩) = .ok (ms.flatMap Emit.pairs)
  | [], [], _, _ => rfl
  | [], _ :: _, _, h => by simp at h
  | _ :: _, [], _, h => by simp at h
  | i :: is, m :: ms, hm, h => by
    simp only [List.map_cons, List.cons.injEq] at h
    have hk : i.key = m.kv.1 := by rw [← h.1]
    simp only [List.map_cons, viewPairs, hk, (Emit.decode (hm m (by simp))).1,
      viewPairs_ok specs is ms (fun j hj => hm j (by simp [hj])) h.2]
    rfl

theorem pairs_ne_nil {ms : List Emit} (h0 : ms ≠ []) (h : ∀ m ∈ ms, m.values ≠ []) : ms.flatMap Emit.pairs ≠ [] := by
  cases ms with
  | nil => exact absurd rfl h0
  | cons m ms =>
    rw [List.flatMap_cons]
    intro hc
    have := (List.append_eq_nil_iff.mp hc).1
    exact h m (by simp) (by simpa [Emit.pairs] using this)

theorem runReduce_ok {rs : List Reducer} {specs : List ReducerSpec} (h : List.Forall₂ Reducer.Meets rs specs)
    (l : List (Bytes × Bytes)) (hl : ∀ s ∈ specs, (∀ x ∈ l, s.Ok x) ∧ (s.nonempty = true → l ≠ [])) :
    ∃ out, runReducers Reducer.reduce (rs.map fun r => (r, l)) = .ok out ∧
      List.Forall₂ (fun s t => s.gives l t) specs out := by
  induction h with
  | nil => exact ⟨[], rfl, .nil⟩
  | @cons r s rs specs h1 _ ih =>
    obtain ⟨t, e, g⟩ := h1.reduce l (hl s (by simp)).1 (hl s (by simp)).2
    obtain ⟨out, e2, g2⟩ := ih (fun s' hs => hl s' (by simp [hs]))
    exact ⟨t :: out, by simp only [List.map_cons, runReducers, e, e2], .cons g g2⟩

theorem runRereduce_ok {rs : List Reducer} {specs : List ReducerSpec} (h : List.Forall₂ Reducer.Meets rs specs)
    (xs : List (List (Bytes × Bytes) × ViewReduction)) (n : Nat)
    (hx : ∀ i s, specs[i]? = some s → ∀ x ∈ xs, ∃ t, x.2.values[n + i]? = some t ∧ s.gives x.1 t)
    (hn : ∀ s ∈ specs, s.nonempty = true → xs ≠ [] ∧ ∀ x ∈ xs, x.1 ≠ []) :
    ∃ out, runReducers Reducer.rereduce ((rs.zipIdx n).map fun (r, i) =>
        (r, (xs.map (·.2)).map fun x => (x.values[i]?).getD [])) = .ok out ∧
      List.Forall₂ (fun s t => s.gives (xs.flatMap (·.1)) t) specs out := by
  induction h generalizing n with
  | nil => exact ⟨[], rfl, .nil⟩
  | @cons r s rs specs h1 _ ih =>
    obtain ⟨out, e2, g2⟩ := ih (n + 1) (fun i s' hs x hxs => by
      have := hx (i + 1) s' (by simpa using hs) x hxs
      rwa [show n + (i + 1) = n + 1 + i by omega] at this) (fun s' hs => hn s' (by simp [hs]))
    obtain ⟨t, e, g⟩ := h1.rereduce (xs.map fun x => (x.1, (x.2.values[n]?).getD [])) (by
      intro y hy
      obtain ⟨x, hxs, rfl⟩ := List.mem_map.mp hy
      obtain ⟨t, ht, hg⟩ := hx 0 s (by simp) x hxs
      simp only [Nat.add_zero] at ht
      simpa [ht] using hg) (fun h0 => by
      obtain ⟨n1, n2⟩ := hn s (by simp) h0
      refine ⟨by simpa using n1, ?_⟩
      intro y hy
      obtain ⟨x, hxs, rfl⟩ := List.mem_map.mp hy
      exact n2 x hxs)
    refine ⟨t :: out, ?_, .cons ?_ g2⟩
    · simp only [List.zipIdx_cons, List.map_cons, runReducers]
      simp only [List.map_map, Function.comp_def] at e e2 ⊢
      rw [e]
      simp only
      rw [e2]
    · simpa [List.flatMap_map] using g

theorem Reduces.encode {specs : List ReducerSpec} (room : ResultsFit specs)
    (size : ∀ s ∈ specs, ∀ l t, s.gives l t → t.length ≤ s.lim) {ms : List Emit} {x : ViewReduction} (n : Nat)
    (hn : n % 2 ^ 40 = x.kvCount) (h : Reduces specs ms x) :
    ∃ r, encodeViewReduction { x with kvCount := n } = .ok r ∧ r.length ≤ reductionMax specs ∧
      decodeViewReduction r = .ok x := by
  obtain ⟨h1, h2, h3, h4⟩ := h
  have hlen : specs.length = x.values.length := h4.length_eq
  have hsum : (x.values.map fun v => 2 + v.length).sum ≤ (specs.map fun s => 2 + s.lim).sum := by
    have : ∀ {ss : List ReducerSpec} {ts : List Bytes}, List.Forall₂ (fun s t => s.gives (ms.flatMap Emit.pairs) t) ss ts →
        (∀ s ∈ ss, ∀ l t, s.gives l t → t.length ≤ s.lim) →
        (ts.map fun v => 2 + v.length).sum ≤ (ss.map fun s => 2 + s.lim).sum := by
      intro ss ts hf
      induction hf with
      | nil => intro _; simp
      | @cons s t ss ts hg _ ih =>
        intro hs
        have a := ih (fun s' h' => hs s' (by simp [h']))
        have b := hs s (by simp) _ _ hg
        simp only [List.map_cons, List.sum_cons]
        omega
    exact this h4 size
  have hfit : x.Fits := ⟨by rw [← hn]; exact Nat.mod_lt _ (by decide), h2, by rw [← hlen]; exact room.1⟩
  obtain ⟨a, b, -⟩ := C42_reduction x hfit
  obtain ⟨r, hr⟩ := b.mpr (Nat.le_trans (by unfold reductionMax; omega) room.2)
  have hl : r.length = 133 + (x.values.map fun v => 2 + v.length).sum := by
    have hsz : ∀ vs : List Bytes, (encodeSized 2 vs).length = (vs.map fun v => 2 + v.length).sum := by
      intro vs
      induction vs with
      | nil => rfl
      | cons v vs ih =>
        simp only [encodeSized, List.flatMap_cons, List.length_append, length_beEnc, List.map_cons, List.sum_cons] at ih ⊢
        omega
    have hr' := hr
    unfold encodeViewReduction at hr'
    split at hr'
    · cases hr'
    · injection hr' with hr'
      rw [← hr', List.length_append, List.length_append, hsz, h2]
      simp only [enc40, length_beEnc]
  refine ⟨r, ?_, by rw [hl]; unfold reductionMax; omega, (a r hr).2.1⟩
  rw [← hr]
  unfold encodeViewReduction
  simp only
  rw [← enc40_mod n, hn]

theorem viewReduce_ok {rs : List Reducer} {specs : List ReducerSpec} (h : List.Forall₂ Reducer.Meets rs specs)
    (room : ResultsFit specs) (K : Bytes → Prop) (is : List Item) (hne : is ≠ [])
    (hV : ∀ i ∈ is, (viewIdx K specs).V (i.key, i.data)) :
    ∃ r, viewReduce rs is = .ok r ∧ (viewIdx K specs).R (is.map fun i => (i.key, i.data)) r := by
  have hms : ∃ ms : List Emit, (∀ m ∈ ms, m.Fits specs) ∧ (is.map fun i => (i.key, i.data)) = ms.map Emit.kv := by
    clear hne
    induction is with
    | nil => exact ⟨[], by simp, rfl⟩
    | cons i is ih =>
      obtain ⟨ms, a, b⟩ := ih (fun j hj => hV j (by simp [hj]))
      obtain ⟨-, m, c, d⟩ := hV i (by simp)
      refine ⟨m :: ms, ?_, by simp [b, d]⟩
      intro m' hm'
      rcases List.mem_cons.mp hm' with rfl | hm'
      · exact c
      · exact a m' hm'
  obtain ⟨ms, hf, he⟩ := hms
  have hms0 : ms ≠ [] := by
    rintro rfl
    exact hne (by simpa using he)
  obtain ⟨bm, e1, l1, p1⟩ := viewReduceLoop_ok specs is ms [] emptyBitmap (by simp [emptyBitmap]) hf he
  have e2 := viewPairs_ok specs is ms hf he
  obtain ⟨out, e3, g⟩ := runReduce_ok h (ms.flatMap Emit.pairs) (by
    intro s hs
    refine ⟨?_, fun h0 => pairs_ne_nil hms0 fun m hm => ((hf m hm).2.2.2.2.2.2 s hs).2 h0⟩
    intro x hx
    obtain ⟨m, hm, hx⟩ := List.mem_flatMap.mp hx
    exact ((hf m hm).2.2.2.2.2.2 s hs).1 x hx)
  have hlen : rs.length = specs.length := h.length_eq
  have hout : specs.length = out.length := g.length_eq
  have size : ∀ s ∈ specs, ∀ l t, s.gives l t → t.length ≤ s.lim := by
    intro s hs
    obtain ⟨r, -, hr⟩ : ∃ r ∈ rs, r.Meets s := by
      clear e3 g room hf hV hout hlen
      induction h with
      | nil => simp at hs
      | cons h1 _ ih =>
        rcases List.mem_cons.mp hs with rfl | hs
        · exact ⟨_, by simp, h1⟩
        · obtain ⟨r, hr, hm⟩ := ih hs
          exact ⟨r, by simp [hr], hm⟩
    exact hr.size
  have htake : out.take (rs.length % 256) = out := by
    have := room.1
    rw [List.take_of_length_le]
    rw [Nat.mod_eq_of_lt (by omega)]
    omega
  have hred : Reduces specs ms ⟨(ms.map fun m => m.values.length).sum % 2 ^ 40, bm, out⟩ :=
    ⟨rfl, l1, fun p => by rw [p1, emptyBitmap_parts]; simp, g⟩
  obtain ⟨r, hr, hrl, hrd⟩ := hred.encode room size (ms.map fun m => m.values.length).sum rfl
  refine ⟨r, ?_, hrl, ms, _, he, hf, hrd, hred, hms0⟩
  have hne' : is.isEmpty = false := by cases is <;> simp_all
  simp only [List.nil_append] at e1
  simp only [viewReduce, hne', Bool.false_eq_true, if_false, e1, e2, e3, htake, List.map_map, Function.comp_def]
  exact hr

theorem viewRereduceLoop_ok (K : Bytes → Prop) (specs : List ReducerSpec) :
    ∀ (cs : List (NodePointer × List KV)) (reds : List ViewReduction),
    (∀ c ∈ cs, (viewIdx K specs).R c.2 c.1.reduceValue) →
    ∃ xs : List (List Emit × ViewReduction),
      viewRereduceLoop specs.length (cs.map fun c => ptrItem c.1) reds = .ok (reds ++ xs.map (·.2)) ∧
      cs.flatMap (·.2) = (xs.flatMap (·.1)).map Emit.kv ∧
      (∀ x ∈ xs, (∀ m ∈ x.1, m.Fits specs) ∧ Reduces specs x.1 x.2 ∧ x.1 ≠ []) ∧ (cs ≠ [] → xs ≠ [])
  | [], reds, _ => ⟨[], by simp [viewRereduceLoop], rfl, by simp, fun h => absurd rfl h⟩
  | c :: cs, reds, h => by
    obtain ⟨-, ms, x, h1, h2, h3, h4, h5⟩ := h c (by simp)
    obtain ⟨xs, e, a, b, -⟩ := viewRereduceLoop_ok K specs cs (reds ++ [x]) (fun d hd => h d (by simp [hd]))
    have hlen : specs.length = x.values.length := h4.2.2.2.length_eq
    refine ⟨(ms, x) :: xs, ?_, by simp [a, h1], ?_, by simp⟩
    · simp only [List.map_cons, viewRereduceLoop, ptrItem, h3]
      rw [if_neg (by simp [hlen])]
      simp only [ptrItem] at e
      rw [e]
      simp
    · intro y hy
      rcases List.mem_cons.mp hy with rfl | hy
      · exact ⟨h2, h4, h5⟩
      · exact b y hy

theorem foldl_union (xs : List (List Emit × ViewReduction)) (specs : List ReducerSpec)
    (h : ∀ x ∈ xs, Reduces specs x.1 x.2) (bm : Bytes) (hb : bm.length = 128) :
    ((xs.map (·.2)).foldl (fun b r => unionBitmaps b r.partitions) bm).length = 128 ∧
    ∀ p, hasPart ((xs.map (·.2)).foldl (fun b r => unionBitmaps b r.partitions) bm) p = true ↔
      (hasPart bm p = true ∨ ∃ m ∈ xs.flatMap (·.1), m.part = p) := by
  induction xs generalizing bm with
  | nil => exact ⟨hb, by simp⟩
  | cons x xs ih =>
    have hx := h x (by simp)
    have hl := hx.2.1
    have h1 := hx.2.2.1
    obtain ⟨a, b⟩ := ih (fun y hy => h y (by simp [hy])) (unionBitmaps bm x.2.partitions) (union_parts hb hl 0).1
    refine ⟨a, fun p => ?_⟩
    simp only [List.map_cons, List.foldl_cons]
    rw [b, (union_parts hb hl p).2, Bool.or_eq_true, h1 p]
    simp only [List.flatMap_cons, List.mem_append]
    constructor
    · rintro ((h | ⟨m, h, e⟩) | ⟨m, h, e⟩)
      · exact Or.inl h
      · exact Or.inr ⟨m, Or.inl h, e⟩
      · exact Or.inr ⟨m, Or.inr h, e⟩
    · rintro (h | ⟨m, h | h, e⟩)
      · exact Or.inl (Or.inl h)
      · exact Or.inl (Or.inr ⟨m, h, e⟩)
      · exact Or.inr ⟨m, h, e⟩

theorem sum_counts (xs : List (List Emit × ViewReduction)) (specs : List ReducerSpec)
    (h : ∀ x ∈ xs, Reduces specs x.1 x.2) :
    ((xs.map (·.2)).map (·.kvCount)).sum % 2 ^ 40 =
      ((xs.flatMap (·.1)).map fun m => m.values.length).sum % 2 ^ 40 := by
  induction xs with
  | nil => rfl
  | cons x xs ih =>
    have h1 := (h x (by simp)).1
    have h2 := ih (fun y hy => h y (by simp [hy]))
    simp only [List.map_cons, List.sum_cons, List.flatMap_cons, List.map_append, List.sum_append] at h2 ⊢
    omega

theorem viewRereduce_ok {rs : List Reducer} {specs : List ReducerSpec} (h : List.Forall₂ Reducer.Meets rs specs)
    (room : ResultsFit specs) (K : Bytes → Prop) (cs : List (NodePointer × List KV)) (hne : cs ≠ [])
    (hR : ∀ c ∈ cs, (viewIdx K specs).R c.2 c.1.reduceValue) :
    ∃ r, viewRereduce rs (cs.map fun c => ptrItem c.1) = .ok r ∧ (viewIdx K specs).R (cs.flatMap (·.2)) r := by
  obtain ⟨xs, e1, he, hx, hxs0⟩ := viewRereduceLoop_ok K specs cs [] hR
  have hlen : rs.length = specs.length := h.length_eq
  obtain ⟨out, e2, g⟩ := runRereduce_ok h (xs.map fun x => (x.1.flatMap Emit.pairs, x.2)) 0 (by
    intro i s hs x hxs
    obtain ⟨y, hy, rfl⟩ := List.mem_map.mp hxs
    have hf := (hx y hy).2.1.2.2.2
    have hi : i < specs.length := by
      by_contra hc
      rw [List.getElem?_eq_none (by omega)] at hs
      cases hs
    have hi2 : i < y.2.values.length := by rw [← hf.length_eq]; exact hi
    refine ⟨y.2.values[i], by simp [hi2], ?_⟩
    have := hf.get hi hi2
    rw [List.getElem?_eq_getElem hi] at hs
    injection hs with hs
    subst hs
    simpa using this) (fun s hs h0 => by
    refine ⟨by simpa using hxs0 hne, ?_⟩
    intro y hy
    obtain ⟨x, hxm, rfl⟩ := List.mem_map.mp hy
    obtain ⟨a, -, b⟩ := hx x hxm
    exact pairs_ne_nil b fun m hm => ((a m hm).2.2.2.2.2.2 s hs).2 h0)
  obtain ⟨l2, p2⟩ := foldl_union xs specs (fun x h => (hx x h).2.1) emptyBitmap (by simp [emptyBitmap])
  have hc := sum_counts xs specs (fun x h => (hx x h).2.1)
  have size : ∀ s ∈ specs, ∀ l t, s.gives l t → t.length ≤ s.lim := by
    intro s hs
    obtain ⟨r, -, hr⟩ : ∃ r ∈ rs, r.Meets s := by
      clear e1 e2 g room hR hlen hx hc p2 l2 he
      induction h with
      | nil => simp at hs
      | cons h1 _ ih =>
        rcases List.mem_cons.mp hs with rfl | hs
        · exact ⟨_, by simp, h1⟩
        · obtain ⟨r, hr, hm⟩ := ih hs
          exact ⟨r, by simp [hr], hm⟩
    exact hr.size
  have hred : Reduces specs (xs.flatMap (·.1)) ⟨((xs.flatMap (·.1)).map fun m => m.values.length).sum % 2 ^ 40,
      (xs.map (·.2)).foldl (fun b r => unionBitmaps b r.partitions) emptyBitmap, out⟩ := by
    refine ⟨rfl, l2, fun p => by rw [p2, emptyBitmap_parts]; simp, ?_⟩
    have : (xs.map fun x => (x.1.flatMap Emit.pairs, x.2)).flatMap (·.1) = (xs.flatMap (·.1)).flatMap Emit.pairs := by
      rw [List.flatMap_map, List.flatMap_assoc]
    rw [this] at g
    exact g
  obtain ⟨r, hr, hrl, hrd⟩ := hred.encode room size (((xs.map (·.2)).map (·.kvCount)).sum % 2 ^ 64)
    (by simp only; rw [← hc]; omega)
  refine ⟨r, ?_, hrl, _, _, he, ?_, hrd, hred, ?_⟩
  · simp only [List.nil_append] at e1
    simp only [List.map_map, Function.comp_def] at e2 hr
    simp only [viewRereduce, hlen, e1, List.map_map, Function.comp_def, e2]
    exact hr
  · intro m hm
    obtain ⟨x, hxs, hm⟩ := List.mem_flatMap.mp hm
    exact (hx x hxs).1 m hm
  · intro hc
    cases xs with
    | nil => exact hxs0 hne rfl
    | cons x xs =>
      rw [List.flatMap_cons] at hc
      exact (hx x (by simp)).2.2 (List.append_eq_nil_iff.mp hc).1

end Couchstore
