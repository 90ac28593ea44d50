import Verif.Lemmas.ViewPurge
import Verif.Lemmas.Reducers
import Verif.Props.Btree

/-! Property theorems C43: the reductions of view indexes.

`Reducer.Meets r s` (Spec/ViewReduce.lean) says that a reduce function computes what its specification `s` says, from
values and from results; `Reduces specs ms x`: the reduction `x` has the number of the values of the emitted keys `ms`,
the set of their partitions, and for each reduce function a right result for all the keys and values. -/

namespace Couchstore.Props

/-! ### The builtin reduce functions -/

/-- C43: `_count` gives the number of values (in 64 bits), from values and from results. -/
theorem C43_count : countReducer.Meets countSpec := countReducer_meets

example : countReducer.reduce [([49], [50]), ([49], [51]), ([50], [50])] = .ok [51] ∧
    countReducer.rereduce [[51], [49, 48]] = .ok [49, 51] := by decide

/-- C43: `_sum` of integers gives the sum, as long as the magnitudes add up to less than 10^15, whatever the arithmetic
of floating point numbers does beyond that. -/
theorem C43_sum {F : Type} (N : NumEnv F) (ofInt : Int → F) (L : N.Laws ofInt) : (sumReducer N).Meets (sumSpec N) :=
  sumReducer_meets L

/-! An arithmetic with the laws: integers of less than 16 digits, and a number beyond. -/

def toyNum : NumEnv (Option Int) where
  zero := some 0
  add a b :=
    match a, b with
    | some a, some b => if (a + b).natAbs < 10 ^ 15 then some (a + b) else none
    | _, _ => none
  parse t :=
    match t with
    | [105, 110, 102] => some none
    | 45 :: ds => some (some (-(digitsVal ds : Int)))
    | ds => some (some (digitsVal ds : Int))
  print x :=
    match x with
    | some z => if z.natAbs < 10 ^ 15 then intText z else [105, 110, 102]
    | none => [105, 110, 102]

theorem toyNum_laws : toyNum.Laws some where
  zero := rfl
  add a b _ _ h := by simp only [toyNum]; rw [if_pos h]
  print z h := by simp only [toyNum]; rw [if_pos h]
  parse z h := by
    have hv := decText_val z.natAbs
    have hd := decText_digits z.natAbs
    simp only [toyNum, intText]
    by_cases hz : z < 0
    · rw [if_pos hz]
      split
      · rename_i he; simp at he
      · rename_i ds _ he
        injection he with _ he
        subst he
        rw [hv]
        congr 2
        omega
      · rename_i h1 h2
        exact absurd rfl (h2 _)
    · rw [if_neg hz]
      generalize hs : decText z.natAbs = s at hv hd
      split
      · have := hd 105 (by simp)
        exact absurd this (by decide)
      · have := hd 45 (by simp)
        exact absurd this (by decide)
      · rw [hv]
        congr 2
        omega
  printed x := by
    have hp : ∀ t, ∃ y, toyNum.parse t = some y := by
      intro t
      simp only [toyNum]
      split
      · exact ⟨_, rfl⟩
      · exact ⟨_, rfl⟩
      · exact ⟨_, rfl⟩
    refine ⟨?_, ?_, hp _⟩
    · simp only [toyNum]
      split
      · split
        · rename_i h; have := intText_length h; omega
        · decide
      · decide
    · simp only [toyNum]
      split
      · split
        · exact intText_ne_nil _
        · decide
      · decide

example : (sumReducer toyNum).Meets (sumSpec toyNum) := C43_sum _ _ toyNum_laws

example : (sumReducer toyNum).reduce [([49], intText 20), ([49], intText (-5)), ([50], intText 8)] = .ok (intText 23) := by
  decide

/-- C43: the index cannot be updated if a value to be summed is a number of more than 31 characters. -/
theorem C43_long_number {F : Type} (N : NumEnv F) (k v : Bytes) (h : 31 < v.length) :
    (sumReducer N).reduce [(k, v)] = .error .reducerFailure := by
  simp only [sumReducer, List.map_cons, List.map_nil, sumLoop, jsonToDouble]
  rw [if_pos (Or.inr h)]

/-- A number of 32 characters. -/
example : 31 < ([48, 46] ++ List.replicate 30 49 : Bytes).length := by decide

/-! ### The index by document id -/

/-- The entries of an index: a sorted list of them. -/
def Lists (cmp : Bytes → Bytes → Ordering) (m : KMap) (kvs : List KV) : Prop :=
  SortedKV cmp kvs ∧ ∀ k, kvFind k kvs = m k

/-- C43: whatever batches of updates are applied to an index by document id, with whatever node sizes and I/O faults,
the reduction at the root has the number of documents and the set of their partitions. -/
theorem C43_id_index (kmax : Nat) (hmax : kmax < 4096) (E : Env) (L : E.Laws) (kvThr kpThr : Nat) (cleanup : Bytes) (ha : 2 ≤ kvThr) (f : File) (w : f.WF)
    (root : Option NodePointer) (m : KMap)
    (hroot : Represents E (viewIdIdx kmax) ebinCmp f root m) (bs : List (List Action))
    (hb : ∀ b ∈ bs, BatchOk (viewIdRq kvThr kpThr cleanup) b)
    (hV : ∀ b ∈ bs, ∀ a ∈ b, a.type = .insert ∨ a.type = .fetchInsert → (viewIdIdx kmax).V (a.key, a.data))
    (u : Nat) (g : File) (root' : Option NodePointer) (u' : Nat)
    (h : runBatches E (viewIdRq kvThr kpThr cleanup) f root u bs = (g, root', u')) :
    ∃ m', History (viewIdRq kvThr kpThr cleanup) u m bs u' m' ∧ Represents E (viewIdIdx kmax) ebinCmp g root' m' ∧
      ∀ p, root' = some p → ∃ kvs n bm, Lists ebinCmp m' kvs ∧ decodeIdReduction p.reduceValue = .ok (n, bm) ∧
        n = kvs.length % 2 ^ 40 ∧ ∀ q, hasPart bm q = true ↔ ∃ kv ∈ kvs, idPart kv = q := by
  obtain ⟨m', h1, h2⟩ := C07_history E L _ _ _ (viewIdRq_ok hmax kvThr kpThr cleanup ha) f w root m hroot bs hb
    (fun _ _ _ _ => trivial) hV u g root' u' h
  refine ⟨m', h1, h2, ?_⟩
  rintro p rfl
  obtain ⟨kvs, ⟨l, ht⟩, hs, hm⟩ := h2
  obtain ⟨cs, -, -, -, -, hR, -⟩ := ht
  obtain ⟨-, n, bm, hd, hn, -, hp⟩ := hR
  exact ⟨kvs, n, bm, ⟨hs, hm⟩, hd, hn, hp⟩

/-- Two documents of partition 5, one of partition 1000; then one is removed and one comes to partition 7. -/
def sampleIdBatches : List (List Action) :=
  [[⟨.insert, [1], [0, 5], 0⟩,
    ⟨.insert, [2], [3, 232], 0⟩,
    ⟨.insert, [3], [0, 5, 9], 0⟩],
   [⟨.insert, [1], [0, 7], 0⟩,
    ⟨.remove, [2], [], 0⟩]]

instance (as : List Action) : Decidable (BatchOk (viewIdRq 20 20 emptyBitmap) as) := by
  unfold BatchOk; infer_instance

example : Represents Env.toy (viewIdIdx 250) ebinCmp File.empty none (fun _ => none) ∧ File.empty.WF ∧
    (∀ b ∈ sampleIdBatches, BatchOk (viewIdRq 20 20 emptyBitmap) b) ∧
    (∀ b ∈ sampleIdBatches, ∀ a ∈ b, a.type = .insert ∨ a.type = .fetchInsert → (viewIdIdx 250).V (a.key, a.data)) := by
  refine ⟨⟨[], rfl, List.Pairwise.nil, fun _ => rfl⟩, ⟨by decide, by decide⟩, by decide, ?_⟩
  unfold viewIdIdx
  decide

example : (match runBatches Env.toy (viewIdRq 20 20 emptyBitmap) File.empty none 0 sampleIdBatches with
    | (_, some p, _) => match decodeIdReduction p.reduceValue with
      | .ok (n, bm) => decide (n = 2) && hasPart bm 5 && hasPart bm 7 && !hasPart bm 1000
      | _ => false
    | _ => false) = true := by decide +kernel

/-! ### The index of a view -/

/-- C43: whatever batches of updates are applied to the index of a view, with whatever node sizes and I/O faults, the
reduction at the root has the number of values, the set of partitions and right results of all the reduce functions for
all the keys and values that are in the index.  The keys are from a class that the comparison tells apart. -/
theorem C43_view_index {D : Type} [LinearOrder D] (e : CollateEnv D) (round : Rat → D) (ucol : Bytes → Bytes → Int)
    (H : e.Ok round ucol) (K : Bytes → Prop) (hK : ViewKeyClass e K) (rs : List Reducer) (specs : List ReducerSpec)
    (hr : List.Forall₂ Reducer.Meets rs specs) (fit : ResultsFit specs)
    (E : Env) (L : E.Laws) (kvThr kpThr : Nat) (cleanup : Bytes) (ha : 2 ≤ kvThr) (f : File) (w : f.WF)
    (root : Option NodePointer) (m : KMap)
    (hroot : Represents E (viewIdx K specs) (viewBtreeCmp e) f root m) (bs : List (List Action))
    (hb : ∀ b ∈ bs, BatchOk (viewRq e rs kvThr kpThr cleanup) b) (hk : ∀ b ∈ bs, ∀ a ∈ b, K a.key)
    (hV : ∀ b ∈ bs, ∀ a ∈ b, a.type = .insert ∨ a.type = .fetchInsert → (viewIdx K specs).V (a.key, a.data))
    (u : Nat) (g : File) (root' : Option NodePointer) (u' : Nat)
    (h : runBatches E (viewRq e rs kvThr kpThr cleanup) f root u bs = (g, root', u')) :
    ∃ m', History (viewRq e rs kvThr kpThr cleanup) u m bs u' m' ∧
      Represents E (viewIdx K specs) (viewBtreeCmp e) g root' m' ∧
      ∀ p, root' = some p → ∃ ms x, Lists (viewBtreeCmp e) m' (ms.map Emit.kv) ∧ (∀ m ∈ ms, m.Fits specs) ∧
        decodeViewReduction p.reduceValue = .ok x ∧ Reduces specs ms x := by
  obtain ⟨m', h1, h2⟩ := C07_history E L _ _ _ (viewRq_ok e round ucol H K hK hr fit kvThr kpThr cleanup ha) f w root m
    hroot bs hb hk hV u g root' u' h
  refine ⟨m', h1, h2, ?_⟩
  rintro p rfl
  obtain ⟨kvs, ⟨l, ht⟩, hs, hm⟩ := h2
  obtain ⟨cs, -, -, -, -, hR, -⟩ := ht
  obtain ⟨-, ms, x, rfl, hf, hd, hx, -⟩ := hR
  exact ⟨ms, x, ⟨hs, hm⟩, hf, hd, hx⟩

/-! A view with `_count` and `_sum`: three documents emit the key `null`, with integers. -/

theorem sameJson_class {D : Type} [LinearOrder D] (e : CollateEnv D) (round : Rat → D) (ucol : Bytes → Bytes → Int)
    (H : e.Ok round ucol) (v : Json) (hv : v.text.length < 2 ^ 16) :
    ViewKeyClass e (fun k => ∃ d, k = encodeViewKey ⟨v.text, d⟩) := by
  constructor
  · rintro k ⟨d, rfl⟩
    exact ⟨v, d, hv, rfl⟩
  · rintro a b ⟨d, rfl⟩ ⟨d', rfl⟩ h
    obtain ⟨json, h1, -, -, h3⟩ := C42_key_order e round ucol H
    rw [h3 v d v d' _ hv hv (by unfold encodeViewKey; simp only [List.length_append]; omega)] at h
    have := h1.flip v v
    rw [if_neg (by omega)] at h
    injection h with h
    cases hc : ebinCmp d d' with
    | eq => rw [(ebinCmp_laws.eq_iff d d' trivial trivial).mp hc]
    | lt => rw [hc] at h; simp [orderInt] at h
    | gt => rw [hc] at h; simp [orderInt] at h

def nullKeys (k : Bytes) : Prop := ∃ d, k = encodeViewKey ⟨Json.null.text, d⟩

def toySpecs : List ReducerSpec := [countSpec, sumSpec toyNum]

def toyRq : Rq Nat := viewRq (exactEnv true) [countReducer, sumReducer toyNum] 40 40 emptyBitmap

def sampleEmits : List Emit :=
  [⟨Json.null.text, [1], 5, [intText 20, intText (-3)]⟩, ⟨Json.null.text, [2], 9, [intText 100]⟩,
   ⟨Json.null.text, [3], 5, [intText 7]⟩]

def sampleViewBatches : List (List Action) :=
  [sampleEmits.map fun m => ⟨.insert, m.kv.1, m.kv.2, 0⟩, [⟨.remove, encodeViewKey ⟨Json.null.text, [2]⟩, [], 0⟩]]

instance (as : List Action) : Decidable (BatchOk toyRq as) := by unfold BatchOk; infer_instance

theorem sampleEmits_fits : ∀ m ∈ sampleEmits, m.Fits toySpecs := by
  intro m hm
  refine ⟨?_, ?_, ?_, ?_, ?_, ?_, ?_⟩
  · revert m; decide
  · revert m; decide
  · revert m; decide
  · revert m; decide
  · revert m; decide
  · revert m; decide
  · intro s hs
    simp only [toySpecs, List.mem_cons, List.not_mem_nil, or_false] at hs
    rcases hs with rfl | rfl
    · exact ⟨fun _ _ => trivial, fun h => (nomatch h)⟩
    · refine ⟨?_, fun h => (nomatch h)⟩
      simp only [sampleEmits, List.mem_cons, List.not_mem_nil, or_false] at hm
      rcases hm with rfl | rfl | rfl <;>
        simp only [Emit.pairs, List.map_cons, List.map_nil, List.mem_cons, List.not_mem_nil, or_false]
      · rintro x (rfl | rfl)
        · exact ⟨20, rfl, by decide⟩
        · exact ⟨-3, rfl, by decide⟩
      · rintro x rfl
        exact ⟨100, rfl, by decide⟩
      · rintro x rfl
        exact ⟨7, rfl, by decide⟩

theorem sampleEmits_valid : ∀ m ∈ sampleEmits, (viewIdx nullKeys toySpecs).V m.kv := by
  intro m hm
  refine ⟨?_, m, sampleEmits_fits m hm, rfl⟩
  simp only [sampleEmits, List.mem_cons, List.not_mem_nil, or_false] at hm
  rcases hm with rfl | rfl | rfl <;> exact ⟨_, rfl⟩

example : ViewKeyClass (exactEnv true) nullKeys ∧
    List.Forall₂ Reducer.Meets [countReducer, sumReducer toyNum] toySpecs ∧ ResultsFit toySpecs ∧
    Represents Env.toy (viewIdx nullKeys toySpecs) (viewBtreeCmp (exactEnv true)) File.empty none (fun _ => none) ∧
    (∀ b ∈ sampleViewBatches, BatchOk toyRq b) ∧ (∀ b ∈ sampleViewBatches, ∀ a ∈ b, nullKeys a.key) ∧
    (∀ m ∈ sampleEmits, (viewIdx nullKeys toySpecs).V m.kv) := by
  have hk : ∀ b ∈ sampleViewBatches, ∀ a ∈ b, nullKeys a.key := by
    simp only [sampleViewBatches, sampleEmits, List.mem_cons, List.not_mem_nil, or_false, List.map_cons, List.map_nil]
    rintro b (rfl | rfl) a ha
    · simp only [List.mem_cons, List.not_mem_nil, or_false] at ha
      rcases ha with rfl | rfl | rfl <;> exact ⟨_, rfl⟩
    · simp only [List.mem_cons, List.not_mem_nil, or_false] at ha
      subst ha
      exact ⟨_, rfl⟩
  refine ⟨sameJson_class _ _ _ (exactEnv_ok true) _ (by decide), .cons C43_count (.cons (C43_sum _ _ toyNum_laws) .nil), by unfold ResultsFit; decide,
    ⟨[], rfl, List.Pairwise.nil, fun _ => rfl⟩, by decide +kernel, hk, sampleEmits_valid⟩

/-- After the two batches three values of partition 5 are left; their sum is 24. -/
example : (match runBatches Env.toy toyRq File.empty none 0 sampleViewBatches with
    | (_, some p, _) => match decodeViewReduction p.reduceValue with
      | .ok x => decide (x.kvCount = 3) && hasPart x.partitions 5 && !hasPart x.partitions 9 &&
          decide (x.values = [decText 3, intText 24])
      | _ => false
    | _ => false) = true := by decide +kernel

/-- C43: with 256 reduce functions the reduction of a leaf has no results, and an interior node cannot be written: the
program stops. -/
theorem C43_too_many_reducers (rs : List Reducer) (hlen : rs.length = 256) (is : List Item) (r : Bytes)
    (h : viewReduce rs is = .ok r) :
    viewRereduce rs [ptrItem { key := [], pointer := 0, subtreesize := 0, reduceValue := r }] = .error .assertFail := by
  unfold viewReduce at h
  split at h
  · cases h
  · split at h
    · cases h
    · rename_i vs bm hloop
      split at h
      · cases h
      · split at h
        · cases h
        · rename_i out _
          have hbm : bm.length = 128 := by
            have : ∀ (is : List Item) (vs : List ViewValue) (b : Bytes), b.length = 128 →
                ∀ vs' b', viewReduceLoop is vs b = .ok (vs', b') → b'.length = 128 := by
              intro is
              induction is with
              | nil => intro vs b hb vs' b' h; simp only [viewReduceLoop] at h; cases h; exact hb
              | cons i is ih =>
                intro vs b hb vs' b' h
                simp only [viewReduceLoop] at h
                split at h
                · cases h
                · rename_i v _
                  split at h
                  · cases h
                  · rename_i b1 hset
                    by_cases hp : v.partition < 1024
                    · obtain ⟨b2, e2, l2, -⟩ := setBit_ok hb hp
                      rw [e2] at hset
                      cases hset
                      exact ih _ _ l2 _ _ h
                    · rw [setBit_out b (by omega)] at hset
                      cases hset
            exact this _ _ _ (by simp [emptyBitmap]) _ _ hloop
          have l5 : ∀ n, (enc40 n).length = 5 := fun n => length_beEnc _ _
          unfold encodeViewReduction at h
          rw [hlen] at h
          simp only [Nat.mod_self, List.take_zero] at h
          rw [if_neg (by simp [encodeSized, maxReductionSize])] at h
          injection h with h
          have hd : ∃ n, decodeViewReduction r = .ok { kvCount := n, partitions := bm, values := [] } := by
            unfold decodeViewReduction decodeReductionBitmap
            rw [← h]
            simp only [encodeSized, List.flatMap_nil, List.append_nil, List.length_append, l5, hbm, List.length_drop]
            rw [if_neg (by omega), if_neg (by omega)]
            simp only [drop_append_len (l5 _), List.take_of_length_le (Nat.le_of_eq hbm)]
            rw [List.drop_of_length_le (by simp [l5, hbm])]
            exact ⟨_, rfl⟩
          obtain ⟨n, hd⟩ := hd
          simp only [viewRereduce, viewRereduceLoop, ptrItem, hd, hlen]
          simp

/-- The leaf itself can be reduced. -/
example : (match viewReduce (List.replicate 256 countReducer) [⟨encodeViewKey ⟨[49], [1]⟩, encodeViewValue ⟨5, [[50]]⟩, none⟩] with
    | .ok _ => true | .error _ => false) = true := by decide +kernel

end Couchstore.Props
