import Verif.Lemmas.ViewReduce
import Verif.Spec.ViewGroup
import Verif.Lemmas.Purge

/-! Lemmas about the order of view keys in the index and about the purging of view indexes. -/

namespace Couchstore
open Couchstore.Props

/-! ### The order of the keys -/

theorem viewBtreeCmp_laws {D : Type} [LinearOrder D] (e : CollateEnv D) (round : Rat → D) (ucol : Bytes → Bytes → Int)
    (H : e.Ok round ucol) (K : Bytes → Prop) (hK : ViewKeyClass e K) : CmpLaws (viewBtreeCmp e) K := by
  obtain ⟨json, -, -, h2, h3⟩ := C42_key_order e round ucol H
  generalize hf : (fun x y : Json × Bytes => if json x.1 y.1 ≠ 0 then json x.1 y.1 else orderInt (ebinCmp x.2 y.2)) = c at h2
  have get : ∀ k, K k → ∃ x : Json × Bytes, x.1.text.length < 2 ^ 16 ∧ k = encodeViewKey ⟨x.1.text, x.2⟩ :=
    fun k h => by obtain ⟨v, d, h1, h2⟩ := hK.key k h; exact ⟨(v, d), h1, h2⟩
  have run : ∀ x y : Json × Bytes, x.1.text.length < 2 ^ 16 → y.1.text.length < 2 ^ 16 →
      viewKeyCmp e ((encodeViewKey ⟨x.1.text, x.2⟩).length + 1) (encodeViewKey ⟨x.1.text, x.2⟩)
        (encodeViewKey ⟨y.1.text, y.2⟩) = .ok (c x y) := by
    intro x y hx hy
    rw [h3 x.1 x.2 y.1 y.2 _ hx hy (by unfold encodeViewKey; simp only [List.length_append]; omega), ← hf]
  have cmp : ∀ x y : Json × Bytes, x.1.text.length < 2 ^ 16 → y.1.text.length < 2 ^ 16 →
      viewBtreeCmp e (encodeViewKey ⟨x.1.text, x.2⟩) (encodeViewKey ⟨y.1.text, y.2⟩) =
        if c x y < 0 then .lt else if 0 < c x y then .gt else .eq := by
    intro x y hx hy
    unfold viewBtreeCmp
    rw [run x y hx hy]
  constructor
  · intro a b ha hb
    obtain ⟨x, hx, rfl⟩ := get a ha
    obtain ⟨y, hy, rfl⟩ := get b hb
    constructor
    · intro h
      apply hK.apart _ _ ha hb
      rw [run x y hx hy]
      rw [cmp x y hx hy] at h
      split at h
      · cases h
      · split at h
        · cases h
        · rw [show c x y = 0 by omega]
    · intro h
      rw [← h, cmp x x hx hx]
      have := h2.flip x x
      rw [if_neg (by omega), if_neg (by omega)]
  · intro a b ha hb
    obtain ⟨x, hx, rfl⟩ := get a ha
    obtain ⟨y, hy, rfl⟩ := get b hb
    rw [cmp x y hx hy, cmp y x hy hx]
    have f1 := h2.flip x y
    have f2 := h2.flip y x
    rcases Int.lt_trichotomy (c x y) 0 with h | h | h
    · rw [if_neg (by omega), if_pos (by omega), if_pos h]; rfl
    · rw [if_neg (by omega), if_neg (by omega), if_neg (by omega), if_neg (by omega)]; rfl
    · rw [if_pos (by omega), if_neg (by omega), if_pos h]; rfl
  · intro a b d ha hb hd h h'
    obtain ⟨x, hx, rfl⟩ := get a ha
    obtain ⟨y, hy, rfl⟩ := get b hb
    obtain ⟨z, hz, rfl⟩ := get d hd
    rw [cmp x y hx hy] at h
    rw [cmp y z hy hz] at h'
    rw [cmp x z hx hz]
    have lt1 : c x y < 0 := by
      split at h
      · assumption
      · split at h <;> cases h
    have lt2 : c y z < 0 := by
      split at h'
      · assumption
      · split at h' <;> cases h'
    have f1 := h2.flip x y
    have f2 := h2.flip y z
    have f3 := h2.flip z x
    have f4 := h2.flip x z
    have t1 := h2.trans x y z (by omega) (by omega)
    have t2 := h2.trans y z x (by omega)
    have : c x z < 0 := by
      by_contra hc
      have : c z x ≤ 0 := by omega
      have := t2 this
      omega
    rw [if_pos this]

theorem viewRq_ok {D : Type} [LinearOrder D] (e : CollateEnv D) (round : Rat → D) (ucol : Bytes → Bytes → Int)
    (H : e.Ok round ucol) (K : Bytes → Prop) (hK : ViewKeyClass e K) {rs : List Reducer} {specs : List ReducerSpec}
    (h : List.Forall₂ Reducer.Meets rs specs) (room : ResultsFit specs) (a b : Nat) (cleanup : Bytes) (ha : 2 ≤ a) :
    RqOk (viewRq e rs a b cleanup) K (viewIdx K specs) where
  cmp := viewBtreeCmp_laws e round ucol H K hK
  entry kv h := by
    obtain ⟨h1, m, hm, rfl⟩ := h
    exact ⟨h1, hm.2.2.2.2.1, hm.2.2.2.2.2.1⟩
  reduce is hne hV := by
    obtain ⟨r, e, hR⟩ := viewReduce_ok h room K is hne hV
    exact ⟨r, e, hR, Nat.lt_of_le_of_lt (Nat.le_trans hR.1 room.2) (by decide)⟩
  rereduce cs hne hR := by
    obtain ⟨r, e, hR⟩ := viewRereduce_ok h room K cs hne hR
    exact ⟨r, e, hR, Nat.lt_of_le_of_lt (Nat.le_trans hR.1 room.2) (by decide)⟩
  thr := ha
  fetch cb hcb := by cases hcb

/-! ### Purging -/

/-- What a cleanup decides about an entry of a partition. -/
def cleanupAct (cleanup : Bytes) (p : Nat) : PurgeAct := if hasPart cleanup p then .item else .keep

theorem purgeList_cleanup {cleanup : Bytes} (part : KV → Nat) (kvs : List KV) :
    purgeList (fun kv => cleanupAct cleanup (part kv)) kvs = (kvs.filter fun kv => !hasPart cleanup (part kv), true) := by
  induction kvs with
  | nil => rfl
  | cons kv kvs ih =>
    simp only [purgeList, cleanupAct]
    by_cases h : hasPart cleanup (part kv) = true
    · simp only [h, if_true]
      simp only [cleanupAct] at ih
      rw [ih]
      simp [h]
    · simp only [h]
      simp only [cleanupAct] at ih
      simp only [Bool.false_eq_true, if_false]
      rw [ih]
      simp [h]

theorem purgeKvAction_ok {cleanup : Bytes} (hc : cleanup.length = 128) {p : Nat} (hp : p < 1024) (n u : Nat) :
    purgeKvAction cleanup p n u =
      .ok (if hasPart cleanup p then (u + n) % 2 ^ 64 else u, cleanupAct cleanup p) := by
  unfold purgeKvAction cleanupAct
  rw [isBitSet_ok hc hp]
  cases hasPart cleanup p <;> rfl

/-- The answer for a subtree whose reduction has the partitions of its entries. -/
theorem purgeKpAction_ok {cleanup bm : Bytes} (hc : cleanup.length = 128) (hb : bm.length = 128) (part : KV → Nat)
    (kvs : List KV) (hbm : ∀ p, hasPart bm p = true ↔ ∃ kv ∈ kvs, part kv = p) (n u : Nat) :
    Agrees (fun kv => cleanupAct cleanup (part kv)) kvs (purgeKpAction cleanup bm n u).2 ∧
      ((purgeKpAction cleanup bm n u).2 = .item ∧ (purgeKpAction cleanup bm n u).1 = (u + n) % 2 ^ 64 ∧
          (∀ kv ∈ kvs, hasPart cleanup (part kv) = true) ∨
        (purgeKpAction cleanup bm n u).2 = .keep ∧ (purgeKpAction cleanup bm n u).1 = u ∧
          (∀ kv ∈ kvs, hasPart cleanup (part kv) = false) ∨
        (purgeKpAction cleanup bm n u).2 = .part ∧ (purgeKpAction cleanup bm n u).1 = u) := by
  unfold purgeKpAction
  by_cases h1 : isEqualBitmap bm cleanup = true
  · rw [if_pos h1]
    have he : bm = cleanup := by simpa [isEqualBitmap] using h1
    have hall : ∀ kv ∈ kvs, hasPart cleanup (part kv) = true := by
      intro kv hkv
      rw [← he]
      exact (hbm _).mpr ⟨kv, hkv, rfl⟩
    refine ⟨?_, Or.inl ⟨rfl, rfl, hall⟩⟩
    show purgeList _ _ = _
    rw [purgeList_cleanup part kvs, List.filter_eq_nil_iff.mpr (fun kv h => by simp [hall kv h])]
  · rw [if_neg h1]
    by_cases h2 : isEqualBitmap (intersectBitmaps cleanup bm) emptyBitmap = true
    · rw [if_pos h2]
      have he : intersectBitmaps cleanup bm = emptyBitmap := by simpa [isEqualBitmap] using h2
      have hnone : ∀ kv ∈ kvs, hasPart cleanup (part kv) = false := by
        intro kv hkv
        have a := (intersect_parts hc hb (part kv)).2
        rw [he, emptyBitmap_parts, (hbm _).mpr ⟨kv, hkv, rfl⟩] at a
        simpa using a.symm
      refine ⟨?_, Or.inr (Or.inl ⟨rfl, rfl, hnone⟩)⟩
      show purgeList _ _ = _
      rw [purgeList_cleanup part kvs, List.filter_eq_self.mpr (fun kv h => by simp [hnone kv h])]
    · rw [if_neg h2]
      refine ⟨?_, Or.inr (Or.inr ⟨rfl, rfl⟩)⟩
      show (purgeList _ _).1 ≠ _
      rw [purgeList_cleanup part kvs]
      intro hf
      apply h2
      have hall := List.filter_eq_self.mp hf
      have : intersectBitmaps cleanup bm = emptyBitmap := by
        apply bitmap_ext (by rw [(intersect_parts hc hb 0).1]; simp [emptyBitmap])
        intro p
        rw [(intersect_parts hc hb p).2, emptyBitmap_parts]
        by_cases hp : hasPart bm p = true
        · obtain ⟨kv, hkv, rfl⟩ := (hbm p).mp hp
          have := hall kv hkv
          simp only [Bool.not_eq_true'] at this
          simp [this]
        · simp [hp]
      simp [isEqualBitmap, this]

theorem viewIdRq_purgeOk {kmax : Nat} (a b : Nat) {cleanup : Bytes} (hc : cleanup.length = 128) :
    PurgeOk (viewIdRq a b cleanup) (viewIdIdx kmax) (fun kv => cleanupAct cleanup (idPart kv)) where
  kv := by
    refine ⟨_, rfl, fun u k v h => ?_⟩
    have h2 : 2 ≤ v.length := h.2.2.1
    have h3 : beDec (v.take 2) < 1024 := h.2.2.2
    simp only [viewIdPurgeKv, decodePartition, if_neg (show ¬ v.length < 2 by omega)]
    rw [purgeKvAction_ok hc h3]
    exact ⟨_, rfl⟩
  part kv _ := by simp only [cleanupAct]; split <;> simp
  kp := by
    refine ⟨_, rfl, fun u p kvs hne hV hR => ?_⟩
    obtain ⟨-, n, bm, hd, -, hl, hp⟩ := hR
    simp only [viewIdPurgeKp, hd]
    exact ⟨_, _, rfl, (purgeKpAction_ok hc hl idPart kvs hp n u).1⟩

/-- The count of the entries purged by a cleanup, for less than 2^40 entries. -/
def IdTally (cleanup : Bytes) (u v : Nat) (kvs : List KV) : Prop :=
  kvs.length < 2 ^ 40 → u + (kvs.filter fun kv => hasPart cleanup (idPart kv)).length < 2 ^ 64 →
    v = u + (kvs.filter fun kv => hasPart cleanup (idPart kv)).length

theorem viewIdRq_tally {kmax : Nat} (a b : Nat) {cleanup : Bytes} (hc : cleanup.length = 128) :
    PurgeTally (viewIdRq a b cleanup) (viewIdIdx kmax) (IdTally cleanup) where
  nil u := by simp [IdTally]
  append u v w a b h1 h2 := by
    simp only [IdTally, List.filter_append, List.length_append] at h1 h2 ⊢
    intro b1 b2
    have h1 := h1 (by omega) (by omega)
    have h2 := h2 (by omega) (by omega)
    omega
  kv cb hcb u k v u' a h he := by
    injection hcb with hcb
    subst hcb
    have h2 : 2 ≤ v.length := h.2.2.1
    have h3 : beDec (v.take 2) < 1024 := h.2.2.2
    simp only [viewIdPurgeKv, decodePartition, if_neg (show ¬ v.length < 2 by omega)] at he
    rw [purgeKvAction_ok hc h3] at he
    injection he with he
    injection he with he _
    subst he
    simp only [IdTally, idPart, List.filter_cons, List.filter_nil]
    split
    · simp only [List.length_cons, List.length_nil]
      intro _ hb
      exact Nat.mod_eq_of_lt hb
    · simp
  kp cb hcb u p kvs u' a hne hV hR he := by
    injection hcb with hcb
    subst hcb
    obtain ⟨-, n, bm, hd, hn, hl, hp⟩ := hR
    simp only [viewIdPurgeKp, hd] at he
    injection he with he
    have h0 := (purgeKpAction_ok hc hl idPart kvs hp n u).2
    rw [he] at h0
    simp only at h0
    rcases h0 with ⟨rfl, h1, h2⟩ | ⟨rfl, h1, h2⟩ | ⟨rfl, h1⟩
    · simp only [IdTally, h1]
      rw [if_neg (by decide), List.filter_eq_self.mpr h2]
      intro b1 b2
      rw [hn, Nat.mod_eq_of_lt b1, Nat.mod_eq_of_lt b2]
    · simp only [IdTally, h1]
      rw [if_neg (by decide), List.filter_eq_nil_iff.mpr (fun kv h => by simp [h2 kv h])]
      simp
    · simp [IdTally, h1]

theorem Emit.idPart_kv {specs : List ReducerSpec} {m : Emit} (h : m.Fits specs) : idPart m.kv = m.part := by
  have hl : (enc16 m.part).length = 2 := length_beEnc _ _
  have := h.2.1
  unfold idPart Emit.kv encodeViewValue
  simp only [take_append_len hl]
  exact beDec_beEnc 2 _ (by omega)

theorem viewReduction_bitmap {r : Bytes} {x : ViewReduction} (h : decodeViewReduction r = .ok x) :
    decodeReductionBitmap r = .ok (x.kvCount, x.partitions) := by
  unfold decodeViewReduction at h
  split at h
  · cases h
  · rename_i n bm hd
    split at h
    · cases h
    · split at h
      · cases h; exact hd
      · split at h
        · cases h
        · cases h; exact hd

theorem viewRq_purgeOk {D : Type} [LinearOrder D] (e : CollateEnv D) (K : Bytes → Prop) (rs : List Reducer)
    (specs : List ReducerSpec) (a b : Nat) {cleanup : Bytes} (hc : cleanup.length = 128) :
    PurgeOk (viewRq e rs a b cleanup) (viewIdx K specs) (fun kv => cleanupAct cleanup (idPart kv)) where
  kv := by
    refine ⟨_, rfl, fun u k v h => ?_⟩
    obtain ⟨-, m, hm, he⟩ := h
    have hv : v = m.kv.2 := by rw [← he]
    have hp : idPart (k, v) = m.part := by rw [he, Emit.idPart_kv hm]
    simp only [viewPurgeKv, hv, (Emit.decode hm).2.2]
    rw [purgeKvAction_ok hc hm.2.1, ← hv, hp]
    exact ⟨_, rfl⟩
  part kv _ := by simp only [cleanupAct]; split <;> simp
  kp := by
    refine ⟨_, rfl, fun u p kvs hne hV hR => ?_⟩
    obtain ⟨-, ms, x, rfl, hms, hd, ⟨-, hl, hp, -⟩, -⟩ := hR
    simp only [viewPurgeKp, viewReduction_bitmap hd]
    refine ⟨_, _, rfl, (purgeKpAction_ok hc hl idPart _ (fun q => ?_) _ u).1⟩
    rw [hp]
    constructor
    · rintro ⟨m, hm, rfl⟩
      exact ⟨m.kv, List.mem_map.mpr ⟨m, hm, rfl⟩, Emit.idPart_kv (hms m hm)⟩
    · rintro ⟨kv, hkv, rfl⟩
      obtain ⟨m, hm, rfl⟩ := List.mem_map.mp hkv
      exact ⟨m, hm, (Emit.idPart_kv (hms m hm)).symm⟩

/-- The count of the values purged by a cleanup, for less than 2^40 values. -/
def ViewTally (specs : List ReducerSpec) (cleanup : Bytes) (u v : Nat) (kvs : List KV) : Prop :=
  ∀ ms : List Emit, kvs = ms.map Emit.kv → (∀ m ∈ ms, m.Fits specs) →
    (ms.map fun m => m.values.length).sum < 2 ^ 40 → u + goneValues cleanup ms < 2 ^ 64 →
    v = u + goneValues cleanup ms

theorem viewRq_tally {D : Type} [LinearOrder D] (e : CollateEnv D) (K : Bytes → Prop) (rs : List Reducer)
    (specs : List ReducerSpec) (a b : Nat) {cleanup : Bytes} (hc : cleanup.length = 128) :
    PurgeTally (viewRq e rs a b cleanup) (viewIdx K specs) (ViewTally specs cleanup) where
  nil u ms h _ := by
    cases ms with
    | nil => simp [goneValues]
    | cons m ms => simp at h
  append u v w a b h1 h2 ms h hf := by
    obtain ⟨l1, l2, rfl, rfl, rfl⟩ := List.map_eq_append_iff.mp h.symm
    have a := h1 l1 rfl (fun m hm => hf m (by simp [hm]))
    have b := h2 l2 rfl (fun m hm => hf m (by simp [hm]))
    simp only [goneValues, List.filter_append, List.map_append, List.sum_append] at a b ⊢
    intro b1 b2
    have a := a (by omega) (by omega)
    have b := b (by omega) (by omega)
    omega
  kv cb hcb u k v u' a h he ms hms hf := by
    injection hcb with hcb
    subst hcb
    obtain ⟨-, m, hm, hkv⟩ := h
    have : ms = [m] := by
      refine Emit.map_kv_inj hf (bs := [m]) ?_ ?_
      · intro m' hm'; simp at hm'; subst hm'; exact hm
      · rw [← hms, hkv]; rfl
    subst this
    have hv : v = m.kv.2 := by rw [← hkv]
    simp only [viewPurgeKv, hv, (Emit.decode hm).2.2] at he
    rw [purgeKvAction_ok hc hm.2.1] at he
    injection he with he
    injection he with he _
    subst he
    simp only [goneValues, List.filter_cons, List.filter_nil]
    split
    · simp only [List.map_cons, List.map_nil, List.sum_cons, List.sum_nil, Nat.add_zero]
      intro _ hb
      exact Nat.mod_eq_of_lt hb
    · simp
  kp cb hcb u p kvs u' a hne hV hR he ms hms hf := by
    injection hcb with hcb
    subst hcb
    obtain ⟨-, ms', x, hkv, hms', hd, ⟨hn, hl, hp, -⟩, -⟩ := hR
    simp only [viewPurgeKp, viewReduction_bitmap hd] at he
    injection he with he
    have hbm : ∀ q, hasPart x.partitions q = true ↔ ∃ kv ∈ kvs, idPart kv = q := by
      intro q
      rw [hp, hkv]
      constructor
      · rintro ⟨m, hm, rfl⟩
        exact ⟨m.kv, List.mem_map.mpr ⟨m, hm, rfl⟩, Emit.idPart_kv (hms' m hm)⟩
      · rintro ⟨kv, hkv, rfl⟩
        obtain ⟨m, hm, rfl⟩ := List.mem_map.mp hkv
        exact ⟨m, hm, (Emit.idPart_kv (hms' m hm)).symm⟩
    have h0 := (purgeKpAction_ok hc hl idPart kvs hbm x.kvCount u).2
    rw [he] at h0
    simp only at h0
    have part : ∀ m ∈ ms', ∀ b, (∀ kv ∈ kvs, hasPart cleanup (idPart kv) = b) → hasPart cleanup m.part = b := by
      intro m hm b hb
      rw [← Emit.idPart_kv (hms' m hm)]
      exact hb _ (by rw [hkv]; exact List.mem_map.mpr ⟨m, hm, rfl⟩)
    rcases h0 with ⟨rfl, h1, h2⟩ | ⟨rfl, h1, h2⟩ | ⟨rfl, h1⟩
    · rw [if_neg (by decide)] at hms
      have := Emit.map_kv_inj hf hms' (hms ▸ hkv)
      subst this
      rw [h1]
      unfold goneValues
      rw [List.filter_eq_self.mpr (fun m hm => part m hm _ h2)]
      intro b1 b2
      rw [hn, Nat.mod_eq_of_lt b1, Nat.mod_eq_of_lt b2]
    · rw [if_neg (by decide)] at hms
      have := Emit.map_kv_inj hf hms' (hms ▸ hkv)
      subst this
      rw [h1]
      unfold goneValues
      rw [List.filter_eq_nil_iff.mpr (fun m hm => by simp [part m hm _ h2])]
      simp
    · rw [if_pos rfl] at hms
      cases ms with
      | nil => simp [goneValues, h1]
      | cons m ms => simp at hms

end Couchstore
