import Verif.Spec.Index
import Verif.Lemmas.DocInfo
import Verif.Lemmas.Order
import Verif.Model.Db

/-! Helper lemmas: the reductions of the database's indexes can always be computed and describe
the entries. -/

namespace Couchstore

theorem beEnc_congr {w a b : Nat} (h : a % 256 ^ w = b % 256 ^ w) : beEnc w a = beEnc w b := by
  rw [← beEnc_mod w a w (Nat.le_refl _), ← beEnc_mod w b w (Nat.le_refl _), h]

theorem length_assembleId (d : DocInfo) : (assembleIdIndexValue d).length = 23 + d.revMeta.length := by
  simp [assembleIdIndexValue]; omega

theorem length_assembleSeq (d : DocInfo) :
    (assembleSeqIndexValue d).length = 18 + d.id.length + d.revMeta.length := by
  simp [assembleSeqIndexValue, encodeKvLength_length]; omega

theorem length_encodeByIdReduce (r : IdReduce) : (encodeByIdReduce r).length = 16 := by
  simp [encodeByIdReduce]

theorem slice_encodeByIdReduce (r : IdReduce) :
    slice (encodeByIdReduce r) 0 5 = enc40 r.notDeleted ∧
    slice (encodeByIdReduce r) 5 5 = enc40 r.deleted ∧
    slice (encodeByIdReduce r) 10 6 = enc48 r.size := by
  unfold encodeByIdReduce
  refine ⟨?_, ?_, ?_⟩
  · rw [List.append_assoc]; exact slice_prefix _ _ _ (by simp)
  · rw [List.append_assoc, slice_cons_app _ _ _ _ (by simp)]; exact slice_prefix _ _ _ (by simp)
  · rw [slice_cons_app _ _ _ _ (by simp)]; exact slice_self _ _ (by simp)

/-- The fields of a stored entry. -/
theorem byId_fields (d : DocInfo) (h : d.Fits) :
    beDec (slice (assembleIdIndexValue d) 0 6) = d.dbSeq ∧
    beDec (slice (assembleIdIndexValue d) 6 4) = d.physicalSize ∧
    (beDec (slice (assembleIdIndexValue d) 10 6) &&& bpDeletedFlag ≠ 0 ↔ d.deleted = true) := by
  have hl : ¬ (assembleIdIndexValue d).length < 23 := by rw [length_assembleId]; omega
  have hr := byId_roundtrip d h
  unfold byIdReadDocInfo at hr
  rw [if_neg hl] at hr
  injection hr with hr
  refine ⟨congrArg DocInfo.dbSeq hr, congrArg DocInfo.physicalSize hr, ?_⟩
  have := congrArg DocInfo.deleted hr
  simp only at this
  rw [← this]
  simp

theorem byIdReduceLoop_spec (ds : List DocInfo) (hd : ∀ d ∈ ds, DocOk d) (is : List Item)
    (hi : is.map (fun i => (i.key, i.data)) = ds.map idKV) (acc : IdReduce) :
    byIdReduceLoop is acc = .ok ⟨acc.notDeleted + (docStats ds).notDeleted,
      acc.deleted + (docStats ds).deleted, acc.size + (docStats ds).size⟩ := by
  induction ds generalizing is acc with
  | nil =>
    cases is with
    | nil => simp [byIdReduceLoop, docStats]
    | cons => simp at hi
  | cons d ds ih =>
    cases is with
    | nil => simp at hi
    | cons i is =>
      simp only [List.map_cons, List.cons.injEq] at hi
      obtain ⟨h1, h2⟩ := hi
      have hdata : i.data = assembleIdIndexValue d := by
        have := congrArg Prod.snd h1; exact this
      obtain ⟨-, hsz, hdel⟩ := byId_fields d (hd d (by simp)).fits
      unfold byIdReduceLoop
      rw [hdata, if_neg (by rw [length_assembleId]; omega)]
      simp only
      rw [ih (fun d hd' => hd d (by simp [hd'])) is h2, hsz]
      by_cases hb : d.deleted = true
      · rw [if_pos (hdel.mpr hb)]
        simp [docStats, hb]
        omega
      · rw [if_neg (fun h => hb (hdel.mp h))]
        simp [docStats, hb]
        omega

theorem ds_of_V {kvs : List KV} (h : ∀ kv ∈ kvs, Idx.byId.V kv) :
    ∃ ds : List DocInfo, (∀ d ∈ ds, DocOk d) ∧ kvs = ds.map idKV := by
  induction kvs with
  | nil => exact ⟨[], by simp, rfl⟩
  | cons kv kvs ih =>
    obtain ⟨d, h1, h2⟩ := h kv (by simp)
    obtain ⟨ds, h3, h4⟩ := ih (fun kv hkv => h kv (by simp [hkv]))
    refine ⟨d :: ds, ?_, by simp [h2, h4]⟩
    intro x hx
    rcases List.mem_cons.mp hx with rfl | hx
    · exact h1
    · exact h3 x hx

/-- Congruence of statistics modulo the field widths. -/
def StatsCong (a b : IdReduce) : Prop :=
  a.notDeleted % 256 ^ 5 = b.notDeleted % 256 ^ 5 ∧ a.deleted % 256 ^ 5 = b.deleted % 256 ^ 5 ∧
    a.size % 256 ^ 6 = b.size % 256 ^ 6

theorem encodeByIdReduce_congr {a b : IdReduce} (h : StatsCong a b) :
    encodeByIdReduce a = encodeByIdReduce b := by
  unfold encodeByIdReduce
  rw [show enc40 a.notDeleted = enc40 b.notDeleted from beEnc_congr h.1,
    show enc40 a.deleted = enc40 b.deleted from beEnc_congr h.2.1,
    show enc48 a.size = enc48 b.size from beEnc_congr h.2.2]

theorem docStats_append (a b : List DocInfo) :
    docStats (a ++ b) = ⟨(docStats a).notDeleted + (docStats b).notDeleted,
      (docStats a).deleted + (docStats b).deleted, (docStats a).size + (docStats b).size⟩ := by
  simp [docStats]

theorem byIdRereduceLoop_spec (cs : List (NodePointer × List KV))
    (hc : ∀ c ∈ cs, Idx.byId.R c.2 c.1.reduceValue) (acc : IdReduce) :
    ∃ ds r, (∀ d ∈ ds, DocOk d) ∧ cs.flatMap (·.2) = ds.map idKV ∧
      byIdRereduceLoop (cs.map fun c => ptrItem c.1) acc = .ok r ∧
      StatsCong r ⟨acc.notDeleted + (docStats ds).notDeleted,
        acc.deleted + (docStats ds).deleted, acc.size + (docStats ds).size⟩ := by
  induction cs generalizing acc with
  | nil => exact ⟨[], acc, by simp, rfl, rfl, by simp [docStats, StatsCong]⟩
  | cons c cs ih =>
    obtain ⟨ds1, h1, h2, h3⟩ := hc c (by simp)
    obtain ⟨e1, e2, e3⟩ := slice_encodeByIdReduce (docStats ds1)
    obtain ⟨ds, r, k1, k2, k3, k4⟩ := ih (fun c hc' => hc c (by simp [hc']))
      { notDeleted := acc.notDeleted + beDec (slice (encodeByIdReduce (docStats ds1)) 0 5)
        deleted := acc.deleted + beDec (slice (encodeByIdReduce (docStats ds1)) 5 5)
        size := acc.size + beDec (slice (encodeByIdReduce (docStats ds1)) 10 6) }
    refine ⟨ds1 ++ ds, r, ?_, by simp [h2, k2], ?_, ?_⟩
    · intro d hd
      rcases List.mem_append.mp hd with hd | hd
      · exact h1 d hd
      · exact k1 d hd
    · rw [List.map_cons]
      unfold byIdRereduceLoop
      simp only [itemReduce, ptrItem, bind, Except.bind]
      rw [h3, if_neg (by rw [length_encodeByIdReduce]; omega)]
      exact k3
    · rw [docStats_append]
      rw [e1, e2, e3, beDec_beEnc_mod, beDec_beEnc_mod, beDec_beEnc_mod] at k4
      unfold StatsCong at *
      simp only at *
      omega

theorem idRq_ok {σ} (cfg : Cfg) (h : 2 ≤ cfg.kvThr) (n : Nat) (cb : Option (SaveCb σ)) :
    RqOk (idRq cfg n cb) (fun _ => True) Idx.byId where
  cmp := ebinCmp_laws
  entry kv h := by
    obtain ⟨d, hd, rfl⟩ := h
    refine ⟨trivial, hd.fits.id, ?_⟩
    show (assembleIdIndexValue d).length < _
    rw [length_assembleId]; have := hd.size; omega
  reduce is _ hV := by
    obtain ⟨ds, h1, h2⟩ := ds_of_V (kvs := is.map fun i => (i.key, i.data)) (by
      intro kv hkv
      obtain ⟨i, hi, rfl⟩ := List.mem_map.mp hkv
      exact hV i hi)
    refine ⟨encodeByIdReduce (docStats ds), ?_, ⟨ds, h1, h2, rfl⟩,
      by rw [length_encodeByIdReduce]; omega⟩
    show byIdReduce is = _
    unfold byIdReduce
    rw [byIdReduceLoop_spec ds h1 is h2]
    simp [bind, Except.bind]
  rereduce cs _ hc := by
    obtain ⟨ds, r, h1, h2, h3, h4⟩ := byIdRereduceLoop_spec cs hc ⟨0, 0, 0⟩
    refine ⟨encodeByIdReduce (docStats ds), ?_, ⟨ds, h1, h2, rfl⟩,
      by rw [length_encodeByIdReduce]; omega⟩
    show byIdRereduce _ = _
    unfold byIdRereduce
    rw [h3]
    simp only [bind, Except.bind]
    congr 1
    refine encodeByIdReduce_congr ?_
    simpa using h4
  thr := h
  fetch cb hcb u a v u' t ht he := by
    injection hcb with hcb
    subst hcb
    unfold idFetchUpdate at he
    cases v with
    | none =>
      injection he with he; injection he with h1 h2
      exact h2 ▸ ht
    | some v =>
      simp only at he
      split at he
      · simp at he
      · cases h1 : fatbufGet u.fb sizeofSizedBuf with
        | error e => rw [h1] at he; simp [bind, Except.bind] at he
        | ok fb =>
          rw [h1] at he
          simp only [bind, Except.bind] at he
          cases h2 : fatbufGet fb 6 with
          | error e => rw [h2] at he; simp at he
          | ok fb' =>
            rw [h2] at he
            simp only at he
            split at he
            · simp at he
            · injection he with he; injection he with _ h2
              exact h2 ▸ ht

theorem bySeqRereduceLoop_spec (cs : List (NodePointer × List KV))
    (hc : ∀ c ∈ cs, Idx.bySeq.R c.2 c.1.reduceValue) (acc : Nat) :
    ∃ r, bySeqRereduceLoop (cs.map fun c => ptrItem c.1) acc = .ok r ∧
      r % 256 ^ 5 = (acc + (cs.flatMap (·.2)).length) % 256 ^ 5 := by
  induction cs generalizing acc with
  | nil => exact ⟨acc, rfl, by simp⟩
  | cons c cs ih =>
    have h1 : c.1.reduceValue = enc40 c.2.length := hc c (by simp)
    obtain ⟨r, h2, h3⟩ := ih (fun c hc' => hc c (by simp [hc']))
      (acc + beDec (slice (enc40 c.2.length) 0 5))
    refine ⟨r, ?_, ?_⟩
    · rw [List.map_cons]
      unfold bySeqRereduceLoop
      simp only [itemReduce, ptrItem, bind, Except.bind]
      rw [h1, if_neg (by simp)]
      exact h2
    · rw [slice_self _ _ (by simp), beDec_beEnc_mod] at h3
      simp only [List.flatMap_cons, List.length_append]
      omega

theorem seqRq_ok (cfg : Cfg) (h : 2 ≤ cfg.kvThr) :
    RqOk (seqRq cfg) (fun k => k.length = 6) Idx.bySeq where
  cmp := seqCmp_laws
  entry kv h := by
    obtain ⟨d, hd, rfl⟩ := h
    refine ⟨by simp [seqKV], by simp [seqKV], ?_⟩
    show (assembleSeqIndexValue d).length < _
    rw [length_assembleSeq]; have := hd.size; omega
  reduce is _ _ := ⟨enc40 is.length, rfl, by show _ = _; simp, by simp⟩
  rereduce cs _ hc := by
    obtain ⟨r, h1, h2⟩ := bySeqRereduceLoop_spec cs hc 0
    refine ⟨enc40 (cs.flatMap (fun c : NodePointer × List KV => c.2)).length, ?_,
      show _ = _ from rfl, by simp⟩
    show bySeqRereduce _ = _
    unfold bySeqRereduce
    rw [h1]
    simp only [bind, Except.bind]
    congr 1
    exact beEnc_congr (by simpa using h2)
  thr := h
  fetch cb hcb := by simp [seqRq] at hcb

theorem localRq_ok (cfg : Cfg) (h : 2 ≤ cfg.kvThr) :
    RqOk (localRq cfg) (fun _ => True) Idx.loc where
  cmp := ebinCmp_laws
  entry kv h := ⟨trivial, h.1, h.2⟩
  reduce is _ _ := ⟨[], rfl, rfl, by decide⟩
  rereduce cs _ _ := ⟨[], rfl, rfl, by decide⟩
  thr := h
  fetch cb hcb := by simp [localRq] at hcb

theorem updateLocalRq_ok (cfg : Cfg) (h : 2 ≤ cfg.kvThr) :
    RqOk (updateLocalRq cfg) (fun _ => True) Idx.loc where
  cmp := ebinCmp_laws
  entry kv h := ⟨trivial, h.1, h.2⟩
  reduce is _ _ := ⟨[], rfl, rfl, by decide⟩
  rereduce cs _ _ := ⟨[], rfl, rfl, by decide⟩
  thr := h
  fetch cb hcb u a v u' t ht h := by
    simp only [updateLocalRq, Option.some.injEq] at hcb
    subst hcb
    unfold updateLocalFetch at h
    cases u with
    | nil => cases h
    | cons b rest =>
      dsimp only at h
      split at h
      · cases h
      · split at h
        · cases h; rfl
        · cases h; exact ht

end Couchstore
