import Verif.Lemmas.ViewUpdate4
import Verif.Props.IndexHeader

/-! C47: updates of a view group.  C48: the files with records for an update. -/

namespace Couchstore.Props
open Couchstore

/-- C47: an update that succeeds gives a header that has everything of the old one but the roots and the cleanup mask.
Its roots are those of indexes in the file.  For partitions that are not being cleaned up they have exactly what the
records and the old indexes say; of partitions that are being cleaned up, an index that had records has nothing but what
they brought; an index without records is as it was.  The new mask has exactly the partitions of the old one of which
something is left.  The old indexes are still there. -/
theorem C47_update_group {D : Type} [LinearOrder D] (e : CollateEnv D) (round : Rat → D) (ucol : Bytes → Bytes → Int)
    (H : e.Ok round ucol) (E : Env) (L : E.Laws) (hne : ∀ b, b ≠ [] → E.deflate b ≠ []) (kvThr kpThr : Nat) (ha : 2 ≤ kvThr)
    (junk : Bytes) (batchSize maxActs : Nat) (f g : File) (hcrc : f.cfg.crcMode ≠ .unknown) (buf : Bytes) (h : IndexHeader)
    (hd : decodeIndexHeader E buf = .ok h) (kmax : Nat) (hmax : kmax < 4096) (ids : List KV) (idRecs : List ViewRec)
    (views : List (View × List ViewRec)) (hg : IndexesAt E kmax f h ids (views.map (·.1))) (hs : SortedKV ebinCmp ids)
    (hi : RecsOk ebinCmp (fun _ => True) (viewIdIdx kmax).V idRecs)
    (hv : ∀ x ∈ views, x.1.Ok e ∧ SortedKV (viewBtreeCmp e) (x.1.emits.map Emit.kv) ∧
      RecsOk (viewBtreeCmp e) x.1.keys (viewIdx x.1.keys x.1.specs).V x.2 ∧ reductionMax x.1.specs + 12 < 2 ^ 16)
    (stats : UpdateStats) (out : Bytes)
    (hu : updateViewGroup E e kvThr kpThr junk batchSize maxActs buf (recFile idRecs)
      (views.map fun x => (x.1.reducers, recFile x.2)) f = .ok (stats, out) g) (hlen : g.disk.length ≤ 2 ^ 48) :
    IndexesAt E kmax g h ids (views.map (·.1)) ∧
    ∃ h' ids' views', decodeIndexHeader E out = .ok h' ∧
      h' = { h with idRoot := h'.idRoot, views := h'.views, cleanup := h'.cleanup } ∧
      IndexesAt E kmax g h' ids' views' ∧ Updated ebinCmp h.cleanup idRecs ids ids' ∧
      List.Forall₂ (fun (x : View × List ViewRec) v' => ∃ ms, v' = x.1.having ms ∧
        Updated (viewBtreeCmp e) h.cleanup x.2 (x.1.emits.map Emit.kv) (ms.map Emit.kv)) views views' ∧
      ∀ p, hasPart h'.cleanup p = true ↔ hasPart h.cleanup p = true ∧
        ((∃ kv ∈ ids', idPart kv = p) ∨ ∃ v ∈ views', ∃ m ∈ v.emits, m.part = p) := by
  obtain ⟨h1, h2⟩ := (updateViewGroup_spec E L hne e round ucol H kvThr kpThr ha junk batchSize maxActs f hcrc buf h hd hmax ids
    idRecs views hg hs hi fun x hx => ⟨⟨(hv x hx).1, (hv x hx).2.1, (hv x hx).2.2.1⟩, (hv x hx).2.2.2⟩).ok hu
  exact ⟨hg.grown h1, h2.indexes hlen⟩

/-- C47: the counts of an update: of the insertions and removals in the records, and of what was purged.  The latter is
not less than what is to go and no record names, and not more than all that is to go, if no record inserts something that
is to go. -/
theorem C47_update_stats {D : Type} [LinearOrder D] (e : CollateEnv D) (round : Rat → D) (ucol : Bytes → Bytes → Int)
    (H : e.Ok round ucol) (E : Env) (L : E.Laws) (hne : ∀ b, b ≠ [] → E.deflate b ≠ []) (kvThr kpThr : Nat) (ha : 2 ≤ kvThr)
    (junk : Bytes) (batchSize maxActs : Nat) (f g : File) (hcrc : f.cfg.crcMode ≠ .unknown) (buf : Bytes) (h : IndexHeader)
    (hd : decodeIndexHeader E buf = .ok h) (kmax : Nat) (hmax : kmax < 4096) (ids : List KV) (idRecs : List ViewRec)
    (views : List (View × List ViewRec)) (hg : IndexesAt E kmax f h ids (views.map (·.1))) (hs : SortedKV ebinCmp ids)
    (hi : RecsOk ebinCmp (fun _ => True) (viewIdIdx kmax).V idRecs)
    (hv : ∀ x ∈ views, x.1.Ok e ∧ SortedKV (viewBtreeCmp e) (x.1.emits.map Emit.kv) ∧
      RecsOk (viewBtreeCmp e) x.1.keys (viewIdx x.1.keys x.1.specs).V x.2 ∧ reductionMax x.1.specs + 12 < 2 ^ 16)
    (stats : UpdateStats) (out : Bytes)
    (hu : updateViewGroup E e kvThr kpThr junk batchSize maxActs buf (recFile idRecs)
      (views.map fun x => (x.1.reducers, recFile x.2)) f = .ok (stats, out) g) :
    stats.ids = countOps idRecs ∧
    stats.kvs = ⟨(views.map fun x => (countOps x.2).inserted).sum, (views.map fun x => (countOps x.2).removed).sum⟩ ∧
    (NoInsertInto h.cleanup idRecs → (∀ x ∈ views, NoInsertInto h.cleanup x.2) → ids.length + idRecs.length < 2 ^ 40 →
      (∀ x ∈ views, valueCount x.1.emits + valuesInserted x.2 < 2 ^ 40) →
      goneIds h.cleanup ids + (views.map fun x => goneValues h.cleanup x.1.emits).sum < 2 ^ 64 →
      leastIdsPurged h.cleanup idRecs ids + (views.map fun x => leastValuesPurged h.cleanup x.2 x.1.emits).sum ≤ stats.purged ∧
      stats.purged ≤ goneIds h.cleanup ids + (views.map fun x => goneValues h.cleanup x.1.emits).sum) := by
  obtain ⟨h1, h2⟩ := (updateViewGroup_spec E L hne e round ucol H kvThr kpThr ha junk batchSize maxActs f hcrc buf h hd hmax ids
    idRecs views hg hs hi fun x hx => ⟨⟨(hv x hx).1, (hv x hx).2.1, (hv x hx).2.2.1⟩, (hv x hx).2.2.2⟩).ok hu
  exact ⟨h2.idCount, h2.viewCount, fun n1 n2 n3 n4 => h2.purged n1 n3 fun x hx => ⟨n2 x hx, n4 x hx⟩⟩

/-- C47: an update that fails has met an I/O fault or a limit of the file format, and the indexes are there as they were. -/
theorem C47_update_failure {D : Type} [LinearOrder D] (e : CollateEnv D) (round : Rat → D) (ucol : Bytes → Bytes → Int)
    (H : e.Ok round ucol) (E : Env) (L : E.Laws) (hne : ∀ b, b ≠ [] → E.deflate b ≠ []) (kvThr kpThr : Nat) (ha : 2 ≤ kvThr)
    (junk : Bytes) (batchSize maxActs : Nat) (f g : File) (hcrc : f.cfg.crcMode ≠ .unknown) (buf : Bytes) (h : IndexHeader)
    (hd : decodeIndexHeader E buf = .ok h) (kmax : Nat) (hmax : kmax < 4096) (ids : List KV) (idRecs : List ViewRec)
    (views : List (View × List ViewRec)) (hg : IndexesAt E kmax f h ids (views.map (·.1))) (hs : SortedKV ebinCmp ids)
    (hi : RecsOk ebinCmp (fun _ => True) (viewIdIdx kmax).V idRecs)
    (hv : ∀ x ∈ views, x.1.Ok e ∧ SortedKV (viewBtreeCmp e) (x.1.emits.map Emit.kv) ∧
      RecsOk (viewBtreeCmp e) x.1.keys (viewIdx x.1.keys x.1.specs).V x.2 ∧ reductionMax x.1.specs + 12 < 2 ^ 16)
    (er : Err)
    (hu : updateViewGroup E e kvThr kpThr junk batchSize maxActs buf (recFile idRecs)
      (views.map fun x => (x.1.reducers, recFile x.2)) f = .error er g) :
    (f.faults ≠ [] ∨ er = .formatLimit) ∧ IndexesAt E kmax g h ids (views.map (·.1)) := by
  obtain ⟨h1, h2⟩ := (updateViewGroup_spec E L hne e round ucol H kvThr kpThr ha junk batchSize maxActs f hcrc buf h hd hmax ids
    idRecs views hg hs hi fun x hx => ⟨⟨(hv x hx).1, (hv x hx).2.1, (hv x hx).2.2.1⟩, (hv x hx).2.2.2⟩).error hu
  exact ⟨h2, hg.grown h1⟩

/-- Two lists in the same strict order with the same members are equal. -/
theorem sorted_same {cmp : Bytes → Bytes → Ordering} {K : Bytes → Prop} (C : CmpLaws cmp K) {a b : List KV}
    (ha : SortedKV cmp a) (hb : SortedKV cmp b) (ka : ∀ kv ∈ a, K kv.1) (kb : ∀ kv ∈ b, K kv.1)
    (h : ∀ kv, kv ∈ a ↔ kv ∈ b) : a = b := by
  induction a generalizing b with
  | nil =>
    cases b with
    | nil => rfl
    | cons y b => exact absurd ((h y).mpr (by simp)) (by simp)
  | cons x a ih =>
    cases b with
    | nil => exact absurd ((h x).mp (by simp)) (by simp)
    | cons y b =>
      have irr : ∀ kv ∈ x :: a, cmp kv.1 kv.1 ≠ .lt := fun kv hkv e => C.ne (ka kv hkv) e rfl
      have hxy : x = y := by
        rcases List.mem_cons.mp ((h x).mp (by simp)) with e | hx
        · exact e
        · rcases List.mem_cons.mp ((h y).mpr (by simp)) with e | hy
          · exact e.symm
          · exact absurd (C.trans _ _ _ (ka x (by simp)) (kb y (by simp)) (ka x (by simp)) (ha.head_lt y hy)
              (hb.head_lt x hx)) (irr x (by simp))
      subst hxy
      congr 1
      refine ih ha.tail hb.tail (fun kv hkv => ka kv (by simp [hkv])) (fun kv hkv => kb kv (by simp [hkv])) fun kv => ?_
      constructor
      · intro hkv
        rcases List.mem_cons.mp ((h kv).mp (by simp [hkv])) with rfl | h2
        · exact absurd (ha.head_lt kv hkv) (irr kv (by simp))
        · exact h2
      · intro hkv
        rcases List.mem_cons.mp ((h kv).mpr (by simp [hkv])) with rfl | h2
        · exact absurd (hb.head_lt kv hkv) (irr kv (by simp))
        · exact h2

/-- C47: what an update is to give is determined, so that sizes of batches do not matter, if no record inserts something
that is to go (in particular if nothing is being cleaned up). -/
theorem C47_update_determined {cmp : Bytes → Bytes → Ordering} {K : Bytes → Prop} (C : CmpLaws cmp K) (cleanup : Bytes)
    (recs : List ViewRec) (old a b : List KV) (ka : ∀ kv ∈ a, K kv.1) (kb : ∀ kv ∈ b, K kv.1) (hn : NoInsertInto cleanup recs)
    (ha : Updated cmp cleanup recs old a) (hb : Updated cmp cleanup recs old b) : a = b := by
  by_cases hr : recs = []
  · rw [ha.unchanged hr, hb.unchanged hr]
  · have no : ∀ {x : List KV}, Updated cmp cleanup recs old x → ∀ kv ∈ x, hasPart cleanup (idPart kv) = false := by
      intro x hx kv hkv
      cases hc : hasPart cleanup (idPart kv) with
      | false => rfl
      | true =>
        have := hx.cleaned hr kv hkv hc
        unfold Applied at this
        cases hl : lastRec recs kv.1 with
        | none => rw [hl] at this; cases this
        | some r =>
          rw [hl] at this
          obtain ⟨h1, h2⟩ := this
          obtain ⟨h3, h4⟩ := lastRec_mem hl
          have := hn r h3 h1
          rw [h4, h2] at this
          exact absurd hc (by rw [this]; simp)
    refine sorted_same C ha.sorted hb.sorted ka kb fun kv => ?_
    constructor
    · intro h
      exact (hb.others kv (no ha kv h)).mpr ((ha.others kv (no ha kv h)).mp h)
    · intro h
      exact (ha.others kv (no hb kv h)).mpr ((hb.others kv (no hb kv h)).mp h)

/-! ### Files with records -/

/-- C48: the records that were written into a file are read one after the other, up to its end. -/
theorem C48_read_records (recs : List ViewRec) (h : ∀ r ∈ recs, 0 < r.key.length ∧ r.key.length < 2 ^ 16 ∧ r.val.length < 2 ^ 30)
    (n : Nat) (hn : n ≤ recs.length) : readRecord (recFile (recs.drop n)) = match recs[n]? with
      | some r => .record r (recFile (recs.drop (n + 1))).bytes
      | none => .last := by
  by_cases hl : n = recs.length
  · subst hl
    rw [List.drop_length, List.getElem?_eq_none (Nat.le_refl _)]
    rfl
  · have hlt : n < recs.length := by omega
    rw [List.getElem?_eq_getElem hlt, List.drop_eq_getElem_cons hlt]
    unfold recFile
    rw [List.flatMap_cons]
    exact readRecord_cons _ _ true (h _ (List.getElem_mem hlt))

/-- A record that is cut after its length is refused. -/
theorem readRecord_cut (r : ViewRec) (h : 0 < r.key.length ∧ r.key.length < 2 ^ 16 ∧ r.val.length < 2 ^ 30) (n : Nat)
    (h1 : 4 ≤ n) (h2 : n < (encodeRec r).length) (eof : Bool) : readRecord ⟨(encodeRec r).take n, eof⟩ = .fail := by
  obtain ⟨k0, k1, k2⟩ := h
  have hl : (leEnc32 (3 + r.key.length + r.val.length)).length = 4 := by
    rw [leEnc32, List.length_reverse, enc32, length_beEnc]
  have hd : beDec (leEnc32 (3 + r.key.length + r.val.length)).reverse = 3 + r.key.length + r.val.length := by
    rw [leEnc32, List.reverse_reverse]
    exact beDec_beEnc 4 _ (by omega)
  have hk : beDec (enc16 r.key.length) = r.key.length := beDec_beEnc 2 _ (by omega)
  have hkl : (enc16 r.key.length).length = 2 := length_beEnc _ _
  obtain ⟨a, b, hk2⟩ : ∃ a b, enc16 r.key.length = [a, b] := by
    match enc16 r.key.length, hkl with
    | [a, b], _ => exact ⟨a, b, rfl⟩
  have e : encodeRec r = leEnc32 (3 + r.key.length + r.val.length) ++ (r.op :: a :: b :: (r.key ++ r.val)) := by
    unfold encodeRec
    rw [hk2]; simp
  rw [hk2] at hk
  have ht : (encodeRec r).take n = leEnc32 (3 + r.key.length + r.val.length) ++ (r.op :: a :: b :: (r.key ++ r.val)).take (n - 4) := by
    rw [e, List.take_append, hl, List.take_of_length_le (by omega)]
  unfold readRecord
  rw [if_neg (by rw [List.length_take]; omega)]
  simp only [ht, List.take_left' hl, List.drop_left' hl, hd]
  match hm : n - 4 with
  | 0 => rfl
  | 1 => rfl
  | 2 => rfl
  | m + 3 =>
    simp only [List.take_succ_cons, hk]
    have hv : (3 + r.key.length + r.val.length + 2 ^ 32 - 3 - r.key.length) % 2 ^ 32 = r.val.length := by omega
    rw [if_pos]
    rw [hv, List.length_take, List.length_append]
    rw [e] at h2
    simp only [List.length_append, hl, List.length_cons] at h2
    omega

theorem updateLoop_cut {σ : Type} (E : Env) (rq : Rq σ) (batchSize maxActs : Nat) (eof : Bool) (tail : Bytes)
    (ht : readRecord ⟨tail, eof⟩ = .fail) : ∀ (n : Nat) (recs : List ViewRec)
    (_ : ∀ r ∈ recs, 0 < r.key.length ∧ r.key.length < 2 ^ 16 ∧ r.val.length < 2 ^ 30) (acts : List Action) (size : Nat)
    (c : OpCount) (st : St σ) (root : Option NodePointer) (f : File) (x) (g : File),
    updateLoop E rq batchSize maxActs eof n (recs.flatMap encodeRec ++ tail) acts size c st root f ≠ .ok x g := by
  intro n
  induction n with
  | zero => intro recs _ acts size c st root f x g h; cases h
  | succ n ih =>
    intro recs hr acts size c st root f x g h
    unfold updateLoop at h
    cases recs with
    | nil =>
      simp only [List.flatMap_nil, List.nil_append, ht] at h
      cases h
    | cons r recs =>
      rw [List.flatMap_cons, List.append_assoc, readRecord_cons r _ eof (hr r (by simp))] at h
      simp only at h
      cases ha : actionOf r.op with
      | none => rw [ha] at h; cases h
      | some t =>
        rw [ha] at h
        simp only at h
        have ih := ih recs fun y hy => hr y (by simp [hy])
        split at h
        · change EStateM.bind _ _ f = _ at h
          unfold EStateM.bind at h
          cases hm : modifyBtree E rq root (acts ++ [⟨t, r.key, r.val, 0⟩]) st f with
          | error er g1 => rw [hm] at h; cases h
          | ok y g1 => rw [hm] at h; exact ih _ _ _ _ _ _ _ _ h
        · exact ih _ _ _ _ _ _ _ _ h

/-- C48 but for files cut within a length (`C48_cut_length_ignored`): a file that ends in the middle of a record, after the length of the record, or that cannot be read to its end, is
refused: an update of an index from it does not succeed. -/
theorem C48_cut_record_refused_partial (E : Env) (rq : Rq Nat) (cleanup : Bytes) (batchSize maxActs : Nat) (recs : List ViewRec)
    (hr : ∀ r ∈ recs, 0 < r.key.length ∧ r.key.length < 2 ^ 16 ∧ r.val.length < 2 ^ 30) (r : ViewRec)
    (hl : 0 < r.key.length ∧ r.key.length < 2 ^ 16 ∧ r.val.length < 2 ^ 30) (n : Nat) (h2 : n < (encodeRec r).length) (eof : Bool)
    (h1 : 4 ≤ n ∨ eof = false) (root : Option NodePointer) (count : Nat) (c : OpCount) (f : File) (x) (g : File) :
    updateBtree E rq cleanup batchSize maxActs ⟨recs.flatMap encodeRec ++ (encodeRec r).take n, eof⟩ root count c f ≠ .ok x g := by
  intro h
  unfold updateBtree at h
  change EStateM.bind _ _ f = _ at h
  unfold EStateM.bind at h
  have ht : readRecord ⟨(encodeRec r).take n, eof⟩ = .fail := by
    by_cases h4 : 4 ≤ n
    · exact readRecord_cut r hl n h4 h2 eof
    · rcases h1 with h1 | rfl
      · exact absurd h1 h4
      · unfold readRecord
        rw [if_pos (by rw [List.length_take]; omega)]
        rfl
  cases hm : updateLoop E rq batchSize maxActs eof ((recs.flatMap encodeRec ++ (encodeRec r).take n).length + 1)
      (recs.flatMap encodeRec ++ (encodeRec r).take n) [] 0 c ⟨count, !isEqualBitmap emptyBitmap cleanup⟩ root f with
  | error er g1 =>
    simp only [hm] at h
    cases h
  | ok y g1 => exact updateLoop_cut E rq batchSize maxActs eof _ ht _ recs hr _ _ _ _ _ _ _ _ hm

/-- A file with records of which the last is cut, after its length, or that cannot be read to its end. -/
def CutFile (src : RecFile) : Prop := ∃ (recs : List ViewRec) (r : ViewRec) (n : Nat),
  (∀ x ∈ r :: recs, 0 < x.key.length ∧ x.key.length < 2 ^ 16 ∧ x.val.length < 2 ^ 30) ∧ n < (encodeRec r).length ∧
  (4 ≤ n ∨ src.eof = false) ∧ src.bytes = recs.flatMap encodeRec ++ (encodeRec r).take n

theorem updateBtree_cut (E : Env) (rq : Rq Nat) (cleanup : Bytes) (batchSize maxActs : Nat) (src : RecFile) (hc : CutFile src)
    (root : Option NodePointer) (count : Nat) (c : OpCount) (f : File) (x) (g : File) :
    updateBtree E rq cleanup batchSize maxActs src root count c f ≠ .ok x g := by
  obtain ⟨recs, r, n, h1, h2, h3, h4⟩ := hc
  obtain ⟨bytes, eof⟩ := src
  subst h4
  exact C48_cut_record_refused_partial E rq cleanup batchSize maxActs recs (fun y hy => h1 y (by simp [hy])) r (h1 r (by simp)) n h2 eof
    h3 root count c f x g

theorem updateViews_cut {D : Type} [LinearOrder D] (E : Env) (e : CollateEnv D) (kvThr kpThr : Nat) (cleanup : Bytes)
    (batchSize maxActs : Nat) : ∀ (vs : List ((List Reducer × RecFile) × Option NodePointer)),
    (∃ v ∈ vs, CutFile v.1.2) → ∀ (n : Nat) (c : OpCount) (f : File) (x) (g : File),
    updateViews E e kvThr kpThr cleanup batchSize maxActs vs n c f ≠ .ok x g := by
  intro vs
  induction vs with
  | nil => rintro ⟨v, hv, -⟩; cases hv
  | cons v vs ih =>
    rintro ⟨w, hw, hc⟩ n c f x g h
    obtain ⟨⟨rs, src⟩, root⟩ := v
    unfold updateViews at h
    change EStateM.bind _ _ f = _ at h
    unfold EStateM.bind at h
    cases e1 : updateViewBtree E e kvThr kpThr cleanup batchSize maxActs rs src root n c f with
    | error er g1 => simp only [e1] at h; cases h
    | ok y g1 =>
      rcases List.mem_cons.mp hw with rfl | hw
      · exact updateBtree_cut _ _ _ _ _ _ hc _ _ _ _ _ _ e1
      · simp only [e1] at h
        change EStateM.bind _ _ g1 = _ at h
        unfold EStateM.bind at h
        cases e2 : updateViews E e kvThr kpThr cleanup batchSize maxActs vs y.1 y.2.1 g1 with
        | error er g2 => simp only [e2] at h; cases h
        | ok z g2 => exact ih ⟨w, hw, hc⟩ _ _ _ _ _ e2

/-- C48: an update of a group does not succeed if one of its files, for the ids or for a view, is cut. -/
theorem C48_cut_group_refused_partial {D : Type} [LinearOrder D] (E : Env) (e : CollateEnv D) (kvThr kpThr : Nat) (junk : Bytes)
    (batchSize maxActs : Nat) (buf : Bytes) (idsFile : RecFile) (views : List (List Reducer × RecFile))
    (hc : CutFile idsFile ∨ ∃ v ∈ views, CutFile v.2) (f : File) (x) (g : File) :
    updateViewGroup E e kvThr kpThr junk batchSize maxActs buf idsFile views f ≠ .ok x g := by
  intro h
  unfold updateViewGroup at h
  cases e0 : decodeIndexHeader E buf with
  | error er => rw [e0] at h; cases h
  | ok hd =>
    simp only [e0, ofExcept, pure_bind] at h
    split at h
    · cases h
    · rename_i hlen
      replace hlen : views.length = hd.views.length := by simpa using hlen
      change EStateM.bind _ _ f = _ at h
      unfold EStateM.bind at h
      cases e1 : gotoEof f with
      | error er g1 => simp only [e1] at h; cases h
      | ok p g1 =>
        simp only [e1] at h
        change EStateM.bind _ _ g1 = _ at h
        unfold EStateM.bind at h
        cases e2 : setPos p g1 with
        | error er g2 => simp only [e2] at h; cases h
        | ok u g2 =>
          simp only [e2] at h
          change EStateM.bind _ _ g2 = _ at h
          unfold EStateM.bind at h
          cases e3 : updateIdBtree E kvThr kpThr hd.cleanup batchSize maxActs idsFile hd.idRoot 0 ⟨0, 0⟩ g2 with
          | error er g3 => simp only [e3] at h; cases h
          | ok y g3 =>
            simp only [e3] at h
            rcases hc with hc | ⟨v, hv, hc⟩
            · exact updateBtree_cut _ _ _ _ _ _ hc _ _ _ _ _ _ e3
            · change EStateM.bind _ _ g3 = _ at h
              unfold EStateM.bind at h
              cases e4 : updateViews E e kvThr kpThr hd.cleanup batchSize maxActs (views.zip hd.views) y.1 ⟨0, 0⟩ g3 with
              | error er g4 => simp only [e4] at h; cases h
              | ok z g4 =>
                refine updateViews_cut E e kvThr kpThr hd.cleanup batchSize maxActs _ ?_ _ _ _ _ _ e4
                obtain ⟨i, hi, rfl⟩ := List.mem_iff_getElem.mp hv
                refine ⟨(views[i], hd.views[i]'(by omega)), ?_, hc⟩
                rw [← List.getElem_zip (h := by rw [List.length_zip]; omega)]
                exact List.getElem_mem _

theorem updateLoop_tail {σ : Type} (E : Env) (rq : Rq σ) (batchSize maxActs : Nat) (tail : Bytes) (ht : tail.length < 4) :
    ∀ (recs : List ViewRec) (_ : ∀ r ∈ recs, 0 < r.key.length ∧ r.key.length < 2 ^ 16 ∧ r.val.length < 2 ^ 30) (n m : Nat),
    recs.length < n → recs.length < m → ∀ (acts : List Action) (size : Nat) (c : OpCount) (st : St σ)
    (root : Option NodePointer),
    updateLoop E rq batchSize maxActs true n (recs.flatMap encodeRec ++ tail) acts size c st root =
      updateLoop E rq batchSize maxActs true m (recs.flatMap encodeRec) acts size c st root := by
  intro recs
  induction recs with
  | nil =>
    intro _ n m hn hm acts size c st root
    obtain ⟨n, rfl⟩ : ∃ k, n = k + 1 := ⟨n - 1, by simp at hn; omega⟩
    obtain ⟨m, rfl⟩ : ∃ k, m = k + 1 := ⟨m - 1, by simp at hm; omega⟩
    unfold updateLoop
    have e1 : readRecord ⟨List.flatMap encodeRec [] ++ tail, true⟩ = .last := by
      unfold readRecord
      rw [if_pos (by simpa using ht)]
      rfl
    have e2 : readRecord ⟨List.flatMap encodeRec [], true⟩ = .last := by decide
    simp only [e1, e2]
  | cons r recs ih =>
    intro hr n m hn hm acts size c st root
    obtain ⟨n, rfl⟩ : ∃ k, n = k + 1 := ⟨n - 1, by simp at hn; omega⟩
    obtain ⟨m, rfl⟩ : ∃ k, m = k + 1 := ⟨m - 1, by simp at hm; omega⟩
    have ih := ih (fun y hy => hr y (by simp [hy])) n m (by simpa using hn) (by simpa using hm)
    unfold updateLoop
    rw [List.flatMap_cons, List.append_assoc, readRecord_cons r _ true (hr r (by simp)),
      readRecord_cons r _ true (hr r (by simp))]
    simp only [ih]

/-- C48 is not so for a file that ends in the length of a record: it is taken as if it ended before it. -/
theorem C48_cut_length_ignored (E : Env) (rq : Rq Nat) (cleanup : Bytes) (batchSize maxActs : Nat) (recs : List ViewRec)
    (hr : ∀ r ∈ recs, 0 < r.key.length ∧ r.key.length < 2 ^ 16 ∧ r.val.length < 2 ^ 30) (r : ViewRec) (n : Nat) (hn : n < 4)
    (root : Option NodePointer) (count : Nat) (c : OpCount) :
    updateBtree E rq cleanup batchSize maxActs ⟨recs.flatMap encodeRec ++ (encodeRec r).take n, true⟩ root count c =
      updateBtree E rq cleanup batchSize maxActs (recFile recs) root count c := by
  unfold updateBtree
  have hl := recs_length recs
  have := updateLoop_tail E rq batchSize maxActs ((encodeRec r).take n) (by rw [List.length_take]; omega) recs hr
    ((recs.flatMap encodeRec ++ (encodeRec r).take n).length + 1) ((recs.flatMap encodeRec).length + 1)
    (by rw [List.length_append]; omega) (by omega) [] 0 c ⟨count, !isEqualBitmap emptyBitmap cleanup⟩ root
  unfold recFile
  simp only [this]

/-! ### An example

An empty group with the partition 9 being cleaned up gets three documents, one of them of that partition, in one batch.  A
second update removes a document, changes another, and purges what there is of the partition 9. -/

def firstIdRecs : List ViewRec := smallIds.map fun kv => ⟨2, kv.1, kv.2⟩
def firstViewRecs : List ViewRec := sampleEmits.map fun m => ⟨2, m.kv.1, m.kv.2⟩
def secondIdRecs : List ViewRec := [⟨1, [1], []⟩, ⟨1, [3], []⟩, ⟨2, [3], [0, 5, 7, 7]⟩]
def secondViewRecs : List ViewRec := [⟨1, encodeViewKey ⟨Json.null.text, [1]⟩, []⟩]

theorem firstIdRecs_ok : RecsOk ebinCmp (fun _ => True) (viewIdIdx 1).V firstIdRecs :=
  ⟨by decide, by decide, fun _ _ => trivial, by unfold viewIdIdx; decide +kernel, by decide⟩

theorem secondIdRecs_ok : RecsOk ebinCmp (fun _ => True) (viewIdIdx 1).V secondIdRecs :=
  ⟨by decide, by decide, fun _ _ => trivial, by unfold viewIdIdx; decide +kernel, by decide⟩

theorem firstViewRecs_ok : RecsOk (viewBtreeCmp (exactEnv true)) shortKeys (viewIdx shortKeys toySpecs).V firstViewRecs := by
  have hm : ∀ r ∈ firstViewRecs, ∃ m ∈ sampleEmits, r = ⟨2, m.kv.1, m.kv.2⟩ := by
    intro r hr
    obtain ⟨m, h1, h2⟩ := List.mem_map.mp hr
    exact ⟨m, h1, h2.symm⟩
  refine ⟨by decide, by decide +kernel, fun r hr => ?_, fun r hr _ => ?_, by decide +kernel⟩
  · obtain ⟨m, h1, rfl⟩ := hm r hr
    exact smallEmits_keys m h1
  · obtain ⟨m, h1, rfl⟩ := hm r hr
    exact ⟨smallEmits_keys m h1, m, sampleEmits_fits m h1, rfl⟩

theorem secondViewRecs_ok : RecsOk (viewBtreeCmp (exactEnv true)) shortKeys (viewIdx shortKeys toySpecs).V secondViewRecs := by
  refine ⟨by decide, by decide +kernel, fun r hr => ?_, fun r hr h => ?_, by decide +kernel⟩
  · rw [secondViewRecs, List.mem_singleton] at hr
    subst hr
    exact ⟨⟨_, rfl⟩, by decide +kernel⟩
  · rw [secondViewRecs, List.mem_singleton] at hr
    subst hr
    exact absurd h (by decide)

def firstUpdate : EStateM.Result Err File (UpdateStats × Bytes) :=
  updateViewGroup Env.toy (exactEnv true) viewKvThr viewKpThr [] 100 37449 (encodeIndexHeader Env.toy [] sampleHeader)
    (recFile firstIdRecs) [(smallView.reducers, recFile firstViewRecs)] File.empty

def secondUpdate (buf : Bytes) (f : File) : EStateM.Result Err File (UpdateStats × Bytes) :=
  updateViewGroup Env.toy (exactEnv true) viewKvThr viewKpThr [] 100 37449 buf
    (recFile secondIdRecs) [(smallView.reducers, recFile secondViewRecs)] f

/-- All hypotheses are met, by both updates: the first inserts three ids and three entries of the view; the second removes
two ids and an entry, inserts an id and purges an id and a value. -/
example : ∃ (f g : File) (out out' : Bytes) (h h' : IndexHeader) (ids : List KV) (ms : List Emit),
    firstUpdate = .ok (⟨⟨3, 0⟩, ⟨3, 0⟩, 0⟩, out) f ∧
    decodeIndexHeader Env.toy out = .ok h ∧ f.cfg.crcMode ≠ .unknown ∧
    IndexesAt Env.toy 1 f h ids ([(smallView.having ms, secondViewRecs)].map (·.1)) ∧ SortedKV ebinCmp ids ∧
    SortedKV (viewBtreeCmp (exactEnv true)) (ms.map Emit.kv) ∧ hasPart h.cleanup 9 = true ∧
    secondUpdate out f = .ok (⟨⟨1, 2⟩, ⟨0, 1⟩, 2⟩, out') g ∧ g.disk.length ≤ 2 ^ 48 ∧
    decodeIndexHeader Env.toy out' = .ok h' ∧ h'.cleanup = emptyBitmap := by
  have run : (match firstUpdate with
    | .error _ _ => false
    | .ok (st, out) f => decide (st = ⟨⟨3, 0⟩, ⟨3, 0⟩, 0⟩ ∧ f.disk.length ≤ 2 ^ 48 ∧ f.cfg.crcMode ≠ .unknown) &&
      (match decodeIndexHeader Env.toy out with
      | .error _ => false
      | .ok h => hasPart h.cleanup 9) &&
      (match secondUpdate out f with
      | .error _ _ => false
      | .ok (st, out') g => decide (st = ⟨⟨1, 2⟩, ⟨0, 1⟩, 2⟩ ∧ g.disk.length ≤ 2 ^ 48) &&
        (match decodeIndexHeader Env.toy out' with
        | .error _ => false
        | .ok h => decide (h.cleanup = emptyBitmap)))) = true := by decide +kernel
  cases e1 : firstUpdate with
  | error er g => rw [e1] at run; exact (Bool.false_ne_true run).elim
  | ok x f =>
    obtain ⟨st, out⟩ := x
    rw [e1] at run
    simp only [Bool.and_eq_true, decide_eq_true_eq] at run
    obtain ⟨⟨⟨rfl, hl, hcrc⟩, run1⟩, run2⟩ := run
    obtain ⟨-, h, ids, views, d1, d2, d3, d4, d5, d6⟩ := C47_update_group (exactEnv true) _ _ (exactEnv_ok true) Env.toy
      Env.toy_laws toy_deflate_ne viewKvThr viewKpThr (by decide) [] 100 37449 File.empty f (by decide)
      (encodeIndexHeader Env.toy [] sampleHeader) sampleHeader
      (C45_header_roundtrip Env.toy Env.toy_laws toy_deflate_ne _ sampleHeader_ok sampleHeader_roots []) 1 (by decide) []
      firstIdRecs [(smallView.having [], firstViewRecs)]
      ⟨rfl, .cons ⟨rfl, by simp [View.having]⟩ .nil⟩ List.Pairwise.nil firstIdRecs_ok
      (by
        intro x hx
        rw [List.mem_singleton] at hx
        subst hx
        exact ⟨smallView_ok, List.Pairwise.nil, firstViewRecs_ok, by decide⟩) _ _ e1 hl
    cases d5 with
    | cons hv hn =>
      cases hn
      obtain ⟨ms, rfl, hms⟩ := hv
      rw [d1] at run1
      cases e2 : secondUpdate out f with
      | error er g => rw [e2] at run2; exact (Bool.false_ne_true run2).elim
      | ok x g =>
        obtain ⟨st, out'⟩ := x
        rw [e2] at run2
        simp only [Bool.and_eq_true, decide_eq_true_eq] at run2
        obtain ⟨⟨rfl, hl2⟩, run3⟩ := run2
        cases e3 : decodeIndexHeader Env.toy out' with
        | error er => rw [e3] at run3; exact (Bool.false_ne_true run3).elim
        | ok h' =>
          rw [e3] at run3
          exact ⟨f, g, out, out', h, h', ids, ms, rfl, d1, hcrc, d3, d4.sorted, hms.sorted, run1, e2, hl2, e3,
            by simpa using run3⟩

/-- The second update inserts nothing into the partition that is being cleaned up. -/
example : NoInsertInto smallMask secondIdRecs ∧ NoInsertInto smallMask secondViewRecs ∧ hasPart smallMask 9 = true := by
  refine ⟨?_, ?_, ?_⟩
  · unfold NoInsertInto; decide +kernel
  · unfold NoInsertInto; decide +kernel
  · decide +kernel

/-- The hypotheses of C48 are met. -/
example : CutFile ⟨firstIdRecs.flatMap encodeRec ++ [8, 0, 0, 0, 2, 0], true⟩ :=
  ⟨firstIdRecs, ⟨2, [3], [0, 5, 7, 7]⟩, 6, by decide, by decide, by decide, by decide⟩

/-- The hypotheses of C48 are met. -/
example : (∀ r ∈ firstViewRecs ++ secondViewRecs, 0 < r.key.length ∧ r.key.length < 2 ^ 16 ∧ r.val.length < 2 ^ 30) ∧
    5 < (encodeRec ⟨2, [3], [0, 5, 7, 7]⟩).length := by decide +kernel

end Couchstore.Props
