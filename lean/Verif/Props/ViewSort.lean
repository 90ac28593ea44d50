import Verif.Props.ViewUpdate
import Verif.Props.FileSorter
import Verif.Props.Quicksort

/-! C50: updates of a view group from files that are not in order. -/

namespace Couchstore.Props
open Couchstore

/-- The records that a file can have, with keys from a class. -/
abbrev FileRec (K : Bytes → Prop) : Type :=
  { r : ViewRec // K r.key ∧ 0 < r.key.length ∧ r.key.length < 2 ^ 16 ∧ r.val.length < 2 ^ 30 }

/-- The sorter of C39 has been run on a file with the records `recs` (view_group.cc:1453-1454, 1492-1493, file_sorter.cc:35-69),
which it compares by their keys; nothing failed in its workers, it has reported success, and `out` is in the file. -/
def SortedFile (cmp : Bytes → Bytes → Ordering) (K : Bytes → Prop) (recs out : List ViewRec) : Prop :=
  ∃ (cfg : SortCfg (FileRec K)) (fs : SortPath → Option (List (FileRec K))) (c : Nat)
    (cs : List (SortChoice (FileRec K))) (s : SortState (FileRec K))
    (src res : List (FileRec K)), recs = src.map (·.1) ∧ out = res.map (·.1) ∧
    cfg.Ok ∧ cfg.skip = false ∧
    (∀ a b, (cfg.cmp a b < 0 ↔ cmp a.1.key b.1.key = .lt) ∧ (0 < cfg.cmp a b ↔ cmp a.1.key b.1.key = .gt)) ∧
    NoStale fs c ∧ (∀ x ∈ cs, x.WorkerOk) ∧ sortRun cfg cs (sortStart cfg fs c src) = some s ∧ s.main = .done 0 ∧
    s.fs .source = some res

/-- What is asked of records that may come in any order: as `RecsOk`, with no key twice. -/
structure LooseRecsOk (K : Bytes → Prop) (V : KV → Prop) (recs : List ViewRec) : Prop where
  op : ∀ r ∈ recs, r.op = 1 ∨ r.op = 2
  sizes : ∀ r ∈ recs, 0 < r.key.length ∧ r.key.length < 2 ^ 16 ∧ r.val.length < 2 ^ 30
  keys : ∀ r ∈ recs, K r.key
  valid : ∀ r ∈ recs, r.op = 2 → V (r.key, r.val)
  distinct : (recs.map (·.key)).Nodup

theorem lastRec_perm {a b : List ViewRec} (h : a.Perm b) (hn : (b.map (·.key)).Nodup) (k : Bytes) : lastRec a k = lastRec b k := by
  have uniq : ∀ {r r' : ViewRec}, r ∈ b → r' ∈ b → r.key = r'.key → r = r' := fun h1 h2 e => List.inj_on_of_nodup_map hn h1 h2 e
  cases e1 : lastRec a k with
  | none =>
    cases e2 : lastRec b k with
    | none => rfl
    | some r =>
      obtain ⟨h1, h2⟩ := lastRec_mem e2
      exact absurd h2 (lastRec_none.mp e1 r (h.mem_iff.mpr h1))
  | some r =>
    obtain ⟨h1, h2⟩ := lastRec_mem e1
    cases e2 : lastRec b k with
    | none => exact absurd h2 (lastRec_none.mp e2 r (h.mem_iff.mp h1))
    | some r' =>
      obtain ⟨h3, h4⟩ := lastRec_mem e2
      rw [uniq (h.mem_iff.mp h1) h3 (h2.trans h4.symm)]

/-- C50: the sorted file has the records in the order that C47 asks for, the same number of insertions and removals, and
for each key the same record. -/
theorem C50_sorted_file_partial {cmp : Bytes → Bytes → Ordering} {K : Bytes → Prop} (C : CmpLaws cmp K) {V : KV → Prop}
    {recs out : List ViewRec} (h : SortedFile cmp K recs out) (hr : LooseRecsOk K V recs) :
    RecsOk cmp K V out ∧ countOps out = countOps recs ∧ ∀ k, lastRec out k = lastRec recs k := by
  obtain ⟨cfg, fs, c, cs, s, src, res, rfl, rfl, hok, hskip, hcmp, hstale, hw, hrun, hdone, hres⟩ := h
  obtain ⟨o, h1, h2, -, h3, -⟩ := C39_sorted_partial hok hstale cs hw hrun hdone
  rw [hskip, hres] at h3
  have : res = o := by simpa using h3
  subst this
  have hp : (res.map (·.1)).Perm (src.map (·.1)) := h1.map _
  have hn : ((res.map (·.1)).map (·.key)).Nodup := (hp.map (·.key)).nodup_iff.mpr hr.distinct
  refine ⟨⟨fun r h => hr.op r (hp.mem_iff.mp h), fun r h => hr.sizes r (hp.mem_iff.mp h), fun r h => hr.keys r (hp.mem_iff.mp h),
    fun r h => hr.valid r (hp.mem_iff.mp h), ?_⟩, ?_, fun k => lastRec_perm hp hr.distinct k⟩
  · rw [List.map_map] at hn
    rw [List.pairwise_map]
    refine (h2.and (List.pairwise_map.mp hn)).imp ?_
    rintro a b ⟨ha, hb⟩
    left
    have hc := hcmp a b
    cases e : cmp a.1.key b.1.key with
    | lt => rfl
    | eq => exact absurd ((C.eq_iff _ _ a.2.1 b.2.1).mp e) hb
    | gt => exact absurd (hc.2.mpr e) (by omega)
  · unfold countOps
    rw [(hp.filter _).length_eq, (hp.filter _).length_eq]

theorem updated_of_lastRec {cmp : Bytes → Bytes → Ordering} {cleanup : Bytes} {a b : List ViewRec} {old new : List KV}
    (h : Updated cmp cleanup a old new) (hl : ∀ k, lastRec a k = lastRec b k) (hne : a = [] ↔ b = []) :
    Updated cmp cleanup b old new := by
  have ap : ∀ o kv, Applied a o kv ↔ Applied b o kv := by
    intro o kv
    unfold Applied
    rw [hl]
  exact ⟨h.sorted, fun kv hkv => (h.others kv hkv).trans (ap old kv), fun hb kv h1 h2 =>
    (ap [] kv).mp (h.cleaned (fun ha => hb (hne.mp ha)) kv h1 h2), fun hb => h.unchanged (hne.mpr hb)⟩

theorem sortedFile_nil {cmp : Bytes → Bytes → Ordering} {K : Bytes → Prop} {recs out : List ViewRec}
    (h : SortedFile cmp K recs out) : out = [] ↔ recs = [] := by
  obtain ⟨cfg, fs, c, cs, s, src, res, rfl, rfl, hok, hskip, hcmp, hstale, hw, hrun, hdone, hres⟩ := h
  obtain ⟨o, h1, -, -, h3, -⟩ := C39_sorted_partial hok hstale cs hw hrun hdone
  rw [hskip, hres] at h3
  have : res = o := by simpa using h3
  subst this
  rw [List.map_eq_nil_iff, List.map_eq_nil_iff]
  constructor
  · rintro rfl; exact h1.symm.eq_nil
  · rintro rfl; exact h1.eq_nil

/-- C50: an update of a group from files in any order, with no key twice in a file: each file is sorted first.  The result is
as in C47, for the records as they were given. -/
theorem C50_update_unsorted_partial {D : Type} [LinearOrder D] (e : CollateEnv D) (round : Rat → D) (ucol : Bytes → Bytes → Int)
    (H : e.Ok round ucol) (E : Env) (L : E.Laws) (hne : ∀ b, b ≠ [] → E.deflate b ≠ []) (kvThr kpThr : Nat) (ha : 2 ≤ kvThr)
    (junk : Bytes) (batchSize maxActs : Nat) (f g : File) (hcrc : f.cfg.crcMode ≠ .unknown) (buf : Bytes) (h : IndexHeader)
    (hd : decodeIndexHeader E buf = .ok h) (kmax : Nat) (hmax : kmax < 4096) (ids : List KV) (idRecs : List ViewRec)
    (views : List (View × List ViewRec)) (hg : IndexesAt E kmax f h ids (views.map (·.1))) (hs : SortedKV ebinCmp ids)
    (hi : LooseRecsOk (fun _ => True) (viewIdIdx kmax).V idRecs)
    (hv : ∀ x ∈ views, x.1.Ok e ∧ SortedKV (viewBtreeCmp e) (x.1.emits.map Emit.kv) ∧
      LooseRecsOk x.1.keys (viewIdx x.1.keys x.1.specs).V x.2 ∧ reductionMax x.1.specs + 12 < 2 ^ 16)
    (idOut : List ViewRec) (hidOut : SortedFile ebinCmp (fun _ => True) idRecs idOut) (outs : List (List ViewRec))
    (houts : List.Forall₂ (fun (x : View × List ViewRec) o => SortedFile (viewBtreeCmp e) x.1.keys x.2 o) views outs)
    (stats : UpdateStats) (out : Bytes)
    (hu : updateViewGroup E e kvThr kpThr junk batchSize maxActs buf (recFile idOut)
      ((views.zip outs).map fun x => (x.1.1.reducers, recFile x.2)) f = .ok (stats, out) g) (hlen : g.disk.length ≤ 2 ^ 48) :
    stats.ids = countOps idRecs ∧
    stats.kvs = ⟨(views.map fun x => (countOps x.2).inserted).sum, (views.map fun x => (countOps x.2).removed).sum⟩ ∧
    ∃ h' ids' views', decodeIndexHeader E out = .ok h' ∧
      h' = { h with idRoot := h'.idRoot, views := h'.views, cleanup := h'.cleanup } ∧
      IndexesAt E kmax g h' ids' views' ∧ Updated ebinCmp h.cleanup idRecs ids ids' ∧
      List.Forall₂ (fun (x : View × List ViewRec) v' => ∃ ms, v' = x.1.having ms ∧
        Updated (viewBtreeCmp e) h.cleanup x.2 (x.1.emits.map Emit.kv) (ms.map Emit.kv)) views views' := by
  have hl : views.length = outs.length := houts.length_eq
  have key : ∀ x ∈ views.zip outs, SortedFile (viewBtreeCmp e) x.1.1.keys x.1.2 x.2 := fun x hx => forall₂_zip houts x hx
  obtain ⟨i1, i2, i3⟩ := C50_sorted_file_partial ebinCmp_laws hidOut hi
  have vs : ∀ x ∈ views.zip outs, x.1.1.Ok e ∧ SortedKV (viewBtreeCmp e) (x.1.1.emits.map Emit.kv) ∧
      RecsOk (viewBtreeCmp e) x.1.1.keys (viewIdx x.1.1.keys x.1.1.specs).V x.2 ∧ reductionMax x.1.1.specs + 12 < 2 ^ 16 ∧
      countOps x.2 = countOps x.1.2 ∧ ∀ k, lastRec x.2 k = lastRec x.1.2 k := by
    intro x hx
    obtain ⟨h1, h2, h3, h4⟩ := hv x.1 (List.of_mem_zip hx).1
    obtain ⟨j1, j2, j3⟩ := C50_sorted_file_partial (viewBtreeCmp_laws e round ucol H x.1.1.keys h1.1) (key x hx) h3
    exact ⟨h1, h2, j1, h4, j2, j3⟩
  have em : (views.zip outs).map (fun x => (x.1.1, x.2)) = (views.zip outs).map fun x => (x.1.1, x.2) := rfl
  have hmap : ((views.zip outs).map fun x => (x.1.1, x.2)).map (·.1) = views.map (·.1) := by
    rw [List.map_map]
    exact map_zip_fst (F := fun x : View × List ViewRec => x.1) hl
  have hargs : (views.zip outs).map (fun x => (x.1.1.reducers, recFile x.2)) =
      ((views.zip outs).map fun x => (x.1.1, x.2)).map fun x => (x.1.reducers, recFile x.2) := by
    rw [List.map_map]; rfl
  rw [hargs] at hu
  have hv' : ∀ x ∈ (views.zip outs).map fun x => (x.1.1, x.2), x.1.Ok e ∧ SortedKV (viewBtreeCmp e) (x.1.emits.map Emit.kv) ∧
      RecsOk (viewBtreeCmp e) x.1.keys (viewIdx x.1.keys x.1.specs).V x.2 ∧ reductionMax x.1.specs + 12 < 2 ^ 16 := by
    intro x hx
    obtain ⟨y, hy, rfl⟩ := List.mem_map.mp hx
    obtain ⟨h1, h2, h3, h4, -, -⟩ := vs y hy
    exact ⟨h1, h2, h3, h4⟩
  rw [← hmap] at hg
  obtain ⟨s1, s2, -⟩ := C47_update_stats e round ucol H E L hne kvThr kpThr ha junk batchSize maxActs f g hcrc buf h hd kmax hmax
    ids idOut _ hg hs i1 hv' stats out hu
  obtain ⟨-, h', ids', views', d1, d2, d3, d4, d5, -⟩ := C47_update_group e round ucol H E L hne kvThr kpThr ha junk batchSize maxActs
    f g hcrc buf h hd kmax hmax ids idOut _ hg hs i1 hv' stats out hu hlen
  refine ⟨s1.trans i2, ?_, h', ids', views', d1, d2, d3, updated_of_lastRec d4 i3 (sortedFile_nil hidOut), ?_⟩
  · rw [s2]
    have cnt : ∀ F : OpCount → Nat, (((views.zip outs).map fun x => (x.1.1, x.2)).map fun x => F (countOps x.2)).sum =
        (views.map fun x => F (countOps x.2)).sum := by
      intro F
      rw [List.map_map, ← map_zip_fst (F := fun x : View × List ViewRec => F (countOps x.2)) hl]
      congr 1
      apply List.map_congr_left
      intro x hx
      simp only [Function.comp, (vs x hx).2.2.2.2.1]
    rw [cnt (·.inserted), cnt (·.removed)]
  · rw [List.forall₂_map_left_iff] at d5
    rw [List.forall₂_iff_get] at d5 ⊢
    have hz : (views.zip outs).length = views.length := by rw [List.length_zip, ← hl, Nat.min_self]
    refine ⟨hz.symm.trans d5.1, fun i h1 h2 => ?_⟩
    have := d5.2 i (by rw [hz]; exact h1) h2
    have hm : (views[i], outs[i]'(by omega)) ∈ views.zip outs := by
      rw [← List.getElem_zip (h := by rw [hz]; exact h1)]
      exact List.getElem_mem _
    simp only [List.get_eq_getElem, List.getElem_zip] at this ⊢
    obtain ⟨ms, m1, m2⟩ := this
    exact ⟨ms, m1, updated_of_lastRec m2 (vs _ hm).2.2.2.2.2 (sortedFile_nil (key _ hm))⟩

/-- C50: the bytes that the sorter writes for a record are those that an update reads. -/
theorem C50_record_bytes (r : ViewRec) (h : 0 < r.key.length) : writeViewRecord true r = (encodeRec r, true) := by
  unfold writeViewRecord encodeRec
  simp only [if_true, List.length_singleton]
  refine Prod.ext ?_ ?_
  · show leEnc32 (2 + r.key.length + r.val.length + 1) ++ _ ++ _ ++ _ ++ _ = leEnc32 (3 + r.key.length + r.val.length) ++ _ ++ _ ++ _ ++ _
    rw [show 2 + r.key.length + r.val.length + 1 = 3 + r.key.length + r.val.length by omega]
  · show decide _ = true
    rw [decide_eq_true_eq]
    omega

/-! ### Files in which a key comes twice

The sort is not stable (C40), so that a removal and an insertion of the same key may change places. -/

abbrev IdFileRec : Type := FileRec fun _ => True

def idRecCmp (a b : IdFileRec) : Int := orderInt (ebinCmp a.1.key b.1.key)

/-- The sort of the index by document id (file_sorter.cc:60-69, 110-127), with `SORT_MAX_NUM_TMP_FILES` and
`SORT_MAX_BUFFER_SIZE` (:24-25) and the quicksort of C40. -/
def idSortCfg : SortCfg IdFileRec where
  cmp := idRecCmp
  size r := r.1.key.length + r.1.val.length
  sort l := ((quicksort idRecCmp l.toArray).map (·.toList)).getD []
  order := List.insertionSort fun a b => a.level ≤ b.level
  numTmp := 16
  maxBuf := 67108864
  feed := false
  skip := false

theorem idRecCmp_sign (a b : IdFileRec) : (idRecCmp a b < 0 ↔ ebinCmp a.1.key b.1.key = .lt) ∧
    (0 < idRecCmp a b ↔ ebinCmp a.1.key b.1.key = .gt) := by
  unfold idRecCmp
  cases ebinCmp a.1.key b.1.key <;> decide

theorem idRecCmp_ok : CmpOk idRecCmp where
  flip a b := by
    rw [(idRecCmp_sign a b).1, (idRecCmp_sign b a).2, ebinCmp_laws.swap b.1.key a.1.key trivial trivial]
    cases ebinCmp b.1.key a.1.key <;> decide
  trans a b c := by
    intro h1 h2
    have n1 : ebinCmp a.1.key b.1.key ≠ .gt := fun e => absurd ((idRecCmp_sign a b).2.mpr e) (by omega)
    have n2 : ebinCmp b.1.key c.1.key ≠ .gt := fun e => absurd ((idRecCmp_sign b c).2.mpr e) (by omega)
    have n3 : ebinCmp a.1.key c.1.key ≠ .gt := by
      cases e2 : ebinCmp b.1.key c.1.key with
      | gt => exact absurd e2 n2
      | lt =>
        rw [ebinCmp_laws.le_trans_lt trivial trivial trivial n1 e2]
        decide
      | eq =>
        rw [← (ebinCmp_laws.eq_iff _ _ trivial trivial).mp e2]
        exact n1
    have := (idRecCmp_sign a c).2
    by_contra hc
    exact n3 (this.mp (by omega))

theorem idSortCfg_ok : idSortCfg.Ok := by
  obtain ⟨h1, h2⟩ := C40_serves_file_sorter idRecCmp idRecCmp_ok idSortCfg.sort (by
    intro l
    obtain ⟨a, e, -⟩ := C40_sorts idRecCmp idRecCmp_ok l.toArray
    show some (((quicksort idRecCmp l.toArray).map (·.toList)).getD []) = _
    rw [e]
    rfl)
  refine ⟨idRecCmp_ok, h1, h2, List.perm_insertionSort _, fun r => ?_, fun r => ?_, by decide, fun h => nomatch h⟩
  · show 0 < r.1.key.length + r.1.val.length
    have := r.2.2.1
    omega
  · show 67108864 + (r.1.key.length + r.1.val.length) < _
    have := r.2.2.2
    omega

/-- A file in which the document 3 is removed and inserted anew, and others are inserted. -/
def doubleRecs : List IdFileRec :=
  [⟨⟨1, [3], []⟩, by decide⟩, ⟨⟨2, [3], [0, 5]⟩, by decide⟩, ⟨⟨2, [4], [0, 5]⟩, by decide⟩, ⟨⟨2, [1], [0, 5]⟩, by decide⟩,
   ⟨⟨2, [5], [0, 5]⟩, by decide⟩, ⟨⟨2, [6], [0, 5]⟩, by decide⟩, ⟨⟨2, [7], [0, 5]⟩, by decide⟩]

def idChoice : Nat → SortChoice IdFileRec
  | 0 => .main okIo
  | 1 => .worker false none
  | _ => .worker true none

theorem idChoices_ok (l : List Nat) : ∀ x ∈ l.map idChoice, x.Ok := by
  intro x hx
  obtain ⟨k, -, rfl⟩ := List.mem_map.mp hx
  match k with
  | 0 => exact okIo_ok
  | 1 => rfl
  | _ + 2 => rfl

/-- C50 is not so if a file has a key twice: here the last record for the document 3 in the file inserts it, but in the sorted
file the last one removes it.  Nothing fails. -/
theorem C50_equal_keys_swapped : ∃ (recs out : List ViewRec) (r : ViewRec), SortedFile ebinCmp (fun _ => True) recs out ∧
    (∀ r ∈ recs, (r.op = 1 ∨ r.op = 2) ∧ (r.op = 2 → (viewIdIdx 1).V (r.key, r.val))) ∧
    lastRec recs [3] = some r ∧ r.op = 2 ∧ ∃ r', lastRec out [3] = some r' ∧ r'.op = 1 := by
  have run : (sortRun idSortCfg ([0, 0, 0, 0, 0, 0, 0, 0, 0, 0, 0, 0, 0, 0, 0, 0, 0, 0, 1, 0, 0, 0, 1, 1, 1, 1, 1, 1, 1, 1, 1, 1, 1, 2,
      0, 0, 0, 0].map idChoice) (sortStart idSortCfg (fun _ => none) 0 doubleRecs)).map
      (fun s => (s.main, (s.fs .source).map fun l => l.map (·.1))) = some (.done 0, some [⟨2, [1], [0, 5]⟩, ⟨2, [3], [0, 5]⟩,
        ⟨1, [3], []⟩, ⟨2, [4], [0, 5]⟩, ⟨2, [5], [0, 5]⟩, ⟨2, [6], [0, 5]⟩, ⟨2, [7], [0, 5]⟩]) := by decide +kernel
  obtain ⟨s, h1, h2⟩ := Option.map_eq_some_iff.mp run
  simp only [Prod.mk.injEq] at h2
  obtain ⟨h2, h3⟩ := h2
  obtain ⟨res, h4, h5⟩ := Option.map_eq_some_iff.mp h3
  refine ⟨doubleRecs.map (·.1), _, ⟨2, [3], [0, 5]⟩, ⟨idSortCfg, _, 0, _, s, doubleRecs, res, rfl, rfl, idSortCfg_ok, rfl,
    idRecCmp_sign, fun _ _ => rfl, fun x hx => (idChoices_ok _ x hx).worker, h1, h2, h4⟩, ?_, by decide, rfl, ⟨1, [3], []⟩, ?_, rfl⟩
  · unfold viewIdIdx
    decide +kernel
  · rw [h5]
    decide

/-- The hypotheses are met: the records of the second update of C47 but for the doubled one, out of order. -/
example : ∃ out, SortedFile ebinCmp (fun _ => True) [⟨2, [3], [0, 5, 7, 7]⟩, ⟨1, [1], []⟩] out ∧
    LooseRecsOk (fun _ => True) (viewIdIdx 1).V [⟨2, [3], [0, 5, 7, 7]⟩, ⟨1, [1], []⟩] := by
  obtain ⟨cs, s, h1, h2, h3, o, h4, h5, h6, h7, h8⟩ := C39_completes (c := 0) idSortCfg_ok (fs := fun _ => none) (fun _ _ => rfl)
    (src := [⟨⟨2, [3], [0, 5, 7, 7]⟩, by decide⟩, ⟨⟨1, [1], []⟩, by decide⟩]) (Nat.le_of_ble_eq_true rfl) [] (fun _ h => nomatch h) rfl
  exact ⟨o.map (·.1), ⟨idSortCfg, _, 0, cs, s, _, o, rfl, rfl, idSortCfg_ok, rfl, idRecCmp_sign, fun _ _ => rfl,
    fun x hx => (h1 x hx).worker, h2, h3, h7⟩,
    ⟨by decide, by decide, fun _ _ => trivial, by unfold viewIdIdx; decide +kernel, by decide⟩⟩

end Couchstore.Props
