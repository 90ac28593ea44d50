import Verif.Lemmas.ViewMerge
import Verif.Props.Merge
import Verif.Props.ViewCodec
import Verif.Props.ViewUpdate
import Verif.Props.ViewSort

/-!
C75: merging files with operations on the indexes of a view group gives a file that does what the files do one after the
other.
-/

namespace Couchstore.Props
open Couchstore

private def subArgs (cmp : Bytes → Bytes → Ordering) (K : Bytes → Prop) : MergeFilesArgs (FileRec K) where
  cmp := fun a b => compareRecs cmp a.1 b.1
  dedup := some fun g => dedupPick (g.map (·.2))
  feed := none
  write := fun _ r => if (writeViewRecord true r.1).2 then 0 else -3
  skipWriteback := false

private theorem subArgs_cmp {cmp : Bytes → Bytes → Ordering} {K : Bytes → Prop} (C : CmpLaws cmp K) (a b : FileRec K) :
    ((subArgs cmp K).cmp a b < 0 ↔ cmp a.1.key b.1.key = .lt) ∧ ((subArgs cmp K).cmp a b ≤ 0 ↔ cmp a.1.key b.1.key ≠ .gt) := by
  show (compareRecs cmp a.1 b.1 < 0 ↔ _) ∧ (compareRecs cmp a.1 b.1 ≤ 0 ↔ _)
  unfold compareRecs
  cases cmp a.1.key b.1.key <;> simp

private theorem subArgs_ok {cmp : Bytes → Bytes → Ordering} {K : Bytes → Prop} (C : CmpLaws cmp K) : CmpOk (subArgs cmp K).cmp where
  flip a b := by
    rw [(subArgs_cmp C a b).1]
    have h := (subArgs_cmp C b a).2
    have hs := C.swap a.1.key b.1.key a.2.1 b.2.1
    rw [hs] at h
    constructor
    · intro e
      rw [e] at h
      have : ¬ (subArgs cmp K).cmp b a ≤ 0 := fun k => h.mp k rfl
      omega
    · intro e
      cases hc : cmp a.1.key b.1.key with
      | lt => rfl
      | eq => rw [hc] at h; have := h.mpr (by decide); omega
      | gt => rw [hc] at h; have := h.mpr (by decide); omega
  trans a b c := by
    rw [(subArgs_cmp C a b).2, (subArgs_cmp C b c).2, (subArgs_cmp C a c).2]
    intro h1 h2 h3
    cases e1 : cmp a.1.key b.1.key with
    | gt => exact h1 e1
    | eq =>
      have := (C.eq_iff _ _ a.2.1 b.2.1).mp e1
      rw [this] at h3
      exact h2 h3
    | lt =>
      cases e2 : cmp b.1.key c.1.key with
      | gt => exact h2 e2
      | eq =>
        have := (C.eq_iff _ _ b.2.1 c.2.1).mp e2
        rw [this, h3] at e1
        cases e1
      | lt =>
        have := C.trans _ _ _ a.2.1 b.2.1 c.2.1 e1 e2
        rw [h3] at this
        cases this

private theorem dedup_lt (g : List Nat) (h : g ≠ []) : dedupPick g < g.length := by
  obtain ⟨m, h1, _⟩ := C42_newest_wins g h
  exact (List.getElem?_eq_some_iff.mp h1).1

private theorem sameKey_iff {cmp : Bytes → Bytes → Ordering} {K : Bytes → Prop} (C : CmpLaws cmp K) (a b : FileRec K) :
    sameKey (subArgs cmp K).cmp a b = true ↔ a.1.key = b.1.key := by
  unfold sameKey
  rw [decide_eq_true_eq, (subArgs_cmp C a b).2, (subArgs_cmp C b a).2, C.swap a.1.key b.1.key a.2.1 b.2.1, ← C.eq_iff _ _ a.2.1 b.2.1]
  cases cmp a.1.key b.1.key <;> simp

/-- The files are merged: the result for the records. -/
private theorem merge_sub {cmp : Bytes → Bytes → Ordering} {K : Bytes → Prop} (C : CmpLaws cmp K) (files : List (List (FileRec K)))
    (hne : files ≠ []) (hs : ∀ f ∈ files, f.Pairwise fun a b => cmp a.1.key b.1.key = .lt) :
    ∃ out s, mergeFiles (subArgs cmp K) (files.map fun f => ⟨f, none⟩) = (.success, s) ∧ s.written = out ∧
      (out.Pairwise fun a b => cmp a.1.key b.1.key = .lt) ∧ (∀ x ∈ out, ∃ f ∈ files, x ∈ f) ∧
      ∀ k, lastRec (out.map (·.1)) k = lastRec (files.map (·.map (·.1))).flatten k := by
  have hr : (subArgs cmp K).DedupInRange := by
    intro d hd g hg
    cases hd
    have := dedup_lt (g.map (·.2)) (by intro h; rw [List.map_eq_nil_iff] at h; subst h; exact absurd hg (Nat.not_lt_zero 1))
    rwa [List.length_map] at this
  have hinc : ∀ f ∈ files.map (fun f => (⟨f, none⟩ : Source (FileRec K))), IncreasingRecs (subArgs cmp K).cmp f.recs := by
    intro f hf
    obtain ⟨g, hg, rfl⟩ := List.mem_map.mp hf
    exact (hs g hg).imp fun {a b} h => (subArgs_cmp C a b).1.mpr h
  have hne' : files.map (fun f => (⟨f, none⟩ : Source (FileRec K))) ≠ [] := by simpa using hne
  have hwr : ∀ n (x : FileRec K), (subArgs cmp K).write n x = 0 := by
    intro n x
    show (if (writeViewRecord true x.1).2 then (0 : Int) else -3) = 0
    rw [if_pos]
    have := x.2.2.1
    unfold writeViewRecord
    simp only [ne_eq, decide_eq_true_eq]
    omega
  rcases C28_result (subArgs cmp K) (subArgs_ok C) hr _ hne' with ⟨⟨s, hm⟩, _⟩ | ⟨c, s, hm, h | h⟩
  · obtain ⟨out, o1, o2, o3, o4⟩ := C28_dedup_winner (subArgs cmp K) (subArgs_ok C) _ rfl hr _ hne' hinc s hm
    refine ⟨out, s, hm, o1.2 (Or.inl rfl), o2.imp fun {a b} h => (subArgs_cmp C a b).1.mp h, ?_, ?_⟩
    · intro w hw
      obtain ⟨group, g1, g2, ⟨i, g3⟩, g4⟩ := o4 w hw
      obtain ⟨f, f1, f2, _⟩ := (g2 w i).mp g3
      rw [List.getElem?_map] at f1
      cases hf : files[i]? with
      | none => rw [hf] at f1; cases f1
      | some f' => rw [hf] at f1; cases f1; exact ⟨f', List.mem_of_getElem? hf, f2⟩
    · intro k
      cases hl : lastRec (out.map (·.1)) k with
      | none =>
        symm
        rw [lastRec_none] at hl ⊢
        intro r hr hk
        obtain ⟨l, hl1, hl2⟩ := List.mem_flatten.mp hr
        obtain ⟨f, hf, rfl⟩ := List.mem_map.mp hl1
        obtain ⟨x, hx, rfl⟩ := List.mem_map.mp hl2
        obtain ⟨w, hw1, hw2⟩ := o3 x (List.mem_flatten.mpr ⟨f, List.mem_map.mpr ⟨_, List.mem_map.mpr ⟨f, hf, rfl⟩, rfl⟩, hx⟩)
        exact hl w.1 (List.mem_map.mpr ⟨w, hw1, rfl⟩) (((sameKey_iff C x w).mp hw2).symm.trans hk)
      | some r =>
        obtain ⟨k1, k2⟩ := lastRec_mem hl
        obtain ⟨w, hw, rfl⟩ := List.mem_map.mp k1
        subst k2
        symm
        obtain ⟨group, g1, g2, ⟨i0, g3⟩, g4⟩ := o4 w hw
        obtain ⟨i, hi, hmax⟩ : ∃ i, (w, i) ∈ group ∧ ∀ x j, (x, j) ∈ group → j ≤ i := by
          by_cases hlen : 1 < group.length
          · have hp := g4 hlen
            obtain ⟨m, m1, m2⟩ := C42_newest_wins (group.map (·.2)) (by
              intro h; rw [List.map_eq_nil_iff] at h; subst h; exact absurd hlen (Nat.not_lt_zero 1))
            rw [List.getElem?_map] at m1
            cases hg : group[dedupPick (group.map (·.2))]? with
            | none => rw [hg] at m1; cases m1
            | some p =>
              rw [hg] at m1 hp
              refine ⟨m, ?_, ?_⟩
              · have e1 : p.2 = m := by simpa using m1
                have e2 : p.1 = w := by simpa using hp
                rw [← e1, ← e2]
                exact List.mem_of_getElem? hg
              · intro x j hx
                obtain ⟨n, hn⟩ := List.mem_iff_getElem?.mp hx
                exact (m2 n j (by rw [List.getElem?_map, hn]; rfl)).1
          · refine ⟨i0, g3, fun x j hx => ?_⟩
            have : group = [(w, i0)] := by
              match group, g3, hlen with
              | [y], g3, _ => rw [List.mem_singleton.mp g3]
              | _ :: _ :: _, _, hl => exact absurd (by simp) hl
            rw [this] at hx
            cases List.mem_singleton.mp hx
            exact Nat.le_refl _
        obtain ⟨f, f1, f2, _⟩ := (g2 w i).mp hi
        rw [List.getElem?_map] at f1
        cases hf : files[i]? with
        | none => rw [hf] at f1; cases f1
        | some f' =>
          rw [hf] at f1
          cases f1
          refine lastRec_flatten (i := i) (f := f'.map (·.1)) (by rw [List.getElem?_map, hf]; rfl) (List.mem_map.mpr ⟨w, f2, rfl⟩) ?_ ?_
          · rw [List.map_map, List.Nodup, List.pairwise_map]
            refine (hs f' (List.mem_of_getElem? hf)).imp fun {a b} h e => ?_
            have := (C.eq_iff _ _ a.2.1 b.2.1).mpr e
            rw [h] at this
            cases this
          · intro j g hg x hx he
            rw [List.getElem?_map] at hg
            cases hg' : files[j]? with
            | none => rw [hg'] at hg; cases hg
            | some g' =>
              rw [hg'] at hg
              cases hg
              obtain ⟨y, hy, rfl⟩ := List.mem_map.mp hx
              exact hmax y j ((g2 y j).mpr ⟨⟨g', none⟩, by rw [List.getElem?_map, hg']; rfl, hy, (sameKey_iff C w y).mpr he.symm⟩)
  · obtain ⟨f, hf, hf2⟩ := h
    obtain ⟨g, _, rfl⟩ := List.mem_map.mp hf
    cases hf2
  · obtain ⟨h0, ⟨fd, n, x, hfd, _⟩ | ⟨n, x, hx⟩⟩ := h
    · cases hfd
    · rw [hwr] at hx
      exact absurd hx.symm h0

private theorem to_sub {α : Type} {P : α → Prop} (l : List α) (h : ∀ x ∈ l, P x) : ∃ l' : List { x // P x }, l = l'.map (·.1) := by
  induction l with
  | nil => exact ⟨[], rfl⟩
  | cons x l ih =>
    obtain ⟨l', hl⟩ := ih fun y hy => h y (List.mem_cons_of_mem _ hy)
    exact ⟨⟨x, h x (List.mem_cons_self ..)⟩ :: l', by rw [List.map_cons, ← hl]⟩

private theorem to_sub2 {α : Type} {P : α → Prop} (l : List (List α)) (h : ∀ f ∈ l, ∀ x ∈ f, P x) :
    ∃ l' : List (List { x // P x }), l = l'.map (·.map (·.1)) := by
  induction l with
  | nil => exact ⟨[], rfl⟩
  | cons f l ih =>
    obtain ⟨l', hl⟩ := ih fun y hy => h y (List.mem_cons_of_mem _ hy)
    obtain ⟨f', hf⟩ := to_sub f (h f (List.mem_cons_self ..))
    exact ⟨f' :: l', by rw [List.map_cons, ← hl, ← hf]⟩

private theorem mapM_files (files : List (List ViewRec))
    (h : ∀ f ∈ files, ∀ r ∈ f, 0 < r.key.length ∧ r.key.length < 2 ^ 16 ∧ r.val.length < 2 ^ 30) :
    ((files.map fun f => (recFile f).bytes).mapM fun b => recsOfFile (b.length + 1) b) =
      some (files.map fun f => (⟨f, none⟩ : Source ViewRec)) := by
  induction files with
  | nil => rfl
  | cons f files ih =>
    have h1 : recsOfFile ((recFile f).bytes.length + 1) (recFile f).bytes = some ⟨f, none⟩ := by
      apply recsOfFile_readAll
      rw [← viewFile_eq]
      refine (C42_records true f (fun r hr => ?_) _ ?_).2
      · have := h f (List.mem_cons_self ..) r hr
        unfold ViewRec.Fits
        refine ⟨?_, ?_, ?_, ?_⟩ <;> first | omega | simp
      · rw [viewFile_eq]
        have := length_recFile f
        omega
    rw [List.map_cons, List.mapM_cons, h1, ih fun g hg => h g (List.mem_cons_of_mem _ hg)]
    rfl

/-- Files with records in ascending order of keys, no key twice in a file, are merged: merging succeeds, and what is added to the
destination is a file of the same kind, in which each key has the record of the last file that has one.  Missing: files with
several records for a key, see `C75_removal_is_lost`. -/
theorem C75_merged_partial {cmp : Bytes → Bytes → Ordering} {K : Bytes → Prop} (C : CmpLaws cmp K) {V : KV → Prop}
    (files : List (List ViewRec)) (hne : files ≠ []) (h : ∀ f ∈ files, RecsOk cmp K V f ∧ (f.map (·.key)).Nodup) (dest : Bytes) :
    ∃ out, mergeViewFiles cmp (files.map fun f => (recFile f).bytes) dest = some (.success, dest ++ (recFile out).bytes) ∧
      RecsOk cmp K V out ∧ (out.map (·.key)).Nodup ∧ ∀ k, lastRec out k = lastRec files.flatten k := by
  have hm := mapM_files files fun f hf r hr => (h f hf).1.sizes r hr
  obtain ⟨fs, hfs⟩ := to_sub2 (P := fun r : ViewRec => K r.key ∧ 0 < r.key.length ∧ r.key.length < 2 ^ 16 ∧ r.val.length < 2 ^ 30) files
    fun f hf r hr => ⟨(h f hf).1.keys r hr, (h f hf).1.sizes r hr⟩
  subst hfs
  have hne' : fs ≠ [] := by rintro rfl; exact hne rfl
  have hstrict : ∀ f ∈ fs, f.Pairwise fun a b => cmp a.1.key b.1.key = .lt := by
    intro f hf
    obtain ⟨h1, h2⟩ := h _ (List.mem_map.mpr ⟨f, hf, rfl⟩)
    have h3 := List.pairwise_map.mp h1.sorted
    rw [List.map_map] at h2
    refine (h3.and (List.pairwise_map.mp h2)).imp ?_
    rintro a b ⟨k1 | k1, k2⟩
    · exact k1
    · exact absurd k1.1 k2
  obtain ⟨out, s, m1, m2, m3, m4, m5⟩ := merge_sub C fs hne' hstrict
  have hlift : mergeFiles (viewMergeArgs cmp) ((fs.map (·.map (·.1))).map fun f => (⟨f, none⟩ : Source ViewRec)) =
      (.success, liftState (fun x : FileRec K => x.1) s) := by
    unfold mergeFiles at m1 ⊢
    rw [List.length_map] at m1
    rw [List.length_map, List.length_map]
    have hl : fs.length ≠ 0 := by rw [Ne, List.length_eq_zero_iff]; exact hne'
    rw [if_neg hl] at m1 ⊢
    have e : (fs.map (·.map (·.1))).map (fun f => (⟨f, none⟩ : Source ViewRec)) =
        (fs.map fun f => (⟨f, none⟩ : Source (FileRec K))).map (liftSrc fun x : FileRec K => x.1) := by
      rw [List.map_map, List.map_map]
      rfl
    rw [e]
    have := lift_doMerge (f := fun x : FileRec K => x.1) (cmp := (subArgs cmp K).cmp) (cmp' := (viewMergeArgs cmp).cmp) (fun _ _ => rfl)
      (d := fun g => dedupPick (g.map (·.2))) (d' := fun g => dedupPick (g.map (·.2)))
      (fun g => by rw [List.map_map]; rfl) (w := (subArgs cmp K).write) (w' := (viewMergeArgs cmp).write) (fun _ _ => rfl)
      (fs.map fun f => (⟨f, none⟩ : Source (FileRec K)))
    refine Eq.trans this ?_
    have m1' : doMergeFiles ⟨(subArgs cmp K).cmp, some fun g => dedupPick (g.map (·.2)), none, some (subArgs cmp K).write⟩
      (fs.map fun f => (⟨f, none⟩ : Source (FileRec K))) = (.success, s) := m1
    rw [m1']
  have hmem : ∀ r ∈ out.map (·.1), ∃ f ∈ fs.map (·.map (·.1)), r ∈ f := by
    intro r hr
    obtain ⟨x, hx, rfl⟩ := List.mem_map.mp hr
    obtain ⟨f, hf, hxf⟩ := m4 x hx
    exact ⟨_, List.mem_map.mpr ⟨f, hf, rfl⟩, List.mem_map.mpr ⟨x, hxf, rfl⟩⟩
  refine ⟨out.map (·.1), ?_, ⟨?_, ?_, ?_, ?_, ?_⟩, ?_, m5⟩
  · unfold mergeViewFiles
    rw [hm]
    dsimp only
    rw [hlift]
    dsimp only
    rw [show (liftState (fun x : FileRec K => x.1) s).written = out.map (·.1) from by unfold liftState; rw [← m2]]
    rw [← viewFile_eq]
    rfl
  · intro r hr; obtain ⟨f, hf, hrf⟩ := hmem r hr; exact (h f hf).1.op r hrf
  · intro r hr; obtain ⟨f, hf, hrf⟩ := hmem r hr; exact (h f hf).1.sizes r hrf
  · intro r hr; obtain ⟨f, hf, hrf⟩ := hmem r hr; exact (h f hf).1.keys r hrf
  · intro r hr; obtain ⟨f, hf, hrf⟩ := hmem r hr; exact (h f hf).1.valid r hrf
  · rw [List.pairwise_map]
    exact m3.imp fun h => Or.inl h
  · rw [List.map_map, List.Nodup, List.pairwise_map]
    refine m3.imp fun {a b} h e => ?_
    have := (C.eq_iff _ _ a.2.1 b.2.1).mpr e
    rw [h] at this
    cases this

private theorem merged_nil {out : List ViewRec} {files : List (List ViewRec)} (h : ∀ k, lastRec out k = lastRec files.flatten k) :
    out = [] ↔ files.flatten = [] := by
  have key : ∀ a b : List ViewRec, (∀ k, lastRec a k = lastRec b k) → a = [] → b = [] := by
    intro a b h ha
    subst ha
    cases b with
    | nil => rfl
    | cons r b =>
      have := h r.key
      exact absurd rfl (lastRec_none.mp this.symm r (List.mem_cons_self ..))
  exact ⟨key _ _ h, key _ _ fun k => (h k).symm⟩

/-- The file that merging into a new file gives. -/
def mergedFile (cmp : Bytes → Bytes → Ordering) (files : List (List ViewRec)) : RecFile :=
  match mergeViewFiles cmp (files.map fun f => (recFile f).bytes) [] with
  | some (_, b) => ⟨b, true⟩
  | none => ⟨[], false⟩

private theorem mergedFile_eq {cmp : Bytes → Bytes → Ordering} {files : List (List ViewRec)} {out : List ViewRec}
    (h : mergeViewFiles cmp (files.map fun f => (recFile f).bytes) [] = some (.success, [] ++ (recFile out).bytes)) :
    mergedFile cmp files = recFile out := by
  unfold mergedFile
  rw [h]
  rfl

private theorem choose_list {α β : Type} {P : α → β → Prop} (l : List α) (h : ∀ x ∈ l, ∃ y, P x y) : ∃ ys, List.Forall₂ P l ys := by
  induction l with
  | nil => exact ⟨[], .nil⟩
  | cons x l ih =>
    obtain ⟨y, hy⟩ := h x (List.mem_cons_self ..)
    obtain ⟨ys, hys⟩ := ih fun z hz => h z (List.mem_cons_of_mem _ hz)
    exact ⟨y :: ys, .cons hy hys⟩

/-- C75: an update of a group with merged files has the result (in the sense of C47) of an update with the records of all files, one file
after the other. -/
theorem C75_update_merged_partial {D : Type} [LinearOrder D] (e : CollateEnv D) (round : Rat → D) (ucol : Bytes → Bytes → Int)
    (H : e.Ok round ucol) (E : Env) (L : E.Laws) (hne : ∀ b, b ≠ [] → E.deflate b ≠ []) (kvThr kpThr : Nat) (ha : 2 ≤ kvThr)
    (junk : Bytes) (batchSize maxActs : Nat) (f g : File) (hcrc : f.cfg.crcMode ≠ .unknown) (buf : Bytes) (h : IndexHeader)
    (hd : decodeIndexHeader E buf = .ok h) (kmax : Nat) (hmax : kmax < 4096) (ids : List KV) (idFiles : List (List ViewRec))
    (views : List (View × List (List ViewRec))) (hg : IndexesAt E kmax f h ids (views.map (·.1))) (hs : SortedKV ebinCmp ids)
    (hi : idFiles ≠ [] ∧ ∀ x ∈ idFiles, RecsOk ebinCmp (fun _ => True) (viewIdIdx kmax).V x ∧ (x.map (·.key)).Nodup)
    (hv : ∀ x ∈ views, x.1.Ok e ∧ SortedKV (viewBtreeCmp e) (x.1.emits.map Emit.kv) ∧
      (x.2 ≠ [] ∧ ∀ y ∈ x.2, RecsOk (viewBtreeCmp e) x.1.keys (viewIdx x.1.keys x.1.specs).V y ∧ (y.map (·.key)).Nodup) ∧
      reductionMax x.1.specs + 12 < 2 ^ 16)
    (stats : UpdateStats) (out : Bytes)
    (hu : updateViewGroup E e kvThr kpThr junk batchSize maxActs buf (mergedFile ebinCmp idFiles)
      (views.map fun x => (x.1.reducers, mergedFile (viewBtreeCmp e) x.2)) f = .ok (stats, out) g) (hlen : g.disk.length ≤ 2 ^ 48) :
    ∃ h' ids' views', decodeIndexHeader E out = .ok h' ∧
      h' = { h with idRoot := h'.idRoot, views := h'.views, cleanup := h'.cleanup } ∧
      IndexesAt E kmax g h' ids' views' ∧ Updated ebinCmp h.cleanup idFiles.flatten ids ids' ∧
      List.Forall₂ (fun (x : View × List (List ViewRec)) v' => ∃ ms, v' = x.1.having ms ∧
        Updated (viewBtreeCmp e) h.cleanup x.2.flatten (x.1.emits.map Emit.kv) (ms.map Emit.kv)) views views' := by
  obtain ⟨idOut, i1, i2, -, i3⟩ := C75_merged_partial ebinCmp_laws idFiles hi.1 hi.2 []
  obtain ⟨outs, houts⟩ := choose_list (P := fun (x : View × List (List ViewRec)) o =>
      mergedFile (viewBtreeCmp e) x.2 = recFile o ∧ RecsOk (viewBtreeCmp e) x.1.keys (viewIdx x.1.keys x.1.specs).V o ∧
      ∀ k, lastRec o k = lastRec x.2.flatten k) views (by
    intro x hx
    obtain ⟨h1, h2, h3, h4⟩ := hv x hx
    obtain ⟨o, o1, o2, -, o3⟩ := C75_merged_partial (viewBtreeCmp_laws e round ucol H x.1.keys h1.1) x.2 h3.1 h3.2 []
    exact ⟨o, mergedFile_eq o1, o2, o3⟩)
  have hl : views.length = outs.length := houts.length_eq
  have key : ∀ x ∈ views.zip outs, mergedFile (viewBtreeCmp e) x.1.2 = recFile x.2 ∧
      RecsOk (viewBtreeCmp e) x.1.1.keys (viewIdx x.1.1.keys x.1.1.specs).V x.2 ∧
      ∀ k, lastRec x.2 k = lastRec x.1.2.flatten k := fun x hx => forall₂_zip houts x hx
  have hmap : ((views.zip outs).map fun x => (x.1.1, x.2)).map (·.1) = views.map (·.1) := by
    rw [List.map_map]
    exact map_zip_fst (F := fun x : View × List (List ViewRec) => x.1) hl
  have hargs : views.map (fun x => (x.1.reducers, mergedFile (viewBtreeCmp e) x.2)) =
      ((views.zip outs).map fun x => (x.1.1, x.2)).map fun x => (x.1.reducers, recFile x.2) := by
    rw [List.map_map, ← map_zip_fst (F := fun x : View × List (List ViewRec) => (x.1.reducers, mergedFile (viewBtreeCmp e) x.2)) hl]
    apply List.map_congr_left
    intro x hx
    simp only [Function.comp, (key x hx).1]
  rw [mergedFile_eq i1, hargs] at hu
  have hv' : ∀ x ∈ (views.zip outs).map fun x => (x.1.1, x.2), x.1.Ok e ∧ SortedKV (viewBtreeCmp e) (x.1.emits.map Emit.kv) ∧
      RecsOk (viewBtreeCmp e) x.1.keys (viewIdx x.1.keys x.1.specs).V x.2 ∧ reductionMax x.1.specs + 12 < 2 ^ 16 := by
    intro x hx
    obtain ⟨y, hy, rfl⟩ := List.mem_map.mp hx
    obtain ⟨h1, h2, h3, h4⟩ := hv y.1 (List.of_mem_zip hy).1
    exact ⟨h1, h2, (key y hy).2.1, h4⟩
  rw [← hmap] at hg
  obtain ⟨-, h', ids', views', d1, d2, d3, d4, d5, -⟩ := C47_update_group e round ucol H E L hne kvThr kpThr ha junk batchSize maxActs
    f g hcrc buf h hd kmax hmax ids idOut _ hg hs i2 hv' stats out hu hlen
  refine ⟨h', ids', views', d1, d2, d3, updated_of_lastRec d4 i3 (merged_nil i3), ?_⟩
  rw [List.forall₂_map_left_iff] at d5
  rw [List.forall₂_iff_get] at d5 ⊢
  have hz : (views.zip outs).length = views.length := by rw [List.length_zip, ← hl, Nat.min_self]
  refine ⟨hz.symm.trans d5.1, fun i h1 h2 => ?_⟩
  have := d5.2 i (by rw [hz]; exact h1) h2
  have hm : (views[i], outs[i]'(by omega)) ∈ views.zip outs := by
    rw [← List.getElem_zip (h := by rw [hz]; exact h1)]
    exact List.getElem_mem _
  simp only [List.get_eq_getElem, List.getElem_zip] at this ⊢
  obtain ⟨ms, m1, m2⟩ := this
  exact ⟨ms, m1, updated_of_lastRec m2 (key _ hm).2.2 (merged_nil (key _ hm).2.2)⟩

private theorem compareRecs_ok : CmpOk (compareRecs ebinCmp) := by
  have hs : ∀ a b, (compareRecs ebinCmp a b < 0 ↔ ebinCmp a.key b.key = .lt) ∧
      (compareRecs ebinCmp a b ≤ 0 ↔ ebinCmp a.key b.key ≠ .gt) ∧ (0 < compareRecs ebinCmp a b ↔ ebinCmp a.key b.key = .gt) := by
    intro a b
    unfold compareRecs
    cases ebinCmp a.key b.key <;> simp
  constructor
  · intro a b
    rw [(hs a b).1, (hs b a).2.2, ebinCmp_laws.swap a.key b.key trivial trivial]
    cases ebinCmp a.key b.key <;> simp
  · intro a b c
    rw [(hs a b).2.1, (hs b c).2.1, (hs a c).2.1]
    intro h1 h2 h3
    cases e1 : ebinCmp a.key b.key with
    | gt => exact h1 e1
    | eq => rw [(ebinCmp_laws.eq_iff _ _ trivial trivial).mp e1] at h3; exact h2 h3
    | lt =>
      cases e2 : ebinCmp b.key c.key with
      | gt => exact h2 e2
      | eq => rw [(ebinCmp_laws.eq_iff _ _ trivial trivial).mp e2, h3] at e1; cases e1
      | lt =>
        have := ebinCmp_laws.trans _ _ _ trivial trivial trivial e1 e2
        rw [h3] at this
        cases this

private theorem mapM_mem {α β : Type} {f : α → Option β} : ∀ {l : List α} {ys : List β}, l.mapM f = some ys →
    ∀ x ∈ l, ∃ y ∈ ys, f x = some y
  | [], _, _, x, hx => absurd hx (List.not_mem_nil)
  | a :: l, ys, h, x, hx => by
    rw [List.mapM_cons] at h
    cases ha : f a with
    | none => rw [ha] at h; cases h
    | some y =>
      cases hl : l.mapM f with
      | none => rw [ha, hl] at h; cases h
      | some ys' =>
        rw [ha, hl] at h
        cases h
        rcases List.mem_cons.mp hx with rfl | hx
        · exact ⟨y, List.mem_cons_self .., ha⟩
        · obtain ⟨z, hz, hfz⟩ := mapM_mem hl x hx
          exact ⟨z, List.mem_cons_of_mem _ hz, hfz⟩

private theorem readAll_of_recs : ∀ (n : Nat) (b : Bytes) (s : Source ViewRec), recsOfFile n b = some s → s.fail = none →
    readAll true n b = (s.recs, .clean)
  | 0, b, s, h, _ => by cases h; rfl
  | n + 1, b, s, h, hf => by
    unfold recsOfFile at h
    unfold readAll
    cases hr : readViewRecord true b with
    | eof => rw [hr] at h; cases h; rfl
    | fail => rw [hr] at h; cases h; cases hf
    | garbage => rw [hr] at h; cases h
    | record r rest =>
      rw [hr] at h
      dsimp only at h ⊢
      cases hs : recsOfFile n rest with
      | none => rw [hs] at h; cases h
      | some s' =>
        rw [hs] at h
        cases h
        rw [readAll_of_recs n rest s' hs hf]

/-- C75: of files with any contents: if merging of files for the index by document id succeeds, each of them was read to its end, and nothing
that was in the destination is changed. -/
theorem C75_success_means_all_read (sources : List Bytes) (dest b : Bytes)
    (h : mergeViewFiles ebinCmp sources dest = some (.success, b)) :
    (∀ x ∈ sources, ∃ rs, readAll true (x.length + 1) x = (rs, .clean)) ∧ dest <+: b := by
  unfold mergeViewFiles at h
  cases hm : sources.mapM fun b => recsOfFile (b.length + 1) b with
  | none => rw [hm] at h; cases h
  | some files =>
    rw [hm] at h
    dsimp only at h
    have hb : b = dest ++ (mergeFiles (viewMergeArgs ebinCmp) files).2.written.flatMap fun r => (writeViewRecord true r).1 :=
      (congrArg Prod.snd (Option.some.inj h)).symm
    refine ⟨?_, by rw [hb]; exact List.prefix_append _ _⟩
    have hr : (mergeFiles (viewMergeArgs ebinCmp) files).1 = .success := congrArg Prod.fst (Option.some.inj h)
    have hne : files ≠ [] := by
      rintro rfl
      cases hr
    have hd : (viewMergeArgs ebinCmp).DedupInRange := by
      intro d hd g hg
      cases hd
      have := dedup_lt (g.map (·.2)) (by intro h; rw [List.map_eq_nil_iff] at h; subst h; exact absurd hg (Nat.not_lt_zero 1))
      rwa [List.length_map] at this
    intro x hx
    obtain ⟨s, hs, hxs⟩ := mapM_mem hm x hx
    rcases C28_result (viewMergeArgs ebinCmp) compareRecs_ok hd files hne with ⟨_, k⟩ | ⟨c, t, k, _⟩
    · exact ⟨s.recs, readAll_of_recs _ _ _ hxs (k s hs)⟩
    · rw [k] at hr
      cases hr

/-- A file that was cut inside of a record makes merging fail. -/
example : mergeViewFiles ebinCmp [(recFile [⟨2, [1], [10]⟩]).bytes, (recFile [⟨2, [1], [10]⟩]).bytes.take 8] [] =
    some (.error (-2), []) := by decide +kernel

/-- Three files for the index by document id: insertions, a removal and a later insertion of a key, and an empty file. -/
def mergeSample : List (List ViewRec) :=
  [[⟨2, [1], [10]⟩, ⟨2, [2], [20]⟩, ⟨2, [3], [30]⟩], [⟨1, [2], []⟩, ⟨2, [3], [31]⟩], []]

/-- The hypotheses of C75 can be met, and what is in the merged file: the removal of 2 and the newer value for 3. -/
example : (∀ f ∈ mergeSample, RecsOk ebinCmp (fun _ => True) (fun _ => True) f ∧ (f.map (·.key)).Nodup) ∧
    mergeViewFiles ebinCmp (mergeSample.map fun f => (recFile f).bytes) [] =
      some (.success, (recFile [⟨2, [1], [10]⟩, ⟨1, [2], []⟩, ⟨2, [3], [31]⟩]).bytes) := by
  refine ⟨?_, by decide +kernel⟩
  intro f hf
  have hf' : f ∈ [[⟨2, [1], [10]⟩, ⟨2, [2], [20]⟩, ⟨2, [3], [30]⟩], [⟨1, [2], []⟩, ⟨2, [3], [31]⟩], ([] : List ViewRec)] := hf
  simp only [List.mem_cons, List.not_mem_nil, or_false] at hf'
  rcases hf' with rfl | rfl | rfl
  all_goals exact ⟨⟨by decide, by decide, fun _ _ => trivial, fun _ _ _ => trivial, by decide⟩, by decide⟩

/-- C75: a removal is lost.  The first file removes and then inserts a key, as an update of a document does, the second one removes it.
Both are in the order that an update asks for; after merging, the last record for the key is the insertion. -/
theorem C75_removal_is_lost :
    let files : List (List ViewRec) := [[⟨1, [7], []⟩, ⟨2, [7], [70]⟩], [⟨1, [7], []⟩]]
    (∀ f ∈ files, RecsOk ebinCmp (fun _ => True) (fun _ => True) f) ∧
      lastRec files.flatten [7] = some ⟨1, [7], []⟩ ∧
      ∃ out, mergeViewFiles ebinCmp (files.map fun f => (recFile f).bytes) [] = some (.success, (recFile out).bytes) ∧
        RecsOk ebinCmp (fun _ => True) (fun _ => True) out ∧ lastRec out [7] = some ⟨2, [7], [70]⟩ := by
  refine ⟨?_, by decide +kernel, [⟨1, [7], []⟩, ⟨2, [7], [70]⟩], by decide +kernel,
    ⟨by decide, by decide, fun _ _ => trivial, fun _ _ _ => trivial, by decide⟩, by decide +kernel⟩
  intro f hf
  simp only [List.mem_cons, List.not_mem_nil, or_false] at hf
  rcases hf with rfl | rfl
  all_goals exact ⟨by decide, by decide, fun _ _ => trivial, fun _ _ _ => trivial, by decide⟩

/-- C75: what was in the destination before stays in front of the merged records, and merging succeeds: here it is an insertion of
a greater key, so that the file is not in order. -/
theorem C75_old_destination_is_kept :
    mergeViewFiles ebinCmp [(recFile [⟨2, [1], [10]⟩]).bytes] (recFile [⟨2, [9], [90]⟩]).bytes =
      some (.success, (recFile [⟨2, [9], [90]⟩, ⟨2, [1], [10]⟩]).bytes) := by decide +kernel

end Couchstore.Props
