import Verif.Lemmas.FileMerger

/-!
# C28 — merging sorted files

`mergeFiles a files` is what `merge_files` does with the callbacks `a`: its result, and in the state the
records that were handed to the feed callback and to the destination file.
-/

namespace Couchstore

variable {α : Type}

/-- How the callbacks are passed on. -/
private def MergeFilesArgs.merger (a : MergeFilesArgs α) : Merger α :=
  ⟨a.cmp, a.dedup, a.feed, if a.feed.isSome && a.skipWriteback then none else some a.write⟩

private theorem merger_writes {a : MergeFilesArgs α} (h : a.writes) : a.merger.write = some a.write := by
  unfold MergeFilesArgs.merger
  cases h with
  | inl h => simp [h]
  | inr h => simp [h]

private theorem mergeFiles_spec {a : MergeFilesArgs α} (H : CmpOk a.cmp) (hd : a.DedupInRange) {files : List (Source α)}
    (hf : files ≠ []) :
    (∃ s out R, mergeFiles a files = (.success, s) ∧ RunTo a.merger (fileRecs files) out R ∧ (∀ i, R i = []) ∧
      HandedOn a s out ∧ ∀ f ∈ files, f.fail = none) ∨
    (∃ c s out R, mergeFiles a files = (.error c, s) ∧ ((∃ f ∈ files, f.fail = some c) ∨ CallbackFailed a c) ∧
      RunTo a.merger (fileRecs files) out R ∧ (a.writes → s.written = out)) := by
  have hfw : a.merger.feed.isSome = true ∨ a.merger.write.isSome = true := by
    unfold MergeFilesArgs.merger
    cases a.feed <;> simp
  have hdo : mergeFiles a files = doMergeFiles a.merger files := by
    unfold mergeFiles
    rw [if_neg (by simpa using hf)]
    rfl
  rw [hdo]
  cases doMergeFiles_spec (m := a.merger) H hd hfw files with
  | inl h =>
    obtain ⟨s, out, R, h1, h2, h3, h4, h5, h6⟩ := h
    exact .inl ⟨s, out, R, h1, h2, h3, ⟨h4, fun hw => h5 (by rw [merger_writes hw]; rfl)⟩, h6⟩
  | inr h =>
    obtain ⟨c, s, out, R, h1, h2, h3, h4⟩ := h
    refine .inr ⟨c, s, out, R, h1, ?_, h3, fun hw => h4 (by rw [merger_writes hw]; rfl)⟩
    cases h2 with
    | inl h => exact .inl h
    | inr h =>
      refine .inr ⟨h.1, ?_⟩
      cases h.2 with
      | inl h => exact .inl h
      | inr h =>
        obtain ⟨f, n, x, h1, h2⟩ := h
        unfold MergeFilesArgs.merger at h1
        dsimp only at h1
        split at h1
        · cases h1
        · cases h1
          exact .inr ⟨n, x, h2⟩

private theorem sorted_fileRecs {cmp : α → α → Int} {files : List (Source α)} (hs : ∀ f ∈ files, SortedRecs cmp f.recs) :
    AllSorted cmp (fileRecs files) := by
  intro i
  unfold fileRecs
  cases h : files[i]? with
  | none => exact .nil
  | some f => exact hs f (List.mem_of_getElem? h)

private theorem strict_fileRecs {cmp : α → α → Int} {files : List (Source α)} (hs : ∀ f ∈ files, IncreasingRecs cmp f.recs) :
    AllStrict cmp (fileRecs files) := by
  intro i
  unfold fileRecs
  cases h : files[i]? with
  | none => exact .nil
  | some f => exact hs f (List.mem_of_getElem? h)

private theorem flat_fileRecs (files : List (Source α)) : flat files.length (fileRecs files) = allRecs files := by
  unfold flat allRecs
  congr 1
  apply List.ext_getElem
  · simp
  · intro i h1 h2
    simp at h1 h2
    simp [fileRecs, h1]

private theorem fileRecs_nil (files : List (Source α)) (i : Nat) (h : files.length ≤ i) : fileRecs files i = [] := by
  unfold fileRecs
  rw [List.getElem?_eq_none h]
  rfl

private theorem flat_nil (n : Nat) {R : Nat → List α} (h : ∀ i, R i = []) : flat n R = [] := by
  induction n with
  | zero => rfl
  | succ n ih => rw [flat_succ, ih, h]; rfl

private theorem mem_fileRecs {files : List (Source α)} {i : Nat} {x : α} (h : x ∈ fileRecs files i) : x ∈ allRecs files := by
  unfold fileRecs at h
  cases hf : files[i]? with
  | none => rw [hf] at h; simp at h
  | some f =>
    rw [hf] at h
    exact List.mem_flatten.mpr ⟨f.recs, List.mem_map.mpr ⟨f, List.mem_of_getElem? hf, rfl⟩, h⟩

/-- C28, without deduplication: merging any number of sorted files, of any contents, either succeeds and has
handed on exactly the records of the files, in non-decreasing order, or returns the error of a source file or
of a callback; then what is in the destination file are sorted records of the files, and none of the records that
are missing is smaller.  Nothing else happens: the merger never runs out of room, reads a closed file or goes on
for ever. -/
theorem C28_merge_sorted (a : MergeFilesArgs α) (H : CmpOk a.cmp) (hd : a.dedup = none) (files : List (Source α))
    (hf : files ≠ []) (hs : ∀ f ∈ files, SortedRecs a.cmp f.recs) :
    (∃ s out, mergeFiles a files = (.success, s) ∧ HandedOn a s out ∧ SortedRecs a.cmp out ∧ out.Perm (allRecs files) ∧
      ∀ f ∈ files, f.fail = none) ∨
    (∃ c s, mergeFiles a files = (.error c, s) ∧ ((∃ f ∈ files, f.fail = some c) ∨ CallbackFailed a c) ∧
      (a.writes → SortedRecs a.cmp s.written ∧ ∃ missing, (s.written ++ missing).Perm (allRecs files) ∧
        ∀ x ∈ s.written, ∀ y ∈ missing, a.cmp x y ≤ 0)) := by
  cases mergeFiles_spec H (fun d h => by rw [hd] at h; cases h) hf with
  | inl h =>
    obtain ⟨s, out, R, h1, h2, h3, h4, h5⟩ := h
    refine .inl ⟨s, out, h1, h4, (h2.sorted H (sorted_fileRecs hs)).1, ?_, h5⟩
    have := h2.perm hd files.length (fileRecs_nil files)
    rw [flat_nil _ h3, List.append_nil, flat_fileRecs] at this
    exact this
  | inr h =>
    obtain ⟨c, s, out, R, h1, h2, h3, h4⟩ := h
    refine .inr ⟨c, s, h1, h2, fun hw => ?_⟩
    rw [h4 hw]
    obtain ⟨s1, s2, s3, s4⟩ := h3.sorted H (sorted_fileRecs hs)
    refine ⟨s1, flat files.length R, ?_, ?_⟩
    · have := h3.perm hd files.length (fileRecs_nil files)
      rw [flat_fileRecs] at this
      exact this
    · intro x hx y hy
      obtain ⟨l, hl, hy⟩ := List.mem_flatten.mp hy
      obtain ⟨i, _, rfl⟩ := List.mem_map.mp hl
      exact s3 x hx i y hy

/-- C28: with or without deduplication, a failure is reported only if there was one, and success only if no
file failed. -/
theorem C28_result (a : MergeFilesArgs α) (H : CmpOk a.cmp) (hd : a.DedupInRange) (files : List (Source α))
    (hf : files ≠ []) :
    ((∃ s, mergeFiles a files = (.success, s)) ∧ ∀ f ∈ files, f.fail = none) ∨
    (∃ c s, mergeFiles a files = (.error c, s) ∧ ((∃ f ∈ files, f.fail = some c) ∨ CallbackFailed a c)) := by
  cases mergeFiles_spec H hd hf with
  | inl h =>
    obtain ⟨s, out, R, h1, h2, h3, h4, h5⟩ := h
    exact .inl ⟨⟨s, h1⟩, h5⟩
  | inr h =>
    obtain ⟨c, s, out, R, h1, h2, h3, h4⟩ := h
    exact .inr ⟨c, s, h1, h2⟩

/-- C28, with deduplication: if merging sorted files succeeds, records of the files have been handed on in
non-decreasing order, and each key as often as in the file that has it most often: once, if no file has a key twice. -/
theorem C28_dedup_counts (a : MergeFilesArgs α) (H : CmpOk a.cmp) (hd : a.dedup.isSome = true) (hr : a.DedupInRange)
    (files : List (Source α)) (hf : files ≠ []) (hs : ∀ f ∈ files, SortedRecs a.cmp f.recs) (s : MergerState α)
    (hok : mergeFiles a files = (.success, s)) :
    ∃ out, HandedOn a s out ∧ SortedRecs a.cmp out ∧ (∀ x ∈ out, x ∈ allRecs files) ∧
      ∀ k, (∀ f ∈ files, countKey a.cmp k f.recs ≤ countKey a.cmp k out) ∧
        (countKey a.cmp k out = 0 ∨ ∃ f ∈ files, countKey a.cmp k f.recs = countKey a.cmp k out) := by
  cases mergeFiles_spec H hr hf with
  | inr h =>
    obtain ⟨c, s, out, R, h1, _⟩ := h
    rw [hok] at h1
    cases h1
  | inl h =>
    obtain ⟨s', out, R, h1, h2, h3, h4, h5⟩ := h
    rw [hok] at h1
    cases h1
    obtain ⟨s1, s2, s3, s4⟩ := h2.sorted H (sorted_fileRecs hs)
    refine ⟨out, h4, s1, fun x hx => ?_, fun k => ?_⟩
    · obtain ⟨i, hi⟩ := s2 x hx
      exact mem_fileRecs hi
    · obtain ⟨c1, c2⟩ := h2.count H hd k (sorted_fileRecs hs) h3
      constructor
      · intro f hf'
        obtain ⟨i, hi, rfl⟩ := List.mem_iff_getElem.mp hf'
        have := c1 i
        simpa [fileRecs, hi, MergeFilesArgs.merger] using this
      · cases c2 with
        | inl h => exact .inl h
        | inr h =>
          obtain ⟨i, hi⟩ := h
          by_cases hil : i < files.length
          · exact .inr ⟨files[i], by simp, by simpa [fileRecs, hil, MergeFilesArgs.merger] using hi⟩
          · rw [fileRecs_nil files i (by omega)] at hi
            exact .inl hi.symm

/-- C28, with deduplication of files that have no key twice: each record handed on is the one that the callback chose
when it was given all records with this key, of all files. -/
theorem C28_dedup_winner (a : MergeFilesArgs α) (H : CmpOk a.cmp) (d : List (α × Nat) → Nat) (hd : a.dedup = some d)
    (hr : a.DedupInRange) (files : List (Source α)) (hf : files ≠ []) (hs : ∀ f ∈ files, IncreasingRecs a.cmp f.recs)
    (s : MergerState α) (hok : mergeFiles a files = (.success, s)) :
    ∃ out, HandedOn a s out ∧ IncreasingRecs a.cmp out ∧
      (∀ x ∈ allRecs files, ∃ w ∈ out, sameKey a.cmp x w = true) ∧
      ∀ w ∈ out, ∃ group : List (α × Nat), (group.map (·.2)).Nodup ∧
        (∀ x i, (x, i) ∈ group ↔ ∃ f, files[i]? = some f ∧ x ∈ f.recs ∧ sameKey a.cmp w x = true) ∧
        (∃ i, (w, i) ∈ group) ∧ (1 < group.length → (group[d group]?).map (·.1) = some w) := by
  cases mergeFiles_spec H hr hf with
  | inr h =>
    obtain ⟨c, s, out, R, h1, _⟩ := h
    rw [hok] at h1
    cases h1
  | inl h =>
    obtain ⟨s', out, R, h1, h2, h3, h4, h5⟩ := h
    rw [hok] at h1
    cases h1
    obtain ⟨w1, w2⟩ := h2.winner (m := a.merger) H hd (strict_fileRecs hs)
    have hss := sorted_fileRecs (fun f hf => (hs f hf).imp fun h => Int.le_of_lt h)
    refine ⟨out, h4, w1, ?_, ?_⟩
    · intro x hx
      obtain ⟨l, hl, hx⟩ := List.mem_flatten.mp hx
      obtain ⟨f, hfm, rfl⟩ := List.mem_map.mp hl
      obtain ⟨i, hi, rfl⟩ := List.mem_iff_getElem.mp hfm
      have hc := (h2.count (m := a.merger) H (by show a.dedup.isSome = true; rw [hd]; rfl) x hss h3).1 i
      have hpos : 0 < countKey a.cmp x (files[i].recs) := by
        unfold countKey
        apply List.length_pos_iff_exists_mem.mpr
        refine ⟨x, List.mem_filter.mpr ⟨hx, ?_⟩⟩
        unfold sameKey
        exact decide_eq_true ⟨H.refl x, H.refl x⟩
      have hc' : countKey a.cmp x (files[i].recs) ≤ countKey a.cmp x out := by simpa [fileRecs, hi, MergeFilesArgs.merger] using hc
      obtain ⟨w, hw1, hw2⟩ := countKey_pos (cmp := a.cmp) (k := x) (l := out) (by omega)
      exact ⟨w, hw1, hw2⟩
    · intro w hw
      obtain ⟨g, g1, g2, g3, g4⟩ := w2 w hw
      refine ⟨g, g1, ?_, g3, g4⟩
      intro x i
      rw [g2]
      unfold fileRecs sameKey
      cases files[i]? with
      | none => simp
      | some f => simp [MergeFilesArgs.merger]

section Example

private def cmpNat (a b : Nat × Nat) : Int := (a.1 : Int) - (b.1 : Int)

private theorem cmpNat_ok : CmpOk cmpNat := ⟨fun a b => by unfold cmpNat; omega, fun a b c => by unfold cmpNat; omega⟩

private def args (dedup : Option (List ((Nat × Nat) × Nat) → Nat)) : MergeFilesArgs (Nat × Nat) :=
  ⟨cmpNat, dedup, none, fun _ _ => 0, false⟩

private def exFiles : List (Source (Nat × Nat)) := [⟨[(1, 0), (3, 0), (5, 0)], none⟩, ⟨[(1, 1), (4, 1)], none⟩, ⟨[], none⟩, ⟨[(5, 3)], none⟩]

/-- The hypotheses of C28 can be met: three files with keys in common, and an empty one. -/
example := C28_merge_sorted (args none) cmpNat_ok rfl exFiles (by decide) (by
  unfold SortedRecs; show ∀ f ∈ exFiles, f.recs.Pairwise fun x y => cmpNat x y ≤ 0; decide)

/-- What is computed, and that a read error is returned. -/
example : (mergeFiles (args none) exFiles).1 = .success ∧
    (mergeFiles (args none) exFiles).2.written = [(1, 0), (1, 1), (3, 0), (4, 1), (5, 3), (5, 0)] ∧
    (mergeFiles (args none) (⟨[(2, 0)], some (-2)⟩ :: exFiles)).1 = .error (-2) ∧
    (mergeFiles (args none) (⟨[(2, 0)], some (-2)⟩ :: exFiles)).2.written = [(1, 0), (1, 1), (2, 0)] := by
  decide +kernel

/-- The last one of the group is chosen. -/
private def lastOne (g : List ((Nat × Nat) × Nat)) : Nat := g.length - 1

example := C28_dedup_winner (args (some lastOne)) cmpNat_ok lastOne rfl
  (by intro d h g hg; cases h; unfold lastOne; omega) exFiles (by decide)
  (by unfold IncreasingRecs; show ∀ f ∈ exFiles, f.recs.Pairwise fun x y => cmpNat x y < 0; decide)
  (mergeFiles (args (some lastOne)) exFiles).2 (by decide +kernel)

example : (mergeFiles (args (some lastOne)) exFiles).2.written = [(1, 1), (3, 0), (4, 1), (5, 0)] := by
  decide +kernel

/-- A key twice in one file is handed on twice, also with deduplication. -/
example : (mergeFiles (args (some lastOne)) [⟨[(1, 0), (1, 1)], none⟩, ⟨[(1, 2)], none⟩]).2.written = [(1, 2), (1, 1)] ∧
    (mergeFiles (args (some lastOne)) [⟨[(1, 0), (1, 1)], none⟩, ⟨[(1, 2)], none⟩]).1 = .success := by
  decide +kernel

end Example

end Couchstore
