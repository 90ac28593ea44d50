import Verif.Lemmas.FileMap

/-!
C74: the map of a file that is printed by couch_dbdump shows what was read: a block is marked only if something in it was
read, everything read is marked, and what the newest header refers to is not shown as old data.
-/

namespace Couchstore.Props

open Couchstore

private theorem marked_from (calls : List MapCall) : ∀ (f : MapFile), f.currentHistoric = false → OnlyCurrent calls →
    ∀ i,
      (calls.foldl MapFile.call f).shown i = f.shown i ∨
      ∃ r ∈ mapReads f.currentTag f.currentTree f.currentHistoric calls,
        r.tag = ((calls.foldl MapFile.call f).shown i).tag ∧ r.Touches i := by
  induction calls with
  | nil => intro f _ _ i; exact Or.inl rfl
  | cons c cs ih =>
    intro f hf ho i
    have ho' : OnlyCurrent cs := fun h => ho (List.mem_cons_of_mem _ h)
    rw [List.foldl_cons]
    cases c with
    | tag t => exact ih (f.call (.tag t)) hf ho' i
    | tree t => exact ih (f.call (.tree t)) hf ho' i
    | historic b =>
      have hb : b = false := by
        cases b with
        | false => rfl
        | true => exact absurd (List.mem_cons_self ..) ho
      exact ih _ hb ho' i
    | read o s =>
      rcases ih (f.recordAccess o s) hf ho' i with k | ⟨r, k1, k2⟩
      · have e := shown_record f hf o s i
        rcases tagBlock_cases (purpose f.currentTag f.currentTree) false (overlap o s i) (f.shown i) with k' | ⟨k1, _, k3⟩
        · exact Or.inl (k.trans (e.trans k'))
        · refine Or.inr ⟨_, List.mem_cons_self .., ?_, overlap_pos.mp (Nat.zero_lt_of_lt k3)⟩
          show _ = ((cs.foldl MapFile.call (f.recordAccess o s)).shown i).tag
          rw [k, e, k1]
      · exact Or.inr ⟨r, List.mem_cons_of_mem _ k1, k2⟩

/-- As long as only current data is read: a block that is marked has been read, for the purpose that is shown.  Missing: the
same when old data is read, which is false, see `C74_unread_is_marked`. -/
theorem C74_marked_was_read_partial (calls : List MapCall) (ho : OnlyCurrent calls) (i : Nat)
    (ht : ((mapAfter calls).shown i).tag ≠ .empty) :
    ∃ r ∈ mapReads .unknown .unknown false calls, r.tag = ((mapAfter calls).shown i).tag ∧ r.Touches i := by
  rcases marked_from calls {} rfl ho i with k | k
  · unfold mapAfter at ht
    rw [k] at ht
    exact absurd rfl ht
  · exact k

private theorem near_from (calls : List MapCall) : ∀ (f : MapFile) (i : Nat),
      (calls.foldl MapFile.call f).shown i = f.shown i ∨
      ∃ r ∈ mapReads f.currentTag f.currentTree f.currentHistoric calls,
        r.tag = ((calls.foldl MapFile.call f).shown i).tag ∧ r.historic = ((calls.foldl MapFile.call f).shown i).historic ∧
        r.offset / 64 ≤ i ∧ i ≤ (r.offset + r.size) / 64 ∧ 0 < r.size := by
  induction calls with
  | nil => intro f i; exact Or.inl rfl
  | cons c cs ih =>
    intro f i
    rw [List.foldl_cons]
    cases c with
    | tag t => exact ih (f.call (.tag t)) i
    | tree t => exact ih (f.call (.tree t)) i
    | historic b => exact ih _ i
    | read o s =>
      rcases ih (f.recordAccess o s) i with k | ⟨r, k1, k2⟩
      · rcases shown_record_any f o s i with e | ⟨e1, e2, _, a, ea, e3⟩
        · exact Or.inl (k.trans e)
        · rcases tagBlock_cases (purpose f.currentTag f.currentTree) f.currentHistoric a (f.shown i) with k' | ⟨k1, k2, k3⟩
          · exact Or.inl (k.trans (e3.trans k'))
          · refine Or.inr ⟨_, List.mem_cons_self .., ?_, ?_, e1, e2, Nat.lt_of_lt_of_le (Nat.zero_lt_of_lt k3) ea⟩
            · show _ = ((cs.foldl MapFile.call (f.recordAccess o s)).shown i).tag
              rw [k, e3, k1]
            · show _ = ((cs.foldl MapFile.call (f.recordAccess o s)).shown i).historic
              rw [k, e3, k2]
      · exact Or.inr ⟨r, List.mem_cons_of_mem _ k1, k2⟩

/-- Whatever is read, in any order: a block that is marked was read for the purpose that is shown and in the mode that is
shown, or the first byte of it directly follows a read for this purpose and in this mode. -/
theorem C74_marked_is_near (calls : List MapCall) (i : Nat) (ht : ((mapAfter calls).shown i).tag ≠ .empty) :
    ∃ r ∈ mapReads .unknown .unknown false calls, r.tag = ((mapAfter calls).shown i).tag ∧
      r.historic = ((mapAfter calls).shown i).historic ∧ (r.Touches i ∨ r.offset + r.size = 64 * i) := by
  rcases near_from calls {} i with k | ⟨r, k1, k2, k3, k4, k5, k6⟩
  · unfold mapAfter at ht
    rw [k] at ht
    exact absurd rfl ht
  · refine ⟨r, k1, k2, k3, ?_⟩
    by_cases h : r.offset + r.size = 64 * i
    · exact Or.inr h
    · exact Or.inl ⟨max r.offset (64 * i), by omega, by omega, by omega⟩

private theorem read_from (calls : List MapCall) : ∀ (f : MapFile), f.currentHistoric = false → OnlyCurrent calls →
    (∀ r ∈ mapReads f.currentTag f.currentTree f.currentHistoric calls, r.tag ≠ .empty) →
    ∀ i, ((f.shown i).accessSize > 0 → (f.shown i).tag ≠ .empty ∧ (f.shown i).historic = false) →
      ((f.shown i).accessSize > 0 ∨ ∃ r ∈ mapReads f.currentTag f.currentTree f.currentHistoric calls, r.Touches i) →
      ((calls.foldl MapFile.call f).shown i).tag ≠ .empty ∧ ((calls.foldl MapFile.call f).shown i).historic = false := by
  induction calls with
  | nil =>
    intro f _ _ _ i hi h
    rcases h with h | ⟨r, hr, _⟩
    · exact hi h
    · exact absurd hr (List.not_mem_nil)
  | cons c cs ih =>
    intro f hf ho hr i hi h
    have ho' : OnlyCurrent cs := fun h => ho (List.mem_cons_of_mem _ h)
    rw [List.foldl_cons]
    cases c with
    | tag t => exact ih (f.call (.tag t)) hf ho' hr i hi h
    | tree t => exact ih (f.call (.tree t)) hf ho' hr i hi h
    | historic b =>
      have hb : b = false := by
        cases b with
        | false => rfl
        | true => exact absurd (List.mem_cons_self ..) ho
      exact ih _ hb ho' hr i hi h
    | read o s =>
      have e := shown_record f hf o s i
      refine ih (f.recordAccess o s) hf ho' (fun r k => hr r (List.mem_cons_of_mem _ k)) i ?_ ?_
      · intro hp
        rw [e] at hp ⊢
        rcases tagBlock_cases (purpose f.currentTag f.currentTree) false (overlap o s i) (f.shown i) with k | ⟨k1, k2, _⟩
        · rw [k] at hp ⊢; exact hi hp
        · rw [k1, k2]; exact ⟨hr _ (List.mem_cons_self ..), rfl⟩
      · have hs := tagBlock_size (purpose f.currentTag f.currentTree) false (overlap o s i) (f.shown i)
        rcases h with h | ⟨r, k1, k2⟩
        · left; rw [e]; omega
        · rcases List.mem_cons.mp k1 with k | k
          · subst k
            have := overlap_pos.mpr k2
            left; rw [e]; dsimp only at this; omega
          · exact Or.inr ⟨r, k, k2⟩

/-- As long as only current data is read, and each read says what it is for: every block of which something is read is marked,
and is not shown as old data.  Missing: the same for other reads, see `C74_read_is_hidden`. -/
theorem C74_read_is_marked_partial (calls : List MapCall) (ho : OnlyCurrent calls)
    (ht : ∀ r ∈ mapReads .unknown .unknown false calls, r.tag ≠ .empty) (r : MapRead)
    (hr : r ∈ mapReads .unknown .unknown false calls) (i : Nat) (hi : r.Touches i) :
    ((mapAfter calls).shown i).tag ≠ .empty ∧ ((mapAfter calls).shown i).historic = false :=
  read_from calls {} rfl ho ht i (fun h => absurd h (Nat.lt_irrefl 0)) (Or.inr ⟨r, hr, hi⟩)

private theorem kept_from (old : List MapCall) : ∀ (f : MapFile), f.currentHistoric = true → .historic false ∉ old →
    ∀ i, (f.shown i).tag ≠ .empty → (f.shown i).historic = false → (old.foldl MapFile.call f).shown i = f.shown i := by
  induction old with
  | nil => intro f _ _ i _ _; rfl
  | cons c cs ih =>
    intro f hf ho i h1 h2
    have ho' : .historic false ∉ cs := fun h => ho (List.mem_cons_of_mem _ h)
    rw [List.foldl_cons]
    cases c with
    | tag t => exact ih (f.call (.tag t)) hf ho' i h1 h2
    | tree t => exact ih (f.call (.tree t)) hf ho' i h1 h2
    | historic b =>
      have hb : b = true := by
        cases b with
        | true => rfl
        | false => exact absurd (List.mem_cons_self ..) ho
      exact ih _ hb ho' i h1 h2
    | read o s =>
      rcases shown_record_any f o s i with e | ⟨_, _, e, _⟩
      · have := ih (f.recordAccess o s) hf ho' i (by rw [e]; exact h1) (by rw [e]; exact h2)
        exact this.trans e
      · exact absurd ⟨hf, h2, h1⟩ e

/-- If current data is read first and old data after it, as couch_dbdump does, then what is marked by the reads of current data
is shown as it was when these ended. -/
theorem C74_current_is_kept (current old : List MapCall) (hc : OnlyCurrent current) (ho : .historic false ∉ old) (i : Nat)
    (ht : ((mapAfter current).shown i).tag ≠ .empty) :
    (mapAfter (current ++ .historic true :: old)).shown i = (mapAfter current).shown i ∧
      ((mapAfter current).shown i).historic = false := by
  have hh : ((mapAfter current).shown i).historic = false := by
    rcases near_from current {} i with k | ⟨r, k1, _, k3, _⟩
    · unfold mapAfter at ht ⊢
      rw [k]; rfl
    · rw [mapAfter, ← k3]
      have : ∀ (cs : List MapCall) (t : FileTag) (tr : MapTree), OnlyCurrent cs → ∀ r ∈ mapReads t tr false cs, r.historic = false := by
        intro cs
        induction cs with
        | nil => intro t tr _ r hr; exact absurd hr (List.not_mem_nil)
        | cons c cs ih =>
          intro t tr h r hr
          have h' : OnlyCurrent cs := fun k => h (List.mem_cons_of_mem _ k)
          cases c with
          | tag t' => exact ih _ _ h' r hr
          | tree t' => exact ih _ _ h' r hr
          | historic b =>
            cases b with
            | true => exact absurd (List.mem_cons_self ..) h
            | false => exact ih _ _ h' r hr
          | read o s =>
            rcases List.mem_cons.mp hr with k | k
            · subst k; rfl
            · exact ih _ _ h' r k
      exact this current _ _ hc r k1
  refine ⟨?_, hh⟩
  unfold mapAfter
  rw [List.foldl_append, List.foldl_cons]
  exact kept_from old _ rfl ho i ht hh

private theorem mode_from (calls : List MapCall) : ∀ (f : MapFile), f.currentHistoric = false → OnlyCurrent calls →
    (calls.foldl MapFile.call f).currentHistoric = false := by
  induction calls with
  | nil => intro f h _; exact h
  | cons c cs ih =>
    intro f hf ho
    have ho' : OnlyCurrent cs := fun h => ho (List.mem_cons_of_mem _ h)
    rw [List.foldl_cons]
    cases c with
    | tag t => exact ih (f.call (.tag t)) hf ho'
    | tree t => exact ih (f.call (.tree t)) hf ho'
    | historic b =>
      cases b with
      | false => exact ih _ rfl ho'
      | true => exact absurd (List.mem_cons_self ..) ho
    | read o s => exact ih (f.recordAccess o s) hf ho'

private theorem full_from (calls : List MapCall) : ∀ (f : MapFile), f.currentHistoric = false → OnlyCurrent calls →
    ∀ i, (f.shown i).accessSize = 64 → (calls.foldl MapFile.call f).shown i = f.shown i := by
  induction calls with
  | nil => intro f _ _ i _; rfl
  | cons c cs ih =>
    intro f hf ho i h
    have ho' : OnlyCurrent cs := fun h => ho (List.mem_cons_of_mem _ h)
    rw [List.foldl_cons]
    cases c with
    | tag t => exact ih (f.call (.tag t)) hf ho' i h
    | tree t => exact ih (f.call (.tree t)) hf ho' i h
    | historic b =>
      cases b with
      | false => exact ih (f.call (.historic false)) rfl ho' i h
      | true => exact absurd (List.mem_cons_self ..) ho
    | read o s =>
      have e := shown_record f hf o s i
      rw [tagBlock, if_neg (by unfold overlap; omega)] at e
      have := ih (f.recordAccess o s) hf ho' i (by rw [e]; exact h)
      exact this.trans e

/-- A block that is read as a whole before anything else in it is read is shown as full, whatever else is read later (as long as
only current data is read). -/
theorem C74_whole_block_is_full (before after : List MapCall) (hb : OnlyCurrent before) (ha : OnlyCurrent after) (o s i : Nat)
    (hn : ∀ r ∈ mapReads .unknown .unknown false before, ¬ r.Touches i) (h1 : o ≤ 64 * i) (h2 : 64 * (i + 1) ≤ o + s) :
    ((mapAfter (before ++ .read o s :: after)).shown i).isFull = true := by
  have hm := mode_from before {} rfl hb
  have h0 : (before.foldl MapFile.call {}).shown i = {} := by
    rcases marked_from before {} rfl hb i with k | ⟨r, k1, _, k2⟩
    · exact k
    · exact absurd k2 (hn r k1)
  have e := shown_record _ hm o s i
  have ho : overlap o s i = 64 := by unfold overlap; omega
  have h64 : (((before.foldl MapFile.call {}).recordAccess o s).shown i).accessSize = 64 := by
    rw [e, h0, ho, tagBlock, if_pos (by decide)]
    dsimp only
    split <;> rfl
  unfold mapAfter
  rw [List.foldl_append, List.foldl_cons]
  show ((after.foldl MapFile.call ((before.foldl MapFile.call {}).recordAccess o s)).shown i).isFull = true
  rw [full_from after ((before.foldl MapFile.call {}).recordAccess o s) hm ha i h64]
  unfold BlockInfo.isFull
  rw [h64]
  rfl

private theorem bytes_from (calls : List MapCall) : ∀ (f : MapFile), f.currentHistoric = false → OnlyCurrent calls →
    ∀ i, (f.shown i).historic = false →
      ((calls.foldl MapFile.call f).shown i).accessSize ≤
        (if (f.shown i).tag = ((calls.foldl MapFile.call f).shown i).tag then (f.shown i).accessSize else 0) +
        bytesRead (mapReads f.currentTag f.currentTree f.currentHistoric calls) ((calls.foldl MapFile.call f).shown i).tag i := by
  induction calls with
  | nil => intro f _ _ i _; rw [List.foldl_nil, if_pos rfl]; exact Nat.le_add_right _ _
  | cons c cs ih =>
    intro f hf ho i h
    have ho' : OnlyCurrent cs := fun h => ho (List.mem_cons_of_mem _ h)
    rw [List.foldl_cons]
    cases c with
    | tag t => exact ih (f.call (.tag t)) hf ho' i h
    | tree t => exact ih (f.call (.tree t)) hf ho' i h
    | historic b =>
      cases b with
      | false => exact ih (f.call (.historic false)) rfl ho' i h
      | true => exact absurd (List.mem_cons_self ..) ho
    | read o s =>
      have e := shown_record f hf o s i
      have h' : ((f.recordAccess o s).shown i).historic = false := by
        rw [e]
        rcases tagBlock_cases (purpose f.currentTag f.currentTree) false (overlap o s i) (f.shown i) with k | ⟨_, k, _⟩
        · rw [k]; exact h
        · exact k
      have := ih (f.recordAccess o s) hf ho' i h'
      show ((cs.foldl MapFile.call (f.recordAccess o s)).shown i).accessSize ≤
        (if (f.shown i).tag = ((cs.foldl MapFile.call (f.recordAccess o s)).shown i).tag then (f.shown i).accessSize else 0) +
        bytesRead (⟨purpose f.currentTag f.currentTree, f.currentHistoric, o, s⟩ ::
          mapReads f.currentTag f.currentTree f.currentHistoric cs) ((cs.foldl MapFile.call (f.recordAccess o s)).shown i).tag i
      have e2 : mapReads (f.recordAccess o s).currentTag (f.recordAccess o s).currentTree (f.recordAccess o s).currentHistoric cs
        = mapReads f.currentTag f.currentTree f.currentHistoric cs := rfl
      rw [e2] at this
      generalize (cs.foldl MapFile.call (f.recordAccess o s)).shown i = z at this ⊢
      generalize mapReads f.currentTag f.currentTree f.currentHistoric cs = rs at this ⊢
      generalize (f.recordAccess o s).shown i = y at this e
      have hb : bytesRead (⟨purpose f.currentTag f.currentTree, f.currentHistoric, o, s⟩ :: rs) z.tag i =
          (if purpose f.currentTag f.currentTree = z.tag then overlap o s i else 0) + bytesRead rs z.tag i := by
        unfold bytesRead
        rw [List.filter_cons]
        by_cases hz : purpose f.currentTag f.currentTree = z.tag
        · simp [hz]
        · simp [hz]
      rw [hb]
      subst e
      unfold tagBlock at this
      split at this
      · dsimp only at this
        rename_i hlt
        by_cases hz : purpose f.currentTag f.currentTree = z.tag
        · rw [if_pos hz] at this ⊢
          by_cases hy : (f.shown i).tag = z.tag
          · rw [if_pos hy]
            split at this <;> omega
          · rw [if_neg hy]
            rw [if_neg (fun k => hy (k.1.trans hz))] at this
            omega
        · rw [if_neg hz] at this ⊢
          omega
      · omega

/-- As long as only current data is read: at a block that is shown as full at least 64 bytes were read for the purpose that is
shown.  Missing: that these are different bytes, which is false, see `C74_shown_full_is_not_read`. -/
theorem C74_full_has_bytes_partial (calls : List MapCall) (ho : OnlyCurrent calls) (i : Nat)
    (hf : ((mapAfter calls).shown i).isFull = true) :
    64 ≤ bytesRead (mapReads .unknown .unknown false calls) ((mapAfter calls).shown i).tag i := by
  have h := bytes_from calls {} rfl ho i rfl
  have h64 : ((mapAfter calls).shown i).accessSize = 64 := eq_of_beq hf
  have h0 : (({} : MapFile).shown i).accessSize = 0 := rfl
  unfold mapAfter at h64 ⊢
  rw [h64, h0, ite_self, Nat.zero_add] at h
  exact h

/-- The header, the root of the tree of documents and a document of the newest header, then an older header and its root. -/
def mapSample : List MapCall :=
  [.tag .empty, .read 8192 1, .tag .fileHeader, .read 8193 8, .read 8201 100, .tag .btree, .tree .id, .read 4200 8, .read 4208 70,
    .tag .document, .read 100 8, .read 108 200]

def mapSampleOld : List MapCall := [.tag .fileHeader, .read 4097 8, .read 4105 60, .tag .btree, .read 4300 80]

/-- The hypotheses are met, and what is shown for some of the blocks: the first and the second of the document, the
root, its second block, the newest header, and the older root. -/
example : OnlyCurrent mapSample ∧ .historic false ∉ mapSampleOld ∧
    ((mapAfter mapSample).shown 1).tag = .document ∧ ((mapAfter mapSample).shown 2).isFull = true ∧
    ((mapAfter mapSample).shown 65).tag = .btreeById ∧ ((mapAfter mapSample).shown 66).tag = .btreeById ∧
    ((mapAfter mapSample).shown 128).tag = .fileHeader ∧ ((mapAfter mapSample).shown 127).tag = .empty ∧
    (mapAfter (mapSample ++ .historic true :: mapSampleOld)).shown 67 = ⟨52, .btreeById, true⟩ ∧
    (mapAfter (mapSample ++ .historic true :: mapSampleOld)).shown 65 = (mapAfter mapSample).shown 65 := by
  refine ⟨?_, ?_, ?_⟩
  · simp [OnlyCurrent, mapSample]
  · simp [mapSampleOld]
  · decide +kernel

/-- Each read says what it is for, in the sense of `C74_read_is_marked_partial`. -/
example : ∀ r ∈ mapReads .unknown .unknown false (mapSample.drop 2), r.tag ≠ .empty := by decide +kernel

/-- A block that was not read is marked: 64 bytes of current data were read, and then the same 64 bytes as old data; the block
after them is marked as old data, and even as full. -/
theorem C74_unread_is_marked :
    let calls : List MapCall := [.tag .document, .read 0 64, .historic true, .read 0 64]
    (∀ r ∈ mapReads .unknown .unknown false calls, ¬ r.Touches 1) ∧
      (mapAfter calls).shown 1 = ⟨64, .document, true⟩ := by
  refine ⟨?_, by decide +kernel⟩
  intro r hr
  have : r.offset = 0 ∧ r.size = 64 := by
    simp only [mapReads, List.mem_cons, List.not_mem_nil, or_false] at hr
    rcases hr with h | h <;> subst h <;> exact ⟨rfl, rfl⟩
  rintro ⟨p, h1, h2, h3⟩
  omega

/-- A block that was read is not marked: one byte was read while looking for the header, then one byte of a document. -/
theorem C74_read_is_hidden :
    let calls : List MapCall := [.tag .empty, .read 4096 1, .tag .document, .read 4090 7]
    (∃ r ∈ mapReads .unknown .unknown false calls, r.tag = .document ∧ r.Touches 64) ∧
      ((mapAfter calls).shown 64).tag = .empty := by
  exact ⟨⟨_, List.mem_cons_of_mem _ (List.mem_cons_self ..), rfl, 4096, by decide, by decide, by decide⟩, by decide +kernel⟩

/-- A block that is read as a whole, in two parts, is not shown as full. -/
theorem C74_read_full_is_not_shown :
    let calls : List MapCall := [.tag .document, .read 0 32, .read 32 32]
    (∀ p, p < 64 → ∃ r ∈ mapReads .unknown .unknown false calls, r.offset ≤ p ∧ p < r.offset + r.size) ∧
      ((mapAfter calls).shown 0).isFull = false := by
  decide +kernel

/-- A block of which 20 bytes are never read is shown as full: the reads of the same bytes are added. -/
theorem C74_shown_full_is_not_read :
    let calls : List MapCall := [.tag .document, .read 0 20, .read 0 44]
    (∀ r ∈ mapReads .unknown .unknown false calls, r.offset + r.size ≤ 44) ∧
      ((mapAfter calls).shown 0).isFull = true := by
  decide +kernel

end Couchstore.Props
