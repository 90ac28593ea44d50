import Verif.Lemmas.FileSorter

/-! The temporary files of a sort, and which records belong into which. -/

namespace Couchstore

variable {α : Type}

/-- What a thread still has to do with a file. -/
inductive Claim (α : Type) where
  /-- Sort these records and write them. -/
  | whole (recs : List α)
  /-- Write these records. -/
  | rest (todo : List α)

/-- What has been done with the file so far. -/
def ClaimOk (cfg : SortCfg α) (fs : SortPath → Option (List α)) (batch : Nat → List α) (n : Nat) : Claim α → Prop
  | .whole recs => cfg.sort recs = batch n
  | .rest todo => ∃ d, fs (.tmp n) = some d ∧ d ++ todo = batch n

/-- The temporary files `names`; the file `n` is for the records `batch n`, which are in it unless a thread has a claim on it. -/
structure Files (cfg : SortCfg α) (fs0 : SortPath → Option (List α)) (c0 : Nat) (fs : SortPath → Option (List α))
    (names : List Nat) (counter : Nat) (claims : List (Nat × Claim α)) (batch : Nat → List α) : Prop where
  nodup : names.Nodup
  range : ∀ n ∈ names, c0 ≤ n ∧ n < counter
  c0le : c0 ≤ counter
  others : ∀ n, n ∉ names → fs (.tmp n) = fs0 (.tmp n)
  ownNodup : (claims.map (·.1)).Nodup
  ownSub : ∀ c ∈ claims, c.1 ∈ names
  ok : ∀ c ∈ claims, ClaimOk cfg fs batch c.1 c.2
  complete : ∀ n ∈ names, n ∉ claims.map (·.1) → fs (.tmp n) = some (batch n)
  sorted : ∀ n ∈ names, SortedRecs cfg.cmp (batch n)

variable {cfg : SortCfg α} {fs0 fs : SortPath → Option (List α)} {c0 : Nat} {names : List Nat} {counter : Nat}
  {claims : List (Nat × Claim α)} {batch : Nat → List α}

theorem Files.perm (F : Files cfg fs0 c0 fs names counter claims batch) {claims' : List (Nat × Claim α)} (h : claims.Perm claims') :
    Files cfg fs0 c0 fs names counter claims' batch where
  nodup := F.nodup
  range := F.range
  c0le := F.c0le
  others := F.others
  ownNodup := (h.map _).nodup_iff.mp F.ownNodup
  ownSub := fun c hc => F.ownSub c (h.mem_iff.mpr hc)
  ok := fun c hc => F.ok c (h.mem_iff.mpr hc)
  complete := fun n hn hc => F.complete n hn (fun hc' => hc ((h.map _).mem_iff.mp hc'))
  sorted := F.sorted

/-- The contents of a file to which there is a claim change. -/
theorem Files.change {n : Nat} {c c' : Claim α} (F : Files cfg fs0 c0 fs names counter ((n, c) :: claims) batch)
    {fs' : SortPath → Option (List α)} (hfs : ∀ m, m ≠ n → fs' (.tmp m) = fs (.tmp m)) (hok : ClaimOk cfg fs' batch n c') :
    Files cfg fs0 c0 fs' names counter ((n, c') :: claims) batch := by
  have hn : n ∈ names := F.ownSub (n, c) (by simp)
  have hnd := F.ownNodup
  simp only [List.map_cons, List.nodup_cons] at hnd
  refine ⟨F.nodup, F.range, F.c0le, ?_, F.ownNodup, ?_, ?_, ?_, F.sorted⟩
  · intro m hm
    rw [hfs m (fun h => hm (h ▸ hn)), F.others m hm]
  · intro x hx
    rcases List.mem_cons.mp hx with rfl | hx
    · exact hn
    · exact F.ownSub x (by simp [hx])
  · intro x hx
    rcases List.mem_cons.mp hx with rfl | hx
    · exact hok
    · have h := F.ok x (by simp [hx])
      have hne : x.1 ≠ n := fun h' => hnd.1 (List.mem_map.mpr ⟨x, hx, h'⟩)
      obtain ⟨m, cl⟩ := x
      cases cl with
      | whole r => exact h
      | rest t =>
        obtain ⟨d, hd, h⟩ := h
        exact ⟨d, by rw [hfs m hne]; exact hd, h⟩
  · intro m hm hc
    have hne : m ≠ n := fun h => hc (by simp [h])
    rw [hfs m hne]
    exact F.complete m hm hc

theorem Files.release {n : Nat} (F : Files cfg fs0 c0 fs names counter ((n, .rest []) :: claims) batch) :
    Files cfg fs0 c0 fs names counter claims batch := by
  have hnd := F.ownNodup
  simp only [List.map_cons, List.nodup_cons] at hnd
  refine ⟨F.nodup, F.range, F.c0le, F.others, hnd.2, fun c hc => F.ownSub c (by simp [hc]), fun c hc => F.ok c (by simp [hc]), ?_,
    F.sorted⟩
  intro m hm hc
  by_cases h : m = n
  · subst h
    obtain ⟨d, hd, h⟩ := F.ok (m, .rest []) (by simp)
    rw [List.append_nil] at h
    rw [hd, h]
  · exact F.complete m hm (by simp [h]; simpa using hc)

theorem Files.source (F : Files cfg fs0 c0 fs names counter claims batch) {fs' : SortPath → Option (List α)}
    (h : ∀ m, fs' (.tmp m) = fs (.tmp m)) : Files cfg fs0 c0 fs' names counter claims batch := by
  refine ⟨F.nodup, F.range, F.c0le, fun n hn => by rw [h, F.others n hn], F.ownNodup, F.ownSub, ?_,
    fun n hn hc => by rw [h, F.complete n hn hc], F.sorted⟩
  intro c hc
  have := F.ok c hc
  obtain ⟨m, cl⟩ := c
  cases cl with
  | whole r => exact this
  | rest t =>
    obtain ⟨d, hd, h'⟩ := this
    exact ⟨d, by rw [h]; exact hd, h'⟩

/-- The records of a new file. -/
def newBatch (batch : Nat → List α) (n : Nat) (recs : List α) : Nat → List α := fun m => if m = n then recs else batch m

theorem flatMap_newBatch {names : List Nat} {n : Nat} (h : n ∉ names) (batch : Nat → List α) (recs : List α) :
    (names ++ [n]).flatMap (newBatch batch n recs) = names.flatMap batch ++ recs := by
  rw [List.flatMap_append]
  congr 1
  · have : ∀ m ∈ names, newBatch batch n recs m = batch m := fun m hm => by
      unfold newBatch
      rw [if_neg (fun (h' : m = n) => h (h' ▸ hm))]
    clear h
    induction names with
    | nil => rfl
    | cons m ms ih =>
      rw [List.flatMap_cons, List.flatMap_cons, this m (by simp), ih (fun x hx => this x (by simp [hx]))]
  · simp [newBatch]

theorem Files.create (H : cfg.Ok) (F : Files cfg fs0 c0 fs names counter claims batch) (recs : List α) :
    Files cfg fs0 c0 fs (names ++ [counter]) (counter + 1) ((counter, .whole recs) :: claims) (newBatch batch counter (cfg.sort recs)) := by
  have hfresh : counter ∉ names := fun h => by have := (F.range _ h).2; omega
  have hb : ∀ m ∈ names, newBatch batch counter (cfg.sort recs) m = batch m := fun m hm => by
    unfold newBatch
    rw [if_neg (fun (h' : m = counter) => hfresh (h' ▸ hm))]
  refine ⟨?_, ?_, ?_, ?_, ?_, ?_, ?_, ?_, ?_⟩
  · rw [List.nodup_append]
    refine ⟨F.nodup, by simp, ?_⟩
    intro a ha b hb' h
    simp only [List.mem_singleton] at hb'
    exact hfresh (hb' ▸ h ▸ ha)
  · intro n hn
    rcases List.mem_append.mp hn with hn | hn
    · have := F.range n hn; omega
    · simp only [List.mem_singleton] at hn
      have := F.c0le
      omega
  · have := F.c0le; omega
  · intro n hn
    exact F.others n (fun h => hn (by simp [h]))
  · simp only [List.map_cons, List.nodup_cons]
    refine ⟨fun h => ?_, F.ownNodup⟩
    obtain ⟨c, hc, h⟩ := List.mem_map.mp h
    exact hfresh (h ▸ F.ownSub c hc)
  · intro c hc
    rcases List.mem_cons.mp hc with rfl | hc
    · simp
    · simp [F.ownSub c hc]
  · intro c hc
    rcases List.mem_cons.mp hc with rfl | hc
    · show cfg.sort recs = _
      simp [newBatch]
    · have h := F.ok c hc
      have hm := hb c.1 (F.ownSub c hc)
      obtain ⟨m, cl⟩ := c
      cases cl with
      | whole r => exact h.trans hm.symm
      | rest t =>
        obtain ⟨d, hd, h⟩ := h
        exact ⟨d, hd, h.trans hm.symm⟩
  · intro n hn hc
    have hne : n ≠ counter := fun h => hc (by simp [h])
    rcases List.mem_append.mp hn with hn | hn
    · rw [F.complete n hn (fun h => hc (by simp [h])), hb n hn]
    · simp only [List.mem_singleton] at hn
      exact absurd hn hne
  · intro n hn
    rcases List.mem_append.mp hn with hn | hn
    · rw [hb n hn]; exact F.sorted n hn
    · simp only [List.mem_singleton] at hn
      subst hn
      simp only [newBatch, if_true]
      exact H.sort_sorted recs

theorem contentsOf_eq {l : List TmpFile} (h : ∀ t ∈ l, fs (.tmp t.name) = some (batch t.name)) :
    contentsOf fs l = some (l.map fun t => batch t.name) := by
  induction l with
  | nil => rfl
  | cons t ts ih =>
    unfold contentsOf
    rw [h t (by simp), ih (fun x hx => h x (by simp [hx]))]
    rfl

/-- Some of the files are merged into a new one. -/
theorem Files.merge {tmp pre mid post : List TmpFile} (F : Files cfg fs0 c0 fs (tmp.map (·.name)) counter [] batch)
    (hsplit : tmp.Perm (pre ++ mid ++ post)) {out : List α} (hout : SortedRecs cfg.cmp out) (hfresh : NoStale fs0 c0)
    {fs' : SortPath → Option (List α)} (hnew : fs' (.tmp counter) = some out) (hmid : ∀ t ∈ mid, fs' (.tmp t.name) = none)
    (hfs : ∀ m, m ≠ counter → (∀ t ∈ mid, m ≠ t.name) → fs' (.tmp m) = fs (.tmp m)) (lv : Nat) :
    Files cfg fs0 c0 fs' ((pre ++ post ++ [(⟨counter, lv⟩ : TmpFile)]).map (·.name)) (counter + 1) [] (newBatch batch counter out) := by
  have hperm : (tmp.map (·.name)).Perm (pre.map (·.name) ++ mid.map (·.name) ++ post.map (·.name)) := by
    simpa using hsplit.map (·.name)
  have hnd := hperm.nodup_iff.mp F.nodup
  have hmem : ∀ n, n ∈ tmp.map (·.name) ↔ n ∈ pre.map (·.name) ∨ n ∈ mid.map (·.name) ∨ n ∈ post.map (·.name) := by
    intro n
    rw [hperm.mem_iff]
    simp only [List.mem_append, or_assoc]
  have hcf : counter ∉ tmp.map (·.name) := fun h => by have := (F.range _ h).2; omega
  rw [List.nodup_append, List.nodup_append] at hnd
  obtain ⟨⟨hn1, hn2, hn3⟩, hn4, hn5⟩ := hnd
  have hrest : ∀ n, n ∈ pre.map (·.name) ∨ n ∈ post.map (·.name) → n ∈ tmp.map (·.name) ∧ (∀ t ∈ mid, n ≠ t.name) := by
    intro n hn
    refine ⟨(hmem n).mpr (hn.elim .inl (fun h => .inr (.inr h))), ?_⟩
    intro t ht h
    have htm : t.name ∈ mid.map (·.name) := List.mem_map.mpr ⟨t, ht, rfl⟩
    rcases hn with hn | hn
    · exact hn3 n hn _ htm h
    · exact hn5 t.name (by simp only [List.mem_append]; exact .inr htm) n hn h.symm
  have hb : ∀ m ∈ tmp.map (·.name), newBatch batch counter out m = batch m := fun m hm => by
    unfold newBatch
    rw [if_neg (fun (h' : m = counter) => hcf (h' ▸ hm))]
  refine ⟨?_, ?_, ?_, ?_, ?_, (fun c hc => nomatch hc), (fun c hc => nomatch hc), ?_, ?_⟩
  · simp only [List.map_append, List.map_cons, List.map_nil]
    rw [List.nodup_append, List.nodup_append]
    refine ⟨⟨hn1, hn4, fun a ha b hb' => hn5 a (by simp only [List.mem_append]; exact .inl ha) b hb'⟩, by simp, ?_⟩
    intro a ha b hb' h
    simp only [List.mem_singleton] at hb'
    rw [List.mem_append] at ha
    exact hcf (hb' ▸ h ▸ (hrest a ha).1)
  · intro n hn
    simp only [List.map_append, List.map_cons, List.map_nil, List.mem_append, List.mem_singleton] at hn
    rcases hn with hn | hn
    · have := F.range n (hrest n hn).1; omega
    · have := F.c0le
      omega
  · have := F.c0le; omega
  · intro n hn
    simp only [List.map_append, List.map_cons, List.map_nil, List.mem_append, List.mem_singleton, not_or] at hn
    by_cases hm : ∃ t ∈ mid, n = t.name
    · obtain ⟨t, ht, rfl⟩ := hm
      rw [hmid t ht, hfresh t.name (F.range _ ((hmem _).mpr (.inr (.inl (List.mem_map.mpr ⟨t, ht, rfl⟩))))).1]
    · have hm' : ∀ t ∈ mid, n ≠ t.name := fun t ht h => hm ⟨t, ht, h⟩
      rw [hfs n hn.2 hm']
      apply F.others
      rw [hmem]
      rintro (h | h | h)
      · exact hn.1.1 h
      · obtain ⟨t, ht, h⟩ := List.mem_map.mp h
        exact hm' t ht h.symm
      · exact hn.1.2 h
  · simp
  · intro n hn _
    simp only [List.map_append, List.map_cons, List.map_nil, List.mem_append, List.mem_singleton] at hn
    rcases hn with hn | rfl
    · have h := hrest n hn
      rw [hfs n (fun h' => hcf (h' ▸ h.1)) h.2, F.complete n h.1 (by simp), hb n h.1]
    · rw [hnew]
      simp [newBatch]
  · intro n hn
    simp only [List.map_append, List.map_cons, List.map_nil, List.mem_append, List.mem_singleton] at hn
    rcases hn with hn | rfl
    · have h := hrest n hn
      rw [hb n h.1]
      exact F.sorted n h.1
    · simpa [newBatch] using hout

end Couchstore
