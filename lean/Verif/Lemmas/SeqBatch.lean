import Verif.Lemmas.Entry

/-! Helper lemmas: the by-sequence batch of a save. -/

namespace Couchstore

theorem decodeSequenceKey_enc48 {s : Nat} (h : s < 2 ^ 48) : decodeSequenceKey (enc48 s) = s := by
  unfold decodeSequenceKey
  rw [List.take_of_length_le (by simp)]
  exact beDec_beEnc _ _ (by simpa using h)

theorem enc48_inj {a b : Nat} (ha : a < 2 ^ 48) (hb : b < 2 ^ 48) (h : enc48 a = enc48 b) : a = b :=
  beEnc_inj (by simpa using ha) (by simpa using hb) h

theorem seqCmp_enc48 {a b : Nat} (ha : a < 2 ^ 48) (hb : b < 2 ^ 48) :
    seqCmp (enc48 a) (enc48 b) = if a = b then .eq else if a < b then .lt else .gt := by
  unfold seqCmp
  rw [decodeSequenceKey_enc48 ha, decodeSequenceKey_enc48 hb]

/-- Sorted insertion of a document by sequence number. -/
def seqInsert (e : Entry) : List Entry → List Entry
  | [] => [e]
  | x :: xs =>
    if x.info.dbSeq < e.info.dbSeq then x :: seqInsert e xs
    else if x.info.dbSeq = e.info.dbSeq then e :: xs
    else e :: x :: xs

theorem kvInsert_seqKVs (e : Entry) (l : List Entry) (he : e.info.dbSeq < 2 ^ 48)
    (hl : ∀ x ∈ l, x.info.dbSeq < 2 ^ 48) :
    kvInsert seqCmp (enc48 e.info.dbSeq) (assembleSeqIndexValue e.info) (seqKVs l) =
      seqKVs (seqInsert e l) := by
  induction l with
  | nil => rfl
  | cons x xs ih =>
    have ih := ih fun x hx => hl x (by simp [hx])
    unfold seqKVs at *
    simp only [List.map_cons, seqInsert, seqKV, kvInsert] at *
    rw [seqCmp_enc48 (hl x (by simp)) he]
    by_cases h1 : x.info.dbSeq = e.info.dbSeq
    · have : ¬ x.info.dbSeq < e.info.dbSeq := by omega
      simp [h1]
    · by_cases h2 : x.info.dbSeq < e.info.dbSeq
      · simp [h1, h2, ih]
      · simp [h1, h2]

theorem kvErase_seqKVs (s : Nat) (l : List Entry) (hs : s < 2 ^ 48)
    (hl : ∀ x ∈ l, x.info.dbSeq < 2 ^ 48) :
    kvErase (enc48 s) (seqKVs l) = seqKVs (l.filter fun e => e.info.dbSeq ≠ s) := by
  unfold kvErase seqKVs
  rw [List.filter_map]
  congr 1
  apply List.filter_congr
  intro x hx
  simp only [Function.comp_apply, seqKV, decide_eq_decide]
  exact ⟨fun h h0 => h (by rw [h0]), fun h h0 => h (enc48_inj (hl x hx) hs h0)⟩

theorem mem_seqInsert {e : Entry} {l : List Entry} (hs : SeqSorted l) (x : Entry) :
    x ∈ seqInsert e l ↔ x = e ∨ (x ∈ l ∧ x.info.dbSeq ≠ e.info.dbSeq) := by
  induction l with
  | nil => simp [seqInsert]
  | cons y ys ih =>
    obtain ⟨h1, h2⟩ := List.pairwise_cons.mp hs
    unfold seqInsert
    split
    · rename_i hc
      simp only [List.mem_cons, ih h2]
      constructor
      · rintro (rfl | rfl | ⟨h3, h4⟩)
        · exact Or.inr ⟨Or.inl rfl, by omega⟩
        · exact Or.inl rfl
        · exact Or.inr ⟨Or.inr h3, h4⟩
      · rintro (rfl | ⟨rfl | h3, h4⟩)
        · exact Or.inr (Or.inl rfl)
        · exact Or.inl rfl
        · exact Or.inr (Or.inr ⟨h3, h4⟩)
    · split
      · rename_i hc
        simp only [List.mem_cons]
        constructor
        · rintro (rfl | h3)
          · exact Or.inl rfl
          · exact Or.inr ⟨Or.inr h3, by have := h1 x h3; omega⟩
        · rintro (rfl | ⟨rfl | h3, h4⟩)
          · exact Or.inl rfl
          · exact absurd hc h4
          · exact Or.inr h3
      · simp only [List.mem_cons]
        constructor
        · rintro (rfl | rfl | h3)
          · exact Or.inl rfl
          · exact Or.inr ⟨Or.inl rfl, by omega⟩
          · exact Or.inr ⟨Or.inr h3, by have := h1 x h3; omega⟩
        · rintro (rfl | ⟨rfl | h3, h4⟩)
          · exact Or.inl rfl
          · exact Or.inr (Or.inl rfl)
          · exact Or.inr (Or.inr h3)

theorem seqInsert_sorted {e : Entry} {l : List Entry} (hs : SeqSorted l) : SeqSorted (seqInsert e l) := by
  induction l with
  | nil => simp [seqInsert, SeqSorted]
  | cons y ys ih =>
    obtain ⟨h1, h2⟩ := List.pairwise_cons.mp hs
    unfold seqInsert
    split
    · refine List.pairwise_cons.mpr ⟨?_, ih h2⟩
      intro z hz
      rcases (mem_seqInsert h2 z).mp hz with rfl | ⟨hz, _⟩
      · assumption
      · exact h1 z hz
    · split
      · refine List.pairwise_cons.mpr ⟨?_, h2⟩
        intro z hz
        have := h1 z hz; omega
      · refine List.pairwise_cons.mpr ⟨?_, hs⟩
        intro z hz
        rcases List.mem_cons.mp hz with rfl | hz
        · omega
        · have := h1 z hz; omega

theorem seqFold_spec (cfg : Cfg) (as : List Action) (es seqs : List Entry)
    (hs : SeqSorted seqs) (hok : ∀ x ∈ seqs, DocOk x.info) (heok : ∀ e ∈ es, DocOk e.info)
    (hinj : ∀ a ∈ es, ∀ b ∈ es, a.info.dbSeq = b.info.dbSeq → a = b)
    (has : ∀ a ∈ as, (∃ s, s < 2 ^ 48 ∧ a = rmAct s) ∨ ∃ e ∈ es, a = insAct e)
    (hb : BatchOk (seqRq cfg) as) :
    ∃ seqs', specFold (seqRq cfg) as () (seqKVs seqs) = .ok ((), seqKVs seqs') ∧ SeqSorted seqs' ∧
      ∀ x, x ∈ seqs' ↔ (x ∈ es ∧ insAct x ∈ as) ∨
        (x ∈ seqs ∧ ∀ a ∈ as, a.key ≠ enc48 x.info.dbSeq) := by
  induction as generalizing seqs with
  | nil => exact ⟨seqs, rfl, hs, by simp⟩
  | cons a as ih =>
    obtain ⟨p1, p2⟩ := List.pairwise_cons.mp hb
    have has' : ∀ a ∈ as, (∃ s, s < 2 ^ 48 ∧ a = rmAct s) ∨ ∃ e ∈ es, a = insAct e :=
      fun a ha => has a (by simp [ha])
    rcases has a (by simp) with ⟨s, hs48, rfl⟩ | ⟨e, he, rfl⟩
    · obtain ⟨seqs', k1, k2, k3⟩ := ih (seqs.filter fun e => e.info.dbSeq ≠ s)
        (List.Pairwise.filter _ hs) (fun x hx => hok x (List.mem_filter.mp hx).1) has' p2
      refine ⟨seqs', ?_, k2, ?_⟩
      · rw [specFold_cons]
        show specFold (seqRq cfg) as () (kvErase (enc48 s) (seqKVs seqs)) = _
        rw [kvErase_seqKVs s seqs hs48 fun x hx => (hok x hx).fits.dbSeq]
        exact k1
      · intro x
        rw [k3 x]
        simp only [List.mem_filter, List.mem_cons, decide_eq_true_eq]
        constructor
        · rintro (⟨h1, h2⟩ | ⟨⟨h1, h2⟩, h3⟩)
          · exact Or.inl ⟨h1, Or.inr h2⟩
          · refine Or.inr ⟨h1, ?_⟩
            rintro a (rfl | ha)
            · exact fun h0 => h2 (enc48_inj hs48 (hok x h1).fits.dbSeq h0).symm
            · exact h3 a ha
        · rintro (⟨h1, h2 | h2⟩ | ⟨h1, h2⟩)
          · simp [insAct, rmAct] at h2
          · exact Or.inl ⟨h1, h2⟩
          · exact Or.inr ⟨⟨h1, fun h0 => h2 _ (Or.inl rfl) (by rw [h0]; rfl)⟩,
              fun a ha => h2 a (Or.inr ha)⟩
    · have hin : ∀ b ∈ as, b.key ≠ enc48 e.info.dbSeq := by
        intro b hb0 h0
        rcases p1 b hb0 with h | ⟨_, h⟩
        · have h : seqCmp (enc48 e.info.dbSeq) b.key = .lt := h
          rw [h0, (seqCmp_laws.eq_iff _ _ (by simp) (by simp)).mpr rfl] at h
          simp at h
        · exact h (Or.inl rfl)
      obtain ⟨seqs', k1, k2, k3⟩ := ih (seqInsert e seqs) (seqInsert_sorted hs)
        (by
          intro x hx
          rcases (mem_seqInsert hs x).mp hx with rfl | ⟨hx, _⟩
          · exact heok _ he
          · exact hok x hx) has' p2
      refine ⟨seqs', ?_, k2, ?_⟩
      · rw [specFold_cons]
        show specFold (seqRq cfg) as ()
          (kvInsert seqCmp (enc48 e.info.dbSeq) (assembleSeqIndexValue e.info) (seqKVs seqs)) = _
        rw [kvInsert_seqKVs e seqs (heok e he).fits.dbSeq fun x hx => (hok x hx).fits.dbSeq]
        exact k1
      · intro x
        rw [k3 x, mem_seqInsert hs x]
        simp only [List.mem_cons]
        constructor
        · rintro (⟨h1, h2⟩ | ⟨rfl | ⟨h1, h2⟩, h3⟩)
          · exact Or.inl ⟨h1, Or.inr h2⟩
          · exact Or.inl ⟨he, Or.inl rfl⟩
          · refine Or.inr ⟨h1, ?_⟩
            rintro a (rfl | ha)
            · exact fun h0 => h2 (enc48_inj (heok e he).fits.dbSeq (hok x h1).fits.dbSeq h0).symm
            · exact h3 a ha
        · rintro (⟨h1, h2 | h2⟩ | ⟨h1, h2⟩)
          · have hk : enc48 x.info.dbSeq = enc48 e.info.dbSeq := congrArg Action.key h2
            have := hinj x h1 e he (enc48_inj (heok x h1).fits.dbSeq (heok e he).fits.dbSeq hk)
            subst this
            exact Or.inr ⟨Or.inl rfl, hin⟩
          · exact Or.inl ⟨h1, h2⟩
          · exact Or.inr ⟨Or.inr ⟨h1, fun h0 => h2 _ (Or.inl rfl) (by rw [h0]; rfl)⟩,
              fun a ha => h2 a (Or.inr ha)⟩

theorem seqActionLe_ok : LeOk seqActionLe (fun _ => True) where
  total a b _ _ := by
    unfold seqActionLe
    simp only [Bool.or_eq_true, Bool.and_eq_true, decide_eq_true_eq, beq_iff_eq]
    omega
  trans a b c _ _ _ := by
    unfold seqActionLe
    simp only [Bool.or_eq_true, Bool.and_eq_true, decide_eq_true_eq, beq_iff_eq]
    omega

/-- The sorted batch of removals and insertions with distinct sequence numbers is a batch the
index update handles: removals come first. -/
theorem seqBatch_ok (cfg : Cfg) (as : List Action) (hk : ∀ a ∈ as, a.key.length = 6)
    (hins : as.Pairwise fun a b => a.inserts → b.inserts → a.key ≠ b.key)
    (hty : ∀ a ∈ as, a.type = .remove ∨ a.type = .insert) :
    BatchOk (seqRq cfg) (sortBy seqActionLe as) := by
  have h1 := sortBy_sorted seqActionLe_ok as fun _ _ => trivial
  have h2 : (sortBy seqActionLe as).Pairwise fun a b => a.inserts → b.inserts → a.key ≠ b.key :=
    (List.Perm.pairwise_iff (fun h h1 h2 h0 => h h2 h1 h0.symm) (sortBy_perm seqActionLe as)).mpr hins
  have h3 := h1.and h2
  unfold BatchOk
  refine h3.imp_of_mem ?_
  rintro a b ha hb ⟨h4, h5⟩
  have ha' := mem_sortBy.mp ha
  have hb' := mem_sortBy.mp hb
  unfold seqActionLe at h4
  simp only [Bool.or_eq_true, Bool.and_eq_true, decide_eq_true_eq, beq_iff_eq] at h4
  rcases h4 with h4 | ⟨h4, h6⟩
  · left
    show seqCmp a.key b.key = .lt
    unfold seqCmp
    rw [if_neg (by omega), if_pos h4]
  · right
    have hkey : a.key = b.key := by
      apply (seqCmp_laws.eq_iff _ _ (hk a ha') (hk b hb')).mp
      unfold seqCmp
      rw [if_pos h4]
    refine ⟨hkey, fun hi => h5 hi ?_ hkey⟩
    rcases hi with hi | hi
    · rcases hty b hb' with h | h
      · rw [hi, h] at h6; simp [ActType.num] at h6
      · exact Or.inl h
    · rcases hty a ha' with h | h <;> rw [h] at hi <;> simp at hi

end Couchstore
