import Verif.Lemmas.ViewTools

/-! Lemmas for the input of the command line tools of the view engine: descriptions of groups, and arguments. -/

namespace Couchstore.ViewTools

/-! ## Repetitions -/

/-- Without input the step fails. -/
def Dry {α : Type} (m : In α) : Prop := Fails (m [])

theorem readLine_dry (size : Nat) : Dry (readLine size) := by
  refine ⟨errRead, bad_read, ?_⟩
  unfold readLine
  have : fgets (size - 1) [] = ([], []) := by cases size - 1 <;> rfl
  rw [this]
  rfl

theorem bind_dry {α β : Type} {m : In α} {k : α → In β} (h : Dry m) : Dry (m >>= k) := bind_fails h

theorem readInt_dry (size : Nat) : Dry (readInt size) := bind_dry (readLine_dry size)

theorem orFail_fails {α : Type} {m : In α} {i : Bytes} {s : Int} (h : Fails (m i)) (hs : Bad s) : Fails (m.orFail s i) := by
  obtain ⟨s', -, h⟩ := h
  exact ⟨s, hs, by unfold In.orFail; rw [h]⟩

theorem orFail_dry {α : Type} {m : In α} {s : Int} (h : Dry m) (hs : Bad s) : Dry (m.orFail s) := orFail_fails h hs

theorem times_dry {α : Type} {m : In α} (h : Dry m) {n : Nat} (hn : n ≠ 0) : Dry (times m n) := by
  obtain ⟨k, rfl⟩ := Nat.exists_eq_succ_of_ne_zero hn
  exact bind_dry h

theorem times_reads {α : Type} {m : In α} {text : α → Bytes} {l : List α} (h : ∀ a ∈ l, Reads m (text a) a) :
    Reads (times m l.length) (l.flatMap text) l := by
  induction l with
  | nil => exact Reads.pure _
  | cons a l ih =>
    rw [List.flatMap_cons]
    refine (h a (by simp)).bind ?_
    exact (ih fun b hb => h b (by simp [hb])).last (Reads.pure _)

/-- If the text ends too early, the step fails, or it has all. -/
def Whole {α : Type} (v : α) (r : Except Stop (α × Bytes)) : Prop := Fails r ∨ r = .ok (v, [])

theorem times_cut {α : Type} {m : In α} {text : α → Bytes} {l : List α} (hd : Dry m) (h : ∀ a ∈ l, Reads m (text a) a)
    (hc : ∀ a ∈ l, Cut m (text a) (Whole a)) : Cut (times m l.length) (l.flatMap text) (Whole l) := by
  induction l with
  | nil => exact Cut.nil _ _
  | cons a l ih =>
    rw [List.flatMap_cons]
    have ha := h a (by simp)
    have hl : ∀ b ∈ l, Reads m (text b) b := fun b hb => h b (by simp [hb])
    refine Cut.bind ha ((hc a (by simp)).mono ?_) (Cut.last (times_reads hl) ((ih hl fun b hb => hc b (by simp [hb])).mono ?_))
    · rintro r (⟨s, hs, rfl⟩ | rfl)
      · exact Or.inl ⟨s, hs, rfl⟩
      · by_cases hn : l.length = 0
        · right
          rw [List.length_eq_zero_iff] at hn
          subst hn
          rfl
        · left
          exact bind_fails (times_dry hd hn)
    · rintro r (⟨s, hs, rfl⟩ | rfl)
      · exact Or.inl ⟨s, hs, rfl⟩
      · exact Or.inr rfl

/-- The same for lines, where the last one may be cut. -/
theorem times_lines_cut {size : Nat} {s : Int} (hs : Bad s) {init : List Bytes} {z : Bytes} (h : ∀ l ∈ init, LineOk size l)
    (hz : LineOk size z) :
    Cut (times ((readLine size).orFail s) (init.length + 1)) (init.flatMap line ++ line z) fun r =>
      Fails r ∨ ∃ p, p <+: z ∧ p ≠ [] ∧ r = .ok (init ++ [p], []) := by
  have hcut : ∀ l, LineOk size l → Cut ((readLine size).orFail s) (line l) fun r =>
      Fails r ∨ ∃ p, p <+: l ∧ p ≠ [] ∧ r = .ok (p, []) := by
    intro l hl p hp hne
    unfold In.orFail
    rcases readLine_cut hl p hp hne with h | ⟨q, h1, h2, h⟩
    · rw [h]; exact Or.inl ⟨s, hs, rfl⟩
    · rw [h]; exact Or.inr ⟨q, h1, h2, rfl⟩
  have hread : ∀ l, LineOk size l → Reads ((readLine size).orFail s) (line l) l := fun l hl => (readLine_reads hl).orFail s
  induction init with
  | nil =>
    show Cut (times _ 1) (line z) _
    refine Cut.last (hread z hz) ((hcut z hz).mono ?_)
    rintro r (⟨s, hs, rfl⟩ | ⟨p, h1, h2, rfl⟩)
    · exact Or.inl ⟨s, hs, rfl⟩
    · exact Or.inr ⟨p, h1, h2, rfl⟩
  | cons a l ih =>
    rw [List.flatMap_cons, List.append_assoc]
    have ha := h a (by simp)
    have hl : ∀ b ∈ l, LineOk size b := fun b hb => h b (by simp [hb])
    have hall : Reads (times ((readLine size).orFail s) (l.length + 1)) (l.flatMap line ++ line z) (l ++ [z]) := by
      have := times_reads (m := (readLine size).orFail s) (text := line) (l := l ++ [z]) (by
        intro b hb
        rcases List.mem_append.mp hb with hb | hb
        · exact hread b (hl b hb)
        · rw [List.mem_singleton] at hb; subst hb; exact hread b hz)
      simpa using this
    refine Cut.bind (hread a ha) ((hcut a ha).mono ?_) (Cut.last hall ((ih hl).mono ?_))
    · rintro r (⟨s, hs, rfl⟩ | ⟨p, -, -, rfl⟩)
      · exact Or.inl ⟨s, hs, rfl⟩
      · exact Or.inl (bind_fails (times_dry (orFail_dry (readLine_dry _) hs) (Nat.succ_ne_zero _)))
    · rintro r (⟨s, hs, rfl⟩ | ⟨p, h1, h2, rfl⟩)
      · exact Or.inl ⟨s, hs, rfl⟩
      · exact Or.inr ⟨p, h1, h2, rfl⟩

/-! ## Steps after which more must come -/

theorem line_then {β : Type} {size : Nat} {l t : Bytes} {k : Bytes → In β} {P : Except Stop (β × Bytes) → Prop}
    (h : LineOk size l) (hP : ∀ r, Fails r → P r) (hk : ∀ p, Dry (k p)) (hc : Cut (k l) t P) :
    Cut (readLine size >>= k) (line l ++ t) P := by
  refine Cut.bind (readLine_reads h) ((readLine_cut h).mono ?_) hc
  rintro r (rfl | ⟨p, -, -, rfl⟩)
  · exact hP _ ⟨_, bad_read, rfl⟩
  · exact hP _ (hk p)

theorem orFail_bind_cut {α β : Type} {m : In α} {k : α → In β} {s : Int} {t t2 : Bytes} {a : α} {P : Except Stop (β × Bytes) → Prop}
    (hr : Reads m t a) (hs : Bad s) (hP : ∀ r, Fails r → P r)
    (hm : Cut m t fun r => (∃ s, r = .error (.fail s)) ∨ ∃ v, r = .ok (v, []) ∧ P (k v [])) (hc : Cut (k a) t2 P) :
    Cut (m.orFail s >>= k) (t ++ t2) P := by
  refine Cut.bind (hr.orFail s) ?_ hc
  intro p hp hne
  unfold In.orFail
  rcases hm p hp hne with ⟨s', h⟩ | ⟨v, h, hv⟩
  · rw [h]; exact hP _ ⟨s, hs, rfl⟩
  · rw [h]; exact hv

theorem line_then' {β : Type} {size : Nat} {s : Int} {l t : Bytes} {k : Bytes → In β} {P : Except Stop (β × Bytes) → Prop}
    (h : LineOk size l) (hs : Bad s) (hP : ∀ r, Fails r → P r) (hk : ∀ p, Dry (k p)) (hc : Cut (k l) t P) :
    Cut ((readLine size).orFail s >>= k) (line l ++ t) P := by
  refine orFail_bind_cut (readLine_reads h) hs hP ((readLine_cut h).mono ?_) hc
  rintro r (rfl | ⟨p, -, -, rfl⟩)
  · exact Or.inl ⟨_, rfl⟩
  · exact Or.inr ⟨p, rfl, hP _ (hk p)⟩

theorem num_then {β : Type} {size n : Nat} {t : Bytes} {k : Nat → In β} {P : Except Stop (β × Bytes) → Prop}
    (h : n < 2 ^ 64) (hs : 24 ≤ size) (hP : ∀ r, Fails r → P r) (hk : ∀ v, v ≤ n → (0 < n → 0 < v) → P (k v [])) (hc : Cut (k n) t P) :
    Cut (readInt size >>= k) (num n ++ t) P := by
  refine Cut.bind (readInt_reads h hs) ((readInt_cut h hs).mono ?_) hc
  rintro r (rfl | ⟨v, rfl, h1, h2⟩)
  · exact hP _ ⟨_, bad_read, rfl⟩
  · exact hk v h1 h2

theorem num_then' {β : Type} {size n : Nat} {s : Int} {t : Bytes} {k : Nat → In β} {P : Except Stop (β × Bytes) → Prop}
    (h : n < 2 ^ 64) (hz : 24 ≤ size) (hs : Bad s) (hP : ∀ r, Fails r → P r)
    (hk : ∀ v, v ≤ n → (0 < n → 0 < v) → P (k v [])) (hc : Cut (k n) t P) :
    Cut ((readInt size).orFail s >>= k) (num n ++ t) P := by
  refine orFail_bind_cut (readInt_reads h hz) hs hP ((readInt_cut h hz).mono ?_) hc
  rintro r (rfl | ⟨v, rfl, h1, h2⟩)
  · exact Or.inl ⟨_, rfl⟩
  · exact Or.inr ⟨v, rfl, hk v h1 h2⟩

theorem fread_reads {b : Bytes} (s : Int) : Reads (fread b.length s) b b := by
  intro rest
  unfold fread
  rw [if_pos (by simp)]
  simp

theorem fread_cut {b : Bytes} (s : Int) : Cut (fread b.length s) b fun r => r = .error (.fail s) := by
  intro p hp hne
  have := hp.length_le
  have hlt : p.length < b.length := by
    rcases Nat.lt_or_ge p.length b.length with h | h
    · exact h
    · exact absurd (hp.eq_of_length (by omega)) hne
  unfold fread
  rw [if_neg (by omega)]

theorem fread_dry {n : Nat} {s : Int} (hn : n ≠ 0) (hs : Bad s) : Dry (fread n s) := by
  refine ⟨s, hs, ?_⟩
  unfold fread
  rw [if_neg (by simpa using hn)]

theorem whole_fails {α : Type} {v : α} (r : Except Stop (α × Bytes)) (h : Fails r) : Whole v r := Or.inl h

/-! ## Groups -/

theorem readViewDef_reads {v : ViewDef} (h : ViewOk v) : Reads readViewDef (viewText v) v := by
  have hs := h.short
  have h0 : v.reducer.length ≠ 0 := fun e => h.some (List.length_eq_zero_iff.mp e)
  unfold readViewDef viewText
  refine ((readLine_reads h.name).orFail _).bind (((readInt_reads (by omega) (by decide)).orFail _).bind ?_)
  dsimp only
  rw [toInt32_small (by omega), if_neg (by omega), if_neg (by omega), if_neg (by omega)]
  refine (show Reads _ v.reducer _ from fread_reads _).last ?_
  rw [cstr_of h.reducer]
  exact Reads.pure _

theorem readViewDef_dry : Dry readViewDef := bind_dry (orFail_dry (readLine_dry _) bad_args)

theorem readViewDef_cut {v : ViewDef} (h : ViewOk v) : Cut readViewDef (viewText v) (Whole v) := by
  have hs := h.short
  have h0 : v.reducer.length ≠ 0 := fun e => h.some (List.length_eq_zero_iff.mp e)
  unfold readViewDef viewText
  refine line_then' h.name bad_args whole_fails (fun p => bind_dry (orFail_dry (readInt_dry _) bad_args)) ?_
  refine num_then' (by omega) (by decide) bad_args whole_fails ?_ ?_
  · intro n hn hp
    have := hp (by omega)
    rw [toInt32_small (by omega), if_neg (by omega), if_neg (by omega), if_neg (by omega)]
    exact Or.inl (bind_fails (fread_dry (by simp; omega) bad_args))
  · dsimp only
    rw [toInt32_small (by omega), if_neg (by omega), if_neg (by omega), if_neg (by omega)]
    refine Cut.last (show Reads _ v.reducer _ from fread_reads _) ((show Cut _ _ _ from fread_cut _).mono ?_)
    rintro r rfl
    exact Or.inl ⟨_, bad_args, rfl⟩

theorem readBtreeDef_reads {l : List ViewDef} (h1 : l.length < 2 ^ 31) (h : ∀ v ∈ l, ViewOk v) :
    Reads readBtreeDef (btreeText l) l := by
  unfold readBtreeDef btreeText
  refine ((readInt_reads (by omega) (by decide)).orFail _).bind ?_
  dsimp only
  rw [toInt32_small h1, if_neg (by omega)]
  exact times_reads fun v hv => readViewDef_reads (h v hv)

theorem readBtreeDef_dry : Dry readBtreeDef := bind_dry (orFail_dry (readInt_dry _) bad_args)

theorem readBtreeDef_cut {l : List ViewDef} (h1 : l.length < 2 ^ 31) (h : ∀ v ∈ l, ViewOk v) :
    Cut readBtreeDef (btreeText l) (Whole l) := by
  unfold readBtreeDef btreeText
  refine num_then' (by omega) (by decide) bad_args whole_fails ?_ ?_
  · intro n hn hp
    rw [toInt32_small (by omega), if_neg (by omega)]
    by_cases h0 : l.length = 0
    · right
      have : n = 0 := by omega
      subst this
      rw [List.length_eq_zero_iff] at h0
      subst h0
      rfl
    · left
      exact times_dry readViewDef_dry (by have := hp (by omega); simp; omega)
  · dsimp only
    rw [toInt32_small h1, if_neg (by omega)]
    exact times_cut readViewDef_dry (fun v hv => readViewDef_reads (h v hv)) fun v hv => readViewDef_cut (h v hv)

theorem readSpatialDef_reads {s : SpatialDef} (h1 : s.dimension < 2 ^ 16) (h2 : s.mbb.length = 16 * s.dimension) :
    Reads readSpatialDef (spatialText s) s := by
  obtain ⟨d, b⟩ := s
  dsimp only at h1 h2
  unfold readSpatialDef spatialText
  dsimp only
  refine ((readInt_reads (by omega) (by decide)).orFail _).bind ?_
  rw [Nat.mod_eq_of_lt h1]
  by_cases h0 : d = 0
  · subst h0
    rw [if_pos rfl, List.length_eq_zero_iff.mp h2]
    exact Reads.pure _
  · rw [if_neg h0, show d * 2 * 8 = b.length by omega]
    exact (fread_reads _).last (Reads.pure _)

theorem readSpatialDef_dry : Dry readSpatialDef := bind_dry (orFail_dry (readInt_dry _) bad_args)

theorem readSpatialDef_cut {s : SpatialDef} (h1 : s.dimension < 2 ^ 16) (h2 : s.mbb.length = 16 * s.dimension) :
    Cut readSpatialDef (spatialText s) (Whole s) := by
  obtain ⟨d, b⟩ := s
  dsimp only at h1 h2
  unfold readSpatialDef spatialText
  dsimp only
  refine num_then' (by omega) (by decide) bad_args whole_fails ?_ ?_
  · intro n hn hp
    rw [Nat.mod_eq_of_lt (by omega)]
    by_cases h0 : d = 0
    · have : n = 0 := by omega
      subst this h0
      rw [if_pos rfl, List.length_eq_zero_iff.mp h2]
      exact Or.inr rfl
    · have := hp (by omega)
      rw [if_neg (by omega)]
      exact Or.inl (bind_fails (fread_dry (by omega) bad_args))
  · rw [Nat.mod_eq_of_lt h1]
    by_cases h0 : d = 0
    · subst h0
      rw [List.length_eq_zero_iff.mp h2]
      exact Cut.nil _ _
    · rw [if_neg h0, show d * 2 * 8 = b.length by omega]
      refine Cut.last (fread_reads _) ((fread_cut _).mono ?_)
      rintro r rfl
      exact Or.inl ⟨_, bad_args, rfl⟩

theorem readGroupInfo_reads {g : GroupInfo} (h : GroupOk g) : Reads readGroupInfo (groupText g) g := by
  obtain ⟨path, pos, views⟩ := g
  have hp := h.path
  have hpos := h.pos
  have hf := h.few
  have hv := h.views
  unfold groupText readGroupInfo
  cases views with
  | mapreduce l =>
    have hf : l.length + 1 < 2 ^ 31 := hf
    dsimp only at hp hpos hv ⊢
    refine (readInt_reads (by decide) (by decide)).bind ?_
    rw [if_neg (by simp)]
    refine (readLine_reads hp).bind ((readInt_reads hpos (by decide)).bind ((readInt_reads (by omega) (by decide)).bind ?_))
    rw [toInt32_small (by omega), if_neg (by omega), if_pos rfl]
    exact (times_reads (l := l) fun b hb => readBtreeDef_reads (hv b hb).1 (hv b hb).2).last (Reads.pure _)
  | spatial l =>
    have hf : l.length + 1 < 2 ^ 31 := hf
    dsimp only at hp hpos hv ⊢
    refine (readInt_reads (by decide) (by decide)).bind ?_
    rw [if_neg (by simp)]
    refine (readLine_reads hp).bind ((readInt_reads hpos (by decide)).bind ((readInt_reads (by omega) (by decide)).bind ?_))
    rw [toInt32_small (by omega), if_neg (by omega), if_neg (by simp)]
    exact (times_reads (l := l) fun b hb => readSpatialDef_reads (hv b hb).1 (hv b hb).2).last (Reads.pure _)

theorem readGroupInfo_dry : Dry readGroupInfo := bind_dry (readInt_dry _)

theorem readGroupInfo_cut {g : GroupInfo} (h : GroupOk g) : Cut readGroupInfo (groupText g) (Whole g) := by
  obtain ⟨path, pos, views⟩ := g
  have hp := h.path
  have hpos := h.pos
  have hf := h.few
  have hv := h.views
  have hfirst : ∀ {n : Nat}, n ≤ 1 → Whole (⟨path, pos, views⟩ : GroupInfo) ((if n ≠ 0 ∧ n ≠ 1 then In.fail errArgs
      else do
        let path ← readLine 4096
        let pos ← readInt 4096
        let k ← readInt 4096
        let k := toInt32 k
        if k < 0 then In.fail errAlloc
        else if n = 0 then do
          let l ← times readBtreeDef k.toNat
          In.pure ⟨path, pos, .mapreduce l⟩
        else do
          let l ← times readSpatialDef k.toNat
          In.pure ⟨path, pos, .spatial l⟩ : In GroupInfo) []) := by
    intro n hn
    rw [if_neg (by omega)]
    exact Or.inl (bind_dry (readLine_dry _))
  unfold groupText readGroupInfo
  cases views with
  | mapreduce l =>
    have hf : l.length + 1 < 2 ^ 31 := hf
    dsimp only at hp hpos hv ⊢
    refine num_then (by decide) (by decide) whole_fails (fun v hv _ => hfirst (by omega)) ?_
    rw [if_neg (by simp)]
    refine line_then hp whole_fails (fun _ => bind_dry (readInt_dry _)) (num_then hpos (by decide) whole_fails
      (fun _ _ _ => Or.inl (bind_dry (readInt_dry _))) (num_then (by omega) (by decide) whole_fails ?_ ?_))
    · intro n hn hp
      rw [toInt32_small (by omega), if_neg (by omega), if_pos rfl]
      by_cases h0 : l.length = 0
      · have : n = 0 := by omega
        subst this
        rw [List.length_eq_zero_iff] at h0
        subst h0
        exact Or.inr rfl
      · exact Or.inl (bind_dry (times_dry readBtreeDef_dry (by have := hp (by omega); simp; omega)))
    · rw [toInt32_small (by omega), if_neg (by omega), if_pos rfl]
      refine Cut.last (times_reads (l := l) fun b hb => readBtreeDef_reads (hv b hb).1 (hv b hb).2)
        ((times_cut (l := l) readBtreeDef_dry (fun b hb => readBtreeDef_reads (hv b hb).1 (hv b hb).2)
          fun b hb => readBtreeDef_cut (hv b hb).1 (hv b hb).2).mono ?_)
      rintro r (⟨s, hs, rfl⟩ | rfl)
      · exact Or.inl ⟨s, hs, rfl⟩
      · exact Or.inr rfl
  | spatial l =>
    have hf : l.length + 1 < 2 ^ 31 := hf
    dsimp only at hp hpos hv ⊢
    refine num_then (by decide) (by decide) whole_fails (fun v hv _ => hfirst (by omega)) ?_
    rw [if_neg (by simp)]
    refine line_then hp whole_fails (fun _ => bind_dry (readInt_dry _)) (num_then hpos (by decide) whole_fails
      (fun _ _ _ => Or.inl (bind_dry (readInt_dry _))) (num_then (by omega) (by decide) whole_fails ?_ ?_))
    · intro n hn hp
      rw [toInt32_small (by omega), if_neg (by omega), if_neg (by simp)]
      by_cases h0 : l.length = 0
      · have : n = 0 := by omega
        subst this
        rw [List.length_eq_zero_iff] at h0
        subst h0
        exact Or.inr rfl
      · exact Or.inl (bind_dry (times_dry readSpatialDef_dry (by have := hp (by omega); simp; omega)))
    · rw [toInt32_small (by omega), if_neg (by omega), if_neg (by simp)]
      refine Cut.last (times_reads (l := l) fun b hb => readSpatialDef_reads (hv b hb).1 (hv b hb).2)
        ((times_cut (l := l) readSpatialDef_dry (fun b hb => readSpatialDef_reads (hv b hb).1 (hv b hb).2)
          fun b hb => readSpatialDef_cut (hv b hb).1 (hv b hb).2).mono ?_)
      rintro r (⟨s, hs, rfl⟩ | rfl)
      · exact Or.inl ⟨s, hs, rfl⟩
      · exact Or.inr rfl

/-! ## The tools -/

theorem group_then {β : Type} {g : GroupInfo} {t : Bytes} {k : GroupInfo → In β} {P : Except Stop (β × Bytes) → Prop}
    (h : GroupOk g) (hP : ∀ r, Fails r → P r) (hk : P (k g [])) (hc : Cut (k g) t P) :
    Cut (readGroupInfo.orFail errAlloc >>= k) (groupText g ++ t) P := by
  refine orFail_bind_cut (readGroupInfo_reads h) bad_alloc hP ((readGroupInfo_cut h).mono ?_) hc
  rintro r (⟨s, -, rfl⟩ | rfl)
  · exact Or.inl ⟨s, rfl⟩
  · exact Or.inr ⟨g, rfl, hk⟩

theorem Reads.run {α : Type} {m : In α} {t : Bytes} {a : α} (h : Reads m t a) (rest : Bytes) : runTool m (t ++ rest) = .call a := by
  unfold runTool
  rw [h rest]

theorem lines_reads {size : Nat} {s : Int} {l : List Bytes} (h : ∀ a ∈ l, LineOk size a) :
    Reads (times ((readLine size).orFail s) l.length) (l.flatMap line) l :=
  times_reads fun a ha => (readLine_reads (h a ha)).orFail s

theorem cleanup_reads {g : GroupInfo} (h : GroupOk g) : Reads cleanupArgs (groupText g) g := (readGroupInfo_reads h).orFail _

theorem builder_reads {a : BuilderArgs} (h : BuilderOk a) : Reads builderArgs (builderText a) a := by
  have := h.group.few
  unfold builderArgs builderText
  refine ((readGroupInfo_reads h.group).orFail _).bind (((readLine_reads h.tmpDir).orFail _).bind ?_)
  rw [if_neg (by omega), ← h.count]
  exact ((readLine_reads h.dest).orFail _).bind ((lines_reads h.sources).last (Reads.pure _))

theorem updater_reads {a : UpdaterArgs} (h : UpdaterOk a) : Reads updaterArgs (updaterText a) a := by
  obtain ⟨tmp, g, sorted, srcs, batch, hdr⟩ := a
  have := h.group.few
  have hb := h.batch
  have hh := h.header
  have hc := h.count
  dsimp only at hb hh hc
  have h0 : hdr.length ≠ 0 := fun e => hh.1 (List.length_eq_zero_iff.mp e)
  unfold updaterArgs updaterText
  dsimp only
  refine ((readLine_reads h.tmpDir).orFail _).bind (((readGroupInfo_reads h.group).orFail _).bind ?_)
  refine ((readLine_reads (size := 8192) (l := if sorted = true then [115] else [117]) ?_).orFail _).bind ?_
  · cases sorted <;> exact ⟨by decide, by decide, by decide⟩
  rw [if_neg (by omega), ← hc]
  refine (lines_reads h.sources).bind (((readInt_reads (by omega) (by decide)).orFail _).bind
    ((readInt_reads (by omega) (by decide)).bind ?_))
  rw [if_neg (by omega), if_neg h0, toInt32_small (by omega), Int.toNat_of_nonneg hb.1]
  refine (fread_reads _).last ?_
  cases sorted <;> exact Reads.pure _

theorem compactor_reads {a : CompactorArgs} (h : CompactorOk a) : Reads compactorArgs (compactorText a) a := by
  have hh := h.header
  have h0 : a.header.length ≠ 0 := fun e => hh.1 (List.length_eq_zero_iff.mp e)
  unfold compactorArgs compactorText
  refine ((readLine_reads h.target).orFail _).bind (((readInt_reads h.total (by decide)).orFail _).bind
    (((readGroupInfo_reads h.group).orFail _).bind (((readInt_reads (by omega) (by decide)).orFail _).bind ?_)))
  rw [if_neg (by unfold maxViewHeaderSize; omega), if_neg h0]
  exact (fread_reads _).last (Reads.pure _)

/-- White space before a line that does not begin with any. -/
theorem skip_blank {l : Bytes} (h : NoBlank l) (rest : Bytes) : (l ++ rest).dropWhile isSpace = l ++ rest := by
  obtain ⟨b, r, rfl, hb⟩ := h
  rw [List.cons_append, List.dropWhile_cons_of_neg]
  have : ∀ x : UInt8, isSpace x = true → x ∈ ([9, 10, 11, 12, 13, 32] : Bytes) := by
    intro x hx
    unfold isSpace at hx
    simp only [decide_eq_true_eq] at hx
    rcases hx with rfl | ⟨h1, h2⟩
    · decide
    · have h1 : 9 ≤ x.toNat := UInt8.le_iff_toNat_le.mp h1
      have h2 : x.toNat ≤ 13 := UInt8.le_iff_toNat_le.mp h2
      have hx : x = UInt8.ofNat x.toNat := UInt8.ofNat_toNat.symm
      have : x.toNat = 9 ∨ x.toNat = 10 ∨ x.toNat = 11 ∨ x.toNat = 12 ∨ x.toNat = 13 := by omega
      rcases this with h | h | h | h | h <;> rw [hx, h] <;> decide
  exact fun e => hb (this b e)

/-- The number of files. -/
theorem fscan_reads {n : Nat} (hn : n < 2 ^ 31) {l : Bytes} (hl : NoBlank l) (rest : Bytes) :
    fscanInt (num n ++ (l ++ rest)) = .ok ((n : Int), l ++ rest) := by
  have hm := decimal_mem n
  have hv := decimal_val n
  obtain ⟨b, r, hd⟩ : ∃ b r, decimal n = b :: r := by
    cases h : decimal n with
    | nil => exact absurd h (decimal_ne n)
    | cons b r => exact ⟨b, r, rfl⟩
  have hb := hm b (by rw [hd]; simp)
  unfold fscanInt num line
  have h1 : ((decimal n ++ [10]) ++ (l ++ rest)).dropWhile isSpace = decimal n ++ 10 :: (l ++ rest) := by
    rw [hd, List.append_assoc, List.cons_append, List.dropWhile_cons_of_neg]
    · rfl
    · rw [hb.2.1]; decide
  have h3 : splitSign (decimal n ++ 10 :: (l ++ rest)) = (false, decimal n ++ 10 :: (l ++ rest)) := by
    rw [hd]
    unfold splitSign
    split
    · rename_i heq
      cases heq
      exact absurd (by decide) hb.2.2
    · rename_i heq
      cases heq
      exact absurd (by decide) hb.2.2
    · rfl
  have h2 : ∀ (s : Bytes) (_ : ∀ b ∈ s, isDigit b = true) (t : Bytes), (s ++ 10 :: t).takeWhile isDigit = s ∧
      (s ++ 10 :: t).dropWhile isDigit = 10 :: t := by
    intro s hs t
    induction s with
    | nil => exact ⟨rfl, rfl⟩
    | cons x s ih =>
      have := ih fun b hb => hs b (by simp [hb])
      rw [List.cons_append, List.takeWhile_cons_of_pos (hs x (by simp)), List.dropWhile_cons_of_pos (hs x (by simp)), this.1, this.2]
      exact ⟨rfl, rfl⟩
  obtain ⟨h4, h5⟩ := h2 (decimal n) (fun b hb => (hm b hb).1) (l ++ rest)
  simp only [h1, h3, h4, h5, hv]
  rw [if_neg (decimal_ne n), if_neg (by simp; omega)]
  have : (10 :: (l ++ rest)).dropWhile isSpace = l ++ rest := by
    rw [List.dropWhile_cons_of_pos (by decide), skip_blank hl]
  rw [this]
  rfl

theorem merger_reads {a : MergerArgs} (h : MergerOk a) : Reads mergerArgs (mergerText a) a := by
  obtain ⟨l, r, hl, hb⟩ := h.first
  have hf := h.few
  have hlen : a.sources.length ≠ 0 := by rw [hl]; simp
  have hrest : ∀ rest, (do
        let n ← fscanInt
        if n ≤ 0 then In.fail 1
        else do
          let sources ← times ((readLine 8192).orFail 1) n.toNat
          let dest ← (readLine 8192).orFail 1
          In.pure (⟨a.type, a.tmpDir, sources, dest⟩ : MergerArgs) : In MergerArgs)
        ((num a.sources.length ++ (a.sources.flatMap line ++ line a.dest)) ++ rest) = .ok (a, rest) := by
    intro rest
    have h1 : fscanInt ((num a.sources.length ++ (a.sources.flatMap line ++ line a.dest)) ++ rest) =
        .ok ((a.sources.length : Int), (a.sources.flatMap line ++ line a.dest) ++ rest) := by
      have := fscan_reads hf hb ([10] ++ (r.flatMap line ++ line a.dest ++ rest))
      rw [hl] at this ⊢
      simpa [line, List.append_assoc] using this
    rw [bind_ok h1, if_neg (by omega)]
    exact ((lines_reads h.sources).bind (((readLine_reads h.dest).orFail 1).last (show Reads (In.pure _) [] a from Reads.pure a))) rest
  intro rest
  unfold mergerArgs mergerText
  have hty : ¬ (a.type ≠ 105 ∧ a.type ≠ 118 ∧ a.type ≠ 115) := by
    rintro ⟨h1, h2, h3⟩
    rcases h.type with h | h | h
    · exact h1 h
    · exact h2 h
    · exact h3 h
  have htmp := h.tmpDir
  by_cases hs : a.type = 115
  · rw [if_pos hs] at htmp ⊢
    obtain ⟨ht1, ht2⟩ := htmp
    rw [bind_ok (a := a.type) (i' := line a.tmpDir ++ ((num a.sources.length ++ (a.sources.flatMap line ++ line a.dest)) ++ rest)) (by
      have := skip_blank ht2 ([10] ++ ((num a.sources.length ++ (a.sources.flatMap line ++ line a.dest)) ++ rest))
      simp only [line, List.append_assoc, List.cons_append, List.nil_append, scanType] at this ⊢
      rw [List.dropWhile_cons_of_pos (by decide), this])]
    rw [if_neg hty, if_pos hs, bind_ok (((readLine_reads ht1).orFail 1) _)]
    exact hrest rest
  · rw [if_neg hs] at htmp ⊢
    have hnum : NoBlank (num a.sources.length) := by
      obtain ⟨b, t, hd⟩ : ∃ b t, decimal a.sources.length = b :: t := by
        cases h : decimal a.sources.length with
        | nil => exact absurd h (decimal_ne _)
        | cons b r => exact ⟨b, r, rfl⟩
      have hm := (decimal_mem a.sources.length b (by rw [hd]; simp)).2.1
      refine ⟨b, t ++ [10], by unfold num line; rw [hd]; rfl, fun e => ?_⟩
      have : ∀ x ∈ ([9, 10, 11, 12, 13, 32] : Bytes), isSpace x = true := by decide
      rw [this b e] at hm
      cases hm
    rw [bind_ok (a := a.type) (i' := (num a.sources.length ++ (a.sources.flatMap line ++ line a.dest)) ++ rest) (by
      have := skip_blank hnum ((a.sources.flatMap line ++ line a.dest) ++ rest)
      rw [show line [a.type] = [a.type, 10] from rfl]
      simp only [List.append_assoc, List.cons_append, List.nil_append, scanType] at this ⊢
      rw [List.dropWhile_cons_of_pos (by decide), this])]
    rw [if_neg hty, if_neg hs]
    have := hrest rest
    rw [htmp] at this
    exact this

/-! ## Input that ends too early -/

theorem cleanup_cut {g : GroupInfo} (h : GroupOk g) : Cut cleanupArgs (groupText g) (Whole g) := by
  intro p hp hne
  unfold cleanupArgs In.orFail
  rcases readGroupInfo_cut h p hp hne with ⟨s, -, e⟩ | e
  · rw [e]; exact Or.inl ⟨_, bad_alloc, rfl⟩
  · rw [e]; exact Or.inr rfl

theorem builder_cut {a : BuilderArgs} (h : BuilderOk a) {init : List Bytes} {z : Bytes} (hz : a.sources = init ++ [z]) :
    Cut builderArgs (builderText a) fun r => Fails r ∨ ∃ p, p <+: z ∧ p ≠ [] ∧ r = .ok ({ a with sources := init ++ [p] }, []) := by
  have := h.group.few
  have hc := h.count
  have hs := h.sources
  rw [hz] at hc hs
  unfold builderArgs builderText
  refine group_then h.group (fun _ => Or.inl) (Or.inl (bind_dry (orFail_dry (readLine_dry _) bad_args)))
    (line_then' h.tmpDir bad_args (fun _ => Or.inl) ?_ ?_)
  · intro p
    rw [if_neg (by omega)]
    exact bind_dry (orFail_dry (readLine_dry _) bad_args)
  · rw [if_neg (by omega)]
    refine line_then' h.dest bad_args (fun _ => Or.inl)
      (fun p => bind_dry (times_dry (orFail_dry (readLine_dry _) bad_args) (by omega))) ?_
    have hall : Reads (times ((readLine 8192).orFail errArgs) (a.group.numBtrees + 1)) (a.sources.flatMap line) a.sources := by
      rw [← h.count]; exact lines_reads h.sources
    refine Cut.last hall ?_
    have hcut := times_lines_cut (s := errArgs) bad_args (init := init) (z := z) (fun l hl => hs l (by simp [hl])) (hs z (by simp))
    have hlen : init.length = a.group.numBtrees := by simp at hc; omega
    rw [hlen] at hcut
    rw [hz, List.flatMap_append]
    simp only [List.flatMap_cons, List.flatMap_nil, List.append_nil]
    refine hcut.mono ?_
    rintro r (⟨s, hs, rfl⟩ | ⟨p, h1, h2, rfl⟩)
    · exact Or.inl ⟨s, hs, rfl⟩
    · exact Or.inr ⟨p, h1, h2, rfl⟩

theorem compactor_cut {a : CompactorArgs} (h : CompactorOk a) : Cut compactorArgs (compactorText a) Fails := by
  have hh := h.header
  have h0 : a.header.length ≠ 0 := fun e => hh.1 (List.length_eq_zero_iff.mp e)
  unfold compactorArgs compactorText
  refine line_then' h.target bad_args (fun _ h => h) (fun _ => bind_dry (orFail_dry (readInt_dry _) bad_args))
    (num_then' h.total (by decide) bad_args (fun _ h => h) (fun _ _ _ => bind_dry (orFail_dry readGroupInfo_dry bad_alloc))
      (group_then h.group (fun _ h => h) (bind_dry (orFail_dry (readInt_dry _) bad_args))
        (num_then' (by omega) (by decide) bad_args (fun _ h => h) ?_ ?_)))
  · intro n hn hp
    have := hp (by omega)
    rw [if_neg (by unfold maxViewHeaderSize; omega), if_neg (by omega)]
    exact bind_dry (fread_dry (by omega) bad_args)
  · rw [if_neg (by unfold maxViewHeaderSize; omega), if_neg h0]
    refine Cut.last (fread_reads _) ((fread_cut _).mono ?_)
    rintro r rfl
    exact ⟨_, bad_args, rfl⟩

/-- Some failure is reported, perhaps with the status 0. -/
def Ends {β : Type} (r : Except Stop β) : Prop := ∃ s, r = .error (.fail s)

theorem Fails.ends {β : Type} (r : Except Stop β) (h : Fails r) : Ends r := h.imp fun _ h => h.2

theorem updater_cut {a : UpdaterArgs} (h : UpdaterOk a) : Cut updaterArgs (updaterText a) Ends := by
  have := h.group.few
  have hb := h.batch
  have hh := h.header
  have h0 : a.header.length ≠ 0 := fun e => hh.1 (List.length_eq_zero_iff.mp e)
  have hline : Dry ((readLine 8192).orFail errArgs) := orFail_dry (readLine_dry _) bad_args
  unfold updaterArgs updaterText
  refine line_then' h.tmpDir bad_args Fails.ends (fun _ => bind_dry (orFail_dry readGroupInfo_dry bad_alloc))
    (group_then h.group Fails.ends (Fails.ends _ (bind_dry hline))
      (line_then' ?_ bad_args Fails.ends ?_ ?_))
  · cases a.sorted <;> exact ⟨by decide, by decide, by decide⟩
  · intro p
    rw [if_neg (by omega)]
    exact bind_dry (times_dry hline (by omega))
  rw [if_neg (by omega), ← h.count]
  have hl : a.sources.length ≠ 0 := by rw [h.count]; omega
  obtain ⟨init, z, hz⟩ : ∃ init z, a.sources = init ++ [z] := by
    refine ⟨a.sources.dropLast, a.sources.getLast (fun e => hl (by rw [e]; rfl)), ?_⟩
    exact (List.dropLast_concat_getLast _).symm
  have hs := h.sources
  rw [hz] at hs
  have hcut := times_lines_cut (s := errArgs) bad_args (init := init) (z := z) (fun l hl => hs l (by simp [hl])) (hs z (by simp))
  have hcut : Cut (times ((readLine 8192).orFail errArgs) a.sources.length) (a.sources.flatMap line) fun r =>
      Fails r ∨ ∃ p, p <+: z ∧ p ≠ [] ∧ r = .ok (init ++ [p], []) := by
    rw [hz, List.flatMap_append]
    simpa using hcut
  refine Cut.bind (lines_reads h.sources) (hcut.mono ?_) (num_then' (by omega) (by decide) bad_args Fails.ends
    (fun _ _ _ => Fails.ends _ (bind_dry (readInt_dry _)))
    (num_then (by omega) (by decide) Fails.ends ?_ ?_))
  · rintro r (⟨s, hs, rfl⟩ | ⟨p, -, -, rfl⟩)
    · exact ⟨s, rfl⟩
    · exact Fails.ends _ (bind_dry (orFail_dry (readInt_dry _) bad_args))
  · intro n hn hp
    have := hp (by omega)
    rw [if_neg (by omega), if_neg (by omega)]
    refine ⟨0, ?_⟩
    rw [bind_def]
    unfold fread
    rw [if_neg (by simp; omega)]
  · rw [if_neg (by omega), if_neg h0]
    refine Cut.last (fread_reads _) ((fread_cut _).mono ?_)
    rintro r rfl
    exact ⟨_, rfl⟩

/-! ### What is no number -/

theorem scan_no_digit {l : Bytes} (h : ∀ b ∈ l, isDigit b = false) : scanU64 l = .error (.fail errRead) := by
  have hsub : ∀ b ∈ (splitSign (l.dropWhile isSpace)).2, b ∈ l := by
    intro b hb
    refine (List.dropWhile_sublist _).subset (?_ : b ∈ l.dropWhile isSpace)
    revert hb
    generalize l.dropWhile isSpace = s
    unfold splitSign
    split
    · exact fun h => List.mem_cons_of_mem _ h
    · exact fun h => List.mem_cons_of_mem _ h
    · exact fun h => h
  have : (splitSign (l.dropWhile isSpace)).2.takeWhile isDigit = [] := by
    rcases hs : (splitSign (l.dropWhile isSpace)).2 with _ | ⟨b, r⟩
    · rfl
    · have := h b (hsub b (by rw [hs]; exact List.mem_cons_self))
      rw [List.takeWhile_cons, this]; rfl
  unfold scanU64
  simp only [this, if_true]

theorem readInt_garbage {size : Nat} {l : Bytes} (hl : LineOk size l) (h : ∀ b ∈ l, isDigit b = false) (rest : Bytes) :
    Fails (readInt size (line l ++ rest)) := by
  unfold readInt
  rw [bind_ok (readLine_reads hl rest), scan_no_digit h]
  exact ⟨_, bad_read, rfl⟩

theorem Fails.run {α : Type} {m : In α} {i : Bytes} (h : Fails (m i)) : ∃ status, status ≠ 0 ∧ runTool m i = .exit status := by
  obtain ⟨s, hs, e⟩ := h
  refine ⟨_, hs, ?_⟩
  unfold runTool
  rw [e]

theorem group_garbage {t : Nat} (ht : t = 0 ∨ t = 1) {path l : Bytes} (hp : LineOk 4096 path) (hl : LineOk 4096 l)
    (h : ∀ b ∈ l, isDigit b = false) (rest : Bytes) :
    Fails (readGroupInfo (num t ++ (line path ++ (line l ++ rest)))) := by
  unfold readGroupInfo
  rw [bind_ok (readInt_reads (by omega) (by decide) _), if_neg (by omega), bind_ok (readLine_reads hp _)]
  exact bind_fails (readInt_garbage hl h rest)

theorem group_type {t : Nat} (ht : t < 2 ^ 64) (h0 : t ≠ 0) (h1 : t ≠ 1) (rest : Bytes) :
    Fails (readGroupInfo (num t ++ rest)) := by
  unfold readGroupInfo
  rw [bind_ok (readInt_reads ht (by decide) _), if_pos ⟨h0, h1⟩]
  exact ⟨_, bad_args, rfl⟩

/-! ### Lines that are too long -/

theorem fgets_full : ∀ {l : Bytes}, 10 ∉ l → ∀ rest, fgets l.length (l ++ rest) = (l, rest)
  | [], _, rest => by cases rest <;> rfl
  | b :: l, h, rest => by
    have hb : b ≠ 10 := fun e => h (by rw [e]; exact List.mem_cons_self)
    simp only [List.length_cons, List.cons_append, fgets, if_neg hb, fgets_full (fun hm => h (List.mem_cons_of_mem _ hm)) rest]

theorem readLine_full {size : Nat} {l : Bytes} (h0 : 0 ∉ l) (h10 : 10 ∉ l) (hl : l.length + 1 = size) (h1 : 1 < size) (rest : Bytes) :
    readLine size (l ++ rest) = .ok (l, rest) := by
  have hne : l ≠ [] := by rintro rfl; simp at hl; omega
  have hlast : l.getLast? ≠ some 10 := fun e => h10 (List.mem_of_getLast? e)
  unfold readLine
  have : size - 1 = l.length := by omega
  rw [this, fgets_full h10]
  simp only [if_neg hne, cstr_of h0, if_neg hlast]

theorem group_split {path : Bytes} (h0 : 0 ∉ path) (h10 : 10 ∉ path) (hl : path.length = 4095) {pos : Nat} (hp : pos < 2 ^ 64)
    (rest : Bytes) : readGroupInfo (num 1 ++ (line (path ++ decimal pos) ++ (num 0 ++ rest))) =
      .ok (⟨path, pos, .spatial []⟩, rest) := by
  unfold readGroupInfo
  have e : line (path ++ decimal pos) ++ (num 0 ++ rest) = path ++ (num pos ++ (num 0 ++ rest)) := by
    simp only [line, num, List.append_assoc]
  rw [bind_ok (readInt_reads (by omega) (by decide) _), if_neg (by omega), e,
    bind_ok (readLine_full h0 h10 (by omega) (by decide) _), bind_ok (readInt_reads hp (by decide) _),
    bind_ok (readInt_reads (by omega) (by decide) _)]
  rfl

/-! ### The merger's input ends too early -/

theorem fscan_digits {s t : Bytes} (hs : s ≠ []) (hm : ∀ b ∈ s, isDigit b = true ∧ isSpace b = false ∧ b ∉ ([0, 10, 43, 45] : Bytes))
    (ht : t = [] ∨ t = [10]) (hv : digitsVal s < 2 ^ 31) : fscanInt (s ++ t) = .ok ((digitsVal s : Int), []) := by
  obtain ⟨b, r, rfl⟩ : ∃ b r, s = b :: r := by
    cases s with
    | nil => exact absurd rfl hs
    | cons b r => exact ⟨b, r, rfl⟩
  have hb := hm b (by simp)
  unfold fscanInt
  have h1 : ((b :: r) ++ t).dropWhile isSpace = (b :: r) ++ t := by
    rw [List.cons_append, List.dropWhile_cons_of_neg]
    rw [hb.2.1]; decide
  have h3 : splitSign ((b :: r) ++ t) = (false, (b :: r) ++ t) := by
    unfold splitSign
    split
    · rename_i heq
      cases heq
      exact absurd (by decide) hb.2.2
    · rename_i heq
      cases heq
      exact absurd (by decide) hb.2.2
    · rfl
  have h2 : ∀ (s : Bytes) (_ : ∀ b ∈ s, isDigit b = true), (s ++ t).takeWhile isDigit = s ∧ (s ++ t).dropWhile isDigit = t := by
    intro s hs
    induction s with
    | nil => rcases ht with rfl | rfl <;> exact ⟨rfl, rfl⟩
    | cons x s ih =>
      have := ih fun b hb => hs b (by simp [hb])
      rw [List.cons_append, List.takeWhile_cons_of_pos (hs x (by simp)), List.dropWhile_cons_of_pos (hs x (by simp)), this.1, this.2]
      exact ⟨rfl, rfl⟩
  obtain ⟨h4, h5⟩ := h2 (b :: r) (fun b hb => (hm b hb).1)
  simp only [h1, h3, h4, h5]
  rw [if_neg (by simp), if_neg (by simp; omega)]
  rcases ht with rfl | rfl <;> rfl

theorem fscan_dry : Dry fscanInt := ⟨1, bad_one, rfl⟩

theorem merger_cut {a : MergerArgs} (h : MergerOk a) : Cut mergerArgs (mergerText a) fun r =>
    Fails r ∨ ∃ p, p <+: a.dest ∧ p ≠ [] ∧ r = .ok ({ a with dest := p }, []) := by
  obtain ⟨l, r, hl, hb⟩ := h.first
  have hf := h.few
  have hlen : a.sources.length ≠ 0 := by rw [hl]; simp
  -- the files
  have hfiles : Cut (do
        let sources ← times ((readLine 8192).orFail 1) a.sources.length
        let dest ← (readLine 8192).orFail 1
        In.pure (⟨a.type, a.tmpDir, sources, dest⟩ : MergerArgs) : In MergerArgs) (a.sources.flatMap line ++ line a.dest) fun r =>
      Fails r ∨ ∃ p, p <+: a.dest ∧ p ≠ [] ∧ r = .ok ({ a with dest := p }, []) := by
    refine Cut.bind (lines_reads h.sources) ?_ ?_
    · obtain ⟨init, z, hz⟩ : ∃ init z, a.sources = init ++ [z] :=
        ⟨_, _, (List.dropLast_concat_getLast (fun e => hlen (by rw [e]; rfl))).symm⟩
      have hs := h.sources
      rw [hz] at hs ⊢
      have hcut := times_lines_cut (s := 1) bad_one (init := init) (z := z) (fun l hl => hs l (by simp [hl])) (hs z (by simp))
      rw [List.flatMap_append, List.length_append]
      simp only [List.flatMap_cons, List.flatMap_nil, List.append_nil]
      refine hcut.mono ?_
      rintro r (⟨s, hs, rfl⟩ | ⟨p, h1, h2, rfl⟩)
      · exact Or.inl ⟨s, hs, rfl⟩
      · exact Or.inl (bind_fails (orFail_fails (readLine_dry _) bad_one))
    · refine Cut.last ((readLine_reads h.dest).orFail 1) ?_
      intro p hp hne
      unfold In.orFail
      rcases readLine_cut h.dest p hp hne with e | ⟨q, h1, h2, e⟩
      · rw [e]; exact Or.inl ⟨_, bad_one, rfl⟩
      · rw [e]; exact Or.inr ⟨q, h1, h2, rfl⟩
  have hdry : ∀ n : Nat, n ≠ 0 → Fails ((if (n : Int) ≤ 0 then In.fail 1
        else do
          let sources ← times ((readLine 8192).orFail 1) (n : Int).toNat
          let dest ← (readLine 8192).orFail 1
          In.pure (⟨a.type, a.tmpDir, sources, dest⟩ : MergerArgs) : In MergerArgs) []) := by
    intro n hn
    rw [if_neg (by omega)]
    exact bind_dry (times_dry (orFail_dry (readLine_dry _) bad_one) (by omega))
  -- the number and the files
  have hrest : Cut (do
        let n ← fscanInt
        if n ≤ 0 then In.fail 1
        else do
          let sources ← times ((readLine 8192).orFail 1) n.toNat
          let dest ← (readLine 8192).orFail 1
          In.pure (⟨a.type, a.tmpDir, sources, dest⟩ : MergerArgs) : In MergerArgs)
        (num a.sources.length ++ (a.sources.flatMap line ++ line a.dest)) fun r =>
      Fails r ∨ ∃ p, p <+: a.dest ∧ p ≠ [] ∧ r = .ok ({ a with dest := p }, []) := by
    intro p hp hne
    rcases prefix_append_cases hp with h1 | ⟨q, rfl, hq⟩
    · refine Or.inl ?_
      by_cases he : p = num a.sources.length
      · rw [he, num, line, bind_ok (fscan_digits (decimal_ne _) (decimal_mem _) (Or.inr rfl) (by rw [decimal_val]; exact hf)), decimal_val]
        exact hdry _ hlen
      · have hd := prefix_line h1 he
        by_cases h0 : p = []
        · rw [h0]; exact bind_fails fscan_dry
        · have hv := decimal_prefix _ p hd h0
          have := fscan_digits (t := []) h0 (fun b hb => decimal_mem a.sources.length b (hd.subset hb)) (Or.inl rfl) (by omega)
          rw [List.append_nil] at this
          rw [bind_ok this]
          exact hdry _ (by omega)
    · by_cases h0 : q = []
      · refine Or.inl ?_
        rw [h0, List.append_nil, num, line, bind_ok (fscan_digits (decimal_ne _) (decimal_mem _) (Or.inr rfl) (by rw [decimal_val]; exact hf)), decimal_val]
        exact hdry _ hlen
      · have hqb : NoBlank q := by
          obtain ⟨b, t, rfl, hb⟩ := hb
          obtain ⟨c, u, rfl⟩ : ∃ c u, q = c :: u := by
            cases q with
            | nil => exact absurd rfl h0
            | cons c u => exact ⟨c, u, rfl⟩
          rw [hl] at hq
          simp only [List.flatMap_cons, line, List.cons_append] at hq
          rw [(List.cons_prefix_cons.mp hq).1]
          exact ⟨b, u, rfl, hb⟩
        have := fscan_reads hf hqb []
        rw [List.append_nil] at this
        rw [bind_ok this, if_neg (by omega)]
        exact hfiles q hq (fun e => hne (by rw [e]))
  intro p hp hne
  unfold mergerArgs
  unfold mergerText at hp hne
  have hty : ¬ (a.type ≠ 105 ∧ a.type ≠ 118 ∧ a.type ≠ 115) := by
    rintro ⟨h1, h2, h3⟩
    rcases h.type with h | h | h
    · exact h1 h
    · exact h2 h
    · exact h3 h
  have hnum : NoBlank (num a.sources.length) := by
    obtain ⟨b, t, hd⟩ : ∃ b t, decimal a.sources.length = b :: t := by
      cases h : decimal a.sources.length with
      | nil => exact absurd h (decimal_ne _)
      | cons b r => exact ⟨b, r, rfl⟩
    have hm := (decimal_mem a.sources.length b (by rw [hd]; simp)).2.1
    refine ⟨b, t ++ [10], by unfold num line; rw [hd]; rfl, fun e => ?_⟩
    have : ∀ x ∈ ([9, 10, 11, 12, 13, 32] : Bytes), isSpace x = true := by decide
    rw [this b e] at hm
    cases hm
  -- what follows the type
  have hgo : ∀ (t : Bytes), NoBlank t → ∀ (k : UInt8 → In MergerArgs), Fails (k a.type []) →
      Cut (k a.type) t (fun r => Fails r ∨ ∃ p, p <+: a.dest ∧ p ≠ [] ∧ r = .ok ({ a with dest := p }, [])) →
      Cut (scanType >>= k) (line [a.type] ++ t)
        (fun r => Fails r ∨ ∃ p, p <+: a.dest ∧ p ≠ [] ∧ r = .ok ({ a with dest := p }, [])) := by
    intro t ht k hk hc p hp hne
    rcases prefix_append_cases hp with h1 | ⟨q, rfl, hq⟩
    · refine Or.inl ?_
      rcases p with _ | ⟨b, p⟩
      · exact bind_fails ⟨1, bad_one, rfl⟩
      · obtain ⟨e, h1⟩ := List.cons_prefix_cons.mp h1
        have : scanType (b :: p) = .ok (a.type, []) := by
          rw [e]
          rcases p with _ | ⟨c, p⟩
          · rfl
          · obtain ⟨e, h1⟩ := List.cons_prefix_cons.mp h1
            rw [e, List.prefix_nil.mp h1]; rfl
        rw [bind_ok this]; exact hk
    · have : scanType (line [a.type] ++ q) = .ok (a.type, q) := by
        rcases q with _ | ⟨c, u⟩
        · rfl
        · obtain ⟨b, t, rfl, hb⟩ := ht
          obtain ⟨rfl, -⟩ := List.cons_prefix_cons.mp hq
          have := skip_blank (l := c :: u) ⟨c, u, rfl, hb⟩ []
          rw [List.append_nil] at this
          show Except.ok (a.type, (10 :: c :: u).dropWhile isSpace) = _
          rw [List.dropWhile_cons_of_pos (by decide), this]
      rw [bind_ok this]
      exact hc q hq (fun e => hne (by rw [e]))
  have htmp := h.tmpDir
  by_cases hs : a.type = 115
  · rw [if_pos hs] at htmp hp hne
    obtain ⟨ht1, ht2⟩ := htmp
    refine hgo (line a.tmpDir ++ (num a.sources.length ++ (a.sources.flatMap line ++ line a.dest))) ?_ _ ?_ ?_ p hp hne
    · obtain ⟨b, t, e, hb⟩ := ht2
      exact ⟨b, t ++ ([10] ++ (num a.sources.length ++ (a.sources.flatMap line ++ line a.dest))), by rw [e]; simp [line], hb⟩
    · rw [if_neg hty, if_pos hs]
      exact bind_dry (orFail_dry (readLine_dry _) bad_one)
    · rw [if_neg hty, if_pos hs]
      exact line_then' ht1 bad_one (fun _ => Or.inl) (fun _ => bind_dry fscan_dry) hrest
  · rw [if_neg hs] at htmp hp hne
    rw [List.nil_append] at hp hne
    refine hgo (num a.sources.length ++ (a.sources.flatMap line ++ line a.dest)) ?_ _ ?_ ?_ p hp hne
    · obtain ⟨b, t, e, hb⟩ := hnum
      exact ⟨b, t ++ _, by rw [e]; rfl, hb⟩
    · rw [if_neg hty, if_neg hs]
      exact ⟨1, bad_one, rfl⟩
    · rw [if_neg hty, if_neg hs]
      rw [htmp] at hrest ⊢
      exact hrest

end Couchstore.ViewTools
