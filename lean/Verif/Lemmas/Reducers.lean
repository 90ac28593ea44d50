import Verif.Lemmas.ViewReduce
import Mathlib.Data.Nat.Digits.Lemmas
import Mathlib.Algebra.BigOperators.Group.List.Basic

/-! Lemmas about the builtin reduce functions. -/

namespace Couchstore

/-! ### Decimal texts -/

theorem digitChar_toNat {d : Nat} (h : d < 10) : (UInt8.ofNat (48 + d)).toNat = 48 + d := by
  rw [UInt8.toNat_ofNat']
  exact Nat.mod_eq_of_lt (by omega)

theorem digitChar_isDigit {d : Nat} (h : d < 10) : isDecDigit (UInt8.ofNat (48 + d)) = true := by
  have := digitChar_toNat h
  simp only [isDecDigit, Bool.and_eq_true, decide_eq_true_eq, UInt8.le_iff_toNat_le, this]
  simp only [UInt8.reduceToNat]
  omega

theorem digitsVal_map (l : List Nat) (h : ∀ d ∈ l, d < 10) :
    digitsVal (l.reverse.map fun d => UInt8.ofNat (48 + d)) = Nat.ofDigits 10 l := by
  induction l with
  | nil => rfl
  | cons d l ih =>
    have ih' := ih fun x hx => h x (by simp [hx])
    have hd := h d (by simp)
    unfold digitsVal at ih' ⊢
    rw [List.reverse_cons, List.map_append, List.foldl_append, ih']
    simp only [List.map_cons, List.map_nil, List.foldl_cons, List.foldl_nil, digitChar_toNat hd, Nat.ofDigits_cons]
    omega

theorem decText_ne_nil (n : Nat) : decText n ≠ [] := by
  unfold decText
  split
  · simp
  · rename_i h
    have : Nat.digits 10 n ≠ [] := Nat.digits_ne_nil_iff_ne_zero.mpr h
    simpa using this

theorem decText_digits (n : Nat) : ∀ c ∈ decText n, isDecDigit c = true := by
  intro c hc
  unfold decText at hc
  split at hc
  · simp only [List.mem_singleton] at hc
    subst hc
    decide
  · obtain ⟨d, hd, rfl⟩ := List.mem_map.mp hc
    exact digitChar_isDigit (Nat.digits_lt_base (by decide) (List.mem_reverse.mp hd))

theorem decText_val (n : Nat) : digitsVal (decText n) = n := by
  unfold decText
  split
  · rename_i h; subst h; rfl
  · rw [digitsVal_map _ (fun d hd => Nat.digits_lt_base (by decide) hd), Nat.ofDigits_digits]

theorem decText_length {n k : Nat} (hk : 0 < k) (h : n < 10 ^ k) : (decText n).length ≤ k := by
  unfold decText
  split
  · exact hk
  · simp only [List.length_map, List.length_reverse]
    exact Nat.digits_length_le_iff (by decide) n |>.mpr h

theorem decText_inj {a b : Nat} (h : decText a = decText b) : a = b := by
  rw [← decText_val a, h, decText_val]

theorem takeWhile_every {p : UInt8 → Bool} : ∀ {s : Bytes}, (∀ c ∈ s, p c = true) → s.takeWhile p = s
  | [], _ => rfl
  | c :: s, h => by
    rw [List.takeWhile_cons, if_pos (h c (by simp)), takeWhile_every fun x hx => h x (by simp [hx])]

theorem dropWhile_every {p : UInt8 → Bool} : ∀ {s : Bytes}, (∀ c ∈ s, p c = true) → s.dropWhile p = []
  | [], _ => rfl
  | c :: s, h => by
    rw [List.dropWhile_cons, if_pos (h c (by simp)), dropWhile_every fun x hx => h x (by simp [hx])]

theorem strtoull_decText (n : Nat) (h : n < 2 ^ 64) : strtoull (decText n) = some n := by
  have hall := decText_digits n
  have hv := decText_val n
  generalize hs : decText n = s at hall hv
  cases s with
  | nil => exact absurd hs (decText_ne_nil n)
  | cons c s =>
    have hc := hall c (by simp)
    have hc' : 48 ≤ c.toNat ∧ c.toNat ≤ 57 := by
      simpa [isDecDigit, UInt8.le_iff_toNat_le] using hc
    have n1 : isSpace c = false := by
      simp only [isSpace, Bool.or_eq_false_iff, Bool.and_eq_false_iff, decide_eq_false_iff_not, UInt8.le_iff_toNat_le]
      refine ⟨?_, Or.inr ?_⟩
      · rintro rfl; simp at hc'
      · simp only [UInt8.reduceToNat]; omega
    have n2 : c ≠ 45 := by rintro rfl; simp at hc'
    have n3 : c ≠ 43 := by rintro rfl; simp at hc'
    have t : (c :: s).takeWhile isDecDigit = c :: s := by
      clear hs hv; exact takeWhile_every hall
    have d : (c :: s).dropWhile isDecDigit = [] := by
      clear hs hv; exact dropWhile_every hall
    unfold strtoull
    simp only [List.dropWhile_cons, n1, Bool.false_eq_true, if_false, List.head?_cons, Option.some.injEq, n2, n3,
      or_self, t, d, hv]
    simp
    omega

/-! ### `_count` -/

theorem countLoop_ok (ls : List (List (Bytes × Bytes) × Bytes)) (h : ∀ x ∈ ls, countSpec.gives x.1 x.2) (n : Nat) :
    ∃ n', countLoop (ls.map (·.2)) n = .ok n' ∧ n' % 2 ^ 64 = (n + (ls.flatMap (·.1)).length) % 2 ^ 64 ∧
      (n < 2 ^ 64 → n' < 2 ^ 64) := by
  induction ls generalizing n with
  | nil => exact ⟨n, rfl, by simp, id⟩
  | cons x ls ih =>
    have hx : x.2 = decText (x.1.length % 2 ^ 64) := h x (by simp)
    obtain ⟨n', e, h1, h2⟩ := ih (fun y hy => h y (by simp [hy])) ((n + x.1.length % 2 ^ 64) % 2 ^ 64)
    refine ⟨n', ?_, ?_, fun _ => h2 (Nat.mod_lt _ (by decide))⟩
    · have hlen : x.2.length ≤ 20 := by
        rw [hx]; exact decText_length (by decide) (Nat.lt_of_lt_of_le (Nat.mod_lt _ (by decide)) (by decide))
      have hpos : 0 < x.2.length := by
        rw [hx]; exact List.length_pos_iff.mpr (decText_ne_nil _)
      simp only [List.map_cons, countLoop, jsonToUint64]
      rw [if_neg (by omega), hx, strtoull_decText _ (Nat.mod_lt _ (by decide))]
      exact e
    · rw [h1]
      simp only [List.flatMap_cons, List.length_append]
      omega

theorem countReducer_meets : countReducer.Meets countSpec where
  reduce l _ _ := ⟨_, rfl, rfl⟩
  rereduce ls h _ := by
    obtain ⟨n', e, h1, h2⟩ := countLoop_ok ls h 0
    refine ⟨decText n', by simp only [countReducer, e], ?_⟩
    show decText n' = _
    rw [Nat.zero_add] at h1
    rw [← h1, Nat.mod_eq_of_lt (h2 (by decide))]
  size l t h := by
    have h' : t = _ := h
    rw [h']
    exact decText_length (by decide) (Nat.lt_of_lt_of_le (Nat.mod_lt _ (by decide)) (by decide))

/-! ### `_sum` -/

theorem intText_ne_nil (z : Int) : intText z ≠ [] := by
  unfold intText
  split
  · simp
  · exact decText_ne_nil _

theorem intText_length {z : Int} (h : z.natAbs < 10 ^ 15) : (intText z).length ≤ 16 := by
  have := decText_length (k := 15) (by decide) h
  unfold intText
  split
  · simp only [List.length_cons]; omega
  · omega

theorem natAbs_sum_le (zs : List Int) : zs.sum.natAbs ≤ (zs.map Int.natAbs).sum := by
  induction zs with
  | nil => simp
  | cons z zs ih =>
    simp only [List.sum_cons, List.map_cons]
    have := Int.natAbs_add_le z zs.sum
    omega

theorem intText_read {F : Type} {N : NumEnv F} {ofInt : Int → F} (L : N.Laws ofInt) {z : Int}
    (h : z.natAbs < 10 ^ 15) : jsonToDouble N (intText z) = some (ofInt z) := by
  have h1 := intText_length h
  have h2 := List.length_pos_iff.mpr (intText_ne_nil z)
  unfold jsonToDouble
  rw [if_neg (by omega)]
  exact L.parse z h

theorem sumLoop_ok {F : Type} (N : NumEnv F) (ts : List Bytes) (h : ∀ t ∈ ts, ∃ y, jsonToDouble N t = some y) (s : F) :
    ∃ y, sumLoop N ts s = .ok y := by
  induction ts generalizing s with
  | nil => exact ⟨s, rfl⟩
  | cons t ts ih =>
    obtain ⟨y, hy⟩ := h t (by simp)
    obtain ⟨r, hr⟩ := ih (fun u hu => h u (by simp [hu])) (N.add s y)
    exact ⟨r, by simp only [sumLoop, hy]; exact hr⟩

theorem sumLoop_exact {F : Type} {N : NumEnv F} {ofInt : Int → F} (L : N.Laws ofInt) (zs : List Int) (a : Int)
    (h : a.natAbs + (zs.map Int.natAbs).sum < 10 ^ 15) :
    sumLoop N (zs.map intText) (ofInt a) = .ok (ofInt (a + zs.sum)) := by
  induction zs generalizing a with
  | nil => simp [sumLoop]
  | cons z zs ih =>
    simp only [List.map_cons, List.sum_cons] at h ⊢
    have h1 := Int.natAbs_add_le a z
    simp only [sumLoop, intText_read L (show z.natAbs < 10 ^ 15 by omega)]
    rw [L.add a z (by omega) (by omega) (by omega), ih (a + z) (by omega), Int.add_assoc]

theorem printed_read {F : Type} {N : NumEnv F} {ofInt : Int → F} (L : N.Laws ofInt) (x : F) :
    ∃ y, jsonToDouble N (N.print x) = some y := by
  obtain ⟨h1, h2, y, hy⟩ := L.printed x
  have := List.length_pos_iff.mpr h2
  exact ⟨y, by unfold jsonToDouble; rw [if_neg (by omega)]; exact hy⟩

theorem sum_gives {F : Type} {N : NumEnv F} {ofInt : Int → F} (L : N.Laws ofInt) (l : List (Bytes × Bytes)) (x : F)
    (h : ∀ zs : List Int, l.map (·.2) = zs.map intText → (zs.map Int.natAbs).sum < 10 ^ 15 → x = ofInt zs.sum) :
    (sumSpec N).gives l (N.print x) := by
  obtain ⟨h1, h2, h3⟩ := L.printed x
  refine ⟨h1, h2, h3, fun zs hz hs => ?_⟩
  rw [h zs hz hs, L.print]
  have := natAbs_sum_le zs
  omega

theorem sumParts {F : Type} (N : NumEnv F) (ls : List (List (Bytes × Bytes) × Bytes))
    (h : ∀ x ∈ ls, (sumSpec N).gives x.1 x.2) (zs : List Int)
    (hz : (ls.flatMap (·.1)).map (·.2) = zs.map intText) (hs : (zs.map Int.natAbs).sum < 10 ^ 15) :
    ∃ ws : List Int, ls.map (·.2) = ws.map intText ∧ ws.sum = zs.sum ∧
      (ws.map Int.natAbs).sum ≤ (zs.map Int.natAbs).sum := by
  induction ls generalizing zs with
  | nil =>
    have : zs = [] := by simpa using hz.symm
    subst this
    exact ⟨[], rfl, rfl, Nat.le_refl _⟩
  | cons x ls ih =>
    rw [List.flatMap_cons, List.map_append] at hz
    obtain ⟨z1, z2, rfl, hz1, hz2⟩ := List.map_eq_append_iff.mp hz.symm
    simp only [List.map_append, List.sum_append] at hs
    obtain ⟨ws, e1, e2, e3⟩ := ih (fun y hy => h y (by simp [hy])) z2 hz2.symm (by omega)
    have hx := (h x (by simp)).2.2.2 z1 hz1.symm (by omega)
    have := natAbs_sum_le z1
    refine ⟨z1.sum :: ws, by simp [hx, e1], by simp [e2], ?_⟩
    simp only [List.map_cons, List.sum_cons, List.map_append, List.sum_append]
    omega

theorem sumReducer_meets {F : Type} {N : NumEnv F} {ofInt : Int → F} (L : N.Laws ofInt) :
    (sumReducer N).Meets (sumSpec N) where
  reduce l h _ := by
    have hr : ∀ t ∈ l.map (·.2), ∃ y, jsonToDouble N t = some y := by
      intro t ht
      obtain ⟨x, hx, rfl⟩ := List.mem_map.mp ht
      obtain ⟨z, hz, hb⟩ := h x hx
      exact ⟨_, by rw [hz]; exact intText_read L hb⟩
    obtain ⟨y, hy⟩ := sumLoop_ok N _ hr N.zero
    refine ⟨N.print y, by simp only [sumReducer, hy], sum_gives L _ _ fun zs hz hs => ?_⟩
    rw [hz, L.zero, sumLoop_exact L zs 0 (by simpa using hs)] at hy
    injection hy with hy
    rw [← hy, Int.zero_add]
  rereduce ls h _ := by
    have hr : ∀ t ∈ ls.map (·.2), ∃ y, jsonToDouble N t = some y := by
      intro t ht
      obtain ⟨x, hx, rfl⟩ := List.mem_map.mp ht
      obtain ⟨h1, h2, ⟨y, hy⟩, -⟩ := h x hx
      have := List.length_pos_iff.mpr h2
      exact ⟨y, by unfold jsonToDouble; rw [if_neg (by omega)]; exact hy⟩
    obtain ⟨y, hy⟩ := sumLoop_ok N _ hr N.zero
    refine ⟨N.print y, by simp only [sumReducer, hy], sum_gives L _ _ fun zs hz hs => ?_⟩
    obtain ⟨ws, e1, e2, e3⟩ := sumParts N ls h zs hz hs
    rw [e1, L.zero, sumLoop_exact L ws 0 (by simp only [Int.natAbs_zero]; omega)] at hy
    injection hy with hy
    rw [← hy, Int.zero_add, e2]
  size l t h := h.1

end Couchstore
