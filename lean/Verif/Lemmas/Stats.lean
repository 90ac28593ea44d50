import Verif.Spec.Stats
import Verif.Lemmas.Reducers

/-! Lemmas about `_stats`. -/

namespace Couchstore

theorem statsText_eq {F : Type} (N : StatsEnv F) (s : Stats F) :
    statsText N s = statsObject (N.printG s.sum) s.count (N.printG s.min) (N.printG s.max) (N.printG s.sumsqr) := by
  have h1 : "{\"sum\":".toList = ['{', '"', 's', 'u', 'm', '"', ':'] := by simp
  have h2 : ",\"count\":".toList = [',', '"', 'c', 'o', 'u', 'n', 't', '"', ':'] := by simp
  have h3 : ",\"min\":".toList = [',', '"', 'm', 'i', 'n', '"', ':'] := by simp
  have h4 : ",\"max\":".toList = [',', '"', 'm', 'a', 'x', '"', ':'] := by simp
  have h5 : ",\"sumsqr\":".toList = [',', '"', 's', 'u', 'm', 's', 'q', 'r', '"', ':'] := by simp
  have h6 : "}".toList = ['}'] := by simp
  unfold statsText statsObject
  rw [h1, h2, h3, h4, h5, h6]
  rfl

theorem scanLit_append (lit s : Bytes) : scanLit lit (lit ++ s) = some s := by
  unfold scanLit
  rw [if_pos (by simp), List.drop_left]

theorem takeWhile_stop {p : UInt8 → Bool} {a : Bytes} {c : UInt8} {r : Bytes} (h : ∀ x ∈ a, p x = true) (hc : p c = false) :
    (a ++ c :: r).takeWhile p = a ∧ (a ++ c :: r).dropWhile p = c :: r := by
  induction a with
  | nil => simp [hc]
  | cons x a ih =>
    have := ih fun y hy => h y (by simp [hy])
    simp [h x (by simp), this]

theorem scanU64_decText (n : Nat) (h : n < 2 ^ 64) (r : Bytes) : scanU64 (decText n ++ 44 :: r) = some (n, 44 :: r) := by
  have hall := decText_digits n
  have hv := decText_val n
  have hnil := decText_ne_nil n
  generalize decText n = s at hall hv hnil
  cases s with
  | nil => exact absurd rfl hnil
  | cons c s =>
    have hc := hall c (by simp)
    have hc' : 48 ≤ c.toNat ∧ c.toNat ≤ 57 := by
      simpa [isDecDigit, UInt8.le_iff_toNat_le] using hc
    have n1 : isSpace c = false := by
      simp only [isSpace, Bool.or_eq_false_iff, Bool.and_eq_false_iff, decide_eq_false_iff_not, UInt8.le_iff_toNat_le]
      refine ⟨?_, Or.inr ?_⟩
      · rintro rfl; simp at hc'
      · simp only [UInt8.reduceToNat]; omega
    have n2 : c ≠ 45 := by rintro rfl; simp at hc'
    have n3 : c ≠ 43 := by rintro rfl; simp at hc'
    obtain ⟨t, d⟩ := takeWhile_stop (p := isDecDigit) (c := 44) (r := r) hall (by decide)
    rw [List.cons_append] at t d
    unfold scanU64
    simp only [List.cons_append, List.dropWhile_cons, n1, Bool.false_eq_true, if_false, List.head?_cons,
      Option.some.injEq, n2, n3, or_self, t]
    rw [List.dropWhile_cons] at d
    rw [d, hv]
    simp
    omega

/-- What the loop of `_stats` has after the values of `l`. -/
def StatsInv {F : Type} (ofInt : Int → F) (l : List (Bytes × Bytes)) (s : Stats F) : Prop :=
  s.count = l.length % 2 ^ 64 ∧
    ∀ zs : List Int, l.map (·.2) = zs.map intText → zs.length < 2 ^ 64 →
      ((zs.map Int.natAbs).sum < 10 ^ 6 → s.sum = ofInt zs.sum) ∧
      ((zs.map fun z => z.natAbs * z.natAbs).sum < 10 ^ 6 → s.sumsqr = ofInt (zs.map fun z => z * z).sum) ∧
      ((∀ z ∈ zs, z.natAbs < 10 ^ 6) → zs ≠ [] →
        (∃ m, Least zs m ∧ s.min = ofInt m) ∧ ∃ m, Greatest zs m ∧ s.max = ofInt m)

theorem Least.eq {zs : List Int} {a b : Int} (h : Least zs a) (k : Least zs b) : a = b :=
  Int.le_antisymm (h.2 b k.1) (k.2 a h.1)

theorem Greatest.eq {zs : List Int} {a b : Int} (h : Greatest zs a) (k : Greatest zs b) : a = b :=
  Int.le_antisymm (k.2 a h.1) (h.2 b k.1)

theorem exists_least : ∀ {zs : List Int}, zs ≠ [] → ∃ m, Least zs m
  | [z], _ => ⟨z, by simp [Least]⟩
  | z :: w :: zs, _ => by
    obtain ⟨m, h1, h2⟩ := exists_least (zs := w :: zs) (by simp)
    by_cases h : z ≤ m
    · refine ⟨z, by simp, fun x hx => ?_⟩
      rcases List.mem_cons.mp hx with rfl | hx
      · omega
      · have := h2 x hx; omega
    · refine ⟨m, List.mem_cons_of_mem _ h1, fun x hx => ?_⟩
      rcases List.mem_cons.mp hx with rfl | hx
      · omega
      · exact h2 x hx

theorem exists_greatest : ∀ {zs : List Int}, zs ≠ [] → ∃ m, Greatest zs m
  | [z], _ => ⟨z, by simp [Greatest]⟩
  | z :: w :: zs, _ => by
    obtain ⟨m, h1, h2⟩ := exists_greatest (zs := w :: zs) (by simp)
    by_cases h : m ≤ z
    · refine ⟨z, by simp, fun x hx => ?_⟩
      rcases List.mem_cons.mp hx with rfl | hx
      · omega
      · have := h2 x hx; omega
    · refine ⟨m, List.mem_cons_of_mem _ h1, fun x hx => ?_⟩
      rcases List.mem_cons.mp hx with rfl | hx
      · omega
      · exact h2 x hx

theorem natAbs_sq_sum_le (zs : List Int) :
    ((zs.map fun z => z * z).sum).natAbs ≤ (zs.map fun z => z.natAbs * z.natAbs).sum := by
  induction zs with
  | nil => simp
  | cons z zs ih =>
    simp only [List.sum_cons, List.map_cons]
    have := Int.natAbs_add_le (z * z) (zs.map fun z => z * z).sum
    rw [Int.natAbs_mul] at this
    omega

theorem stats_gives {F : Type} {N : StatsEnv F} {ofInt : Int → F} (L : N.Laws ofInt) {l : List (Bytes × Bytes)}
    {s : Stats F} (h : StatsInv ofInt l s) : (statsSpec N).gives l (statsText N s) := by
  obtain ⟨hc, h⟩ := h
  refine ⟨_, _, _, _, by rw [statsText_eq, hc], L.printedG _, L.printedG _, L.printedG _, L.printedG _, ?_⟩
  intro zs hz hlen
  obtain ⟨h1, h2, h3⟩ := h zs hz hlen
  refine ⟨fun hs => ?_, fun hs => ?_, fun hb => ⟨fun m hm => ?_, fun m hm => ?_⟩⟩
  · rw [h1 hs, L.printG]
    exact Nat.lt_of_le_of_lt (natAbs_sum_le zs) hs
  · rw [h2 hs, L.printG]
    exact Nat.lt_of_le_of_lt (natAbs_sq_sum_le zs) hs
  · obtain ⟨⟨m', hm', e⟩, -⟩ := h3 hb (by rintro rfl; cases hm.1)
    rw [e, hm.eq hm', L.printG _ (hb m' hm'.1)]
  · obtain ⟨-, m', hm', e⟩ := h3 hb (by rintro rfl; cases hm.1)
    rw [e, hm.eq hm', L.printG _ (hb m' hm'.1)]

theorem statsZero_inv {F : Type} {N : StatsEnv F} {ofInt : Int → F} (L : N.Laws ofInt) : StatsInv ofInt [] (statsZero N) := by
  refine ⟨rfl, fun zs hz _ => ?_⟩
  have : zs = [] := by simpa using hz.symm
  subst this
  exact ⟨fun _ => L.zero, fun _ => L.zero, fun _ h => absurd rfl h⟩

theorem statsMerge_inv {F : Type} {N : StatsEnv F} {ofInt : Int → F} (L : N.Laws ofInt) {l l' : List (Bytes × Bytes)}
    {s r : Stats F} (h : StatsInv ofInt l s) (k : StatsInv ofInt l' r) (hne : l' ≠ []) :
    StatsInv ofInt (l ++ l') (statsMerge N s r) := by
  obtain ⟨hc, h⟩ := h
  obtain ⟨kc, k⟩ := k
  refine ⟨by simp only [statsMerge, hc, kc, List.length_append]; omega, fun zs hz hlen => ?_⟩
  rw [List.map_append] at hz
  obtain ⟨z1, z2, rfl, hz1, hz2⟩ := List.map_eq_append_iff.mp hz.symm
  rw [List.length_append] at hlen
  obtain ⟨a1, a2, a3⟩ := h z1 hz1.symm (by omega)
  obtain ⟨b1, b2, b3⟩ := k z2 hz2.symm (by omega)
  have l1 : z1.length = l.length := by simpa using congrArg List.length hz1
  have l2 : z2.length = l'.length := by simpa using congrArg List.length hz2
  have hne2 : z2 ≠ [] := by
    rintro rfl
    exact hne (List.length_eq_zero_iff.mp l2.symm)
  refine ⟨fun hs => ?_, fun hs => ?_, fun hb _ => ?_⟩
  · rw [List.map_append, List.sum_append] at hs
    have n1 := natAbs_sum_le z1
    have n2 := natAbs_sum_le z2
    have n3 := Int.natAbs_add_le z1.sum z2.sum
    simp only [statsMerge]
    rw [a1 (by omega), b1 (by omega), L.add _ _ (by omega) (by omega) (by omega), List.sum_append]
  · rw [List.map_append, List.sum_append] at hs
    have n1 := natAbs_sq_sum_le z1
    have n2 := natAbs_sq_sum_le z2
    have n3 := Int.natAbs_add_le (z1.map fun z => z * z).sum (z2.map fun z => z * z).sum
    simp only [statsMerge]
    rw [a2 (by omega), b2 (by omega), L.add _ _ (by omega) (by omega) (by omega), List.map_append, List.sum_append]
  · obtain ⟨⟨m2, hm2, e2⟩, g2, hg2, f2⟩ := b3 (fun z hz => hb z (by simp [hz])) hne2
    have bm2 := hb m2 (by simp [hm2.1])
    have bg2 := hb g2 (by simp [hg2.1])
    by_cases h0 : z1 = []
    · subst h0
      have : s.count = 0 := by rw [hc, ← l1]; rfl
      simp only [statsMerge, this, or_true, if_true, List.nil_append]
      exact ⟨⟨m2, hm2, e2⟩, g2, hg2, f2⟩
    · obtain ⟨⟨m1, hm1, e1⟩, g1, hg1, f1⟩ := a3 (fun z hz => hb z (by simp [hz])) h0
      have bm1 := hb m1 (by simp [hm1.1])
      have bg1 := hb g1 (by simp [hg1.1])
      have hpos : 0 < z1.length := List.length_pos_iff.mpr h0
      have : s.count ≠ 0 := by
        rw [hc, ← l1, Nat.mod_eq_of_lt (by omega)]; omega
      simp only [statsMerge, this, or_false, e1, e2, f1, f2, L.lt m2 m1 (by omega) (by omega),
        L.lt g1 g2 (by omega) (by omega), decide_eq_true_eq]
      refine ⟨?_, ?_⟩
      · by_cases hlt : m2 < m1
        · rw [if_pos hlt]
          refine ⟨m2, ⟨by simp [hm2.1], fun x hx => ?_⟩, rfl⟩
          rcases List.mem_append.mp hx with hx | hx
          · have := hm1.2 x hx; omega
          · exact hm2.2 x hx
        · rw [if_neg hlt]
          refine ⟨m1, ⟨by simp [hm1.1], fun x hx => ?_⟩, rfl⟩
          rcases List.mem_append.mp hx with hx | hx
          · exact hm1.2 x hx
          · have := hm2.2 x hx; omega
      · by_cases hlt : g1 < g2
        · rw [if_pos hlt]
          refine ⟨g2, ⟨by simp [hg2.1], fun x hx => ?_⟩, rfl⟩
          rcases List.mem_append.mp hx with hx | hx
          · have := hg1.2 x hx; omega
          · exact hg2.2 x hx
        · rw [if_neg hlt]
          refine ⟨g1, ⟨by simp [hg1.1], fun x hx => ?_⟩, rfl⟩
          rcases List.mem_append.mp hx with hx | hx
          · exact hg1.2 x hx
          · have := hg2.2 x hx; omega

theorem statsAdd_inv {F : Type} {N : StatsEnv F} {ofInt : Int → F} (L : N.Laws ofInt) {l : List (Bytes × Bytes)}
    {s : Stats F} (h : StatsInv ofInt l s) {x : Bytes × Bytes} {n : F} (hn : jsonToDouble N.toNumEnv x.2 = some n) :
    StatsInv ofInt (l ++ [x]) (statsAdd N s n) := by
  obtain ⟨hc, h⟩ := h
  refine ⟨by simp only [statsAdd, hc, List.length_append, List.length_singleton]; omega, fun zs hz hlen => ?_⟩
  rw [List.map_append] at hz
  obtain ⟨z1, z2, rfl, hz1, hz2⟩ := List.map_eq_append_iff.mp hz.symm
  obtain ⟨z, rfl, hzx⟩ : ∃ z, z2 = [z] ∧ intText z = x.2 := by
    cases z2 with
    | nil => simp at hz2
    | cons z z2 =>
      simp only [List.map_cons, List.map_nil, List.cons.injEq, List.map_eq_nil_iff] at hz2
      exact ⟨z, by rw [hz2.2], hz2.1⟩
  rw [List.length_append, List.length_singleton] at hlen
  obtain ⟨a1, a2, a3⟩ := h z1 hz1.symm (by omega)
  have l1 : z1.length = l.length := by simpa using congrArg List.length hz1
  have hn' : z.natAbs < 10 ^ 15 → n = ofInt z := by
    intro hb
    rw [← hzx, intText_read L.toLaws hb] at hn
    injection hn with hn
    exact hn.symm
  refine ⟨fun hs => ?_, fun hs => ?_, fun hb _ => ?_⟩
  · rw [List.map_append, List.sum_append, List.map_cons, List.map_nil, List.sum_singleton] at hs
    have n1 := natAbs_sum_le z1
    have n3 := Int.natAbs_add_le z1.sum z
    simp only [statsAdd]
    rw [a1 (by omega), hn' (by omega), L.add _ _ (by omega) (by omega) (by omega), List.sum_append, List.sum_singleton]
  · rw [List.map_append, List.sum_append, List.map_cons, List.map_nil, List.sum_singleton] at hs
    have n1 := natAbs_sq_sum_le z1
    have n3 := Int.natAbs_add_le (z1.map fun z => z * z).sum (z * z)
    have n4 : (z * z).natAbs = z.natAbs * z.natAbs := Int.natAbs_mul z z
    have n5 : z.natAbs ≤ z.natAbs * z.natAbs := Nat.le_mul_self _
    simp only [statsAdd]
    rw [a2 (by omega), hn' (by omega), L.mul _ (by omega), L.add _ _ (by omega) (by omega) (by omega), List.map_append,
      List.sum_append, List.map_cons, List.map_nil, List.sum_singleton]
  · have bz := hb z (by simp)
    have hnz := hn' (by omega)
    by_cases h0 : z1 = []
    · subst h0
      have : s.count = 0 := by rw [hc, ← l1]; rfl
      simp only [statsAdd, this, if_true, List.nil_append]
      exact ⟨⟨z, by simp [Least], hnz⟩, z, by simp [Greatest], hnz⟩
    · obtain ⟨⟨m1, hm1, e1⟩, g1, hg1, f1⟩ := a3 (fun z hz => hb z (by simp [hz])) h0
      have bm1 := hb m1 (by simp [hm1.1])
      have bg1 := hb g1 (by simp [hg1.1])
      have hpos : 0 < z1.length := List.length_pos_iff.mpr h0
      have : s.count ≠ 0 := by
        rw [hc, ← l1, Nat.mod_eq_of_lt (by omega)]; omega
      have hmg := hm1.2 g1 hg1.1
      simp only [statsAdd, this, if_false, e1, f1, hnz, L.lt z m1 (by omega) (by omega),
        L.lt g1 z (by omega) (by omega), decide_eq_true_eq]
      refine ⟨?_, ?_⟩
      · by_cases hgz : g1 < z
        · rw [if_pos hgz]
          refine ⟨m1, ⟨by simp [hm1.1], fun x hx => ?_⟩, rfl⟩
          rcases List.mem_append.mp hx with hx | hx
          · exact hm1.2 x hx
          · rw [List.mem_singleton] at hx; omega
        · rw [if_neg hgz]
          by_cases hlt : z < m1
          · rw [if_pos hlt]
            refine ⟨z, ⟨by simp, fun x hx => ?_⟩, rfl⟩
            rcases List.mem_append.mp hx with hx | hx
            · have := hm1.2 x hx; omega
            · rw [List.mem_singleton] at hx; omega
          · rw [if_neg hlt]
            refine ⟨m1, ⟨by simp [hm1.1], fun x hx => ?_⟩, rfl⟩
            rcases List.mem_append.mp hx with hx | hx
            · exact hm1.2 x hx
            · rw [List.mem_singleton] at hx; omega
      · by_cases hlt : g1 < z
        · rw [if_pos hlt]
          refine ⟨z, ⟨by simp, fun x hx => ?_⟩, rfl⟩
          rcases List.mem_append.mp hx with hx | hx
          · have := hg1.2 x hx; omega
          · rw [List.mem_singleton] at hx; omega
        · rw [if_neg hlt]
          refine ⟨g1, ⟨by simp [hg1.1], fun x hx => ?_⟩, rfl⟩
          rcases List.mem_append.mp hx with hx | hx
          · exact hg1.2 x hx
          · rw [List.mem_singleton] at hx; omega

theorem statsLoop_ok {F : Type} {N : StatsEnv F} {ofInt : Int → F} (L : N.Laws ofInt) (l' : List (Bytes × Bytes))
    (hl : ∀ x ∈ l', (statsSpec N).Ok x) :
    ∀ (l : List (Bytes × Bytes)) (s : Stats F), StatsInv ofInt l s →
      ∃ s', statsLoop N (l'.map (·.2)) s = .ok s' ∧ StatsInv ofInt (l ++ l') s' := by
  induction l' with
  | nil => exact fun l s h => ⟨s, rfl, by simpa using h⟩
  | cons x l' ih =>
    intro l s h
    obtain ⟨z, hz, hb⟩ := hl x (by simp)
    have hn : jsonToDouble N.toNumEnv x.2 = some (ofInt z) := by rw [hz]; exact intText_read L.toLaws hb
    obtain ⟨s', e, h'⟩ := ih (fun y hy => hl y (by simp [hy])) (l ++ [x]) _ (statsAdd_inv L h hn)
    exact ⟨s', by simp only [List.map_cons, statsLoop, hn]; exact e, by simpa using h'⟩

theorem Readable.scan_ok {F : Type} {N : StatsEnv F} {t : Bytes} (h : Readable N t) {c : UInt8} (hc : c = 44 ∨ c = 125)
    (rest : Bytes) : ∃ y, N.scan (t ++ c :: rest) = some (y, c :: rest) := h.2.2 c rest hc

theorem decText_nonzero (n : Nat) : (0 : UInt8) ∉ decText n := by
  intro h
  have := decText_digits n 0 h
  exact absurd this (by decide)

theorem scanStats_ok {F : Type} {N : StatsEnv F} {ofInt : Int → F} (L : N.Laws ofInt) {l : List (Bytes × Bytes)}
    {t : Bytes} (h : (statsSpec N).gives l t) : ∃ r, scanStats N t = some r ∧ StatsInv ofInt l r := by
  obtain ⟨sum, min, max, sumsqr, rfl, r1, r2, r3, r4, h⟩ := h
  have e0 : statsObject sum (l.length % 2 ^ 64) min max sumsqr =
      litSum ++ (sum ++ (litCount ++ (decText (l.length % 2 ^ 64) ++ (litMin ++ (min ++ (litMax ++ (max ++
        (litSumsqr ++ (sumsqr ++ litEnd))))))))) := by
    have h1 : "{\"sum\":".toList = ['{', '"', 's', 'u', 'm', '"', ':'] := by simp
    have h2 : ",\"count\":".toList = [',', '"', 'c', 'o', 'u', 'n', 't', '"', ':'] := by simp
    have h3 : ",\"min\":".toList = [',', '"', 'm', 'i', 'n', '"', ':'] := by simp
    have h4 : ",\"max\":".toList = [',', '"', 'm', 'a', 'x', '"', ':'] := by simp
    have h5 : ",\"sumsqr\":".toList = [',', '"', 's', 'u', 'm', 's', 'q', 'r', '"', ':'] := by simp
    have h6 : "}".toList = ['}'] := by simp
    unfold statsObject
    rw [h1, h2, h3, h4, h5, h6]
    simp only [List.append_assoc]
    rfl
  have hz : (statsObject sum (l.length % 2 ^ 64) min max sumsqr).takeWhile (· ≠ 0) =
      statsObject sum (l.length % 2 ^ 64) min max sumsqr := by
    apply takeWhile_every
    intro c hc
    rw [decide_eq_true_eq]
    rintro rfl
    rw [e0] at hc
    simp only [List.mem_append] at hc
    rcases hc with h | h | h | h | h | h | h | h | h | h | h
    · exact absurd h (by decide)
    · exact r1.2.1 h
    · exact absurd h (by decide)
    · exact decText_nonzero _ h
    · exact absurd h (by decide)
    · exact r2.2.1 h
    · exact absurd h (by decide)
    · exact r3.2.1 h
    · exact absurd h (by decide)
    · exact r4.2.1 h
    · exact absurd h (by decide)
  have hd1 : ∀ r, litCount ++ r = 44 :: (litCount.tail ++ r) := fun _ => rfl
  have hd2 : ∀ r, litMin ++ r = 44 :: (litMin.tail ++ r) := fun _ => rfl
  have hd3 : ∀ r, litMax ++ r = 44 :: (litMax.tail ++ r) := fun _ => rfl
  have hd4 : ∀ r, litSumsqr ++ r = 44 :: (litSumsqr.tail ++ r) := fun _ => rfl
  obtain ⟨y1, q1⟩ := r1.scan_ok (c := 44) (Or.inl rfl) (litCount.tail ++ (decText (l.length % 2 ^ 64) ++ (litMin ++ (min ++
    (litMax ++ (max ++ (litSumsqr ++ (sumsqr ++ litEnd))))))))
  obtain ⟨y2, q2⟩ := r2.scan_ok (c := 44) (Or.inl rfl) (litMax.tail ++ (max ++ (litSumsqr ++ (sumsqr ++ litEnd))))
  obtain ⟨y3, q3⟩ := r3.scan_ok (c := 44) (Or.inl rfl) (litSumsqr.tail ++ (sumsqr ++ litEnd))
  obtain ⟨y4, q4⟩ := r4.scan_ok (c := 125) (Or.inr rfl) []
  rw [← hd1] at q1
  rw [← hd3] at q2
  rw [← hd4] at q3
  have q4' : N.scan (sumsqr ++ litEnd) = some (y4, litEnd) := q4
  have qc := scanU64_decText (l.length % 2 ^ 64) (Nat.mod_lt _ (by decide)) (litMin.tail ++ (min ++
    (litMax ++ (max ++ (litSumsqr ++ (sumsqr ++ litEnd))))))
  rw [← hd2] at qc
  refine ⟨⟨y1, l.length % 2 ^ 64, y2, y3, y4⟩, ?_, rfl, ?_⟩
  · unfold scanStats
    rw [hz, e0]
    simp only [Option.bind_eq_bind, scanLit_append, Option.bind_some, q1, qc, q2, q3, q4', Option.pure_def]
  · intro zs hzs hlen
    obtain ⟨h1, h2, h3⟩ := h zs hzs hlen
    refine ⟨fun hs => ?_, fun hs => ?_, fun hb hne => ?_⟩
    · have hb := Nat.lt_of_le_of_lt (natAbs_sum_le zs) hs
      rw [h1 hs, hd1, L.scan _ _ _ (by omega) (Or.inl rfl)] at q1
      injection q1 with q1
      exact (congrArg Prod.fst q1).symm
    · have hb := Nat.lt_of_le_of_lt (natAbs_sq_sum_le zs) hs
      rw [h2 hs, show litEnd = 125 :: [] from rfl, L.scan _ _ _ (by omega) (Or.inr rfl)] at q4'
      injection q4' with q4'
      exact (congrArg Prod.fst q4').symm
    · obtain ⟨m, hm⟩ := exists_least hne
      obtain ⟨g, hg⟩ := exists_greatest hne
      have bm := hb m hm.1
      have bg := hb g hg.1
      obtain ⟨h4, h5⟩ := h3 hb
      refine ⟨⟨m, hm, ?_⟩, g, hg, ?_⟩
      · rw [h4 m hm, hd3, L.scan _ _ _ (by omega) (Or.inl rfl)] at q2
        injection q2 with q2
        exact (congrArg Prod.fst q2).symm
      · rw [h5 g hg, hd4, L.scan _ _ _ (by omega) (Or.inl rfl)] at q3
        injection q3 with q3
        exact (congrArg Prod.fst q3).symm

theorem scanStats_exact {F : Type} {N : StatsEnv F} {ofInt : Int → F} (L : N.Laws ofInt) (a b c d : Int) (n : Nat)
    (ha : a.natAbs < 10 ^ 6) (hb : b.natAbs < 10 ^ 6) (hc : c.natAbs < 10 ^ 6) (hd : d.natAbs < 10 ^ 6) (hn : n < 2 ^ 64) :
    scanStats N (statsText N ⟨ofInt a, n, ofInt b, ofInt c, ofInt d⟩) = some ⟨ofInt a, n, ofInt b, ofInt c, ofInt d⟩ := by
  have za : (0 : UInt8) ∉ N.printG (ofInt a) := (L.printedG _).2.1
  have zb : (0 : UInt8) ∉ N.printG (ofInt b) := (L.printedG _).2.1
  have zc : (0 : UInt8) ∉ N.printG (ofInt c) := (L.printedG _).2.1
  have zd : (0 : UInt8) ∉ N.printG (ofInt d) := (L.printedG _).2.1
  have hz : (statsText N ⟨ofInt a, n, ofInt b, ofInt c, ofInt d⟩).takeWhile (· ≠ 0) =
      statsText N ⟨ofInt a, n, ofInt b, ofInt c, ofInt d⟩ := by
    apply takeWhile_every
    intro x hx
    rw [decide_eq_true_eq]
    rintro rfl
    simp only [statsText, List.append_assoc, List.mem_append] at hx
    rcases hx with h | h | h | h | h | h | h | h | h | h | h
    · exact absurd h (by decide)
    · exact za h
    · exact absurd h (by decide)
    · exact decText_nonzero _ h
    · exact absurd h (by decide)
    · exact zb h
    · exact absurd h (by decide)
    · exact zc h
    · exact absurd h (by decide)
    · exact zd h
    · exact absurd h (by decide)
  have q1 : ∀ r, N.scan (intText a ++ (litCount ++ r)) = some (ofInt a, litCount ++ r) := fun r =>
    L.scan a 44 (litCount.tail ++ r) (by omega) (Or.inl rfl)
  have q2 : ∀ r, N.scan (intText b ++ (litMax ++ r)) = some (ofInt b, litMax ++ r) := fun r =>
    L.scan b 44 (litMax.tail ++ r) (by omega) (Or.inl rfl)
  have q3 : ∀ r, N.scan (intText c ++ (litSumsqr ++ r)) = some (ofInt c, litSumsqr ++ r) := fun r =>
    L.scan c 44 (litSumsqr.tail ++ r) (by omega) (Or.inl rfl)
  have q4 : N.scan (intText d ++ litEnd) = some (ofInt d, litEnd) := L.scan d 125 [] (by omega) (Or.inr rfl)
  have qc : ∀ r, scanU64 (decText n ++ (litMin ++ r)) = some (n, litMin ++ r) := fun r =>
    scanU64_decText n hn (litMin.tail ++ r)
  unfold scanStats
  rw [hz]
  simp only [statsText, List.append_assoc, L.printG a ha, L.printG b hb, L.printG c hc, L.printG d hd,
    Option.bind_eq_bind, scanLit_append, Option.bind_some, q1, qc, q2, q3, q4, Option.pure_def]

theorem statsMergeLoop_ok {F : Type} {N : StatsEnv F} {ofInt : Int → F} (L : N.Laws ofInt)
    (ls : List (List (Bytes × Bytes) × Bytes)) (hl : ∀ x ∈ ls, (statsSpec N).gives x.1 x.2) (hne : ∀ x ∈ ls, x.1 ≠ []) :
    ∀ (l : List (Bytes × Bytes)) (s : Stats F), StatsInv ofInt l s →
      ∃ s', statsMergeLoop N (ls.map (·.2)) s = .ok s' ∧ StatsInv ofInt (l ++ ls.flatMap (·.1)) s' := by
  induction ls with
  | nil => exact fun l s h => ⟨s, rfl, by simpa using h⟩
  | cons x ls ih =>
    intro l s h
    obtain ⟨r, hr, hi⟩ := scanStats_ok L (hl x (by simp))
    obtain ⟨s', e, h'⟩ := ih (fun y hy => hl y (by simp [hy])) (fun y hy => hne y (by simp [hy])) (l ++ x.1) _
      (statsMerge_inv L h hi (hne x (by simp)))
    exact ⟨s', by simp only [List.map_cons, statsMergeLoop, hr]; exact e, by simpa using h'⟩

theorem statsReducer_meets {F : Type} {N : StatsEnv F} {ofInt : Int → F} (L : N.Laws ofInt) :
    (statsReducer N).Meets (statsSpec N) where
  reduce l h _ := by
    obtain ⟨s, e, hi⟩ := statsLoop_ok L l h [] _ (statsZero_inv L)
    exact ⟨statsText N s, by simp only [statsReducer, e], stats_gives L (by simpa using hi)⟩
  rereduce ls h hn := by
    obtain ⟨s, e, hi⟩ := statsMergeLoop_ok L ls h (hn rfl).2 [] _ (statsZero_inv L)
    exact ⟨statsText N s, by simp only [statsReducer, e], stats_gives L (by simpa using hi)⟩
  size l t h := by
    obtain ⟨sum, min, max, sumsqr, rfl, r1, r2, r3, r4, -⟩ := h
    have hd := decText_length (k := 20) (n := l.length % 2 ^ 64) (by decide)
      (Nat.lt_of_lt_of_le (Nat.mod_lt _ (by decide)) (by decide))
    have := r1.1; have := r2.1; have := r3.1; have := r4.1
    have h1 : "{\"sum\":".toList.length = 7 := by simp
    have h2 : ",\"count\":".toList.length = 9 := by simp
    have h3 : ",\"min\":".toList.length = 7 := by simp
    have h4 : ",\"max\":".toList.length = 7 := by simp
    have h5 : ",\"sumsqr\":".toList.length = 10 := by simp
    have h6 : "}".toList.length = 1 := by simp
    show _ ≤ 113
    simp only [statsObject, chars, List.length_append, List.length_map, h1, h2, h3, h4, h5, h6]
    omega

end Couchstore
