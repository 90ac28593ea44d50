import Verif.Lemmas.Stats
import Verif.Props.ViewReduce

/-! Property theorems C64: the builtin reduce function `_stats`.

`statsSpec` (Spec/Stats.lean) says what the text has to be: an object with the sum, the number, the least, the greatest
and the sum of the squares of the values.  The numbers are right as long as they have less than 7 digits; beyond that the
code rounds them at every level of the tree. -/

namespace Couchstore.Props

/-- C64: `_stats` gives right statistics of integers, from values and from results, as long as the numbers in them have
less than 7 digits and every entry has a value.  Missing: larger numbers and numbers with a fraction
(`C64_rounded`, `C64_depends_on_tree`), entries without values (`C64_no_values`). -/
theorem C64_stats_partial {F : Type} (N : StatsEnv F) (ofInt : Int → F) (L : N.Laws ofInt) :
    (statsReducer N).Meets (statsSpec N) := statsReducer_meets L

/-! An arithmetic with the laws: integers of less than 16 digits, and a number beyond, which `%g` also prints for integers
of more than 6 digits. -/

def toyScan (t : Bytes) : Option (Option Int × Bytes) :=
  match t with
  | 105 :: 110 :: 102 :: r => some (none, r)
  | 45 :: r => some (some (-(digitsVal (r.takeWhile isDecDigit) : Int)), r.dropWhile isDecDigit)
  | r => some (some (digitsVal (r.takeWhile isDecDigit) : Int), r.dropWhile isDecDigit)

def toyStats : StatsEnv (Option Int) where
  toNumEnv := toyNum
  mul a b :=
    match a, b with
    | some a, some b => if (a * b).natAbs < 10 ^ 15 then some (a * b) else none
    | _, _ => none
  lt a b :=
    match a, b with
    | some a, some b => decide (a < b)
    | _, _ => false
  printG x :=
    match x with
    | some z => if z.natAbs < 10 ^ 6 then intText z else [105, 110, 102]
    | none => [105, 110, 102]
  scan := toyScan

theorem toyScan_int (z : Int) (c : UInt8) (rest : Bytes) (hc : c = 44 ∨ c = 125) :
    toyScan (intText z ++ c :: rest) = some (some z, c :: rest) := by
  have hv := decText_val z.natAbs
  have hd := decText_digits z.natAbs
  have hne := decText_ne_nil z.natAbs
  obtain ⟨t, d⟩ := takeWhile_stop (p := isDecDigit) (c := c) (r := rest) hd (by rcases hc with rfl | rfl <;> decide)
  simp only [toyScan, intText]
  by_cases hz : z < 0
  · rw [if_pos hz]
    split
    · rename_i he; simp at he
    · rename_i ds _ he
      injection he with _ he
      rw [← he]
      show some (some (-(digitsVal ((decText z.natAbs ++ c :: rest).takeWhile isDecDigit) : Int)),
        (decText z.natAbs ++ c :: rest).dropWhile isDecDigit) = _
      rw [t, d, hv]
      congr 3
      omega
    · rename_i h1 h2
      exact absurd rfl (h2 _)
  · rw [if_neg hz]
    generalize decText z.natAbs = s at hv hd hne t d
    cases s with
    | nil => exact absurd rfl hne
    | cons x s =>
      have hx := hd x (by simp)
      split
      · rename_i he
        injection he with he _
        subst he
        exact absurd hx (by decide)
      · rename_i he
        injection he with he _
        subst he
        exact absurd hx (by decide)
      · rw [t, d, hv]
        congr 3
        omega

theorem toyStats_readable (x : Option Int) : Readable toyStats (toyStats.printG x) := by
  have inf : Readable toyStats [105, 110, 102] := by
    refine ⟨by decide, by decide, fun c rest _ => ⟨none, ?_⟩⟩
    simp [toyStats, toyScan]
  simp only [toyStats]
  split
  · rename_i z
    split
    · rename_i h
      refine ⟨?_, ?_, fun c rest hc => ⟨some z, toyScan_int z c rest hc⟩⟩
      · have := decText_length (k := 6) (by decide) h
        unfold intText
        split
        · simp only [List.length_cons]; omega
        · omega
      · unfold intText
        split
        · simp only [List.mem_cons, not_or]
          exact ⟨by decide, decText_nonzero _⟩
        · exact decText_nonzero _
    · exact inf
  · exact inf

theorem toyStats_laws : toyStats.Laws some where
  toLaws := toyNum_laws
  mul a h := by
    simp only [toyStats]
    rw [if_pos (by rw [Int.natAbs_mul]; exact h)]
  lt a b _ _ := rfl
  printG z h := by simp only [toyStats]; rw [if_pos h]
  scan z c rest _ hc := toyScan_int z c rest hc
  printedG := toyStats_readable

example : (statsReducer toyStats).Meets (statsSpec toyStats) := C64_stats_partial _ _ toyStats_laws

/-- From values, and from the results of two parts. -/
example : (statsReducer toyStats).reduce [([49], intText 20), ([49], intText (-5)), ([50], intText 8)] =
      .ok (statsObject (intText 23) 3 (intText (-5)) (intText 20) (intText 489)) ∧
    (statsReducer toyStats).rereduce [statsObject (intText 15) 2 (intText (-5)) (intText 20) (intText 425),
      statsObject (intText 8) 1 (intText 8) (intText 8) (intText 64)] =
      .ok (statsObject (intText 23) 3 (intText (-5)) (intText 20) (intText 489)) := by decide +kernel

/-- C64: whatever batches of updates are applied to the index of a view with `_stats`, with whatever node sizes and I/O
faults, the result at the root is the statistics of all the values that are in the index, as long as these are integers and
their sum of squares has less than 7 digits. -/
theorem C64_view_index_partial {F : Type} (N : StatsEnv F) (ofInt : Int → F) (LN : N.Laws ofInt)
    {D : Type} [LinearOrder D] (e : CollateEnv D) (round : Rat → D) (ucol : Bytes → Bytes → Int)
    (H : e.Ok round ucol) (K : Bytes → Prop) (hK : ViewKeyClass e K)
    (E : Env) (L : E.Laws) (kvThr kpThr : Nat) (cleanup : Bytes) (ha : 2 ≤ kvThr) (f : File) (w : f.WF)
    (root : Option NodePointer) (m : KMap)
    (hroot : Represents E (viewIdx K [statsSpec N]) (viewBtreeCmp e) f root m) (bs : List (List Action))
    (hb : ∀ b ∈ bs, BatchOk (viewRq e [statsReducer N] kvThr kpThr cleanup) b) (hk : ∀ b ∈ bs, ∀ a ∈ b, K a.key)
    (hV : ∀ b ∈ bs, ∀ a ∈ b, a.type = .insert ∨ a.type = .fetchInsert → (viewIdx K [statsSpec N]).V (a.key, a.data))
    (u : Nat) (g : File) (root' : Option NodePointer) (u' : Nat)
    (h : runBatches E (viewRq e [statsReducer N] kvThr kpThr cleanup) f root u bs = (g, root', u')) :
    ∃ m', History (viewRq e [statsReducer N] kvThr kpThr cleanup) u m bs u' m' ∧
      Represents E (viewIdx K [statsSpec N]) (viewBtreeCmp e) g root' m' ∧
      ∀ p, root' = some p → ∃ (ms : List Emit) (x : ViewReduction), Lists (viewBtreeCmp e) m' (ms.map Emit.kv) ∧
        decodeViewReduction p.reduceValue = .ok x ∧
        ∀ zs : List Int, (ms.flatMap (·.values)) = zs.map intText → zs.length < 2 ^ 64 →
          (zs.map fun z => z.natAbs * z.natAbs).sum < 10 ^ 6 →
          ∀ lo hi, Least zs lo → Greatest zs hi →
            x.values = [statsObject (intText zs.sum) zs.length (intText lo) (intText hi)
              (intText (zs.map fun z => z * z).sum)] := by
  obtain ⟨m', h1, h2, h3⟩ := C43_view_index e round ucol H K hK [statsReducer N] [statsSpec N]
    (.cons (C64_stats_partial N ofInt LN) .nil) ⟨by simp, by simp [reductionMax, statsSpec]⟩
    E L kvThr kpThr cleanup ha f w root m hroot bs hb hk hV u g root' u' h
  refine ⟨m', h1, h2, fun p hp => ?_⟩
  obtain ⟨ms, x, hl, -, hd, -, -, -, hx⟩ := h3 p hp
  refine ⟨ms, x, hl, hd, fun zs hz hlen hs lo hi hlo hhi => ?_⟩
  have hvals : (ms.flatMap Emit.pairs).map (·.2) = ms.flatMap (·.values) := by
    rw [List.map_flatMap]
    congr 1
    funext m
    simp [Emit.pairs, Function.comp_def]
  have hlen' : (ms.flatMap Emit.pairs).length = zs.length := by
    have := congrArg List.length (hvals.trans hz)
    simpa using this
  have sq : ∀ zs : List Int, (zs.map Int.natAbs).sum ≤ (zs.map fun z => z.natAbs * z.natAbs).sum := by
    intro zs
    induction zs with
    | nil => simp
    | cons z zs ih =>
      have := Nat.le_mul_self z.natAbs
      simp only [List.map_cons, List.sum_cons]
      omega
  have each : ∀ zs : List Int, ∀ z ∈ zs, z.natAbs ≤ (zs.map Int.natAbs).sum := by
    intro zs
    induction zs with
    | nil => simp
    | cons y zs ih =>
      intro z hz
      simp only [List.map_cons, List.sum_cons]
      rcases List.mem_cons.mp hz with rfl | hz
      · omega
      · have := ih z hz; omega
  have hsum := Nat.lt_of_le_of_lt (sq zs) hs
  generalize x.values = vs at hx
  rcases hx with _ | ⟨hx, hnil⟩
  cases hnil
  obtain ⟨sum, mn, mx, sqr, rfl, -, -, -, -, h⟩ := hx
  obtain ⟨a1, a2, a3⟩ := h zs (hvals.trans hz) hlen
  obtain ⟨a4, a5⟩ := a3 fun z hz => Nat.lt_of_le_of_lt (each zs z hz) hsum
  rw [a1 hsum, a2 hs, a4 lo hlo, a5 hi hhi, hlen', Nat.mod_eq_of_lt hlen]

/-! The view of C43, with `_stats`. -/

def statsRq : Rq Nat := viewRq (exactEnv true) [statsReducer toyStats] 40 40 emptyBitmap

instance (as : List Action) : Decidable (BatchOk statsRq as) := by unfold BatchOk; infer_instance

theorem sampleEmits_stats : ∀ m ∈ sampleEmits, (viewIdx nullKeys [statsSpec toyStats]).V m.kv := by
  intro m hm
  obtain ⟨h1, m', hf, he⟩ := sampleEmits_valid m hm
  refine ⟨h1, m, ?_, rfl⟩
  obtain ⟨f1, f2, f3, f4, f5, f6, f7⟩ := sampleEmits_fits m hm
  refine ⟨f1, f2, f3, f4, f5, f6, ?_⟩
  intro s hs
  rw [List.mem_singleton] at hs
  subst hs
  refine ⟨(f7 (sumSpec toyNum) (by simp [toySpecs])).1, fun _ => ?_⟩
  have hall : ∀ m ∈ sampleEmits, m.values ≠ [] := by decide
  exact hall m hm

example : Represents Env.toy (viewIdx nullKeys [statsSpec toyStats]) (viewBtreeCmp (exactEnv true)) File.empty none
      (fun _ => none) ∧
    (∀ b ∈ sampleViewBatches, BatchOk statsRq b) ∧
    (∀ m ∈ sampleEmits, (viewIdx nullKeys [statsSpec toyStats]).V m.kv) :=
  ⟨⟨[], rfl, List.Pairwise.nil, fun _ => rfl⟩, by decide +kernel, sampleEmits_stats⟩

/-- After the two batches the values 20, -3 and 7 are left. -/
example : (match runBatches Env.toy statsRq File.empty none 0 sampleViewBatches with
    | (_, some p, _) => match decodeViewReduction p.reduceValue with
      | .ok x => decide (x.values = [statsObject (intText 24) 3 (intText (-3)) (intText 20) (intText 458)])
      | _ => false
    | _ => false) = true := by decide +kernel

/-! ### Larger numbers -/

/-- The digits of a number without the zeros at the end. -/
def trimZeros (s : Bytes) : Bytes := (s.reverse.dropWhile (· = 48)).reverse

/-- `%g` of a natural number of more than 6 digits: six digits, rounded to the nearest, and the exponent. -/
def gText (n : Nat) : Bytes :=
  let k := (decText n).length - 6
  let m := (n + 10 ^ k / 2) / 10 ^ k
  let ds := trimZeros (decText m)
  let e := if m < 10 ^ 6 then k + 5 else k + 6
  ds.take 1 ++ (if ds.length = 1 then [] else 46 :: ds.drop 1) ++ [101, 43] ++ (if e < 10 then [48] else []) ++ decText e

/-- The number that a text as printed by `%g` stands for, if it is an integer, and what follows. -/
def gScan (s : Bytes) : Option (Int × Bytes) :=
  let neg := s.head? = some 45
  let s := if neg then s.drop 1 else s
  let ip := s.takeWhile isDecDigit
  let s := s.dropWhile isDecDigit
  let (fp, s) := if s.head? = some 46 then ((s.drop 1).takeWhile isDecDigit, (s.drop 1).dropWhile isDecDigit) else ([], s)
  let (e, s) := if s.take 2 = [101, 43] then (digitsVal ((s.drop 2).takeWhile isDecDigit), (s.drop 2).dropWhile isDecDigit)
    else (0, s)
  let n := digitsVal (ip ++ fp) * 10 ^ (e - fp.length)
  some (if neg then -(n : Int) else n, s)

/-- Integers with exact arithmetic, and `%g`. -/
def gNum : StatsEnv Int where
  zero := 0
  add a b := a + b
  mul a b := a * b
  lt a b := decide (a < b)
  parse t := (gScan t).map (·.1)
  print := intText
  printG z := if z.natAbs < 10 ^ 6 then intText z else if z < 0 then 45 :: gText z.natAbs else gText z.natAbs
  scan := gScan

/-- `1.23457e+06` -/
example : gNum.printG 1234567 = chars ['1', '.', '2', '3', '4', '5', '7', 'e', '+', '0', '6'] ∧
    gNum.printG 2000000 = chars ['2', 'e', '+', '0', '6'] ∧ gNum.printG (-9999996) = chars ['-', '1', 'e', '+', '0', '7'] ∧
    gNum.scan (chars ['1', '.', '2', '3', '4', '5', '7', 'e', '+', '0', '6', ',']) = some (1234570, [44]) := by
  decide +kernel

/-- C64: a number of 7 digits is rounded to 6: the least and the greatest of one value are not the value. -/
theorem C64_rounded : ∃ t r, (statsReducer gNum).reduce [([49], intText 1234567)] = .ok t ∧ scanStats gNum t = some r ∧
    r.count = 1 ∧ r.min = 1234570 ∧ r.max = 1234570 ∧ r.sum = 1234570 :=
  ⟨statsText gNum ⟨1234567, 1, 1234567, 1234567, 1234567 * 1234567⟩,
    ⟨1234570, 1, 1234570, 1234570, 1524160000000⟩, by decide +kernel⟩

/-- C64: the statistics of the same values depend on the nodes of the tree they are in: two values in one leaf, and in
two leaves. -/
theorem C64_depends_on_tree : ∃ v1 v2 t1 t2 t t' r r', (statsReducer gNum).reduce [v1] = .ok t1 ∧
    (statsReducer gNum).reduce [v2] = .ok t2 ∧ (statsReducer gNum).rereduce [t1, t2] = .ok t ∧
    (statsReducer gNum).reduce [v1, v2] = .ok t' ∧ scanStats gNum t = some r ∧ scanStats gNum t' = some r' ∧
    r.sum = 2000000 ∧ r'.sum = 2000010 :=
  ⟨([49], intText 1000004), ([50], intText 1000004),
    statsText gNum ⟨1000004, 1, 1000004, 1000004, 1000004 * 1000004⟩,
    statsText gNum ⟨1000004, 1, 1000004, 1000004, 1000004 * 1000004⟩,
    statsText gNum ⟨2000000, 2, 1000000, 1000000, 2 * 1000010000000⟩,
    statsText gNum ⟨2000008, 2, 1000004, 1000004, 2 * (1000004 * 1000004)⟩,
    ⟨2000000, 2, 1000000, 1000000, 2000020000000⟩,
    ⟨2000010, 2, 1000000, 1000000, 2000020000000⟩, by decide +kernel⟩

/-! ### Entries without values -/

/-- C64: a leaf whose entries have no values has 0 for the least and the greatest, and this is taken for a value when
the node above is written: with the value 5 in another leaf the least value is 0. -/
theorem C64_no_values {F : Type} (N : StatsEnv F) (ofInt : Int → F) (L : N.Laws ofInt) (k : Bytes) :
    ∃ t1 t2, (statsReducer N).reduce [(k, intText 5)] = .ok t1 ∧ (statsReducer N).reduce [] = .ok t2 ∧
      (statsReducer N).rereduce [t1, t2] =
        .ok (statsObject (intText 5) 1 (intText 0) (intText 5) (intText 25)) := by
  have p0 := L.printG 0 (by decide)
  have p5 := L.printG 5 (by decide)
  have p25 := L.printG 25 (by decide)
  have r5 := intText_read L.toLaws (z := 5) (by decide)
  have a1 := L.add 0 5 (by decide) (by decide) (by decide)
  have a2 := L.add 0 25 (by decide) (by decide) (by decide)
  have a3 := L.add 5 0 (by decide) (by decide) (by decide)
  have a4 := L.add 25 0 (by decide) (by decide) (by decide)
  have m5 := L.mul 5 (by decide)
  simp only [Int.zero_add, Int.add_zero, show (5 * 5 : Int) = 25 from rfl] at a1 a2 a3 a4 m5
  have l1 := L.lt 0 5 (by decide) (by decide)
  have l2 := L.lt 5 0 (by decide) (by decide)
  simp only [show decide ((0 : Int) < 5) = true from rfl, show decide ((5 : Int) < 0) = false from rfl] at l1 l2
  refine ⟨statsText N ⟨ofInt 5, 1, ofInt 5, ofInt 5, ofInt 25⟩, statsText N ⟨ofInt 0, 0, ofInt 0, ofInt 0, ofInt 0⟩, ?_, ?_, ?_⟩
  · simp only [statsReducer, List.map_cons, List.map_nil, statsLoop, r5, statsAdd, statsZero, L.zero, a1, a2, m5, if_true]
    rfl
  · simp only [statsReducer, List.map_nil, statsLoop, statsZero, L.zero]
  · simp only [statsReducer, statsMergeLoop,
      scanStats_exact L 5 5 5 25 1 (by decide) (by decide) (by decide) (by decide) (by decide),
      scanStats_exact L 0 0 0 0 0 (by decide) (by decide) (by decide) (by decide) (by decide)]
    simp only [statsMerge, statsZero, L.zero, a1, a2, a3, a4, l1, l2, or_true, if_true, Nat.zero_add, Nat.add_zero]
    rw [statsText_eq]
    simp [p0, p5, p25]

example : ∃ t1 t2, (statsReducer toyStats).reduce [([49], intText 5)] = .ok t1 ∧ (statsReducer toyStats).reduce [] = .ok t2 ∧
    (statsReducer toyStats).rereduce [t1, t2] = .ok (statsObject (intText 5) 1 (intText 0) (intText 5) (intText 25)) :=
  C64_no_values _ _ toyStats_laws _

end Couchstore.Props
