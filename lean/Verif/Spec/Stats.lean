import Verif.Spec.ViewReduce
import Verif.Model.Stats

/-! What `_stats` is to give. -/

namespace Couchstore

/-- A printed number can be read in the text of the statistics, where a comma or a brace follows it. -/
def Readable {F : Type} (N : StatsEnv F) (t : Bytes) : Prop :=
  t.length ≤ 13 ∧ (0 : UInt8) ∉ t ∧ ∀ c rest, c = 44 ∨ c = 125 → ∃ y, N.scan (t ++ c :: rest) = some (y, c :: rest)

/-- The facts about floating point numbers that are used: those for `_sum`; integers of less than 16 digits are
multiplied, compared and read without an error; `%g` prints integers of less than 7 digits without an error; whatever it
prints has at most 13 characters and can be read. -/
structure StatsEnv.Laws {F : Type} (N : StatsEnv F) (ofInt : Int → F) : Prop extends N.toNumEnv.Laws ofInt where
  mul : ∀ a, a.natAbs * a.natAbs < 10 ^ 15 → N.mul (ofInt a) (ofInt a) = ofInt (a * a)
  lt : ∀ a b, a.natAbs < 10 ^ 15 → b.natAbs < 10 ^ 15 → N.lt (ofInt a) (ofInt b) = decide (a < b)
  printG : ∀ z, z.natAbs < 10 ^ 6 → N.printG (ofInt z) = intText z
  scan : ∀ z c rest, z.natAbs < 10 ^ 15 → c = 44 ∨ c = 125 → N.scan (intText z ++ c :: rest) = some (ofInt z, c :: rest)
  printedG : ∀ x, Readable N (N.printG x)

/-- The text of statistics with these texts for the numbers. -/
def statsObject (sum : Bytes) (count : Nat) (min max sumsqr : Bytes) : Bytes :=
  chars "{\"sum\":".toList ++ sum ++ chars ",\"count\":".toList ++ decText count ++ chars ",\"min\":".toList ++ min ++
    chars ",\"max\":".toList ++ max ++ chars ",\"sumsqr\":".toList ++ sumsqr ++ chars "}".toList

/-- `m` is the least of the numbers. -/
def Least (zs : List Int) (m : Int) : Prop := m ∈ zs ∧ ∀ z ∈ zs, m ≤ z

/-- `m` is the greatest of the numbers. -/
def Greatest (zs : List Int) (m : Int) : Prop := m ∈ zs ∧ ∀ z ∈ zs, z ≤ m

/-- `_stats` of integers, for entries that have values: the number of the values; their sum, if the magnitudes add up to
less than 10^6; the sum of their squares, if it is less than 10^6; the least and the greatest, if all have less than 7
digits. -/
def statsSpec {F : Type} (N : StatsEnv F) : ReducerSpec where
  Ok x := ∃ z : Int, x.2 = intText z ∧ z.natAbs < 10 ^ 15
  gives l t := ∃ sum min max sumsqr, t = statsObject sum (l.length % 2 ^ 64) min max sumsqr ∧
    Readable N sum ∧ Readable N min ∧ Readable N max ∧ Readable N sumsqr ∧
    ∀ zs : List Int, l.map (·.2) = zs.map intText → zs.length < 2 ^ 64 →
      ((zs.map Int.natAbs).sum < 10 ^ 6 → sum = intText zs.sum) ∧
      ((zs.map fun z => z.natAbs * z.natAbs).sum < 10 ^ 6 → sumsqr = intText (zs.map fun z => z * z).sum) ∧
      ((∀ z ∈ zs, z.natAbs < 10 ^ 6) →
        (∀ m, Least zs m → min = intText m) ∧ ∀ m, Greatest zs m → max = intText m)
  lim := 113
  nonempty := true

end Couchstore
