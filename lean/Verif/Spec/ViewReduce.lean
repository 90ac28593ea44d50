import Verif.Model.ViewReduce
import Verif.Spec.ViewCodec
import Verif.Spec.Collate
import Verif.Spec.Purge

/-! What the reductions of view indexes stand for. -/

namespace Couchstore

/-- What a reduce function is to give: the keys and values it can be used for, the results that are right for a list of
keys and values, the greatest length of a result, and whether the function can only be used for lists that are not empty. -/
structure ReducerSpec where
  Ok : Bytes × Bytes → Prop
  gives : List (Bytes × Bytes) → Bytes → Prop
  lim : Nat
  nonempty : Bool := false

/-- The function gives a right result for every list of keys and values, and for the combination of right results. -/
structure Reducer.Meets (r : Reducer) (s : ReducerSpec) : Prop where
  reduce : ∀ l, (∀ x ∈ l, s.Ok x) → (s.nonempty = true → l ≠ []) → ∃ t, r.reduce l = .ok t ∧ s.gives l t
  rereduce : ∀ ls : List (List (Bytes × Bytes) × Bytes), (∀ x ∈ ls, s.gives x.1 x.2) →
    (s.nonempty = true → ls ≠ [] ∧ ∀ x ∈ ls, x.1 ≠ []) →
    ∃ t, r.rereduce (ls.map (·.2)) = .ok t ∧ s.gives (ls.flatMap (·.1)) t
  size : ∀ l t, s.gives l t → t.length ≤ s.lim

/-- What a document emits for one key of a view: the values. -/
structure Emit where
  json : Bytes
  doc : Bytes
  part : Nat
  values : List Bytes

/-- The entry of the index. -/
def Emit.kv (m : Emit) : KV := (encodeViewKey ⟨m.json, m.doc⟩, encodeViewValue ⟨m.part, m.values⟩)

/-- The keys and values that the reduce functions see. -/
def Emit.pairs (m : Emit) : List (Bytes × Bytes) := m.values.map fun v => (m.json, v)

/-- It fits the formats, and the reduce functions can be used for it. -/
def Emit.Fits (specs : List ReducerSpec) (m : Emit) : Prop :=
  m.json.length < 2 ^ 16 ∧ m.part < 1024 ∧ m.values.length < 2 ^ 16 ∧ (∀ v ∈ m.values, v.length < 2 ^ 24) ∧
    m.kv.1.length < 4096 ∧ m.kv.2.length < 2 ^ 28 ∧ ∀ s ∈ specs, (∀ x ∈ m.pairs, s.Ok x) ∧ (s.nonempty = true → m.values ≠ [])

/-- The reduction of the emitted values: their number, the partitions they are from and the results of the reduce
functions. -/
def Reduces (specs : List ReducerSpec) (ms : List Emit) (x : ViewReduction) : Prop :=
  x.kvCount = (ms.map fun m => m.values.length).sum % 2 ^ 40 ∧
    x.partitions.length = 128 ∧ (∀ p, hasPart x.partitions p = true ↔ ∃ m ∈ ms, m.part = p) ∧
    List.Forall₂ (fun s t => s.gives (ms.flatMap Emit.pairs) t) specs x.values

/-- The greatest length of a reduction. -/
def reductionMax (specs : List ReducerSpec) : Nat := 133 + (specs.map fun s => 2 + s.lim).sum

/-- The index of a view: entries with keys from a class `K`. -/
def viewIdx (K : Bytes → Prop) (specs : List ReducerSpec) : Idx where
  V kv := K kv.1 ∧ ∃ m : Emit, m.Fits specs ∧ kv = m.kv
  R kvs r := r.length ≤ reductionMax specs ∧ ∃ ms x, kvs = ms.map Emit.kv ∧ (∀ m ∈ ms, m.Fits specs) ∧
    decodeViewReduction r = .ok x ∧ Reduces specs ms x ∧ ms ≠ []

/-- All the results together fit a reduction. -/
def ResultsFit (specs : List ReducerSpec) : Prop :=
  specs.length < 256 ∧ reductionMax specs ≤ 65535

/-- The partition of an entry of the index by document id. -/
def idPart (kv : KV) : Nat := beDec (kv.2.take 2)

/-- The index by document id, with ids of at most `kmax` bytes; the reduction has the number of entries and their partitions. -/
def viewIdIdx (kmax : Nat) : Idx where
  V kv := kv.1.length ≤ kmax ∧ kv.2.length < 2 ^ 28 ∧ 2 ≤ kv.2.length ∧ idPart kv < 1024
  R kvs r := r.length = 133 ∧ ∃ n bm, decodeIdReduction r = .ok (n, bm) ∧ n = kvs.length % 2 ^ 40 ∧
    bm.length = 128 ∧ ∀ p, hasPart bm p = true ↔ ∃ kv ∈ kvs, idPart kv = p

/-- A class of keys of a view that the comparison tells apart. -/
structure ViewKeyClass {D : Type} [LinearOrder D] (e : CollateEnv D) (K : Bytes → Prop) : Prop where
  key : ∀ k, K k → ∃ (v : Json) (d : Bytes), v.text.length < 2 ^ 16 ∧ k = encodeViewKey ⟨v.text, d⟩
  apart : ∀ a b, K a → K b → viewKeyCmp e (a.length + 1) a b = .ok 0 → a = b

/-- `_count`: the number of values. -/
def countSpec : ReducerSpec where
  Ok _ := True
  gives l t := t = decText (l.length % 2 ^ 64)
  lim := 20

/-- The decimal text of an integer. -/
def intText (z : Int) : Bytes := if z < 0 then 45 :: decText z.natAbs else decText z.natAbs

/-- The facts about floating point numbers that are used: a printed number can be read, integers of less than 16 digits
are read, printed and added without an error. -/
structure NumEnv.Laws {F : Type} (N : NumEnv F) (ofInt : Int → F) : Prop where
  zero : N.zero = ofInt 0
  add : ∀ a b, a.natAbs < 10 ^ 15 → b.natAbs < 10 ^ 15 → (a + b).natAbs < 10 ^ 15 →
    N.add (ofInt a) (ofInt b) = ofInt (a + b)
  print : ∀ z, z.natAbs < 10 ^ 15 → N.print (ofInt z) = intText z
  parse : ∀ z, z.natAbs < 10 ^ 15 → N.parse (intText z) = some (ofInt z)
  printed : ∀ x, (N.print x).length ≤ 31 ∧ N.print x ≠ [] ∧ ∃ y, N.parse (N.print x) = some y

/-- `_sum` of integers: as long as the sum of the magnitudes has less than 16 digits, it is the sum. -/
def sumSpec {F : Type} (N : NumEnv F) : ReducerSpec where
  Ok x := ∃ z : Int, x.2 = intText z ∧ z.natAbs < 10 ^ 15
  gives l t := t.length ≤ 31 ∧ t ≠ [] ∧ (∃ y, N.parse t = some y) ∧
    ∀ zs : List Int, l.map (·.2) = zs.map intText → (zs.map Int.natAbs).sum < 10 ^ 15 → t = intText zs.sum
  lim := 31

end Couchstore
