import Verif.Model.ViewReduce

/-
Model of `_stats`, the third builtin reduce function (/repo/src/views/reducers.cc:77-79, 259-358 and `stats_t` in
/repo/src/views/reducers.h:36-42).

Simplifications: allocation does not fail; the error message and the key of the value that made the function fail are
not modelled; the arithmetic, the comparison, the reading and the printing of floating point numbers are given by the
environment.  The text is at most 113 bytes, so that `red[4096]` (:267) holds it and `snprintf` does not cut it.
-/

namespace Couchstore

/-- Floating point numbers, with what `_stats` needs: `*`, `<`, `printf` with `%g`, and `scanf` with `%lg`, which gives
the number and what follows it in the text. -/
structure StatsEnv (F : Type) extends NumEnv F where
  mul : F → F → F
  lt : F → F → Bool
  printG : F → Bytes
  scan : Bytes → Option (F × Bytes)

/-- reducers.h:36-42 `stats_t`. -/
structure Stats (F : Type) where
  sum : F
  count : Nat
  min : F
  max : F
  sumsqr : F
deriving DecidableEq

/-- The characters of a format string that are copied or compared. -/
def chars (l : List Char) : Bytes := l.map fun c => UInt8.ofNat c.toNat

/-- `{"sum":` (:78, :338). -/
def litSum : Bytes := chars ['{', '"', 's', 'u', 'm', '"', ':']
/-- `,"count":` (:78, :338). -/
def litCount : Bytes := chars [',', '"', 'c', 'o', 'u', 'n', 't', '"', ':']
/-- `,"min":` (:78, :339). -/
def litMin : Bytes := chars [',', '"', 'm', 'i', 'n', '"', ':']
/-- `,"max":` (:78, :339). -/
def litMax : Bytes := chars [',', '"', 'm', 'a', 'x', '"', ':']
/-- `,"sumsqr":` (:78, :339). -/
def litSumsqr : Bytes := chars [',', '"', 's', 'u', 'm', 's', 'q', 'r', '"', ':']
/-- `}` (:78, :339). -/
def litEnd : Bytes := chars ['}']

/-- `sscanf`: characters of the format that have to be in the text. -/
def scanLit (lit s : Bytes) : Option Bytes := if lit.isPrefixOf s then some (s.drop lit.length) else none

/-- `sscanf` with `SCNu64`. -/
def scanU64 (s : Bytes) : Option (Nat × Bytes) :=
  let s1 := s.dropWhile isSpace
  let neg := s1.head? = some 45
  let s2 := if s1.head? = some 45 ∨ s1.head? = some 43 then s1.drop 1 else s1
  let ds := s2.takeWhile isDecDigit
  if ds = [] then none
  else
    let n := digitsVal ds
    some (if n ≥ 2 ^ 64 then 2 ^ 64 - 1 else if neg then (2 ^ 64 - n) % 2 ^ 64 else n, s2.dropWhile isDecDigit)

/-- reducers.cc:77-79, 279-291: five numbers have been read.  What follows the last of them is not looked at. -/
def scanStats {F : Type} (N : StatsEnv F) (s : Bytes) : Option (Stats F) := do
  let s ← scanLit litSum (s.takeWhile (· ≠ 0))
  let (sum, s) ← N.scan s
  let s ← scanLit litCount s
  let (count, s) ← scanU64 s
  let s ← scanLit litMin s
  let (min, s) ← N.scan s
  let s ← scanLit litMax s
  let (max, s) ← N.scan s
  let s ← scanLit litSumsqr s
  let (sumsqr, _) ← N.scan s
  pure { sum, count, min, max, sumsqr }

/-- reducers.cc:269. -/
def statsZero {F : Type} (N : StatsEnv F) : Stats F :=
  { sum := N.zero, count := 0, min := N.zero, max := N.zero, sumsqr := N.zero }

/-- reducers.cc:308-316. -/
def statsAdd {F : Type} (N : StatsEnv F) (s : Stats F) (n : F) : Stats F :=
  { sum := N.add s.sum n
    sumsqr := N.add s.sumsqr (N.mul n n)
    count := (s.count + 1) % 2 ^ 64
    max := if s.count = 0 then n else if N.lt s.max n then n else s.max
    min := if s.count = 0 then n else if N.lt s.max n then s.min else if N.lt n s.min then n else s.min }

/-- reducers.cc:292-300. -/
def statsMerge {F : Type} (N : StatsEnv F) (s r : Stats F) : Stats F :=
  { min := if N.lt r.min s.min ∨ s.count = 0 then r.min else s.min
    max := if N.lt s.max r.max ∨ s.count = 0 then r.max else s.max
    count := (s.count + r.count) % 2 ^ 64
    sum := N.add s.sum r.sum
    sumsqr := N.add s.sumsqr r.sumsqr }

/-- reducers.cc:335-346. -/
def statsText {F : Type} (N : StatsEnv F) (s : Stats F) : Bytes :=
  litSum ++ N.printG s.sum ++ litCount ++ decText s.count ++ litMin ++ N.printG s.min ++ litMax ++ N.printG s.max ++
    litSumsqr ++ N.printG s.sumsqr ++ litEnd

/-- reducers.cc:271-333, with keys. -/
def statsLoop {F : Type} (N : StatsEnv F) : List Bytes → Stats F → Except Err (Stats F)
  | [], s => .ok s
  | v :: vs, s =>
    match jsonToDouble N.toNumEnv v with
    | none => .error .reducerFailure
    | some n => statsLoop N vs (statsAdd N s n)

/-- reducers.cc:271-333, without keys. -/
def statsMergeLoop {F : Type} (N : StatsEnv F) : List Bytes → Stats F → Except Err (Stats F)
  | [], s => .ok s
  | v :: vs, s =>
    match scanStats N v with
    | none => .error .reducerFailure
    | some r => statsMergeLoop N vs (statsMerge N s r)

/-- reducers.cc:259-358 `builtin_stats_reducer`. -/
def statsReducer {F : Type} (N : StatsEnv F) : Reducer where
  reduce l :=
    match statsLoop N (l.map (·.2)) (statsZero N) with
    | .error e => .error e
    | .ok s => .ok (statsText N s)
  rereduce vs :=
    match statsMergeLoop N vs (statsZero N) with
    | .error e => .error e
    | .ok s => .ok (statsText N s)

end Couchstore
