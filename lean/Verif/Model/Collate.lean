import Verif.Model.Bytes
import Mathlib.Order.Defs.LinearOrder

/-
Model of /repo/src/views/collate_json.cc: comparing keys of views.

A pointer into a buffer is the rest of the buffer from there on.  Reading outside of it is the outcome `outside`.
Not modelled: the messages, failures to open a collator or to allocate, errors of ICU.
-/

namespace Couchstore

/-- Why there is no result. -/
inductive Stuck
  | /-- a byte outside of the buffers was needed -/ outside
  | /-- `cb_assert` failed -/ assertion
  | /-- not done after the given number of rounds -/ endless
  deriving DecidableEq, Repr

/-- collate_json.h: `CollateJSONMode`. -/
inductive CollateMode | unicode | raw | ascii
  deriving DecidableEq, Repr

/-- What the code is given by the system: `strtod` (the number and how many bytes it took; the numbers are any ordered
type), ICU's `ucol_strcoll` and `ucol_strcollIter` for two texts in UTF-8, and whether `char` is signed. -/
structure CollateEnv (D : Type) where
  strtod : Bytes → D × Nat
  strcoll : Bytes → Bytes → Int
  strcollIter : Bytes → Bytes → Int
  charSigned : Bool

variable {D : Type} [LinearOrder D]

/-- collate_json.cc:17-20 `cmp`. -/
def cmpInt (a b : Int) : Int := if a > b then 1 else if a < b then -1 else 0

/-- collate_json.cc:22-25 `dcmp`. -/
def cmpDouble (a b : D) : Int := if b < a then 1 else if a < b then -1 else 0

/-- collate_json.cc:28-43 `ValueType`. -/
inductive ValueType
  | endArray | endObject | comma | colon | null | false | true | number | string | array | object | illegal
  deriving DecidableEq, Repr

/-- collate_json.cc:30-43: the number of an enumerator. -/
def ValueType.order : ValueType → Int
  | .endArray => 0 | .endObject => 1 | .comma => 2 | .colon => 3 | .null => 4 | .false => 5 | .true => 6
  | .number => 7 | .string => 8 | .array => 9 | .object => 10 | .illegal => 11

/-- collate_json.cc:46-53 `kRawOrderOfValueType`. -/
def ValueType.rawOrder : ValueType → Int
  | .endArray => -4 | .endObject => -3 | .comma => -2 | .colon => -1 | .null => 2 | .false => 1 | .true => 3
  | .number => 0 | .string => 6 | .array => 5 | .object => 4 | .illegal => 7

/-- collate_json.cc:56-76 `valueTypeOf`. -/
def valueTypeOf (c : UInt8) : ValueType :=
  if c = 110 then .null
  else if c = 102 then .false
  else if c = 116 then .true
  else if (48 ≤ c ∧ c ≤ 57) ∨ c = 45 then .number
  else if c = 34 then .string
  else if c = 93 then .endArray
  else if c = 125 then .endObject
  else if c = 44 then .comma
  else if c = 58 then .colon
  else if c = 91 then .array
  else if c = 123 then .object
  else .illegal

/-- collate_json.cc:79-87 `digitToInt`, in the C locale. -/
def digitToInt (c : UInt8) : Nat :=
  if 48 ≤ c ∧ c ≤ 57 then c.toNat - 48
  else if 97 ≤ c ∧ c ≤ 102 then c.toNat - 87
  else if 65 ≤ c ∧ c ≤ 70 then c.toNat - 55
  else 0

/-- collate_json.cc:90-111 `ConvertJSONEscape`; the argument begins after the backslash, the result holds what follows
the escape. -/
def convertEscape : Bytes → Except Stuck (UInt8 × Bytes)
  | [] => .error .outside
  | c :: rest =>
    if c = 117 then
      match rest with
      | d0 :: d1 :: d2 :: d3 :: rest =>
        .ok (UInt8.ofNat (digitToInt d0 * 4096 + digitToInt d1 * 256 + digitToInt d2 * 16 + digitToInt d3), rest)
      | _ => .error .outside
    else
      .ok (if c = 98 then 8 else if c = 110 then 10 else if c = 114 then 13 else if c = 116 then 9 else c, rest)

/-- A `char` as an `int`. -/
def charVal (signed : Bool) (c : UInt8) : Int := if signed ∧ 128 ≤ c.toNat then (c.toNat : Int) - 256 else c.toNat

/-- The result of the comparison of two tokens: they differ, or what follows them. -/
inductive Compared
  | differ (c : Int)
  | same (rest1 rest2 : Bytes)
  deriving DecidableEq, Repr

/-- collate_json.cc:119-136: the next character of a string: `none` for the closing quote. -/
def nextChar : Bytes → Except Stuck (Option UInt8 × Bytes)
  | [] => .error .outside
  | c :: rest =>
    if c = 34 then .ok (none, rest)
    else if c = 92 then
      match convertEscape rest with
      | .error x => .error x
      | .ok (c, rest) => .ok (some c, rest)
    else .ok (some c, rest)

/-- collate_json.cc:114-148 `compareStringsASCII`; the arguments begin after the opening quotes.  The code looks at
both characters before it converts the first escape; that is the same.  The first argument bounds the number of
rounds. -/
def compareAscii (signed : Bool) : Nat → Bytes → Bytes → Except Stuck Compared
  | 0, _, _ => .error .endless
  | fuel + 1, s1, s2 =>
    match s1, s2 with
    | c1 :: _, c2 :: _ =>
      if c1 = 34 ∧ c2 ≠ 34 then .ok (.differ (-1))
      else if c1 ≠ 34 ∧ c2 = 34 then .ok (.differ 1)
      else
        match nextChar s1, nextChar s2 with
        | .error x, _ => .error x
        | _, .error x => .error x
        | .ok (none, r1), .ok (_, r2) => .ok (.same r1 r2)
        | .ok (_, r1), .ok (none, r2) => .ok (.same r1 r2)
        | .ok (some d1, r1), .ok (some d2, r2) =>
          let s := cmpInt (charVal signed d1) (charVal signed d2)
          if s ≠ 0 then .ok (.differ s) else compareAscii signed fuel r1 r2
    | _, _ => .error .outside

/-- collate_json.cc:161-172: find the closing quote.  The number of bytes before it, the number of bytes that the
escapes are longer than what they stand for, and what follows the quote. -/
def scanString : Nat → Bytes → Nat → Nat → Except Stuck (Nat × Nat × Bytes)
  | 0, _, _, _ => .error .endless
  | _ + 1, [], _, _ => .error .outside
  | fuel + 1, c :: rest, len, escapes =>
    if c = 34 then .ok (len, escapes, rest)
    else if c = 92 then
      match rest with
      | [] => .error .outside
      | e :: rest =>
        if e = 117 then
          if rest.length < 4 then .error .outside
          else scanString fuel (rest.drop 4) (len + 6) (escapes + 5)
        else scanString fuel rest (len + 2) (escapes + 1)
    else scanString fuel rest (len + 1) escapes

/-- collate_json.cc:179-183: copy the characters of the string. -/
def decodeString : Nat → Bytes → Except Stuck Bytes
  | 0, _ => .error .endless
  | fuel + 1, s =>
    match nextChar s with
    | .error x => .error x
    | .ok (none, _) => .ok []
    | .ok (some c, rest) =>
      match decodeString fuel rest with
      | .error x => .error x
      | .ok l => .ok (c :: l)

/-- collate_json.cc:151-190 `createStringFromJSON`; the argument begins after the opening quote.  The string and what
follows it. -/
def createString (s : Bytes) : Except Stuck (Bytes × Bytes) :=
  match scanString (s.length + 1) s 0 0 with
  | .error x => .error x
  | .ok (len, escapes, rest) =>
    if escapes > 0 then
      match decodeString (s.length + 1) s with
      | .error x => .error x
      | .ok l => if l.length = len - escapes then .ok (l, rest) else .error .assertion
    else .ok (s.take len, rest)

/-- collate_json.cc:266-327 `compareUnicode`; 219-224, 319-325: the sign of ICU's result. -/
def compareUnicode (e : CollateEnv D) (a b : Bytes) : Int :=
  if a.length = 0 ∧ b.length = 0 then 0
  else if a.length = 0 then -1
  else if b.length = 0 then 1
  else if 256 < a.length ∨ 256 < b.length then (e.strcollIter a b).sign
  else (e.strcoll a b).sign

/-- collate_json.cc:330-346 `compareStringsUnicode`. -/
def compareStringsUnicode (e : CollateEnv D) (s1 s2 : Bytes) : Except Stuck Compared :=
  match createString s1, createString s2 with
  | .error x, _ => .error x
  | _, .error x => .error x
  | .ok (a, r1), .ok (b, r2) =>
    let c := compareUnicode e a b
    if c ≠ 0 then .ok (.differ c) else .ok (.same r1 r2)

/-- Advance both pointers; not beyond the end. -/
def skipBoth (n : Nat) (s1 s2 : Bytes) : Except Stuck Compared :=
  if s1.length < n ∨ s2.length < n then .error .outside else .ok (.same (s1.drop n) (s2.drop n))

/-- collate_json.cc:404-421, and 349-371 `readNumber`: inside of an array or object `strtod` is given a pointer into
the buffer, and finds the end of the number only at a byte that is not part of it. -/
def compareNumbers (e : CollateEnv D) (depth : Int) (s1 s2 : Bytes) : Except Stuck Compared :=
  let (x1, n1) := e.strtod s1
  let (x2, n2) := e.strtod s2
  if depth ≠ 0 ∧ (s1.length ≤ n1 ∨ s2.length ≤ n2) then .error .outside
  else
    let c := cmpDouble x1 x2
    if c ≠ 0 then .ok (.differ c) else .ok (.same (s1.drop n1) (s2.drop n2))

/-- collate_json.cc:394-451: the tokens have the same type. -/
def compareTokens (e : CollateEnv D) (mode : CollateMode) (depth : Int) (t : ValueType) (s1 s2 : Bytes) :
    Except Stuck Compared :=
  match t with
  | .null | .true => skipBoth 4 s1 s2
  | .false => skipBoth 5 s1 s2
  | .number => compareNumbers e depth s1 s2
  | .string =>
    if mode = .unicode then compareStringsUnicode e (s1.drop 1) (s2.drop 1)
    else compareAscii e.charSigned (s1.length + 1) (s1.drop 1) (s2.drop 1)
  | .array | .object | .endArray | .endObject | .comma | .colon => skipBoth 1 s1 s2
  | .illegal => .ok (.differ 0)

/-- collate_json.cc:432-443: the depth after a token. -/
def depthAfter (t : ValueType) (depth : Int) : Int :=
  match t with
  | .array | .object => depth + 1
  | .endArray | .endObject => depth - 1
  | _ => depth

/-- collate_json.cc:382-454: the loop.  The first argument bounds the number of rounds. -/
def collateLoop (e : CollateEnv D) (mode : CollateMode) : Nat → Int → Bytes → Bytes → Except Stuck Int
  | 0, _, _, _ => .error .endless
  | fuel + 1, depth, s1, s2 =>
    match s1, s2 with
    | c1 :: _, c2 :: _ =>
      let t1 := valueTypeOf c1
      let t2 := valueTypeOf c2
      if t1 ≠ t2 then
        .ok (if mode ≠ .raw then cmpInt t1.order t2.order else cmpInt t1.rawOrder t2.rawOrder)
      else
        match compareTokens e mode depth t1 s1 s2 with
        | .error x => .error x
        | .ok (.differ c) => .ok c
        | .ok (.same r1 r2) =>
          if 0 < depthAfter t1 depth then collateLoop e mode fuel (depthAfter t1 depth) r1 r2 else .ok 0
    | _, _ => .error .outside

/-- collate_json.cc:374-455 `CollateJSON`, in at most so many rounds. -/
def collateJson (e : CollateEnv D) (mode : CollateMode) (rounds : Nat) (buf1 buf2 : Bytes) : Except Stuck Int :=
  collateLoop e mode rounds 0 buf1 buf2

end Couchstore
