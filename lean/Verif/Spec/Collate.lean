import Verif.Model.Collate
import Verif.Spec.Merge
import Mathlib.Order.Monotone.Defs
import Mathlib.Algebra.Order.Ring.Unbundled.Rat

/-! What C41 says about comparing keys: JSON values, their texts, and CouchDB's order of values. -/

namespace Couchstore

/-! ## Numbers -/

def isDigit (c : UInt8) : Bool := decide (48 ≤ c ∧ c ≤ 57)

/-- The number that digits, at least one, stand for. -/
def digitsValue (l : Bytes) : Option Nat :=
  if l ≠ [] ∧ l.all isDigit = true then some (l.foldl (fun n c => n * 10 + (c.toNat - 48)) 0) else none

/-- The fraction of a number: nothing, or a point and digits. -/
def fractionValue : Bytes → Option Rat
  | [] => some 0
  | _ :: d => (digitsValue d).map fun (n : Nat) => (n : Rat) / (10 : Rat) ^ d.length

/-- The exponent of a number: nothing, or a letter, a sign or none, and digits. -/
def exponentValue : Bytes → Option Int
  | [] => some 0
  | _ :: 43 :: d => (digitsValue d).map fun (n : Nat) => (n : Int)
  | _ :: 45 :: d => (digitsValue d).map fun (n : Nat) => -(n : Int)
  | _ :: d => (digitsValue d).map fun (n : Nat) => (n : Int)

/-- A number without its sign: digits, without superfluous zeros at the beginning, a fraction, an exponent. -/
def unsignedValue (t : Bytes) : Option Rat :=
  let m := t.takeWhile fun c => decide (c ≠ 101 ∧ c ≠ 69)
  let i := m.takeWhile fun c => decide (c ≠ 46)
  if i.length = 1 ∨ i.head? ≠ some 48 then
    match digitsValue i, fractionValue (m.drop i.length), exponentValue (t.drop m.length) with
    | some n, some f, some x => some (((n : Rat) + f) * (10 : Rat) ^ x)
    | _, _, _ => none
  else none

/-- The exact value of a text, if it is a number of JSON (RFC 8259, 6). -/
def decimalValue (t : Bytes) : Option Rat :=
  match t with
  | 45 :: t => (unsignedValue t).map fun (x : Rat) => -x
  | _ => unsignedValue t

/-! ## Strings -/

/-- What may follow a backslash, except `u`. -/
inductive Escape | quote | backslash | slash | b | f | n | r | t
  deriving DecidableEq, Repr

def Escape.char : Escape → UInt8
  | .quote => 34 | .backslash => 92 | .slash => 47 | .b => 98 | .f => 102 | .n => 110 | .r => 114 | .t => 116

/-- The character that an escape stands for. -/
def Escape.meaning : Escape → UInt8
  | .quote => 34 | .backslash => 92 | .slash => 47 | .b => 8 | .f => 12 | .n => 10 | .r => 13 | .t => 9

/-- A digit of a hexadecimal number: its value and whether it is a capital letter. -/
structure Hex where
  value : Fin 16
  capital : Bool
  deriving DecidableEq, Repr

def Hex.char (h : Hex) : UInt8 :=
  if h.value.val < 10 then UInt8.ofNat (48 + h.value.val)
  else if h.capital then UInt8.ofNat (55 + h.value.val)
  else UInt8.ofNat (87 + h.value.val)

/-- A byte of a string, an escape, or the number of a character. -/
inductive StrItem
  | plain (c : UInt8) (h : c ≠ 34 ∧ c ≠ 92)
  | esc (e : Escape)
  | uni (a b c d : Hex)
  deriving DecidableEq

def StrItem.text : StrItem → Bytes
  | .plain c _ => [c]
  | .esc e => [92, e.char]
  | .uni a b c d => [92, 117, a.char, b.char, c.char, d.char]

/-- The number of the character of a `\u` escape. -/
def codePoint (a b c d : Hex) : Nat := a.value.val * 4096 + b.value.val * 256 + c.value.val * 16 + d.value.val

/-- The bytes that a part of a string stands for, in UTF-8; here characters above 127 written as `\u` escapes have no
meaning. -/
def StrItem.meaning : StrItem → Option UInt8
  | .plain c _ => some c
  | .esc e => some e.meaning
  | .uni a b c d => if codePoint a b c d < 128 then some (UInt8.ofNat (codePoint a b c d)) else none

/-- The text of a string. -/
def strText (s : List StrItem) : Bytes := (s.map StrItem.text).flatten

/-- The bytes of a string. -/
def strMeaning (s : List StrItem) : Bytes := s.filterMap StrItem.meaning

/-! ## Values -/

mutual
/-- A JSON value. -/
inductive Json
  | null | false | true
  | number (text : Bytes) (value : Rat) (h : decimalValue text = some value)
  | string (s : List StrItem)
  | array (e : Elements)
  | object (m : Members)
/-- The elements of an array. -/
inductive Elements
  | nil
  | cons (v : Json) (rest : Elements)
/-- The members of an object, in the order in which they are written. -/
inductive Members
  | nil
  | cons (k : List StrItem) (v : Json) (rest : Members)
end

mutual
/-- The text of a value, without whitespace. -/
def Json.text : Json → Bytes
  | .null => [110, 117, 108, 108]
  | .false => [102, 97, 108, 115, 101]
  | .true => [116, 114, 117, 101]
  | .number t _ _ => t
  | .string s => 34 :: (strText s ++ [34])
  | .array e => 91 :: e.text Bool.true
  | .object m => 123 :: m.text Bool.true
/-- The text of the elements and the closing bracket; a comma comes before each but the first. -/
def Elements.text (first : Bool) : Elements → Bytes
  | .nil => [93]
  | .cons v rest => (if first then [] else [44]) ++ (v.text ++ rest.text Bool.false)
/-- The text of the members and the closing brace. -/
def Members.text (first : Bool) : Members → Bytes
  | .nil => [125]
  | .cons k v rest => (if first then [] else [44]) ++ (34 :: (strText k ++ (34 :: 58 :: (v.text ++ rest.text Bool.false))))
end

/-- Where the types of values stand in the order: for CouchDB null, false, true, numbers, strings, arrays, objects; for its
raw order numbers, false, null, true, objects, arrays, strings. -/
def Json.rank (mode : CollateMode) : Json → Int
  | .null => if mode = .raw then 2 else 4
  | .false => if mode = .raw then 1 else 5
  | .true => if mode = .raw then 3 else 6
  | .number _ _ _ => if mode = .raw then 0 else 7
  | .string _ => if mode = .raw then 6 else 8
  | .array _ => if mode = .raw then 5 else 9
  | .object _ => if mode = .raw then 4 else 10

mutual
/-- The order of values: by type; then numbers by `num`, strings by `str`, arrays element by element, objects member by
member, first by the name.  Negative, zero or positive. -/
def orderJson (mode : CollateMode) (num : Rat → Rat → Int) (str : List StrItem → List StrItem → Int) : Json → Json → Int
  | .number _ x _, .number _ y _ => num x y
  | .string s, .string t => str s t
  | .array e, .array f => orderElements mode num str e f
  | .object m, .object n => orderMembers mode num str m n
  | v, w => cmpInt (v.rank mode) (w.rank mode)
/-- An array that is the beginning of another one comes first. -/
def orderElements (mode : CollateMode) (num : Rat → Rat → Int) (str : List StrItem → List StrItem → Int) : Elements → Elements → Int
  | .nil, .nil => 0
  | .nil, .cons _ _ => -1
  | .cons _ _, .nil => 1
  | .cons v e, .cons w f =>
    let c := orderJson mode num str v w
    if c ≠ 0 then c else orderElements mode num str e f
/-- An object that is the beginning of another one comes first. -/
def orderMembers (mode : CollateMode) (num : Rat → Rat → Int) (str : List StrItem → List StrItem → Int) : Members → Members → Int
  | .nil, .nil => 0
  | .nil, .cons _ _ _ => -1
  | .cons _ _ _, .nil => 1
  | .cons k v e, .cons l w f =>
    let c := str k l
    if c ≠ 0 then c
    else
      let c := orderJson mode num str v w
      if c ≠ 0 then c else orderMembers mode num str e f
end

/-- The order of byte strings: by the first bytes that differ; the beginning of a string comes before it. -/
def orderBytes (val : UInt8 → Int) : Bytes → Bytes → Int
  | [], [] => 0
  | [], _ :: _ => -1
  | _ :: _, [] => 1
  | a :: s, b :: t =>
    let c := cmpInt (val a) (val b)
    if c ≠ 0 then c else orderBytes val s t

/-- What follows a number in a text: nothing, a comma, or the end of an array or object. -/
def EndsNumber (rest : Bytes) : Prop := rest = [] ∨ ∃ c r, rest = c :: r ∧ (c = 44 ∨ c = 93 ∨ c = 125)

variable {D : Type} [LinearOrder D]

/-- What is assumed of the system.  `strtod` gives the nearest number it can represent: `round` of the exact one, and
`round` does not change the order.  Both functions of ICU compute the same order. -/
structure CollateEnv.Ok (e : CollateEnv D) (round : Rat → D) (ucol : Bytes → Bytes → Int) : Prop where
  mono : Monotone round
  strtod : ∀ t x, decimalValue t = some x → ∀ rest, EndsNumber rest → e.strtod (t ++ rest) = (round x, t.length)
  ucol_ok : CmpOk ucol
  strcoll : ∀ a b, e.strcoll a b = ucol a b
  strcollIter : ∀ a b, e.strcollIter a b = ucol a b

/-- The order of numbers. -/
def orderNumbers (round : Rat → D) (x y : Rat) : Int := cmpDouble (round x) (round y)

/-- The order of strings: by ICU, or by their bytes. -/
def orderStrings (mode : CollateMode) (ucol : Bytes → Bytes → Int) (s t : List StrItem) : Int :=
  if mode = .unicode then
    match strMeaning s, strMeaning t with
    | [], [] => 0
    | [], _ => -1
    | _, [] => 1
    | a, b => (ucol a b).sign
  else orderBytes (fun c => (c.toNat : Int)) (strMeaning s) (strMeaning t)

/-- CouchDB's order of values. -/
def couchOrder (round : Rat → D) (ucol : Bytes → Bytes → Int) (mode : CollateMode) : Json → Json → Int :=
  orderJson mode (orderNumbers round) (orderStrings mode ucol)

mutual
/-- All strings of a value, also the names of members. -/
def Json.Strings (P : List StrItem → Prop) : Json → Prop
  | .string s => P s
  | .array e => e.Strings P
  | .object m => m.Strings P
  | _ => True
def Elements.Strings (P : List StrItem → Prop) : Elements → Prop
  | .nil => True
  | .cons v e => v.Strings P ∧ e.Strings P
def Members.Strings (P : List StrItem → Prop) : Members → Prop
  | .nil => True
  | .cons k v e => P k ∧ v.Strings P ∧ e.Strings P
end

/-- The strings for which the code gives the order: no `\f`, no character above 127 as a `\u` escape, and no bytes above
127 where the code compares bytes and `char` is signed. -/
def Supported (signed : Bool) (mode : CollateMode) (s : List StrItem) : Prop :=
  ∀ i ∈ s, i ≠ .esc .f ∧ ∃ c, i.meaning = some c ∧ (mode = .unicode ∨ signed = false ∨ c.toNat < 128)

end Couchstore
