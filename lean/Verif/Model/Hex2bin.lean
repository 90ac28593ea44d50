import Verif.Model.Bytes

/-! The program that turns the output of `hexdump` back into bytes: programs/hex2bin/hex2bin.cc.

Simplifications: the input is its lines; that writing fails is not modelled, nor is the text that is printed if the
program is given arguments.  A line ends with a zero byte, which is
neither a digit nor a space; so does the list. -/

namespace Couchstore

/-- hex2bin.cc:15-24: the value of a digit. -/
def hexVal (c : UInt8) : Option Nat :=
  if 48 ≤ c.toNat ∧ c.toNat ≤ 57 then some (c.toNat - 48)
  else if 97 ≤ c.toNat ∧ c.toNat ≤ 102 then some (c.toNat - 97 + 10)
  else if 65 ≤ c.toNat ∧ c.toNat ≤ 70 then some (c.toNat - 65 + 10)
  else none

/-- hex2bin.cc:11-28 `unhex`: the value, of 64 bits, and what follows the digits. -/
def unhex : Nat → Bytes → Nat × Bytes
  | v, [] => (v, [])
  | v, c :: r =>
    match hexVal c with
    | some d => unhex ((v * 16 + d) % 2 ^ 64) r
    | none => (v, c :: r)

/-- hex2bin.cc:80-86: the bytes of a value, the lowest first. -/
def valueBytes : Nat → Nat → Bytes
  | 0, _ => []
  | n + 1, v => UInt8.ofNat v :: valueBytes n (v / 256)

/-- hex2bin.cc:70-87: the values of a line; each takes at least one character, so `n` is at most their number. -/
def lineBytes : Nat → Bytes → Bytes
  | 0, _ => []
  | n + 1, s =>
    let s := s.dropWhile (· == 32)
    let r := unhex 0 s
    let used := s.length - r.2.length
    if used = 0 then [] else valueBytes (used / 2) r.1 ++ lineBytes n r.2

/-- hex2bin.cc:37-39: the variables of `main`, and what has been written. -/
structure HexState where
  out : Bytes
  chunk : Bytes
  pos : Nat
  again : Bool
deriving DecidableEq, Repr

/-- hex2bin.cc:54-60: the chunk, until the offset is reached; at most `n` times. -/
def fillChunk (chunk : Bytes) (offset : Nat) : Nat → Bytes × Nat → Bytes × Nat
  | 0, s => s
  | n + 1, (out, pos) => if pos < offset then fillChunk chunk offset n (out ++ chunk, pos + chunk.length) else (out, pos)

/-- hex2bin.cc:41-94, one line; `none` is the end of the loop. -/
def hexLine (st : HexState) (line : Bytes) : Option HexState :=
  match line with
  | [] => none
  | c :: _ =>
    if c = 42 then some { st with again := true }
    else
      let r := unhex 0 line
      if r.2.length = line.length then none
      else
        let filled :=
          if st.again ∧ st.chunk ≠ [] then fillChunk st.chunk r.1 (r.1 - st.pos) (st.out, st.pos)
          else (st.out ++ List.replicate (r.1 - st.pos) 63, max st.pos r.1)
        let chunk := lineBytes r.2.length r.2
        some { out := filled.1 ++ chunk, chunk := chunk, pos := filled.2 + chunk.length, again := false }

/-- hex2bin.cc:40-95, the loop. -/
def hexLines (st : HexState) : List Bytes → Bytes
  | [] => st.out
  | l :: ls =>
    match hexLine st l with
    | none => st.out
    | some st => hexLines st ls

/-- hex2bin.cc:30-100 `main`. -/
def hex2bin (lines : List Bytes) : Bytes := hexLines ⟨[], [], 0, false⟩ lines

end Couchstore
