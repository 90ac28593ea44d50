/-
Model of /repo/src/bitfield.cc and /repo/src/bitfield.h: big-endian fixed width integers,
and of the byte order used by memcmp.
-/

namespace Couchstore

/-- A C `sized_buf` / `char*` + length: a finite sequence of bytes. -/
abbrev Bytes := List UInt8

/-- bitfield.cc:75-115 `ENCODE_RAW`, `ENCODE_RAW_POINTER`: flip the native integer to
network order and keep its last `w` bytes.  All widths (8,16,24,32,40,48,64) are this one
function; keeping the last `w` bytes truncates the number modulo `256^w`, which is what
`UInt8.ofNat` (reduction modulo 256) does for the top byte. -/
def beEnc : Nat → Nat → Bytes
  | 0, _ => []
  | w + 1, n => UInt8.ofNat (n / 256 ^ w) :: beEnc w n

/-- bitfield.cc:26-68 `DECODE_RAW`, `DECODE_RAW_POINTER`: copy the bytes to the low end of a
zeroed integer and flip it to host order. -/
def beDec (b : Bytes) : Nat := b.foldl (fun a x => a * 256 + x.toNat) 0

/-- bitfield.cc:81 `couchstore_encode_raw08`. -/
abbrev enc8 (n : Nat) : Bytes := beEnc 1 n
/-- bitfield.cc:86 `couchstore_encode_raw16`. -/
abbrev enc16 (n : Nat) : Bytes := beEnc 2 n
/-- bitfield.cc:91 `couchstore_encode_raw24`. -/
abbrev enc24 (n : Nat) : Bytes := beEnc 3 n
/-- bitfield.cc:96 `couchstore_encode_raw32`, and `htonl` + `memcpy`. -/
abbrev enc32 (n : Nat) : Bytes := beEnc 4 n
/-- bitfield.cc:101 `couchstore_encode_raw40`. -/
abbrev enc40 (n : Nat) : Bytes := beEnc 5 n
/-- bitfield.cc:106 `couchstore_encode_raw48`. -/
abbrev enc48 (n : Nat) : Bytes := beEnc 6 n
/-- bitfield.cc:111 `couchstore_encode_raw64`. -/
abbrev enc64 (n : Nat) : Bytes := beEnc 8 n

/-- C `memcmp(a, b, n)`: sign of the first difference among the first `n` bytes.
Reading past either buffer is undefined behaviour in C; callers (`ebin_cmp`) pass the
minimum of the two lengths, for which the catch-all branch is unreachable except at 0. -/
def memcmp : Nat → Bytes → Bytes → Ordering
  | n + 1, x :: xs, y :: ys =>
    if x < y then .lt else if y < x then .gt else memcmp n xs ys
  | _, _, _ => .eq

/-- util.cc:17-35 `ebin_cmp`. -/
def ebinCmp (e1 e2 : Bytes) : Ordering :=
  let size := if e2.length < e1.length then e2.length else e1.length
  match memcmp size e1 e2 with
  | .eq =>
    if size < e2.length then .lt
    else if size < e1.length then .gt
    else .eq
  | o => o

/-- node_types.cc:119-123 `decode_sequence_key`: reads the first 6 bytes of the key.
The code does not check the length; a shorter key is an out of bounds read in C++, here
the missing bytes are simply absent.  Every theorem about sequence keys assumes the keys
have exactly 6 bytes, which is what every writer of the by-sequence index produces. -/
def decodeSequenceKey (k : Bytes) : Nat := beDec (k.take 6)

/-- util.cc:37-45 `seq_cmp`. -/
def seqCmp (k1 k2 : Bytes) : Ordering :=
  let e1 := decodeSequenceKey k1
  let e2 := decodeSequenceKey k2
  if e1 = e2 then .eq else if e1 < e2 then .lt else .gt

end Couchstore
