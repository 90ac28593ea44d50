import Verif.Lemmas.Hex2bin

/-! C84: the program that reads a dump gives the bytes that were dumped. -/

namespace Couchstore.Props
open Couchstore

/-- The bytes of a text of ASCII characters. -/
private def ascii (s : String) : Bytes := s.toList.map fun c => UInt8.ofNat c.toNat

/-- Whatever the dump: units of one to eight bytes, any number of spaces, stars for lines like the one before, parts that are missing.
The program writes the bytes that the dump shows, each at its offset, and question marks where there is none. -/
theorem C84_dump (bytes : Bytes) (lines : List Bytes) (h : Dump 0 [] false bytes lines) : hex2bin lines = bytes := by
  have := hexLines_dump h [] (by simp)
  simpa [hex2bin] using this

/-- For every file of less than 4 GiB: from what `hexdump -C -v` prints of it the program makes the same bytes. -/
theorem C84_hexdump_canonical (bytes : Bytes) (h : bytes.length < 2 ^ 32) : hex2bin (canonicalLines 0 bytes) = bytes :=
  C84_dump bytes _ (canonical_dump 0 [] bytes (by omega))

/-- The same for `hexdump -C`, which prints a star for rows that are like the one before. -/
theorem C84_hexdump_squeezed (bytes : Bytes) (h : bytes.length < 2 ^ 32) : hex2bin (squeezedLines 0 [] false bytes) = bytes :=
  C84_dump bytes _ ((squeezed_dump 0 [] false bytes (by omega)).1 rfl)

example : squeezedLines 0 [] false (List.replicate 70 97) =
    [ascii "00000000  61 61 61 61 61 61 61 61  61 61 61 61 61 61 61 61  |aaaaaaaaaaaaaaaa|",
     ascii "*",
     ascii "00000040  61 61 61 61 61 61                                 |aaaaaa|",
     ascii "00000046"] := by decide +kernel

/-- The lines are those that `hexdump -C` prints. -/
example : canonicalLines 0 (ascii "couchstore keeps a log") =
    [ascii "00000000  63 6f 75 63 68 73 74 6f  72 65 20 6b 65 65 70 73  |couchstore keeps|",
     ascii "00000010  20 61 20 6c 6f 67                                 | a log|",
     ascii "00000016"] := by decide +kernel

/-- A dump in units of two bytes with a star and a part that is missing. -/
def sampleDump : List Bytes :=
  [ascii "0000000 6261 0a63", ascii "*", ascii "000000c", ascii "000000E 007A", ascii "0000010"]

/-- It is a dump of these bytes. -/
theorem sampleDump_dump : Dump 0 [] false
    [97, 98, 99, 10, 97, 98, 99, 10, 97, 98, 99, 10, 63, 63, 122, 0] sampleDump := by
  have hd : ∀ c d, (d < 10 ∧ c.toNat = 48 + d) ∨ (10 ≤ d ∧ d < 16 ∧ (c.toNat = 97 + (d - 10) ∨ c.toNat = 65 + (d - 10))) →
    IsHexDigit c d := fun _ _ h => h
  have hn : ∀ n, UnitsText [] (List.replicate n 32 ++ []) := fun n => .done n [] (Or.inl rfl)
  have off : ∀ a b x y, IsHexDigit a x → IsHexDigit b y →
      HexText [48, 48, 48, 48, 48, a, b] [0, 0, 0, 0, 0, x, y] := by
    intro a b x y hx hy
    have h0 : IsHexDigit 48 0 := hd _ _ (by decide)
    exact .cons h0 (.cons h0 (.cons h0 (.cons h0 (.cons h0 (.cons hx (.cons hy .nil))))))
  refine Dump.row 0 0 [] _ [48, 48, 48, 48, 48, 48, 48] _ [0, 0, 0, 0, 0, 0, 0] [[97, 98], [99, 10]] _ (by simp)
    (off 48 48 _ _ (hd _ _ (by decide)) (hd _ _ (by decide))) (by decide) (by decide)
    (.unit 0 [97, 98] [54, 50, 54, 49] _ _ (by simp) (by simp)
      (.cons (hd _ _ (by decide)) (.cons (hd _ _ (by decide)) (.cons (hd _ _ (by decide)) (.cons (hd _ _ (by decide)) .nil))))
      (.unit 0 [99, 10] [48, 97, 54, 51] _ _ (by simp) (by simp)
        (.cons (hd _ _ (by decide)) (.cons (hd _ _ (by decide)) (.cons (hd _ _ (by decide)) (.cons (hd _ _ (by decide)) .nil))))
        (hn 0))) ?_
  refine Dump.star _ _ _ [] _ _ (by simp) ?_
  refine Dump.copies _ 2 _ _ [48, 48, 48, 48, 48, 48, 99] _ [0, 0, 0, 0, 0, 0, 12] [] _ (by simp)
    (off 48 99 _ _ (hd _ _ (by decide)) (hd _ _ (by decide))) (by decide) (by decide) (hn 0) ?_
  refine Dump.row _ 2 _ _ [48, 48, 48, 48, 48, 48, 69] _ [0, 0, 0, 0, 0, 0, 14] [[122, 0]] _ (by simp)
    (off 48 69 _ _ (hd _ _ (by decide)) (hd _ _ (by decide))) (by decide) (by decide)
    (.unit 0 [122, 0] [48, 48, 55, 65] _ _ (by simp) (by simp)
      (.cons (hd _ _ (by decide)) (.cons (hd _ _ (by decide)) (.cons (hd _ _ (by decide)) (.cons (hd _ _ (by decide)) .nil))))
      (hn 0)) ?_
  exact Dump.row _ 0 _ [] [48, 48, 48, 48, 48, 49, 48] _ [0, 0, 0, 0, 0, 1, 0] [] _ (by simp)
    (off 49 48 _ _ (hd _ _ (by decide)) (hd _ _ (by decide))) (by decide) (by decide) (hn 0) (Dump.nil _ _)

example : hex2bin sampleDump = [97, 98, 99, 10, 97, 98, 99, 10, 97, 98, 99, 10, 63, 63, 122, 0] := C84_dump _ _ sampleDump_dump

/-- What `hexdump` prints of a file of one byte when it has no options: a word of two bytes, and the length. -/
def wordDump (b : UInt8) : List Bytes := [List.replicate 7 48 ++ (32 :: (hex2 0 ++ hex2 b)), List.replicate 6 48 ++ [49]]

/-- That is not enough to know the length: from the dump in words of a file of one byte the program makes two bytes. -/
theorem C84_padded_word (b : UInt8) : hex2bin (wordDump b) = [b, 0] := by
  have h0 : ∀ n, HexText (List.replicate n 48) (List.replicate n 0) := by
    intro n
    induction n with
    | zero => exact .nil
    | succ n ih => exact .cons (Or.inl (by decide)) ih
  have h1 : HexText (List.replicate 6 48 ++ [49]) (List.replicate 6 0 ++ [1]) :=
    List.rel_append (h0 6) (.cons (Or.inl (by decide)) .nil)
  have hu : UnitsText [[b, 0]] (List.replicate 1 32 ++ ((hex2 0 ++ hex2 b) ++ [])) :=
    .unit 0 [b, 0] (hex2 0 ++ hex2 b) [] [] (by simp) (by simp) (by simpa using hex2s_text [0, b]) (.done 0 [] (Or.inl rfl))
  have e1 := hexLine_row (st := ⟨[], [], 0, false⟩) (by simp) (h0 7) (by decide) hu
  have e2 := hexLine_row (st := ⟨[b, 0], [b, 0], 2, false⟩) (by simp) h1 (by decide) (.done 0 [] (Or.inl rfl))
  have l1 : List.replicate 7 48 ++ (32 :: (hex2 0 ++ hex2 b)) = List.replicate 7 48 ++ (List.replicate 1 32 ++ ((hex2 0 ++ hex2 b) ++ [])) := by
    simp
  have l2 : List.replicate 6 48 ++ [49] = (List.replicate 6 48 ++ [49]) ++ (List.replicate 0 32 ++ ([] : Bytes)) := by simp
  unfold hex2bin wordDump
  rw [hexLines, l1, e1]
  have v1 : hexDigitsValue (List.replicate 7 0) = 0 := by decide
  have v2 : hexDigitsValue (List.replicate 6 0 ++ [1]) = 1 := by decide
  simp only [v1, Bool.false_eq_true, false_and, if_false]
  change hexLines ⟨[b, 0], [b, 0], 2, false⟩ [_] = _
  rw [hexLines, l2, e2]
  simp only [v2, Bool.false_eq_true, false_and, if_false]
  rfl

end Couchstore.Props
