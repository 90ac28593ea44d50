import Verif.Model.Disk

/-! A concrete instance of the external libraries, used only to show that the hypotheses of
the property theorems can be met: "compression" adds a marker byte, "checksums" sum bytes with
weights, "encryption" adds the nonce to every byte and uses a 16-byte tag. -/

namespace Couchstore

/-- A toy checksum. -/
def toyCrc : Bytes → Nat
  | [] => 17
  | x :: xs => (x.toNat + 257 * toyCrc xs) % 2 ^ 32

/-- A toy instance of the external libraries. -/
def Env.toy : Env where
  deflate b := 7 :: b
  inflate
    | 7 :: b => some b
    | _ => none
  crc32c b := UInt32.ofNat (toyCrc b)
  crc32 b := UInt32.ofNat (toyCrc b + 1)
  encrypt k n b := (b.map (· + UInt8.ofNat (n + k)), List.replicate 16 (UInt8.ofNat n))
  decrypt k n c m :=
    if m = List.replicate 16 (UInt8.ofNat n) then some (c.map (· - UInt8.ofNat (n + k))) else none
  macSize := 16

theorem Env.toy_laws : Env.toy.Laws where
  inflate_deflate _ := rfl
  decrypt_encrypt k n b := by
    simp [Env.toy, Function.comp_def]
  cipher_length k n b := by simp [Env.toy]
  mac_length k n b := by simp [Env.toy]

/-- An empty file with default settings. -/
def File.empty : File :=
  { disk := [], pos := 0, cfg := ⟨.crc32c, none, 1279, 1279⟩, faults := [], log := [] }

/-- An empty encrypted file. -/
def File.emptyEnc : File := { File.empty with cfg := ⟨.crc32c, some 3, 1279, 1279⟩ }

end Couchstore
