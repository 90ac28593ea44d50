import Verif.Lemmas.ToolKeys

/-! C86: which key the programs give to a file. -/

namespace Couchstore.Props
open Couchstore

/-- Whatever the program has asked for before, a file that is encrypted is opened with the key of its name, if `dump-keys` has it. -/
theorem C86_named_key (dump : Bytes → Option Kdk) (hd : DumpOk dump) (before : List Bytes) (id : Bytes) (hid : id ≠ []) :
    (toolLookup dump id (toolStore dump {} before)).1 = dump id :=
  lookup_named (store_ok hd before store_empty) hid

/-- A file that is created is encrypted with the key of the file that was opened last before it, if that key had not been used
before; whatever else the program does in between with that file, with files that are not encrypted or with keys that do not exist.
Missing is a key that had been used before, of which it is false: `C86_older_key`. -/
theorem C86_new_file_partial (dump : Bytes → Option Kdk) (hd : DumpOk dump) (before after : List Bytes) (id : Bytes) (k : Kdk)
    (hid : id ≠ []) (hn : id ∉ before) (hk : dump id = some k) (ha : ∀ x ∈ after, x = [] ∨ x = id ∨ dump x = none) :
    (toolLookup dump [] (toolStore dump {} (before ++ id :: after))).1 = some k := by
  have hs := store_ok hd before (store_empty (dump := dump))
  rw [toolStore_append]
  unfold toolStore
  rw [lookup_new hs hid (by simpa using hn) hk, store_same]
  · rfl
  · intro x hx
    rcases ha x hx with h | h | h
    · exact Or.inl h
    · exact Or.inr (Or.inr ⟨k, List.mem_cons_self, by rw [h]; exact hd _ _ hk⟩)
    · exact Or.inr (Or.inl h)

/-- A program that has opened two files with different keys and then the first one again encrypts a new file with the key of the second,
not with that of the file opened last. -/
theorem C86_older_key (dump : Bytes → Option Kdk) (hd : DumpOk dump) (a b : Bytes) (ka kb : Kdk) (ha : a ≠ []) (hb : b ≠ []) (hab : a ≠ b)
    (hka : dump a = some ka) (hkb : dump b = some kb) :
    (toolLookup dump [] (toolStore dump {} [a, b, a])).1 = some kb ∧ ka ≠ kb := by
  refine ⟨?_, fun h => hab ?_⟩
  · have h1 := lookup_new store_empty ha (by simp) hka
    have hs := lookup_store hd (store_empty (dump := dump)) a
    have h2 := lookup_new hs hb (by simpa using hab.symm) hkb
    unfold toolStore toolStore
    rw [h2]
    rw [h1]
    rw [store_same]
    · rfl
    · intro x hx
      rw [List.mem_singleton.mp hx]
      exact Or.inr (Or.inr ⟨ka, by simp, hd _ _ hka⟩)
  · rw [← hd _ _ hka, ← hd _ _ hkb, h]

/-- A file that is created before any encrypted file was opened is not encrypted. -/
theorem C86_no_key (dump : Bytes → Option Kdk) (before : List Bytes) (h : ∀ x ∈ before, x = [] ∨ dump x = none) :
    (toolLookup dump [] (toolStore dump {} before)).1 = none := by
  rw [store_same fun x hx => (h x hx).imp id Or.inl]
  rfl

/-- For a program with one encrypted source, such as the one that compacts a file: after the source was opened, all the answers are those of
one function, which hands out the same keys for the whole run, as the theorems about files ask for; and the new file has the key of the
source. -/
theorem C86_one_source (dump : Bytes → Option Kdk) (hd : DumpOk dump) (src : Bytes) (k : Kdk) (hsrc : src ≠ []) (hk : dump src = some k) :
    ∃ g : Bytes → Option Kdk, KeysOk (some g) false ∧ g [] = some k ∧ g src = some k ∧
      ∀ ids, (∀ x ∈ ids, x = [] ∨ x = src) → toolAnswers dump {} (src :: ids) = (src :: ids).map g := by
  have h1 := lookup_new store_empty hsrc (by simp) hk
  have hkid := hd _ _ hk
  refine ⟨fun x => if x = [] then some k else dump x, ⟨?_, fun h => nomatch h⟩, rfl, by simp [hsrc, hk], ?_⟩
  · intro f hf k' hk'
    cases hf
    cases hk'
    dsimp only
    rw [hkid, if_neg hsrc, hk]
  · intro ids hids
    unfold toolAnswers
    rw [h1]
    dsimp only
    rw [answers_same, List.map_cons, if_neg hsrc, hk]
    · congr 1
      refine List.map_congr_left fun x hx => ?_
      rcases hids x hx with rfl | rfl
      · rfl
      · unfold toolLookup
        rw [if_neg hsrc, if_neg hsrc, hk]
        simp [hkid]
    · intro x hx
      rcases hids x hx with h | h
      · exact Or.inl h
      · exact Or.inr (Or.inr ⟨k, by simp, by rw [h]; exact hkid⟩)

/-- Two keys. -/
private def sampleKey (n : UInt8) : Kdk := { id := [n], method := .other, unwrap := fun _ => none, derive := fun _ => some n.toNat }

private def sampleDump2 (id : Bytes) : Option Kdk := if id = [1] then some (sampleKey 1) else if id = [2] then some (sampleKey 2) else none

private theorem sampleDump2_ok : DumpOk sampleDump2 := by
  intro id k h
  unfold sampleDump2 at h
  split at h
  · rename_i hid; cases h; exact hid.symm
  split at h
  · rename_i hid; cases h; exact hid.symm
  · cases h

example : (toolLookup sampleDump2 [2] (toolStore sampleDump2 {} [[1], [], [2], [3]])).1 = some (sampleKey 2) :=
  C86_named_key _ sampleDump2_ok _ _ (by simp)

example : (toolLookup sampleDump2 [] (toolStore sampleDump2 {} ([[1], []] ++ [2] :: [[], [3], [2]]))).1 = some (sampleKey 2) :=
  C86_new_file_partial _ sampleDump2_ok _ _ _ _ (by simp) (by simp) rfl (by simp [sampleDump2])

example : (toolLookup sampleDump2 [] (toolStore sampleDump2 {} [[1], [2], [1]])).1 = some (sampleKey 2) :=
  (C86_older_key _ sampleDump2_ok [1] [2] (sampleKey 1) _ (by simp) (by simp) (by simp) rfl rfl).1

example : (toolLookup sampleDump2 [] (toolStore sampleDump2 {} [[], [3]])).1 = none := C86_no_key _ _ (by simp [sampleDump2])

example := C86_one_source sampleDump2 sampleDump2_ok [1] (sampleKey 1) (by simp) rfl

end Couchstore.Props
