import Verif.Lemmas.CollateOrder
import Mathlib.Algebra.Order.Ring.Unbundled.Rat

/-! C41: keys of views are compared in CouchDB's order. -/

namespace Couchstore.Props

open Couchstore

variable {D : Type} [LinearOrder D]

/-- C41: on texts of JSON values without whitespace the comparison always ends, in at most as many rounds as the first
text has bytes, and never reads outside of the texts; its results are a total preorder of the values, for every mode. -/
theorem C41_total_preorder (e : CollateEnv D) (round : Rat → D) (ucol : Bytes → Bytes → Int) (H : e.Ok round ucol) (mode : CollateMode) :
    ∃ cmp : Json → Json → Int, CmpOk cmp ∧
      ∀ v w rounds, v.text.length < rounds → collateJson e mode rounds v.text w.text = .ok (cmp v w) :=
  ⟨_, orderJson_ok (orderNumbers_ok round) (codeStrings_ok H mode), fun v w rounds h => collate_spec H v w rounds h⟩

/-- C41: the order is CouchDB's.  Partial: strings may not have `\f`, `\u` escapes above 127, and, where the code compares
bytes as signed characters, no bytes above 127 (`C41_form_feed`, `C41_unicode_escape`, `C41_signed_bytes`). -/
theorem C41_order_partial (e : CollateEnv D) (round : Rat → D) (ucol : Bytes → Bytes → Int) (H : e.Ok round ucol) (mode : CollateMode)
    (v w : Json) (hv : v.Strings (Supported e.charSigned mode)) (hw : w.Strings (Supported e.charSigned mode))
    (rounds : Nat) (h : v.text.length < rounds) :
    collateJson e mode rounds v.text w.text = .ok (couchOrder round ucol mode v w) := by
  rw [collate_spec H v w rounds h]
  congr 1
  exact json_congr (P := Supported e.charSigned mode) (fun s t hs ht => codeStrings_meaning H hs ht) v w hv hw

/-- C41: numbers are compared by their value: never the wrong way round, and equal numbers are equal however they are
written.  Different numbers may be equal to the comparison if the machine cannot tell them apart. -/
theorem C41_numbers (e : CollateEnv D) (round : Rat → D) (ucol : Bytes → Bytes → Int) (H : e.Ok round ucol) (mode : CollateMode)
    (s t : Bytes) (x y : Rat) (hs : decimalValue s = some x) (ht : decimalValue t = some y) (rounds : Nat) (h : s.length < rounds) :
    ∃ c, collateJson e mode rounds s t = .ok c ∧ (c < 0 → x < y) ∧ (x = y → c = 0) ∧ (0 < c → y < x) := by
  have hc := collate_spec (mode := mode) H (.number s x hs) (.number t y ht) rounds (by rw [Json.text]; exact h)
  rw [Json.text, Json.text, orderJson] at hc
  refine ⟨_, hc, ?_, ?_, ?_⟩
  · intro h
    by_contra hle
    have := H.mono (not_lt.mp hle)
    unfold orderNumbers cmpDouble at h
    split at h
    · exact absurd h (by decide)
    · split at h
      · rename_i h2
        exact absurd h2 (not_lt_of_ge this)
      · exact absurd h (by decide)
  · rintro rfl
    have := (orderNumbers_ok round).flip x x
    omega
  · intro h
    by_contra hle
    have := H.mono (not_lt.mp hle)
    unfold orderNumbers cmpDouble at h
    split at h
    · rename_i h2
      exact absurd h2 (not_lt_of_ge this)
    · split at h <;> exact absurd h (by decide)

/-! ## The hypotheses are met -/

/-- A `strtod` that stops at the end of an element and gives the exact number; ICU's order is the order of bytes. -/
def exactEnv (signed : Bool) : CollateEnv Rat where
  strtod s :=
    let t := s.takeWhile fun c => decide (c ≠ 44 ∧ c ≠ 93 ∧ c ≠ 125)
    ((decimalValue t).getD 0, t.length)
  strcoll := orderBytes fun c => (c.toNat : Int)
  strcollIter := orderBytes fun c => (c.toNat : Int)
  charSigned := signed

/-- A byte of a number. -/
private def NumByte (c : UInt8) : Prop := c ≠ 44 ∧ c ≠ 93 ∧ c ≠ 125

private theorem digits_bytes {l : Bytes} {n : Nat} (h : digitsValue l = some n) : ∀ c ∈ l, NumByte c := by
  intro c hc
  obtain ⟨h1, h2⟩ := (digitsValue_digits h).2 c hc
  have h1' : 48 ≤ c.toNat := h1
  have h2' : c.toNat ≤ 57 := h2
  refine ⟨?_, ?_, ?_⟩ <;> (rintro rfl; revert h1' h2'; decide)

private theorem fraction_bytes {l : Bytes} {x : Rat} (h : fractionValue l = some x) (hl : ∀ c ∈ l.head?, c = 46) : ∀ c ∈ l, NumByte c := by
  match l, h, hl with
  | [], _, _ => intro c hc; cases hc
  | a :: d, h, hl =>
    obtain rfl := hl a rfl
    obtain ⟨n, h1, _⟩ := Option.map_eq_some_iff.mp h
    intro c hc
    rcases List.mem_cons.mp hc with rfl | hc
    · unfold NumByte; decide
    · exact digits_bytes h1 c hc

private theorem exponent_bytes {l : Bytes} {x : Int} (h : exponentValue l = some x) (hl : ∀ c ∈ l.head?, c = 101 ∨ c = 69) : ∀ c ∈ l, NumByte c := by
  have he : ∀ c : UInt8, c = 101 ∨ c = 69 → NumByte c := by
    rintro c (rfl | rfl) <;> (unfold NumByte; decide)
  unfold exponentValue at h
  split at h
  · intro c hc; cases hc
  · rename_i a d
    obtain ⟨n, h1, _⟩ := Option.map_eq_some_iff.mp h
    intro c hc
    rcases List.mem_cons.mp hc with rfl | hc
    · exact he _ (hl _ rfl)
    · rcases List.mem_cons.mp hc with rfl | hc
      · unfold NumByte; decide
      · exact digits_bytes h1 c hc
  · rename_i a d
    obtain ⟨n, h1, _⟩ := Option.map_eq_some_iff.mp h
    intro c hc
    rcases List.mem_cons.mp hc with rfl | hc
    · exact he _ (hl _ rfl)
    · rcases List.mem_cons.mp hc with rfl | hc
      · unfold NumByte; decide
      · exact digits_bytes h1 c hc
  · rename_i a d _ _
    obtain ⟨n, h1, _⟩ := Option.map_eq_some_iff.mp h
    intro c hc
    rcases List.mem_cons.mp hc with rfl | hc
    · exact he _ (hl _ rfl)
    · exact digits_bytes h1 c hc

private theorem drop_takeWhile (p : UInt8 → Bool) : ∀ l : Bytes, (∀ c ∈ (l.drop (l.takeWhile p).length).head?, p c = false) ∧
    l = l.takeWhile p ++ l.drop (l.takeWhile p).length
  | [] => ⟨by simp, rfl⟩
  | a :: l => by
    obtain ⟨h1, h2⟩ := drop_takeWhile p l
    rw [List.takeWhile_cons]
    cases hp : p a with
    | true =>
      rw [if_pos rfl]
      exact ⟨h1, by rw [List.cons_append, List.length_cons, List.drop_succ_cons, ← h2]⟩
    | false =>
      rw [if_neg (by simp)]
      refine ⟨fun c hc => ?_, rfl⟩
      cases hc
      exact hp

private theorem unsigned_bytes {t : Bytes} {x : Rat} (h : unsignedValue t = some x) : ∀ c ∈ t, NumByte c := by
  unfold unsignedValue at h
  simp only at h
  obtain ⟨a1, a2⟩ := drop_takeWhile (fun c => decide (c ≠ 101 ∧ c ≠ 69)) t
  generalize List.takeWhile (fun c => decide (c ≠ 101 ∧ c ≠ 69)) t = m at *
  obtain ⟨b1, b2⟩ := drop_takeWhile (fun c => decide (c ≠ 46)) m
  generalize List.takeWhile (fun c => decide (c ≠ 46)) m = i at *
  split at h
  · split at h
    · rename_i n f x' h1 h2 h3
      intro c hc
      rw [a2] at hc
      rcases List.mem_append.mp hc with hc | hc
      · rw [b2] at hc
        rcases List.mem_append.mp hc with hc | hc
        · exact digits_bytes h1 c hc
        · exact fraction_bytes h2 (fun c hc => by have := b1 c hc; simpa using this) c hc
      · refine exponent_bytes h3 (fun c hc => ?_) c hc
        have := a1 c hc
        simp only [decide_eq_false_iff_not] at this
        by_cases h1 : c = 101
        · exact .inl h1
        · exact .inr (Classical.byContradiction fun h2 => this ⟨h1, h2⟩)
    · cases h
  · cases h

private theorem number_bytes {t : Bytes} {x : Rat} (h : decimalValue t = some x) : ∀ c ∈ t, NumByte c := by
  unfold decimalValue at h
  split at h
  · obtain ⟨y, h1, _⟩ := Option.map_eq_some_iff.mp h
    intro c hc
    rcases List.mem_cons.mp hc with rfl | hc
    · unfold NumByte; decide
    · exact unsigned_bytes h1 c hc
  · exact unsigned_bytes h

theorem exactEnv_ok (signed : Bool) : (exactEnv signed).Ok id (orderBytes fun c => (c.toNat : Int)) := by
  refine ⟨monotone_id, ?_, orderBytes_ok _, fun _ _ => rfl, fun _ _ => rfl⟩
  intro t x h rest hr
  have hb := number_bytes h
  have hp : ∀ c ∈ t, decide (c ≠ 44 ∧ c ≠ 93 ∧ c ≠ 125) = true := fun c hc => by simpa [NumByte] using hb c hc
  have ht : (t ++ rest).takeWhile (fun c => decide (c ≠ 44 ∧ c ≠ 93 ∧ c ≠ 125)) = t := by
    rw [List.takeWhile_append_of_pos hp]
    rcases hr with rfl | ⟨c, r, rfl, hc⟩
    · simp
    · rw [List.takeWhile_cons, if_neg, List.append_nil]
      rcases hc with rfl | rfl | rfl <;> decide
  unfold exactEnv
  simp only [ht, h]
  rfl

/-- `[1.5e1,{"a":null}]` and `[15,{"a":false}]`: two values with numbers, strings, arrays and objects. -/
private def sample1 : Json :=
  .array (.cons (.number [49, 46, 53, 101, 49] 15 (by decide +kernel)) (.cons (.object (.cons [.plain 97 (by decide)] .null .nil)) .nil))
private def sample2 : Json :=
  .array (.cons (.number [49, 53] 15 (by decide +kernel)) (.cons (.object (.cons [.uni ⟨0, false⟩ ⟨0, false⟩ ⟨6, false⟩ ⟨1, false⟩] .false .nil)) .nil))

example : sample1.Strings (Supported true .ascii) ∧ sample2.Strings (Supported true .ascii) := by
  refine ⟨?_, ?_⟩
  · simp only [sample1, Json.Strings, Elements.Strings, Members.Strings, Supported, and_true, true_and]
    intro i hi
    rw [List.mem_singleton.mp hi]
    exact ⟨by decide, 97, by decide, .inr (.inr (by decide))⟩
  · simp only [sample2, Json.Strings, Elements.Strings, Members.Strings, Supported, and_true, true_and]
    intro i hi
    rw [List.mem_singleton.mp hi]
    exact ⟨by decide, 97, by decide, .inr (.inr (by decide))⟩

example : collateJson (exactEnv true) .ascii 40 sample1.text sample2.text = .ok (-1) := by decide +kernel

/-! ## Where it is not CouchDB's order -/

/-- C41: the form feed, written as an escape, is equal to the letter f. -/
theorem C41_form_feed (e : CollateEnv D) (round : Rat → D) (ucol : Bytes → Bytes → Int) (H : e.Ok round ucol) (mode : CollateMode) :
    strMeaning [.esc .f] ≠ strMeaning [.plain 102 (by decide)] ∧
    ∀ rounds, 10 < rounds → collateJson e mode rounds (Json.string [.esc .f]).text (Json.string [.plain 102 (by decide)]).text = .ok 0 := by
  refine ⟨by decide, fun rounds h => ?_⟩
  rw [collate_spec H _ _ rounds (Nat.lt_of_le_of_lt (by decide) h), orderJson]
  congr 1
  have := (codeStrings_ok H mode).flip [.plain 102 (by decide)] [.plain 102 (by decide)]
  have h' : codeStrings e mode [.esc .f] [.plain 102 (by decide)] = codeStrings e mode [.plain 102 (by decide)] [.plain 102 (by decide)] := rfl
  omega

/-- C41: a character above 127, written as a `\u` escape, is equal to the one with the lower byte of its number: here the
letters Ł and A. -/
theorem C41_unicode_escape (e : CollateEnv D) (round : Rat → D) (ucol : Bytes → Bytes → Int) (H : e.Ok round ucol) (mode : CollateMode) :
    codePoint ⟨0, false⟩ ⟨1, false⟩ ⟨4, false⟩ ⟨1, false⟩ = 0x141 ∧
    ∀ rounds, 10 < rounds →
      collateJson e mode rounds (Json.string [.uni ⟨0, false⟩ ⟨1, false⟩ ⟨4, false⟩ ⟨1, false⟩]).text (Json.string [.plain 65 (by decide)]).text = .ok 0 := by
  refine ⟨by decide, fun rounds h => ?_⟩
  rw [collate_spec H _ _ rounds (Nat.lt_of_le_of_lt (by decide) h), orderJson]
  congr 1
  have := (codeStrings_ok H mode).flip [.plain 65 (by decide)] [.plain 65 (by decide)]
  have h' : codeStrings e mode [.uni ⟨0, false⟩ ⟨1, false⟩ ⟨4, false⟩ ⟨1, false⟩] [.plain 65 (by decide)] = codeStrings e mode [.plain 65 (by decide)] [.plain 65 (by decide)] := rfl
  omega

/-- C41: in the mode that is documented to compare strings as binary UTF-8, where `char` is signed, the letter é comes
before the letter a, although its first byte is greater. -/
theorem C41_signed_bytes (round : Rat → D) (e : CollateEnv D) (ucol : Bytes → Bytes → Int) (hs : e.charSigned = true) :
    couchOrder round ucol .ascii (.string [.plain 0xc3 (by decide), .plain 0xa9 (by decide)]) (.string [.plain 97 (by decide)]) = 1 ∧
    ∀ rounds, 10 < rounds → collateJson e .ascii rounds (Json.string [.plain 0xc3 (by decide), .plain 0xa9 (by decide)]).text
      (Json.string [.plain 97 (by decide)]).text = .ok (-1) := by
  refine ⟨rfl, fun rounds h => ?_⟩
  obtain ⟨n, rfl⟩ : ∃ n, rounds = n + 1 := ⟨rounds - 1, by omega⟩
  unfold collateJson collateLoop
  simp only [Json.text, strText, compareTokens, hs]
  rfl

/-- C41: on texts that are not JSON the comparison may never end: `[-]` and itself, where `strtod` finds no number. -/
theorem C41_not_json_endless (e : CollateEnv D) (mode : CollateMode) (x : D) (h : e.strtod [45, 93] = (x, 0)) (rounds : Nat) :
    collateJson e mode rounds [91, 45, 93] [91, 45, 93] = .error .endless := by
  have hc : cmpDouble x x = 0 := by unfold cmpDouble; rw [if_neg (lt_irrefl _), if_neg (lt_irrefl _)]
  have key : ∀ n, collateLoop e mode n 1 [45, 93] [45, 93] = .error .endless := by
    intro n
    induction n with
    | zero => rfl
    | succ n ih =>
      unfold collateLoop
      have ht : valueTypeOf 45 = .number := rfl
      simp [ht, compareTokens, compareNumbers, h, hc, depthAfter, ih]
  unfold collateJson
  cases rounds with
  | zero => rfl
  | succ n =>
    unfold collateLoop
    have ht : valueTypeOf 91 = .array := rfl
    simp [ht, compareTokens, skipBoth, depthAfter, key n]

/-- C41: texts that begin with whitespace are all equal. -/
theorem C41_whitespace (e : CollateEnv D) (mode : CollateMode) (s t : Bytes) (rounds : Nat) (h : 0 < rounds) :
    collateJson e mode rounds (32 :: s) (32 :: t) = .ok 0 := by
  obtain ⟨n, rfl⟩ : ∃ n, rounds = n + 1 := ⟨rounds - 1, by omega⟩
  rfl

end Couchstore.Props
