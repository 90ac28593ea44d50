import Verif.Spec.Collate

/-! Helper lemmas about comparing keys: strings and the loop. -/

namespace Couchstore

variable {D : Type} [LinearOrder D]

/-! ## Strings -/

/-- The character that the code makes of a part of a string. -/
def StrItem.code : StrItem → UInt8
  | .plain c _ => c
  | .esc .quote => 34 | .esc .backslash => 92 | .esc .slash => 47 | .esc .b => 8 | .esc .f => 102 | .esc .n => 10
  | .esc .r => 13 | .esc .t => 9
  | .uni a b c d => UInt8.ofNat (codePoint a b c d)

/-- The characters that the code makes of a string. -/
def strCode (s : List StrItem) : Bytes := s.map StrItem.code

theorem digitToInt_hex (h : Hex) : digitToInt h.char = h.value.val := by
  have : ∀ (v : Fin 16) (b : Bool), digitToInt (Hex.char ⟨v, b⟩) = v.val := by decide
  exact this h.value h.capital

theorem nextChar_item (i : StrItem) (r : Bytes) : nextChar (i.text ++ r) = .ok (some i.code, r) := by
  cases i with
  | plain c h => simp [StrItem.text, nextChar, h.1, h.2, StrItem.code]
  | esc e => cases e <;> simp [StrItem.text, nextChar, convertEscape, Escape.char, StrItem.code]
  | uni a b c d => simp [StrItem.text, nextChar, convertEscape, digitToInt_hex, StrItem.code, codePoint]

theorem nextChar_end (r : Bytes) : nextChar (34 :: r) = .ok (none, r) := by simp [nextChar]

theorem item_head (i : StrItem) : ∃ c l, i.text = c :: l ∧ c ≠ 34 := by
  cases i with
  | plain c h => exact ⟨c, [], rfl, h.1⟩
  | esc e => exact ⟨92, _, rfl, by decide⟩
  | uni a b c d => exact ⟨92, _, rfl, by decide⟩

theorem strText_cons (i : StrItem) (s : List StrItem) : strText (i :: s) = i.text ++ strText s := rfl

/-- Two tokens, given the result of the comparison of what they stand for. -/
def comparedAs (o : Int) (r1 r2 : Bytes) : Compared := if o ≠ 0 then .differ o else .same r1 r2

theorem compareAscii_spec (sgn : Bool) (r1 r2 : Bytes) : ∀ (s t : List StrItem) (f : Nat), (strText s).length < f →
    compareAscii sgn f (strText s ++ 34 :: r1) (strText t ++ 34 :: r2) =
      .ok (comparedAs (orderBytes (charVal sgn) (strCode s) (strCode t)) r1 r2)
  | s, t, 0, h => absurd h (by omega)
  | [], [], f + 1, _ => by
    simp [compareAscii, strText, nextChar, strCode, orderBytes, comparedAs]
  | [], i :: t, f + 1, _ => by
    obtain ⟨c, l, hc, hne⟩ := item_head i
    rw [strText_cons, hc]
    simp [compareAscii, strText, strCode, orderBytes, comparedAs, hne]
  | i :: s, [], f + 1, _ => by
    obtain ⟨c, l, hc, hne⟩ := item_head i
    rw [strText_cons, hc]
    simp [compareAscii, strText, strCode, orderBytes, comparedAs, hne]
  | i :: s, j :: t, f + 1, h => by
    obtain ⟨c, l, hc, hne⟩ := item_head i
    obtain ⟨c', l', hc', hne'⟩ := item_head j
    have h1 := nextChar_item i (strText s ++ 34 :: r1)
    have h2 := nextChar_item j (strText t ++ 34 :: r2)
    have hl : (strText s).length < f := by
      rw [strText_cons, hc] at h
      simp only [List.cons_append, List.length_cons, List.length_append] at h
      omega
    have ih := compareAscii_spec sgn r1 r2 s t f hl
    rw [strText_cons, strText_cons, List.append_assoc, List.append_assoc]
    rw [hc, List.cons_append] at h1 ⊢
    rw [hc', List.cons_append] at h2 ⊢
    unfold compareAscii
    simp only [hne, hne', h1, h2, ih, false_and, and_false, if_false, ne_eq, not_false_eq_true]
    simp only [strCode, List.map_cons, orderBytes]
    split
    · rename_i h0
      simp [comparedAs, h0]
    · rename_i h0
      simp

/-- How many bytes the escapes of a string are longer than what they stand for. -/
def StrItem.extra : StrItem → Nat
  | .plain _ _ => 0
  | .esc _ => 1
  | .uni _ _ _ _ => 5

def strExtra (s : List StrItem) : Nat := (s.map StrItem.extra).sum

theorem strText_length : ∀ s : List StrItem, (strText s).length = s.length + strExtra s
  | [] => rfl
  | i :: s => by
    have ih := strText_length s
    rw [strText_cons, List.length_append, ih]
    simp only [strExtra, List.map_cons, List.sum_cons, List.length_cons]
    cases i <;> simp [StrItem.text, StrItem.extra] <;> omega

theorem scanString_spec (r : Bytes) : ∀ (s : List StrItem) (f len x : Nat), (strText s).length < f →
    scanString f (strText s ++ 34 :: r) len x = .ok (len + (strText s).length, x + strExtra s, r)
  | s, 0, _, _, h => absurd h (by omega)
  | [], f + 1, len, x, _ => by simp [scanString, strText, strExtra]
  | i :: s, f + 1, len, x, h => by
    have ih := scanString_spec r s f
    rw [strText_cons] at h ⊢
    cases i with
    | plain c hc =>
      simp only [StrItem.text, List.length_append, List.length_cons, List.length_nil] at h
      simp [StrItem.text, scanString, hc.1, hc.2, ih (len + 1) x (by omega), strExtra, StrItem.extra]
      omega
    | esc e =>
      simp only [StrItem.text, List.length_append, List.length_cons, List.length_nil] at h
      have he : e.char ≠ 117 := by cases e <;> decide
      simp [StrItem.text, scanString, he, ih (len + 2) (x + 1) (by omega), strExtra, StrItem.extra]
      omega
    | uni a b c d =>
      simp only [StrItem.text, List.length_append, List.length_cons, List.length_nil] at h
      have ih' := ih (len + 6) (x + 5) (by omega)
      have h4 : ¬ (a.char :: b.char :: c.char :: d.char :: (strText s ++ 34 :: r)).length < 4 := by simp
      simp only [StrItem.text, List.cons_append, List.nil_append, scanString]
      rw [if_neg (by decide), if_pos trivial, if_pos trivial, if_neg h4]
      simp only [List.drop_succ_cons, List.drop_zero, ih', strExtra, StrItem.extra, List.map_cons, List.sum_cons, List.length_cons]
      congr 2
      · omega
      · congr 1
        omega

theorem decodeString_spec (r : Bytes) : ∀ (s : List StrItem) (f : Nat), (strText s).length < f →
    decodeString f (strText s ++ 34 :: r) = .ok (strCode s)
  | s, 0, h => absurd h (by omega)
  | [], f + 1, _ => by simp [decodeString, strText, nextChar, strCode]
  | i :: s, f + 1, h => by
    have hl : (strText s).length < f := by
      obtain ⟨c, l, hc, _⟩ := item_head i
      rw [strText_cons, hc] at h
      simp only [List.cons_append, List.length_cons, List.length_append] at h
      omega
    rw [strText_cons, List.append_assoc]
    unfold decodeString
    simp only [nextChar_item, decodeString_spec r s f hl]
    rfl

theorem strCode_plain : ∀ s : List StrItem, strExtra s = 0 → strText s = strCode s
  | [], _ => rfl
  | i :: s, h => by
    simp only [strExtra, List.map_cons, List.sum_cons] at h
    have ih := strCode_plain s (by unfold strExtra; omega)
    rw [strText_cons, ih]
    cases i with
    | plain c hc => rfl
    | esc e => simp only [StrItem.extra] at h; omega
    | uni a b c d => simp only [StrItem.extra] at h; omega

theorem createString_spec (s : List StrItem) (r : Bytes) : createString (strText s ++ 34 :: r) = .ok (strCode s, r) := by
  unfold createString
  rw [scanString_spec r s _ 0 0 (by simp; omega)]
  simp only [Nat.zero_add]
  split
  · rw [decodeString_spec r s _ (by simp; omega)]
    simp only
    rw [if_pos]
    rw [strText_length]
    simp [strCode]
  · rename_i h
    rw [List.take_left, strCode_plain s (by omega)]

/-- The order of strings that the code computes. -/
def codeStrings (e : CollateEnv D) (mode : CollateMode) (s t : List StrItem) : Int :=
  if mode = .unicode then compareUnicode e (strCode s) (strCode t) else orderBytes (charVal e.charSigned) (strCode s) (strCode t)

theorem compareTokens_string (e : CollateEnv D) (mode : CollateMode) (d : Int) (s t : List StrItem) (r1 r2 : Bytes) :
    compareTokens e mode d .string (34 :: (strText s ++ 34 :: r1)) (34 :: (strText t ++ 34 :: r2)) =
      .ok (comparedAs (codeStrings e mode s t) r1 r2) := by
  unfold compareTokens codeStrings
  simp only [List.drop_succ_cons, List.drop_zero]
  split
  · unfold compareStringsUnicode
    rw [createString_spec, createString_spec]
    simp only [comparedAs]
    split <;> rfl
  · rw [compareAscii_spec _ _ _ s t _ (by simp; omega)]

/-! ## Numbers -/

theorem digitsValue_digits {l : Bytes} {n : Nat} (h : digitsValue l = some n) : l ≠ [] ∧ ∀ c ∈ l, 48 ≤ c ∧ c ≤ 57 := by
  unfold digitsValue at h
  split at h
  · rename_i hl
    refine ⟨hl.1, fun c hc => ?_⟩
    have := List.all_eq_true.mp hl.2 c hc
    simpa [isDigit] using this
  · cases h

theorem unsignedValue_head {t : Bytes} {x : Rat} (h : unsignedValue t = some x) : ∃ c r, t = c :: r ∧ 48 ≤ c ∧ c ≤ 57 := by
  unfold unsignedValue at h
  simp only at h
  split at h
  · split at h
    · rename_i n f x' h1 h2 h3
      obtain ⟨g1, g2⟩ := digitsValue_digits h1
      cases t with
      | nil => exact absurd rfl g1
      | cons c r =>
        refine ⟨c, r, rfl, ?_⟩
        apply g2
        rw [List.takeWhile_cons] at g1
        split at g1
        · rename_i hc
          rw [List.takeWhile_cons] at g1
          split at g1
          · rename_i hc'
            rw [List.takeWhile_cons, if_pos hc, List.takeWhile_cons, if_pos hc']
            exact List.mem_cons_self
          · exact absurd rfl g1
        · exact absurd rfl g1
    · cases h
  · cases h

theorem decimalValue_head {t : Bytes} {x : Rat} (h : decimalValue t = some x) : ∃ c r, t = c :: r ∧ valueTypeOf c = .number := by
  have hd : ∀ c : UInt8, 48 ≤ c → c ≤ 57 → valueTypeOf c = .number := by
    intro c h1 h2
    have h1' : 48 ≤ c.toNat := h1
    have h2' : c.toNat ≤ 57 := h2
    unfold valueTypeOf
    rw [if_neg (by rintro rfl; revert h2'; decide), if_neg (by rintro rfl; revert h2'; decide),
      if_neg (by rintro rfl; revert h2'; decide), if_pos (.inl ⟨h1, h2⟩)]
  unfold decimalValue at h
  split at h
  · exact ⟨45, _, rfl, rfl⟩
  · obtain ⟨c, r, h1, h2, h3⟩ := unsignedValue_head h
    exact ⟨c, r, h1, hd c h2 h3⟩

/-! ## The loop -/

/-- The type of a value. -/
def Json.vtype : Json → ValueType
  | .null => .null
  | .false => .false
  | .true => .true
  | .number _ _ _ => .number
  | .string _ => .string
  | .array _ => .array
  | .object _ => .object

theorem text_head (v : Json) : ∃ c r, v.text = c :: r ∧ valueTypeOf c = v.vtype := by
  cases v with
  | number t x h => exact decimalValue_head h
  | _ => exact ⟨_, _, by rw [Json.text], rfl⟩

/-- The order of two types. -/
def typeOrder (mode : CollateMode) (t1 t2 : ValueType) : Int :=
  if mode ≠ .raw then cmpInt t1.order t2.order else cmpInt t1.rawOrder t2.rawOrder

theorem rank_vtype (mode : CollateMode) (v w : Json) : cmpInt (v.rank mode) (w.rank mode) = typeOrder mode v.vtype w.vtype := by
  cases v <;> cases w <;> cases mode <;> rfl

section

variable (e : CollateEnv D) (mode : CollateMode)

/-- The loop gives the result, in at most as many rounds as there are bytes. -/
def LoopGives (d : Int) (s1 s2 : Bytes) (c : Int) : Prop := ∀ f, s1.length < f → collateLoop e mode f d s1 s2 = .ok c

variable {e} {mode}

theorem good_types {d : Int} {c1 c2 : UInt8} {r1 r2 : Bytes} (h : valueTypeOf c1 ≠ valueTypeOf c2) :
    LoopGives e mode d (c1 :: r1) (c2 :: r2) (typeOrder mode (valueTypeOf c1) (valueTypeOf c2)) := by
  intro f hf
  cases f with
  | zero => exact absurd hf (by omega)
  | succ f =>
    unfold collateLoop
    simp only [ne_eq, h, not_false_eq_true, if_true]
    rfl

theorem good_token {d : Int} {c1 c2 : UInt8} {t : ValueType} {r1 r2 q1 q2 : Bytes} {o c : Int} (h1 : valueTypeOf c1 = t) (h2 : valueTypeOf c2 = t)
    (h : compareTokens e mode d t (c1 :: r1) (c2 :: r2) = .ok (comparedAs o q1 q2)) (hl : q1.length ≤ r1.length)
    (hc : (o ≠ 0 ∧ c = o) ∨ (o = 0 ∧ ((0 < depthAfter t d ∧ LoopGives e mode (depthAfter t d) q1 q2 c) ∨ (depthAfter t d ≤ 0 ∧ c = 0)))) :
    LoopGives e mode d (c1 :: r1) (c2 :: r2) c := by
  intro f hf
  cases f with
  | zero => exact absurd hf (by omega)
  | succ f =>
    simp only [List.length_cons] at hf
    unfold collateLoop
    simp only [h1, h2, ne_eq, not_true_eq_false, if_false, h]
    rcases hc with ⟨ho, rfl⟩ | ⟨rfl, hc⟩
    · simp [comparedAs, ho]
    · simp only [comparedAs, ne_eq, not_true_eq_false, if_false]
      rcases hc with ⟨hd, hg⟩ | ⟨hd, rfl⟩
      · rw [if_pos hd]
        exact hg f (by omega)
      · rw [if_neg (by omega)]

/-- What is left to do after a part with the order `o`. -/
def Cont (e : CollateEnv D) (mode : CollateMode) (o d : Int) (r1 r2 : Bytes) (c : Int) : Prop :=
  (o ≠ 0 ∧ c = o) ∨ (o = 0 ∧ ((0 < d ∧ LoopGives e mode d r1 r2 c) ∨ (d ≤ 0 ∧ c = 0)))

theorem skipBoth_same {n : Nat} {s1 s2 q1 q2 : Bytes} (h1 : s1.length = n) (h2 : s2.length = n) :
    skipBoth n (s1 ++ q1) (s2 ++ q2) = .ok (comparedAs 0 q1 q2) := by
  unfold skipBoth
  rw [if_neg (by simp; omega), ← h1, List.drop_left, h1, ← h2, List.drop_left]
  rfl

theorem elements_ends (e : Elements) (r : Bytes) : EndsNumber (e.text false ++ r) ∧ e.text false ++ r ≠ [] := by
  cases e with
  | nil => rw [Elements.text]; exact ⟨.inr ⟨93, r, rfl, by decide⟩, by simp⟩
  | cons v e => rw [Elements.text]; exact ⟨.inr ⟨44, _, rfl, by decide⟩, by simp⟩

theorem members_ends (e : Members) (r : Bytes) : EndsNumber (e.text false ++ r) ∧ e.text false ++ r ≠ [] := by
  cases e with
  | nil => rw [Members.text]; exact ⟨.inr ⟨125, r, rfl, by decide⟩, by simp⟩
  | cons k v e => rw [Members.text]; exact ⟨.inr ⟨44, _, rfl, by decide⟩, by simp⟩

theorem compareNumbers_spec {round : Rat → D} {ucol : Bytes → Bytes → Int} (H : e.Ok round ucol) {d : Int} {t1 t2 r1 r2 : Bytes} {x1 x2 : Rat}
    (h1 : decimalValue t1 = some x1) (h2 : decimalValue t2 = some x2) (e1 : EndsNumber r1) (e2 : EndsNumber r2)
    (hd : 0 < d → r1 ≠ [] ∧ r2 ≠ []) (hd0 : 0 ≤ d) :
    compareNumbers e d (t1 ++ r1) (t2 ++ r2) = .ok (comparedAs (orderNumbers round x1 x2) r1 r2) := by
  unfold compareNumbers
  rw [H.strtod t1 x1 h1 r1 e1, H.strtod t2 x2 h2 r2 e2]
  simp only [List.length_append, List.drop_left]
  rw [if_neg]
  · simp only [comparedAs, orderNumbers]
    split <;> simp_all
  · rintro ⟨h, h'⟩
    obtain ⟨g1, g2⟩ := hd (by omega)
    have := List.length_pos_iff.mpr g1
    have := List.length_pos_iff.mpr g2
    omega

mutual
theorem json_run {round : Rat → D} {ucol : Bytes → Bytes → Int} (H : e.Ok round ucol) : ∀ (v w : Json) (d : Int) (r1 r2 : Bytes) (c : Int), 0 ≤ d →
    EndsNumber r1 → EndsNumber r2 → (0 < d → r1 ≠ [] ∧ r2 ≠ []) →
    Cont e mode (orderJson mode (orderNumbers round) (codeStrings e mode) v w) d r1 r2 c → LoopGives e mode d (v.text ++ r1) (w.text ++ r2) c
  | v, w, d, r1, r2, c, hd, e1, e2, hn, hc => by
    by_cases ht : v.vtype = w.vtype
    · match v, w, ht, hc with
      | .null, .null, _, hc =>
        rw [Json.text]
        refine good_token (t := .null) rfl rfl (o := 0) (q1 := r1) (q2 := r2) ?_ (by simp; try omega) ?_
        · exact skipBoth_same (s1 := [110, 117, 108, 108]) (s2 := [110, 117, 108, 108]) rfl rfl
        · simpa [orderJson, cmpInt, Cont, depthAfter] using hc
      | .false, .false, _, hc =>
        rw [Json.text]
        refine good_token (t := .false) rfl rfl (o := 0) (q1 := r1) (q2 := r2) ?_ (by simp; try omega) ?_
        · exact skipBoth_same (s1 := [102, 97, 108, 115, 101]) (s2 := [102, 97, 108, 115, 101]) rfl rfl
        · simpa [orderJson, cmpInt, Cont, depthAfter] using hc
      | .true, .true, _, hc =>
        rw [Json.text]
        refine good_token (t := .true) rfl rfl (o := 0) (q1 := r1) (q2 := r2) ?_ (by simp; try omega) ?_
        · exact skipBoth_same (s1 := [116, 114, 117, 101]) (s2 := [116, 114, 117, 101]) rfl rfl
        · simpa [orderJson, cmpInt, Cont, depthAfter] using hc
      | .number t x h, .number t' x' h', _, hc =>
        rw [Json.text, Json.text]
        have hs := compareNumbers_spec (d := d) H h h' e1 e2 hn hd
        obtain ⟨a, l, ha, ha'⟩ := decimalValue_head h
        obtain ⟨b, m, hb, hb'⟩ := decimalValue_head h'
        rw [ha, hb] at hs ⊢
        refine good_token (t := .number) ha' hb' (o := orderNumbers round x x') (q1 := r1) (q2 := r2) hs (by simp) ?_
        simpa [orderJson, Cont, depthAfter] using hc
      | .string s, .string t, _, hc =>
        rw [Json.text, Json.text]
        simp only [List.cons_append, List.append_assoc, List.nil_append]
        refine good_token (t := .string) rfl rfl (compareTokens_string e mode d s t r1 r2) (by simp; omega) ?_
        simpa [orderJson, Cont, depthAfter] using hc
      | .array a, .array b, _, hc =>
        rw [Json.text, Json.text]
        refine good_token (t := .array) rfl rfl (o := 0) (q1 := a.text true ++ r1) (q2 := b.text true ++ r2)
          (skipBoth_same (s1 := [91]) (s2 := [91]) rfl rfl) (by simp) (.inr ⟨rfl, .inl ⟨by simp only [depthAfter]; omega, ?_⟩⟩)
        rw [orderJson] at hc
        exact elements_run H a b true d r1 r2 c hd hc
      | .object a, .object b, _, hc =>
        rw [Json.text, Json.text]
        refine good_token (t := .object) rfl rfl (o := 0) (q1 := a.text true ++ r1) (q2 := b.text true ++ r2)
          (skipBoth_same (s1 := [123]) (s2 := [123]) rfl rfl) (by simp) (.inr ⟨rfl, .inl ⟨by simp only [depthAfter]; omega, ?_⟩⟩)
        rw [orderJson] at hc
        exact members_run H a b true d r1 r2 c hd hc
    · have ho : orderJson mode (orderNumbers round) (codeStrings e mode) v w = typeOrder mode v.vtype w.vtype := by
        rw [← rank_vtype]
        cases v <;> cases w <;> first | rfl | exact absurd rfl ht
      have hne : typeOrder mode v.vtype w.vtype ≠ 0 := by
        revert ht
        generalize v.vtype = a
        generalize w.vtype = b
        cases mode <;> cases a <;> cases b <;> decide
      rcases hc with ⟨_, rfl⟩ | ⟨h0, _⟩
      · obtain ⟨c1, l1, g1, g1'⟩ := text_head v
        obtain ⟨c2, l2, g2, g2'⟩ := text_head w
        rw [ho, g1, g2, ← g1', ← g2']
        exact good_types (by rw [g1', g2']; exact ht)
      · exact absurd (ho ▸ h0) hne
theorem elements_run {round : Rat → D} {ucol : Bytes → Bytes → Int} (H : e.Ok round ucol) : ∀ (a b : Elements) (first : Bool) (d : Int) (r1 r2 : Bytes) (c : Int), 0 ≤ d →
    Cont e mode (orderElements mode (orderNumbers round) (codeStrings e mode) a b) d r1 r2 c → LoopGives e mode (d + 1) (a.text first ++ r1) (b.text first ++ r2) c
  | .nil, .nil, first, d, r1, r2, c, hd, hc => by
    rw [Elements.text]
    refine good_token (t := .endArray) rfl rfl (o := 0) (q1 := r1) (q2 := r2)
      (skipBoth_same (s1 := [93]) (s2 := [93]) rfl rfl) (by simp) ?_
    rw [orderElements] at hc
    rw [show depthAfter .endArray (d + 1) = d by simp only [depthAfter]; omega]
    exact hc
  | .nil, .cons w b, first, d, r1, r2, c, hd, hc => by
    rw [orderElements] at hc
    obtain rfl : c = -1 := by
      rcases hc with ⟨_, h⟩ | ⟨h, _⟩
      · exact h
      · exact absurd h (by decide)
    rw [Elements.text, Elements.text]
    cases first with
    | false =>
      have := good_types (e := e) (mode := mode) (d := d + 1) (c1 := 93) (c2 := 44) (r1 := r1) (r2 := w.text ++ b.text false ++ r2) (by decide)
      have hm : typeOrder mode (valueTypeOf 93) (valueTypeOf 44) = -1 := by cases mode <;> rfl
      rw [hm] at this
      simpa using this
    | true =>
      obtain ⟨x, l, hx, hx'⟩ := text_head w
      have := good_types (e := e) (mode := mode) (d := d + 1) (c1 := 93) (c2 := x) (r1 := r1) (r2 := l ++ b.text false ++ r2)
        (by rw [hx']; cases w <;> simp [Json.vtype, valueTypeOf])
      have hm : typeOrder mode (valueTypeOf 93) (valueTypeOf x) = -1 := by rw [hx']; cases mode <;> cases w <;> rfl
      rw [hm] at this
      simpa [hx] using this
  | .cons v a, .nil, first, d, r1, r2, c, hd, hc => by
    rw [orderElements] at hc
    obtain rfl : c = 1 := by
      rcases hc with ⟨_, h⟩ | ⟨h, _⟩
      · exact h
      · exact absurd h (by decide)
    rw [Elements.text, Elements.text]
    cases first with
    | false =>
      have := good_types (e := e) (mode := mode) (d := d + 1) (c1 := 44) (c2 := 93) (r1 := v.text ++ a.text false ++ r1) (r2 := r2) (by decide)
      have hm : typeOrder mode (valueTypeOf 44) (valueTypeOf 93) = 1 := by cases mode <;> rfl
      rw [hm] at this
      simpa using this
    | true =>
      obtain ⟨x, l, hx, hx'⟩ := text_head v
      have := good_types (e := e) (mode := mode) (d := d + 1) (c1 := x) (c2 := 93) (r1 := l ++ a.text false ++ r1) (r2 := r2)
        (by rw [hx']; cases v <;> simp [Json.vtype, valueTypeOf])
      have hm : typeOrder mode (valueTypeOf x) (valueTypeOf 93) = 1 := by rw [hx']; cases mode <;> cases v <;> rfl
      rw [hm] at this
      simpa [hx] using this
  | .cons v a, .cons w b, first, d, r1, r2, c, hd, hc => by
    have ea := elements_ends a r1
    have eb := elements_ends b r2
    have hgood : LoopGives e mode (d + 1) (v.text ++ (a.text false ++ r1)) (w.text ++ (b.text false ++ r2)) c := by
      refine json_run H v w (d + 1) _ _ c (by omega) ea.1 eb.1 (fun _ => ⟨ea.2, eb.2⟩) ?_
      rw [orderElements] at hc
      by_cases h0 : orderJson mode (orderNumbers round) (codeStrings e mode) v w = 0
      · rw [if_neg (by simpa using h0)] at hc
        exact .inr ⟨h0, .inl ⟨by omega, elements_run H a b false d r1 r2 c hd hc⟩⟩
      · rw [if_pos h0] at hc
        rcases hc with h | h
        · exact .inl h
        · exact absurd h.1 h0
    rw [Elements.text, Elements.text]
    cases first with
    | true => simpa using hgood
    | false =>
      simp only [Bool.false_eq_true, if_false, List.cons_append, List.nil_append, List.append_assoc]
      refine good_token (t := .comma) rfl rfl (o := 0) (skipBoth_same (s1 := [44]) (s2 := [44]) rfl rfl) (by simp) (.inr ⟨rfl, .inl ⟨by simp only [depthAfter]; omega, hgood⟩⟩)
theorem members_run {round : Rat → D} {ucol : Bytes → Bytes → Int} (H : e.Ok round ucol) : ∀ (a b : Members) (first : Bool) (d : Int) (r1 r2 : Bytes) (c : Int), 0 ≤ d →
    Cont e mode (orderMembers mode (orderNumbers round) (codeStrings e mode) a b) d r1 r2 c → LoopGives e mode (d + 1) (a.text first ++ r1) (b.text first ++ r2) c
  | .nil, .nil, first, d, r1, r2, c, hd, hc => by
    rw [Members.text]
    refine good_token (t := .endObject) rfl rfl (o := 0) (q1 := r1) (q2 := r2)
      (skipBoth_same (s1 := [125]) (s2 := [125]) rfl rfl) (by simp) ?_
    rw [orderMembers] at hc
    rw [show depthAfter .endObject (d + 1) = d by simp only [depthAfter]; omega]
    exact hc
  | .nil, .cons k w b, first, d, r1, r2, c, hd, hc => by
    rw [orderMembers] at hc
    obtain rfl : c = -1 := by
      rcases hc with ⟨_, h⟩ | ⟨h, _⟩
      · exact h
      · exact absurd h (by decide)
    rw [Members.text, Members.text]
    cases first with
    | false =>
      have := good_types (e := e) (mode := mode) (d := d + 1) (c1 := 125) (c2 := 44) (r1 := r1) (r2 := 34 :: (strText k ++ (34 :: 58 :: (w.text ++ b.text false))) ++ r2) (by decide)
      have hm : typeOrder mode (valueTypeOf 125) (valueTypeOf 44) = -1 := by cases mode <;> rfl
      rw [hm] at this
      simpa using this
    | true =>
      have := good_types (e := e) (mode := mode) (d := d + 1) (c1 := 125) (c2 := 34) (r1 := r1) (r2 := strText k ++ (34 :: 58 :: (w.text ++ b.text false)) ++ r2) (by decide)
      have hm : typeOrder mode (valueTypeOf 125) (valueTypeOf 34) = -1 := by cases mode <;> rfl
      rw [hm] at this
      simpa using this
  | .cons k v a, .nil, first, d, r1, r2, c, hd, hc => by
    rw [orderMembers] at hc
    obtain rfl : c = 1 := by
      rcases hc with ⟨_, h⟩ | ⟨h, _⟩
      · exact h
      · exact absurd h (by decide)
    rw [Members.text, Members.text]
    cases first with
    | false =>
      have := good_types (e := e) (mode := mode) (d := d + 1) (c1 := 44) (c2 := 125) (r1 := 34 :: (strText k ++ (34 :: 58 :: (v.text ++ a.text false))) ++ r1) (r2 := r2) (by decide)
      have hm : typeOrder mode (valueTypeOf 44) (valueTypeOf 125) = 1 := by cases mode <;> rfl
      rw [hm] at this
      simpa using this
    | true =>
      have := good_types (e := e) (mode := mode) (d := d + 1) (c1 := 34) (c2 := 125) (r1 := strText k ++ (34 :: 58 :: (v.text ++ a.text false)) ++ r1) (r2 := r2) (by decide)
      have hm : typeOrder mode (valueTypeOf 34) (valueTypeOf 125) = 1 := by cases mode <;> rfl
      rw [hm] at this
      simpa using this
  | .cons k v a, .cons l w b, first, d, r1, r2, c, hd, hc => by
    have ea := members_ends a r1
    have eb := members_ends b r2
    rw [orderMembers] at hc
    simp only at hc
    have hgood : LoopGives e mode (d + 1) (34 :: (strText k ++ 34 :: (58 :: (v.text ++ (a.text false ++ r1)))))
        (34 :: (strText l ++ 34 :: (58 :: (w.text ++ (b.text false ++ r2))))) c := by
      refine good_token (t := .string) rfl rfl (compareTokens_string e mode _ k l _ _) (by simp; omega) ?_
      by_cases hk : codeStrings e mode k l = 0
      · rw [if_neg (by simpa using hk)] at hc
        refine .inr ⟨hk, .inl ⟨by simp only [depthAfter]; omega, ?_⟩⟩
        refine good_token (t := .colon) rfl rfl (o := 0) (skipBoth_same (s1 := [58]) (s2 := [58]) rfl rfl) (by simp) (.inr ⟨rfl, .inl ⟨by simp only [depthAfter]; omega, ?_⟩⟩)
        refine json_run H v w (d + 1) _ _ c (by omega) ea.1 eb.1 (fun _ => ⟨ea.2, eb.2⟩) ?_
        by_cases h0 : orderJson mode (orderNumbers round) (codeStrings e mode) v w = 0
        · rw [if_neg (by simpa using h0)] at hc
          exact .inr ⟨h0, .inl ⟨by omega, members_run H a b false d r1 r2 c hd hc⟩⟩
        · rw [if_pos h0] at hc
          rcases hc with h | h
          · exact .inl h
          · exact absurd h.1 h0
      · rw [if_pos hk] at hc
        rcases hc with h | h
        · exact .inl h
        · exact absurd h.1 hk
    rw [Members.text, Members.text]
    cases first with
    | true => simpa using hgood
    | false =>
      simp only [Bool.false_eq_true, if_false, List.cons_append, List.nil_append, List.append_assoc]
      refine good_token (t := .comma) rfl rfl (o := 0) (skipBoth_same (s1 := [44]) (s2 := [44]) rfl rfl) (by simp) (.inr ⟨rfl, .inl ⟨by simp only [depthAfter]; omega, hgood⟩⟩)
end

theorem collate_spec {round : Rat → D} {ucol : Bytes → Bytes → Int} (H : e.Ok round ucol) (v w : Json) (f : Nat) (hf : v.text.length < f) :
    collateJson e mode f v.text w.text = .ok (orderJson mode (orderNumbers round) (codeStrings e mode) v w) := by
  have h := json_run (mode := mode) H v w 0 [] [] (orderJson mode (orderNumbers round) (codeStrings e mode) v w) (by omega) (.inl rfl) (.inl rfl) (by omega) (by
    by_cases h : orderJson mode (orderNumbers round) (codeStrings e mode) v w = 0
    · exact .inr ⟨h, .inr ⟨by omega, h⟩⟩
    · exact .inl ⟨h, rfl⟩)
  rw [List.append_nil, List.append_nil] at h
  exact h f hf

end

end Couchstore
